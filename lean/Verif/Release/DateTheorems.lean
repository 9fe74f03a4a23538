import Verif.Release.Spec
/-
C247: releases are compared by their dates. C248: the parts of the simulator agree on a release.
-/
namespace Verif.Release

/-! ### The order of texts -/

theorem before_self (s : Text) : before s s = false := by
  induction s with
  | nil => rfl
  | cons a s ih => simp [before, ih]

theorem before_trans {s t u : Text} (h : before s t = true) (k : before t u = true) : before s u = true := by
  induction s generalizing t u with
  | nil =>
    cases u with
    | nil => cases t <;> simp [before] at k
    | cons => rfl
  | cons a s ih =>
    cases t with
    | nil => simp [before] at h
    | cons b t =>
      cases u with
      | nil => simp [before] at k
      | cons c u =>
        simp only [before] at h k ⊢
        by_cases p : a.toNat < b.toNat <;> by_cases q : b.toNat < c.toNat
        · rw [if_pos (by omega)]
        · by_cases r : c.toNat < b.toNat
          · rw [if_neg q, if_pos r] at k; simp at k
          · rw [if_pos (by omega)]
        · by_cases r : b.toNat < a.toNat
          · rw [if_neg p, if_pos r] at h; simp at h
          · rw [if_pos (by omega)]
        · by_cases r : b.toNat < a.toNat
          · rw [if_neg p, if_pos r] at h; simp at h
          · by_cases r' : c.toNat < b.toNat
            · rw [if_neg q, if_pos r'] at k; simp at k
            · rw [if_neg p, if_neg r] at h
              rw [if_neg q, if_neg r'] at k
              rw [if_neg (by omega), if_neg (by omega)]
              exact ih h k

theorem before_asymm {s t : Text} (h : before s t = true) : before t s = false := by
  cases k : before t s with
  | false => rfl
  | true => have := before_trans h k; rw [before_self] at this; cases this

/-- Texts that begin with characters of which one differs. -/
theorem before_app (p s t : Text) : before (p ++ s) (p ++ t) = before s t := by
  induction p with
  | nil => rfl
  | cons a p ih => simp [before, ih]

theorem toNat_digit {n : Nat} (h : n < 10) : (digit n).toNat = 48 + n := by
  have : n = 0 ∨ n = 1 ∨ n = 2 ∨ n = 3 ∨ n = 4 ∨ n = 5 ∨ n = 6 ∨ n = 7 ∨ n = 8 ∨ n = 9 := by omega
  rcases this with h | h | h | h | h | h | h | h | h | h <;> subst h <;> rfl

theorem before_digit {n m : Nat} (hn : n < 10) (hm : m < 10) (s t : Text) :
    before (digit n :: s) (digit m :: t) = true ↔ n < m ∨ n = m ∧ before s t = true := by
  simp only [before, toNat_digit hn, toNat_digit hm]
  by_cases h : n < m
  · rw [if_pos (by omega)]; simp [h]
  · by_cases k : m < n
    · rw [if_neg (by omega), if_pos (by omega)]
      simp; omega
    · rw [if_neg (by omega), if_neg (by omega)]
      have : n = m := by omega
      subst this; simp

theorem before_two {n m : Nat} (hn : n < 100) (hm : m < 100) (s t : Text) :
    before (two n ++ s) (two m ++ t) = true ↔ n < m ∨ n = m ∧ before s t = true := by
  simp only [two, List.cons_append, List.nil_append]
  rw [before_digit (by omega) (by omega), before_digit (by omega) (by omega)]
  constructor
  · rintro (h | ⟨h, k | ⟨k, b⟩⟩)
    · exact Or.inl (by omega)
    · exact Or.inl (by omega)
    · exact Or.inr ⟨by omega, b⟩
  · rintro (h | ⟨h, b⟩)
    · by_cases e : n / 10 < m / 10
      · exact Or.inl e
      · exact Or.inr ⟨by omega, Or.inl (by omega)⟩
    · exact Or.inr ⟨by omega, Or.inr ⟨by omega, b⟩⟩

theorem before_four {n m : Nat} (hn : n < 10000) (hm : m < 10000) (s t : Text) :
    before (four n ++ s) (four m ++ t) = true ↔ n < m ∨ n = m ∧ before s t = true := by
  simp only [four, List.append_assoc]
  rw [before_two (by omega) (by omega), before_two (by omega) (by omega)]
  constructor
  · rintro (h | ⟨h, k | ⟨k, b⟩⟩)
    · exact Or.inl (by omega)
    · exact Or.inl (by omega)
    · exact Or.inr ⟨by omega, b⟩
  · rintro (h | ⟨h, b⟩)
    · by_cases e : n / 100 < m / 100
      · exact Or.inl e
      · exact Or.inr ⟨by omega, Or.inl (by omega)⟩
    · exact Or.inr ⟨by omega, Or.inr ⟨by omega, b⟩⟩

/-- C247: of two releases that of the earlier day is the smaller text. -/
theorem C247_order {d e : Day} (hd : d.Written) (he : e.Written) : before (release d) (release e) = true ↔ d.earlier e := by
  obtain ⟨h1, h2, h3⟩ := hd
  obtain ⟨k1, k2, k3⟩ := he
  simp only [release, List.append_assoc]
  rw [before_app, before_four h1 k1, before_two h2 k2]
  have := before_two h3 k3 [] []
  simp only [List.append_nil, before_self] at this
  rw [this]
  simp [Day.earlier]

example : Day.Written ⟨2023, 9, 6⟩ ∧ Day.Written ⟨2024, 6, 5⟩ ∧ Day.earlier ⟨2023, 9, 6⟩ ⟨2024, 6, 5⟩ := by
  refine ⟨by unfold Day.Written; decide, by unfold Day.Written; decide, by decide⟩

theorem is20230906 : v20230906 = release ⟨2023, 9, 6⟩ := by decide +kernel
theorem is20240605 : v20240605 = release ⟨2024, 6, 5⟩ := by decide +kernel
theorem is20250130 : v20250130 = release ⟨2025, 1, 30⟩ := by decide +kernel

theorem release_ne (d : Day) : release d ≠ awf := by
  intro h
  have := congrArg List.length h
  simp [release, awf, four, two] at this

theorem upTo_release {d e : Day} (hd : d.Written) (he : e.Written) : upTo (release d) (release e) = true ↔ ¬ e.earlier d := by
  unfold upTo
  rw [← C247_order he hd]
  cases before (release e) (release d) <;> simp

theorem release_inj {d e : Day} (hd : d.Written) (he : e.Written) (h : release d = release e) : d = e := by
  have a : ¬ d.earlier e := by rw [← C247_order hd he, h, before_self]; simp
  have b : ¬ e.earlier d := by rw [← C247_order he hd, h, before_self]; simp
  unfold Day.earlier at a b
  cases d; cases e
  simp only [Day.mk.injEq] at *
  omega

/-- C247: the message for the lights of infrastructure is chosen by the day of the release: up to 6 September 2023 the older one, from
5 June 2024 on the newer one; a release in between is refused. -/
theorem C247_v2i (d : Day) (hd : d.Written) :
    v2i ⟨true, true⟩ (release d) =
      if Day.earlier ⟨2023, 9, 6⟩ d then (if d.earlier ⟨2024, 6, 5⟩ then none else some .groups) else some .signals := by
  have w1 : Day.Written ⟨2023, 9, 6⟩ := by unfold Day.Written; decide
  have w2 : Day.Written ⟨2024, 6, 5⟩ := by unfold Day.Written; decide
  unfold v2i
  rw [if_neg (release_ne d), is20230906, is20240605]
  simp only [Bool.true_and, upTo_release hd w1, upTo_release w2 hd]
  by_cases a : Day.earlier ⟨2023, 9, 6⟩ d <;> by_cases b : d.earlier ⟨2024, 6, 5⟩ <;> simp [a, b]

/-- C247: the detector of traffic lights is there for the release of 6 September 2023 and those from 5 June 2024 on. -/
theorem C247_detector (d : Day) (hd : d.Written) :
    detector ⟨true, true⟩ (release d) =
      if d = ⟨2023, 9, 6⟩ then some .signals else if d.earlier ⟨2024, 6, 5⟩ then none else some .groups := by
  have w1 : Day.Written ⟨2023, 9, 6⟩ := by unfold Day.Written; decide
  have w2 : Day.Written ⟨2024, 6, 5⟩ := by unfold Day.Written; decide
  unfold detector
  rw [if_neg (release_ne d), is20230906, is20240605]
  have e : release d = release ⟨2023, 9, 6⟩ ↔ d = ⟨2023, 9, 6⟩ := ⟨release_inj hd w1, fun h => by rw [h]⟩
  simp only [Bool.true_and, upTo_release w2 hd, e, decide_eq_true_eq]
  by_cases a : d = ⟨2023, 9, 6⟩ <;> by_cases b : d.earlier ⟨2024, 6, 5⟩ <;> simp [a, b]

/-- C247: if the simulator was built without one of the messages, releases that need it are refused, and nothing changes for the others. -/
theorem C247_headers (h : Headers) (d : Day) (hd : d.Written) :
    (∀ m, v2i h (release d) = some m ↔ v2i ⟨true, true⟩ (release d) = some m ∧ (m = .signals → h.signals = true) ∧ (m = .groups → h.groups = true)) ∧
    (∀ m, detector h (release d) = some m ↔ detector ⟨true, true⟩ (release d) = some m ∧ (m = .signals → h.signals = true) ∧ (m = .groups → h.groups = true)) := by
  have w1 : Day.Written ⟨2023, 9, 6⟩ := by unfold Day.Written; decide
  have w2 : Day.Written ⟨2024, 6, 5⟩ := by unfold Day.Written; decide
  have e : release d = release ⟨2023, 9, 6⟩ ↔ d = ⟨2023, 9, 6⟩ := ⟨release_inj hd w1, fun h => by rw [h]⟩
  have x : ¬ Day.earlier ⟨2023, 9, 6⟩ d → d.earlier ⟨2024, 6, 5⟩ := by
    unfold Day.earlier; dsimp only; omega
  have y : d = ⟨2023, 9, 6⟩ → d.earlier ⟨2024, 6, 5⟩ := by rintro rfl; decide
  obtain ⟨a, b⟩ := h
  constructor
  · intro m
    unfold v2i
    rw [if_neg (release_ne d), if_neg (release_ne d), is20230906, is20240605]
    simp only [Bool.and_eq_true, upTo_release hd w1, upTo_release w2 hd]
    by_cases p : Day.earlier ⟨2023, 9, 6⟩ d <;> by_cases q : d.earlier ⟨2024, 6, 5⟩ <;> cases a <;> cases b <;> cases m <;> simp_all
  · intro m
    unfold detector
    rw [if_neg (release_ne d), if_neg (release_ne d), is20230906, is20240605]
    simp only [Bool.and_eq_true, upTo_release w2 hd, e, decide_eq_true_eq]
    by_cases p : d = ⟨2023, 9, 6⟩ <;> by_cases q : d.earlier ⟨2024, 6, 5⟩ <;> cases a <;> cases b <;> cases m <;> simp_all

/-- C247: "awf/universe" without a day is refused, whatever headers there are. -/
theorem C247_undated (h : Headers) : v2i h awf = none ∧ detector h awf = none := by
  simp [v2i, detector]

example : v2i ⟨true, true⟩ (release ⟨2022, 1, 1⟩) = some .signals ∧ v2i ⟨true, true⟩ (release ⟨2024, 1, 1⟩) = none ∧
    v2i ⟨true, true⟩ (release ⟨2025, 1, 30⟩) = some .groups ∧ detector ⟨true, true⟩ (release ⟨2023, 9, 6⟩) = some .signals := by decide +kernel

/-! ### Agreement -/

theorem has_prefix (w t : Text) : has w (w ++ t) = true := by
  cases h : w ++ t with
  | nil =>
    have : w = [] := by cases w with | nil => rfl | cons => simp at h
    subst this; rfl
  | cons a s =>
    unfold has
    rw [← h]
    simp

theorem has_iff (t : Text) : has awf t = true ↔ ∃ a b, t = a ++ awf ++ b := by
  constructor
  · induction t with
    | nil => intro h; simp [has, awf] at h
    | cons x t ih =>
      intro h
      simp only [has, Bool.or_eq_true] at h
      rcases h with h | h
      · obtain ⟨b, hb⟩ := List.isPrefixOf_iff_prefix.mp h
        exact ⟨[], b, by simpa using hb.symm⟩
      · obtain ⟨a, b, e⟩ := ih h
        exact ⟨x :: a, b, by simp [e]⟩
  · rintro ⟨a, b, rfl⟩
    induction a with
    | nil => simpa using has_prefix awf b
    | cons x a ih =>
      rw [List.append_assoc] at ih
      simp [has, ih]

/-- C248, the part that holds: a text for which there is a detector of traffic lights is one for which the lights of infrastructure are
published, with the same message. -/
theorem C248_lights_partial (h : Headers) (t : Text) (m : Message) (k : detector h t = some m) : v2i h t = some m := by
  unfold detector at k
  unfold v2i
  by_cases u : t = awf
  · rw [if_pos u] at k; cases k
  · rw [if_neg u] at k ⊢
    by_cases a : t = v20230906
    · subst a
      have s : upTo v20230906 v20230906 = true := by unfold upTo; rw [before_self]; rfl
      have n : upTo v20240605 v20230906 = false := by decide +kernel
      simp only [decide_true, Bool.and_true, n, Bool.and_false, s] at k ⊢
      exact k
    · simp only [a, decide_false, Bool.and_false, Bool.false_eq_true, if_false] at k
      by_cases g : (h.groups && upTo v20240605 t) = true
      · have l : upTo v20240605 t = true := by simp only [Bool.and_eq_true] at g; exact g.2
        have o : before v20230906 v20240605 = true := by decide +kernel
        have n : upTo t v20230906 = false := by
          unfold upTo at l ⊢
          cases b : before v20230906 t with
          | true => rfl
          | false =>
            -- then t ≤ 20230906 < 20240605 ≤ t
            exfalso
            cases c : before t v20230906 with
            | true => rw [before_trans c o] at l; cases l
            | false =>
              have : t = v20230906 := by
                clear k l o g a u
                generalize v20230906 = s at b c
                induction s generalizing t with
                | nil => cases t with | nil => rfl | cons => simp [before] at b
                | cons x s ih =>
                  cases t with
                  | nil => simp [before] at c
                  | cons y t =>
                    simp only [before] at b c
                    by_cases p : x.toNat < y.toNat
                    · rw [if_pos p] at b; cases b
                    · by_cases q : y.toNat < x.toNat
                      · rw [if_pos q] at c; cases c
                      · rw [if_neg p, if_neg q] at b
                        rw [if_neg q, if_neg p] at c
                        have e : x = y := Char.ext (UInt32.toNat_inj.mp (by simp only [Char.toNat] at p q; omega))
                        rw [ih t b c, e]
              exact a this
        rw [n]
        simp only [Bool.and_false, Bool.false_eq_true, if_false]
        exact k
      · rw [if_neg g] at k; cases k

/-- C248, the part that holds: for a release with a day for which there is a detector of traffic lights there are all sensors, and
Autoware can be launched. -/
theorem C248_dated_partial (d : Day) (c : Settings) : sensor (release d) = true ∧
    (c.architecture = release d → launch c ≠ .refused) := by
  have : release d = awf ++ ('/' :: (four d.year ++ two d.month ++ two d.day)) := by
    simp [release, awf]
  have s : has awf (release d) = true := by rw [this]; exact has_prefix _ _
  refine ⟨s, fun e => ?_⟩
  unfold launch
  rw [e, if_pos s]
  split <;> simp

example : detector ⟨true, true⟩ (release ⟨2024, 6, 5⟩) = some .groups := by decide +kernel

/-- C248 does not hold for every release: for one of before 6 September 2023 the lights of infrastructure are published and there are
sensors, but a detector of traffic lights is refused. -/
theorem C248_older_violated : v2i ⟨true, true⟩ (release ⟨2023, 1, 1⟩) = some .signals ∧ sensor (release ⟨2023, 1, 1⟩) = true ∧
    detector ⟨true, true⟩ (release ⟨2023, 1, 1⟩) = none := by decide +kernel

/-- C248 does not hold for every text: "z" names no release, and the sensors are refused; the lights of infrastructure and their detector
are there nevertheless. -/
theorem C248_foreign_violated : sensor ['z'] = false ∧ v2i ⟨true, true⟩ ['z'] = some .groups ∧ detector ⟨true, true⟩ ['z'] = some .groups := by
  decide +kernel

end Verif.Release
