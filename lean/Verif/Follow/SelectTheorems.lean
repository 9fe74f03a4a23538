import Verif.Follow.FailureTheorems
/-
C112: which acceleration the controller chooses.
-/
namespace Verif.Follow
open Classical Spec

theorem foldlM_history {α β : Type} (f : β → α → Option β) (I : List α → β → Prop) (hs : ∀ l b a b', I l b → f b a = some b' → I (l ++ [a]) b') (l : List α) :
    ∀ l₀ b r, I l₀ b → l.foldlM f b = some r → I (l₀ ++ l) r := by
  induction l with
  | nil =>
    intro l₀ b r h0 h
    simp only [List.foldlM_nil] at h
    cases h
    simpa using h0
  | cons a l ih =>
    intro l₀ b r h0 h
    simp only [List.foldlM_cons] at h
    cases hf : f b a with
    | none => rw [hf] at h; cases h
    | some b' =>
      rw [hf] at h
      have := ih (l₀ ++ [a]) b' r (hs l₀ b a b' h0 hf) h
      simpa using this

/-! ### Without a time -/

/-- The choice of `considerStop` is the better of both. -/
theorem considerStop_better (c : Ctrl) (dist acc speed : ℝ) (b : Option ℝ × ℝ) (a : ℝ) (r : Option ℝ × ℝ) (h : considerStop c dist acc speed b a = some r) :
    (predictStop c a dist acc speed = some none ∧ r = b) ∨
      ∃ p, predictStop c a dist acc speed = some (some p) ∧ StopsBetter r.2 (dist - p.dist) ∧ StopsBetter r.2 b.2 ∧ (r = (some a, dist - p.dist) ∨ r = b) := by
  unfold considerStop at h
  cases hp : predictStop c a dist acc speed with
  | none => rw [hp] at h; cases h
  | some p =>
    rw [hp] at h
    cases p with
    | none => cases h; exact Or.inl ⟨rfl, rfl⟩
    | some p =>
      refine Or.inr ⟨p, rfl, ?_⟩
      simp only [Option.bind_eq_bind, Option.bind_some] at h
      split at h
      · rename_i h1
        split at h <;> rename_i h2 <;> cases h
        · exact ⟨⟨fun g => ⟨g, le_refl _⟩, fun _ => le_refl _⟩, ⟨fun _ => ⟨h1.1, h2.le⟩, fun g => absurd g (not_lt.2 h1.1)⟩, Or.inl rfl⟩
        · exact ⟨⟨fun _ => ⟨h1.2, not_lt.1 h2⟩, fun g => absurd g (not_lt.2 h1.2)⟩, ⟨fun g => ⟨g, le_refl _⟩, fun _ => le_refl _⟩, Or.inr rfl⟩
      · rename_i h1
        split at h
        · rename_i h2
          cases h
          exact ⟨⟨fun g => ⟨g, le_refl _⟩, fun _ => le_refl _⟩, ⟨fun g => absurd g h2.2, fun g => absurd g (not_lt.2 h2.1)⟩, Or.inl rfl⟩
        · rename_i h2
          split at h
          · rename_i h3
            have n1 : dist - p.dist < 0 := not_le.1 h3.1
            have n2 : b.2 < 0 := not_le.1 h3.2
            rw [abs_of_neg n1, abs_of_neg n2] at h
            split at h <;> rename_i h4 <;> cases h
            · exact ⟨⟨fun g => ⟨g, le_refl _⟩, fun _ => le_refl _⟩, ⟨fun g => absurd g h3.2, fun _ => by linarith⟩, Or.inl rfl⟩
            · exact ⟨⟨fun g => absurd g h3.1, fun _ => by linarith⟩, ⟨fun g => ⟨g, le_refl _⟩, fun _ => le_refl _⟩, Or.inr rfl⟩
          · rename_i h3
            cases h
            have n1 : ¬ dist - p.dist ≥ 0 := fun g => by
              by_cases hb : b.2 ≥ 0
              · exact h1 ⟨g, hb⟩
              · exact h2 ⟨g, hb⟩
            have n2 : b.2 ≥ 0 := by
              by_contra hb
              exact h3 ⟨n1, hb⟩
            exact ⟨⟨fun g => absurd g n1, fun g => absurd g (not_lt.2 n2)⟩, ⟨fun g => ⟨g, le_refl _⟩, fun _ => le_refl _⟩, Or.inr rfl⟩

theorem stopsBetter_trans {a b c : ℝ} (h1 : StopsBetter a b) (h2 : StopsBetter b c) : StopsBetter a c := by
  refine ⟨fun h => ?_, fun h => ?_⟩
  · obtain ⟨g1, g2⟩ := h2.1 h
    obtain ⟨g3, g4⟩ := h1.1 g1
    exact ⟨g3, g4.trans g2⟩
  · have := h1.2 h
    exact (h2.2 (lt_of_le_of_lt this h)).trans this

/-- C112. Without a time, the controller takes, of 31 accelerations spread evenly over its limits, the one after which braking ends best: as little before the
waypoint as possible or, if none ends before the waypoint, as little after it as possible. -/
theorem C112_stop (c : Ctrl) (dist acc speed a : ℝ) (h : accelerationNoTime c dist acc speed = some a) :
    ∃ lo hi : ℝ, limits c acc speed = some (lo, hi) ∧ (∃ i : ℕ, i ≤ 30 ∧ a = lo + i * ((hi - lo) / 30)) ∧
      ∃ p, predictStop c a dist acc speed = some (some p) ∧
        ∀ i : ℕ, i ≤ 30 → ∃ r, predictStop c (lo + i * ((hi - lo) / 30)) dist acc speed = some r ∧ ∀ p', r = some p' → StopsBetter (dist - p.dist) (dist - p'.dist) := by
  unfold accelerationNoTime at h
  cases hl : limits c acc speed with
  | none => rw [hl] at h; cases h
  | some l =>
    obtain ⟨lo, hi⟩ := l
    refine ⟨lo, hi, rfl, ?_⟩
    rw [hl] at h
    simp only [Option.bind_eq_bind, Option.bind_some] at h
    cases hf : (List.range 31).foldlM (fun best i => considerStop c dist acc speed best (candidate lo hi i)) (none, -huge) with
    | none => rw [hf] at h; cases h
    | some r =>
      rw [hf] at h
      simp only [Option.bind_some] at h
      have := foldlM_history (fun (best : Option ℝ × ℝ) (i : ℕ) => considerStop c dist acc speed best (candidate lo hi i))
        (fun l b => (∀ x, b.1 = some x → (∃ i ∈ l, x = candidate lo hi i) ∧ ∃ p, predictStop c x dist acc speed = some (some p) ∧ b.2 = dist - p.dist) ∧
          ∀ i ∈ l, ∃ r, predictStop c (candidate lo hi i) dist acc speed = some r ∧ ∀ p', r = some p' → StopsBetter b.2 (dist - p'.dist))
        ?_ (List.range 31) [] (none, -huge) r ⟨by simp, by simp⟩ hf
      · simp only [List.nil_append, List.mem_range] at this
        obtain ⟨t1, t2⟩ := this
        obtain ⟨⟨i, hi', rfl⟩, p, hp, hpe⟩ := t1 a h
        refine ⟨⟨i, by omega, rfl⟩, p, hp, fun k hk => ?_⟩
        rw [← hpe]
        exact t2 k (by omega)
      · intro l b i b' hI hs
        obtain ⟨I1, I2⟩ := hI
        rcases considerStop_better c dist acc speed b (candidate lo hi i) b' hs with ⟨hp, rfl⟩ | ⟨p, hp, hb1, hb2, hr⟩
        · refine ⟨fun x hx => ?_, fun k hk => ?_⟩
          · obtain ⟨⟨j, hj, hje⟩, g⟩ := I1 x hx
            exact ⟨⟨j, List.mem_append_left _ hj, hje⟩, g⟩
          · rcases List.mem_append.1 hk with hk | hk
            · exact I2 k hk
            · simp only [List.mem_singleton] at hk
              subst hk
              exact ⟨none, hp, fun p' h => absurd h (by simp)⟩
        · refine ⟨fun x hx => ?_, fun k hk => ?_⟩
          · rcases hr with hr | hr
            · rw [hr] at hx ⊢
              cases hx
              exact ⟨⟨i, by simp, rfl⟩, p, hp, rfl⟩
            · rw [hr] at hx ⊢
              obtain ⟨⟨j, hj, hje⟩, g⟩ := I1 x hx
              exact ⟨⟨j, List.mem_append_left _ hj, hje⟩, g⟩
          · rcases List.mem_append.1 hk with hk | hk
            · obtain ⟨r', h1, h2⟩ := I2 k hk
              exact ⟨r', h1, fun p' hp' => stopsBetter_trans hb2 (h2 p' hp')⟩
            · simp only [List.mem_singleton] at hk
              subst hk
              exact ⟨some p, hp, fun p' hp' => by cases hp'; exact hb1⟩

/-- A predicted stop is a stop, after whole steps. -/
theorem C112_standstill (c : Ctrl) (a dist acc speed : ℝ) (p : Pred) (h : predictStop c a dist acc speed = some (some p)) :
    |p.speed| < 1 / 10 ^ 12 ∧ |p.acc| < 1 / 10 ^ 12 ∧ ∃ k : ℕ, p.time = (k + 1) * c.dt := by
  have key := stopLoop.partial_correctness c dist
    (fun q r => ∀ p, r = some p → |p.speed| < ε ∧ |p.acc| < ε ∧ ∃ k : ℕ, p.time = q.time + k * c.dt) ?_
  · obtain ⟨k1, k2, k, k3⟩ := key _ _ h p rfl
    refine ⟨k1, k2, k, ?_⟩
    rw [k3]
    simp only [Pred.step]
    ring
  · intro loop ih q r hr p hp
    split at hr
    · rename_i hi
      cases hr
      cases hp
      exact ⟨hi.1, hi.2, 0, by simp⟩
    · split at hr
      · cases hr; cases hp
      · cases hb : brake c q with
        | none => rw [hb] at hr; cases hr
        | some q' =>
          rw [hb] at hr
          simp only [Option.bind_eq_bind, Option.bind_some] at hr
          obtain ⟨g1, g2, k, g3⟩ := ih q' r hr p hp
          refine ⟨g1, g2, k + 1, ?_⟩
          have : q'.time = q.time + c.dt := by
            unfold brake at hb
            cases hc : clampAcc c q.acc q.acc q.speed with
            | none => rw [hc] at hb; cases hb
            | some x =>
              rw [hc] at hb
              simp only [Option.bind_eq_bind, Option.bind_some] at hb
              split at hb
              · cases hb; rfl
              · cases hl : limits c q.acc q.speed with
                | none => rw [hl] at hb; cases hb
                | some l =>
                  rw [hl] at hb
                  cases hb; rfl
          rw [g3, this]
          push_cast
          ring

/-! ### With a time -/

/-- C112. With a time and more than the last steps left, let the best of the candidates be one whose arrival misses the time by the least, up to 33e-12. If even
that one arrives too late by a step, the controller accelerates as much as it may; if too early by a step, as little as it may; else it follows the best one,
unless that one stops more than a metre before the waypoint. -/
theorem C112_time (c : Ctrl) (time dist acc speed lo hi a : ℝ) (h : accelerationByTime c time dist acc speed lo hi = some a) :
    ∃ b p, b ∈ candidates lo hi ∧ predictArrival c b time dist acc speed = some (some p) ∧
      (∀ b' ∈ candidates lo hi, ∃ r, predictArrival c b' time dist acc speed = some r ∧ ∀ p', r = some p' → |time - p.time| ≤ |time - p'.time| + 33 / 10 ^ 12) ∧
      (time - p.time ≤ -c.dt + 1 / 10 ^ 6 → a = hi) ∧
      (-c.dt + 1 / 10 ^ 6 < time - p.time → c.dt - 1 / 10 ^ 6 ≤ time - p.time → a = lo) ∧
      (-c.dt + 1 / 10 ^ 6 < time - p.time → time - p.time < c.dt - 1 / 10 ^ 6 → a = b ∧ dist - p.dist ≤ 1) := by
  have hε : 0 < ε := by rw [ε]; positivity
  unfold accelerationByTime at h
  cases hf : (candidates lo hi).foldlM (fun best a => considerTime c time dist acc speed best a) (none, huge, huge) with
  | none => rw [hf] at h; cases h
  | some r =>
    rw [hf] at h
    simp only [Option.bind_eq_bind, Option.bind_some] at h
    cases hr : r.1 with
    | none => rw [hr] at h; cases h
    | some b =>
      rw [hr] at h
      simp only [Option.bind_some] at h
      have := foldlM_history (fun (best : Option ℝ × ℝ × ℝ) a => considerTime c time dist acc speed best a)
        (fun l s => (∀ x, s.1 = some x → x ∈ l ∧ ∃ p, predictArrival c x time dist acc speed = some (some p) ∧ s.2 = (time - p.time, dist - p.dist)) ∧
          ∀ x ∈ l, ∃ r, predictArrival c x time dist acc speed = some r ∧ ∀ p', r = some p' → |s.2.1| ≤ |time - p'.time| + l.length * ε)
        ?_ (candidates lo hi) [] (none, huge, huge) r ⟨by simp, by simp⟩ hf
      · simp only [List.nil_append] at this
        obtain ⟨t1, t2⟩ := this
        obtain ⟨hb, p, hp, hpe⟩ := t1 b hr
        have e1 : r.2.1 = time - p.time := by rw [hpe]
        have e2 : r.2.2 = dist - p.dist := by rw [hpe]
        rw [e1, e2] at h
        have et : (1 : ℝ) / 10 ^ 6 = timeTol := rfl
        rw [et]
        refine ⟨b, p, hb, hp, ?_, ?_⟩
        · intro b' hb'
          obtain ⟨r', h1, h2⟩ := t2 b' hb'
          refine ⟨r', h1, fun p' hp' => ?_⟩
          have := h2 p' hp'
          rw [e1] at this
          have hlen : ((candidates lo hi).length : ℝ) ≤ 33 := by
            have : (candidates lo hi).length ≤ 33 := by
              unfold candidates
              split <;> split <;> simp
            exact_mod_cast this
          have h3 : ((candidates lo hi).length : ℝ) * ε ≤ 33 * ε := by gcongr
          have h4 : (33 : ℝ) / 10 ^ 12 = 33 * ε := by rw [ε]; ring
          linarith
        · refine ⟨fun g => ?_, fun g1 g2 => ?_, fun g1 g2 => ?_⟩
          · rw [if_pos g] at h
            cases h; rfl
          · rw [if_neg (not_le.2 g1), if_pos g2] at h
            cases h; rfl
          · rw [if_neg (not_le.2 g1), if_neg (not_le.2 g2)] at h
            have ht : 0 < timeTol := by rw [timeTol]; positivity
            have habs : |time - p.time| < c.dt := by rw [abs_lt]; constructor <;> linarith
            split at h
            · cases h
            · rename_i hn
              cases h
              refine ⟨rfl, ?_⟩
              by_contra hc
              exact hn ⟨habs, not_le.1 hc⟩
      · intro l s x s' hI hs
        obtain ⟨I1, I2⟩ := hI
        unfold considerTime at hs
        cases hp : predictArrival c x time dist acc speed with
        | none => rw [hp] at hs; cases hs
        | some p =>
          rw [hp] at hs
          have grow : ∀ y : ℝ, y + l.length * ε ≤ y + (l ++ [x]).length * ε := by
            intro y
            rw [List.length_append]
            push_cast
            simp only [List.length_singleton, Nat.cast_one]
            nlinarith
          cases p with
          | none =>
            cases hs
            refine ⟨fun y hy => ?_, fun y hy => ?_⟩
            · obtain ⟨g1, g2⟩ := I1 y hy
              exact ⟨List.mem_append_left _ g1, g2⟩
            · rcases List.mem_append.1 hy with hy | hy
              · obtain ⟨r', h1, h2⟩ := I2 y hy
                exact ⟨r', h1, fun p' hp' => (h2 p' hp').trans (grow _)⟩
              · simp only [List.mem_singleton] at hy
                subst hy
                exact ⟨none, hp, fun p' h => absurd h (by simp)⟩
          | some p =>
            simp only [Option.bind_eq_bind, Option.bind_some] at hs
            have step : ∀ y : ℝ, y + l.length * ε + ε = y + (l ++ [x]).length * ε := by
              intro y
              rw [List.length_append]
              push_cast
              simp only [List.length_singleton, Nat.cast_one]
              ring
            have near : |s.2.1 - (time - p.time)| < ε → |s.2.1| ≤ |time - p.time| + ε ∧ |time - p.time| ≤ |s.2.1| + ε := by
              intro hn
              have h1 := abs_sub_abs_le_abs_sub s.2.1 (time - p.time)
              have h2 := abs_sub_abs_le_abs_sub (time - p.time) s.2.1
              rw [abs_sub_comm (time - p.time) s.2.1] at h2
              constructor <;> linarith
            split at hs <;> rename_i hbet <;> cases hs
            · refine ⟨fun y hy => ?_, fun y hy => ?_⟩
              · cases hy
                exact ⟨by simp, p, hp, rfl⟩
              · have hle : |time - p.time| ≤ |s.2.1| + ε := by
                  rcases hbet with hbet | hbet
                  · linarith [hbet.2]
                  · rw [abs_sub_comm] at hbet
                    exact (near hbet.1).2
                rcases List.mem_append.1 hy with hy | hy
                · obtain ⟨r', h1, h2⟩ := I2 y hy
                  refine ⟨r', h1, fun p' hp' => ?_⟩
                  have := h2 p' hp'
                  rw [← step]
                  linarith
                · simp only [List.mem_singleton] at hy
                  subst hy
                  refine ⟨some p, hp, fun p' hp' => ?_⟩
                  cases hp'
                  have : (0 : ℝ) ≤ (l ++ [y]).length * ε := by positivity
                  simp only []
                  linarith
            · refine ⟨fun y hy => ?_, fun y hy => ?_⟩
              · obtain ⟨g1, g2⟩ := I1 y hy
                exact ⟨List.mem_append_left _ g1, g2⟩
              · rcases List.mem_append.1 hy with hy | hy
                · obtain ⟨r', h1, h2⟩ := I2 y hy
                  exact ⟨r', h1, fun p' hp' => (h2 p' hp').trans (grow _)⟩
                · simp only [List.mem_singleton] at hy
                  subst hy
                  refine ⟨some p, hp, fun p' hp' => ?_⟩
                  cases hp'
                  have h0 : (0 : ℝ) ≤ l.length * ε := by positivity
                  rw [← step]
                  by_cases hn : |s.2.1 - (time - p.time)| < ε
                  · linarith [(near hn).1]
                  · have : |s.2.1| ≤ |time - p.time| := by
                      by_contra hc
                      exact hbet (Or.inl ⟨by rw [abs_sub_comm]; exact hn, not_le.1 hc⟩)
                    linarith

/-! ### The last steps -/

/-- C112. In the third step before a waypoint with braking, an acceleration that is not limited covers the remaining distance in one step. -/
theorem C112_last_braking (c : Ctrl) (time dist acc speed lo hi : ℝ) (hdt : 0 < c.dt) (hb : c.braking = true) (h1 : 3 * c.dt < time) (h2 : time ≤ 4 * c.dt)
    (n1 : 0 ≤ speed + (acc + c.maxAccRate * c.dt) * c.dt) (n2 : speed + (acc - c.maxDecRate * c.dt) * c.dt ≤ c.target)
    (hl : limits c acc speed = some (lo, hi)) (h3 : dist ≤ travelled c.dt speed hi) (h4 : travelled c.dt speed lo ≤ dist) :
    ∃ a, lastSteps c time dist acc speed = some a ∧ travelled c.dt speed a = dist := by
  have hq : 0 < c.dt ^ 2 := by positivity
  unfold travelled at h3 h4 ⊢
  have ha : lo ≤ 2 * (dist - speed * c.dt) / c.dt ^ 2 := by rw [le_div_iff₀ hq]; linarith
  have ha' : 2 * (dist - speed * c.dt) / c.dt ^ 2 ≤ hi := by rw [div_le_iff₀ hq]; linarith
  refine ⟨2 * (dist - speed * c.dt) / c.dt ^ 2, ?_, by field_simp; ring⟩
  unfold lastSteps
  rw [if_neg (by linarith), if_neg (by linarith), if_pos (by linarith), if_pos hb]
  unfold clampAcc
  rw [if_neg (not_lt.2 n1), if_neg (not_lt.2 n2), hl, Option.map_some, max_eq_left ha, min_eq_left ha']

/-- C112. In the last but one step before a waypoint without braking, an acceleration that is not limited, followed by a step without acceleration, covers the
remaining distance. -/
theorem C112_last_passing (c : Ctrl) (time dist acc speed lo hi : ℝ) (hdt : 0 < c.dt) (hb : c.braking = false) (h1 : 2 * c.dt < time) (h2 : time ≤ 3 * c.dt)
    (n1 : 0 ≤ speed + (acc + c.maxAccRate * c.dt) * c.dt) (n2 : speed + (acc - c.maxDecRate * c.dt) * c.dt ≤ c.target)
    (hl : limits c acc speed = some (lo, hi)) (h3 : dist ≤ travelled c.dt speed hi + travelled c.dt (speed + hi * c.dt) 0)
    (h4 : travelled c.dt speed lo + travelled c.dt (speed + lo * c.dt) 0 ≤ dist) :
    ∃ a, lastSteps c time dist acc speed = some a ∧ travelled c.dt speed a + travelled c.dt (speed + a * c.dt) 0 = dist := by
  have hq : 0 < c.dt ^ 2 := by positivity
  unfold travelled at h3 h4 ⊢
  have ha : lo ≤ 2 / 3 * (dist - 2 * speed * c.dt) / c.dt ^ 2 := by rw [le_div_iff₀ hq]; linarith
  have ha' : 2 / 3 * (dist - 2 * speed * c.dt) / c.dt ^ 2 ≤ hi := by rw [div_le_iff₀ hq]; linarith
  refine ⟨2 / 3 * (dist - 2 * speed * c.dt) / c.dt ^ 2, ?_, by field_simp; ring⟩
  unfold lastSteps
  rw [if_neg (by linarith), if_pos (by linarith), if_neg (by simp [hb])]
  unfold clampAcc
  rw [if_neg (not_lt.2 n1), if_neg (not_lt.2 n2), hl, Option.map_some, max_eq_left ha, min_eq_left ha']

/-- C112. In the last but one step before the end, an acceleration that is not limited brings the entity to a stop. -/
theorem C112_last_stop (c : Ctrl) (time dist acc speed lo hi : ℝ) (hdt : 0 < c.dt) (hb : c.braking = true) (h1 : 2 * c.dt < time) (h2 : time ≤ 3 * c.dt)
    (n1 : 0 ≤ speed + (acc + c.maxAccRate * c.dt) * c.dt) (n2 : speed + (acc - c.maxDecRate * c.dt) * c.dt ≤ c.target)
    (hl : limits c acc speed = some (lo, hi)) (h3 : 0 ≤ speed + hi * c.dt) (h4 : speed + lo * c.dt ≤ 0) :
    ∃ a, lastSteps c time dist acc speed = some a ∧ speed + a * c.dt = 0 := by
  have ha : lo ≤ -speed / c.dt := by rw [le_div_iff₀ hdt]; linarith
  have ha' : -speed / c.dt ≤ hi := by rw [div_le_iff₀ hdt]; linarith
  refine ⟨-speed / c.dt, ?_, by field_simp; ring⟩
  unfold lastSteps
  rw [if_neg (by linarith), if_pos (by linarith), if_pos hb]
  unfold clampAcc
  rw [if_neg (not_lt.2 n1), if_neg (not_lt.2 n2), hl, Option.map_some, max_eq_left ha, min_eq_left ha']

/-- C112. An entity that still moves in the last step before the end, where it has to stand, is an error. -/
theorem C112_last_error (c : Ctrl) (time dist acc speed : ℝ) (hb : c.braking = true) (h1 : time ≤ 2 * c.dt) (h2 : 1 / 10 ^ 12 ≤ |speed|) :
    lastSteps c time dist acc speed = none := by
  unfold lastSteps
  rw [if_pos (by linarith), if_neg]
  rintro (h | h)
  · rw [hb] at h; cases h
  · rw [ε] at h; linarith

/-- C112. The remaining time is taken in whole steps: the number of steps that fit into it, where a step that lacks less than a millionth of its length fits. -/
theorem C112_whole_steps (dt time : ℝ) (hdt : 0 < dt) (h0 : 0 ≤ time) (h1 : time < (2 ^ 64 - 1) * dt) :
    ∃ k : ℕ, roundTime dt time (1 / 10 ^ 6) = some (k * dt + 1 / 10 ^ 6) ∧ (k - 1 / 10 ^ 6) * dt ≤ time ∧ time ≤ (k + 1 - 1 / 10 ^ 6) * dt := by
  have hx : 0 ≤ time / dt := by positivity
  obtain ⟨n, hn⟩ := Int.eq_ofNat_of_zero_le (Int.floor_nonneg.2 hx)
  have hn' : ((⌊time / dt⌋ : ℤ) : ℝ) = n := by rw [hn]; simp
  have l1 := Int.floor_le (time / dt)
  have l2 := Int.lt_floor_add_one (time / dt)
  rw [hn'] at l1 l2
  have t1 : (n : ℝ) * dt ≤ time := by rw [le_div_iff₀ hdt] at l1; exact l1
  have t2 : time < ((n : ℝ) + 1) * dt := by rw [div_lt_iff₀ hdt] at l2; exact l2
  simp only [roundTime, toSize, hn']
  rw [if_neg (not_le.2 h1), if_neg (by linarith), if_neg (by linarith)]
  simp only [Option.map_some]
  have e : (n : ℝ) * dt / dt = n := by field_simp
  rw [e]
  split <;> rename_i hc
  · refine ⟨n + 1, by push_cast; congr 1; ring, ?_, ?_⟩
    · push_cast
      have : ((n : ℝ) + 1 - 1 / 10 ^ 6) < time / dt := by linarith
      rw [lt_div_iff₀ hdt] at this
      exact this.le
    · push_cast
      have : (1 : ℝ) / 10 ^ 6 * dt ≤ dt := by nlinarith
      nlinarith
  · refine ⟨n, rfl, ?_, ?_⟩
    · have : (0 : ℝ) ≤ 1 / 10 ^ 6 * dt := by positivity
      linarith
    · have : time / dt ≤ (n : ℝ) + 1 - 1 / 10 ^ 6 := by
        have := not_lt.1 hc
        linarith
      rw [div_le_iff₀ hdt] at this
      exact this

/-- C112 is violated for a waypoint that is late by a step or more: the number of steps left is undefined. -/
theorem C112_late_violated (dt time : ℝ) (hdt : 0 < dt) (h : time ≤ -dt) : toSize (time / dt) = none ∧ roundTime dt time (1 / 10 ^ 6) = none := by
  have h1 : time / dt ≤ -1 := by rw [div_le_iff₀ hdt]; linarith
  have h2 : toSize (time / dt) = none := by simp only [toSize]; rw [if_pos h1]
  refine ⟨h2, ?_⟩
  simp only [roundTime, h2, Option.map_none, ite_self]

/-- C112. The last steps before the time of a waypoint, three of them and four if the entity has to stop, are computed exactly, from the whole steps that are left. -/
theorem C112_last (c : Ctrl) (time dist acc speed a : ℝ) (hdt : 0 < c.dt) (h0 : 0 ≤ time) (h1 : time < (2 ^ 64 - 1) * c.dt)
    (n1 : 0 ≤ speed + (acc + c.maxAccRate * c.dt) * c.dt) (n2 : speed + (acc - c.maxDecRate * c.dt) * c.dt ≤ c.target) (lo hi : ℝ)
    (hl : limits c acc speed = some (lo, hi)) (n3 : travelled c.dt speed lo ≤ dist) (n4 : 1 / 10 ^ 12 ≤ |lo - hi|)
    (h : acceleration c (some time) dist acc speed = some a) :
    ∃ k : ℕ, (k - 1 / 10 ^ 6) * c.dt ≤ time ∧ time ≤ (k + 1 - 1 / 10 ^ 6) * c.dt ∧
      (k * c.dt + 1 / 10 ^ 6 ≤ 3 * c.dt ∨ (c.braking = true ∧ k * c.dt + 1 / 10 ^ 6 ≤ 4 * c.dt) → lastSteps c (k * c.dt + 1 / 10 ^ 6) dist acc speed = some a) := by
  obtain ⟨k, hk, k1, k2⟩ := C112_whole_steps c.dt time hdt h0 h1
  refine ⟨k, k1, k2, fun hc => ?_⟩
  unfold travelled at n3
  unfold acceleration at h
  rw [if_neg (not_lt.2 n1), if_neg (not_lt.2 n2), hl] at h
  simp only [Option.bind_eq_bind, Option.bind_some] at h
  rw [if_neg (by nlinarith), if_neg (by rw [ε]; exact not_lt.2 n4), timeTol, hk] at h
  simp only [Option.bind_some] at h
  by_cases hb : c.braking = true ∧ k * c.dt + 1 / 10 ^ 6 ≤ c.dt * 4
  · rwa [if_pos hb] at h
  · rw [if_neg hb, if_pos] at h
    · exact h
    · rcases hc with hc | hc
      · linarith
      · exact absurd ⟨hc.1, by linarith⟩ hb

/-- C112. A waypoint that is late by less than a step leaves no step. -/
theorem C112_just_late (dt time : ℝ) (hdt : 0 < dt) (h0 : -dt < time) (h1 : time < 0) : roundTime dt time (1 / 10 ^ 6) = some (1 / 10 ^ 6) := by
  have h2 : -1 < time / dt := by rw [lt_div_iff₀ hdt]; linarith
  have h3 : time / dt < 0 := div_neg_of_neg_of_pos h1 hdt
  simp only [roundTime, toSize]
  rw [if_neg (by nlinarith), if_neg (not_le.2 h2), if_pos h3, Option.map_some, if_neg (by simp; linarith)]
  simp

/-! ### Concrete cases -/

/-- A vehicle that can change its acceleration much within a step of one second. -/
noncomputable def nimble : Ctrl := ⟨1, false, 10, 100, 10, 100, 1⟩

theorem nimble_limits (acc v : ℝ) (h0 : 0 ≤ v) (h1 : v ≤ 1) (h2 : -10 ≤ acc) (h3 : acc ≤ 10) : limits nimble acc v = some (-v, 1 - v) := by
  have lo : lowest nimble acc v = -v := by
    have : jerkAcc 1 v 0 100 = -v := by
      rcases h0.eq_or_lt with h | h
      · subst h
        rw [jerkAcc_small 1 0 0 100 (by norm_num) (by norm_num) (le_refl _) (by norm_num)]; norm_num
      · rw [jerkAcc_small_down 1 v 0 100 (by norm_num) (by norm_num) h (by rw [abs_of_pos (by norm_num)]; linarith)]; ring
    simp only [lowest, nimble, this]
    rw [max_eq_left (by linarith : -(10 : ℝ) ≤ -v), max_eq_left (by linarith)]
  have hi : highest nimble acc v = 1 - v := by
    have : jerkAcc 1 v 1 100 = 1 - v := by
      rw [jerkAcc_small 1 v 1 100 (by norm_num) (by norm_num) h1 (by rw [abs_of_pos (by norm_num)]; linarith)]; ring
    simp only [highest, nimble, this]
    rw [min_eq_left (by linarith : 1 - v ≤ 10), min_eq_left (by linarith)]
  rw [limits_ok nimble acc v (by norm_num [nimble]) (by rw [lo, hi]; linarith) (by rw [lo]; simp [nimble]) (by rw [hi]; simp [nimble]), lo, hi]

theorem nimble_clamp (x acc v : ℝ) (h0 : 0 ≤ v) (h1 : v ≤ 1) (h2 : -10 ≤ acc) (h3 : acc ≤ 10) : clampAcc nimble x acc v = some (min (max x (-v)) (1 - v)) := by
  unfold clampAcc
  rw [if_neg (by simp only [nimble]; linarith), if_neg (by simp only [nimble]; linarith), nimble_limits acc v h0 h1 h2 h3]
  rfl

theorem nimble_brake_inside (p : Pred) (h0 : 0 ≤ p.speed) (h1 : p.speed ≤ 1) (h2 : -p.speed ≤ p.acc) (h3 : p.acc ≤ 1 - p.speed) :
    brake nimble p = some (p.step (-p.speed) 1) := by
  unfold brake
  rw [nimble_clamp p.acc p.acc p.speed h0 h1 (by linarith) (by linarith), nimble_limits p.acc p.speed h0 h1 (by linarith) (by linarith), max_eq_left h2, min_eq_left h3]
  simp [nimble]

theorem nimble_brake_outside (p : Pred) (x : ℝ) (h0 : 0 ≤ p.speed) (h1 : p.speed ≤ 1) (h2 : -10 ≤ p.acc) (h3 : p.acc ≤ 10)
    (hx : min (max p.acc (-p.speed)) (1 - p.speed) = x) (hne : x ≠ p.acc) : brake nimble p = some (p.step x 1) := by
  unfold brake
  rw [nimble_clamp p.acc p.acc p.speed h0 h1 h2 h3, hx]
  simp [nimble, hne]

theorem nimble_next (t : ℝ) (p q : Pred) (hb : brake nimble p = some q) (hd : p.dist ≤ t) (hs : ¬ p.immobile) : stopLoop nimble t p = stopLoop nimble t q := by
  rw [stopLoop.eq_1, if_neg hs, if_neg (by rw [distTol]; linarith), hb]
  rfl

/-- Without speed, and braking, the vehicle is at rest after the next step. -/
theorem nimble_rest (t : ℝ) (p : Pred) (hs : p.speed = 0) (ha : p.acc ≤ 0) (ha' : -10 ≤ p.acc) (hd : p.dist ≤ t) :
    ∃ q, stopLoop nimble t p = some (some q) ∧ q.dist = p.dist := by
  by_cases hi : p.immobile
  · rw [stopLoop.eq_1, if_pos hi]
    exact ⟨p, rfl, rfl⟩
  · have hε : 0 < ε := by rw [ε]; positivity
    have hne : (0 : ℝ) ≠ p.acc := by
      intro h
      apply hi
      rw [Pred.immobile, hs, ← h]
      simp [hε]
    rw [nimble_next t p _ (nimble_brake_outside p 0 (by rw [hs]) (by rw [hs]; norm_num) ha' (by linarith)
      (by rw [hs, neg_zero, max_eq_right ha]; norm_num) hne) hd hi, stopLoop.eq_1, if_pos]
    · exact ⟨_, rfl, by simp [Pred.step, hs]⟩
    · simp [Pred.immobile, Pred.step, hs, hε]

theorem nimble_inside (t : ℝ) (p : Pred) (h0 : 0 ≤ p.speed) (h1 : p.speed ≤ 1) (h2 : -p.speed ≤ p.acc) (h3 : p.acc ≤ 1 - p.speed) (hd : p.dist + 1 ≤ t) :
    ∃ q, stopLoop nimble t p = some (some q) ∧ q.dist ≤ p.dist + 1 := by
  by_cases hi : p.immobile
  · rw [stopLoop.eq_1, if_pos hi]
    exact ⟨p, rfl, by linarith⟩
  · rw [nimble_next t p _ (nimble_brake_inside p h0 h1 h2 h3) (by linarith) hi]
    obtain ⟨q, hq, hqd⟩ := nimble_rest t (p.step (-p.speed) 1) (by simp [Pred.step]) (by simp [Pred.step]; exact h0) (by simp [Pred.step]; linarith)
      (by simp [Pred.step]; linarith)
    refine ⟨q, hq, ?_⟩
    rw [hqd]
    simp [Pred.step]; linarith

theorem nimble_stop (t : ℝ) (p : Pred) (h0 : 0 ≤ p.speed) (h1 : p.speed ≤ 1) (h2 : -p.speed ≤ p.acc) (h3 : p.acc ≤ 10) (hd : p.dist + 3 ≤ t) :
    ∃ q, stopLoop nimble t p = some (some q) ∧ q.dist ≤ p.dist + 3 := by
  have one : ∀ p : Pred, p.speed = 1 → 0 ≤ p.acc → p.acc ≤ 10 → p.dist + 2 ≤ t → ∃ q, stopLoop nimble t p = some (some q) ∧ q.dist ≤ p.dist + 2 := by
    intro p e1 e2 e3 e4
    by_cases hz : p.acc = 0
    · obtain ⟨q, hq, hqd⟩ := nimble_inside t p (by linarith) (by linarith) (by linarith) (by linarith) (by linarith)
      exact ⟨q, hq, by linarith⟩
    · have hi : ¬ p.immobile := by
        rw [Pred.immobile, e1]
        rintro ⟨g, -⟩
        rw [ε] at g
        norm_num at g
      rw [nimble_next t p _ (nimble_brake_outside p 0 (by linarith) (by linarith) (by linarith) e3
        (by rw [e1, max_eq_left (by linarith), min_eq_right (by linarith)]; norm_num) (Ne.symm hz)) (by linarith) hi]
      obtain ⟨q, hq, hqd⟩ := nimble_inside t (p.step 0 1) (by simp [Pred.step, e1]) (by simp [Pred.step, e1]) (by simp [Pred.step, e1]) (by simp [Pred.step, e1])
        (by simp [Pred.step, e1]; linarith)
      refine ⟨q, hq, ?_⟩
      simp only [Pred.step, e1] at hqd
      linarith
  by_cases hin : p.acc ≤ 1 - p.speed
  · obtain ⟨q, hq, hqd⟩ := nimble_inside t p h0 h1 h2 hin (by linarith)
    exact ⟨q, hq, by linarith⟩
  · have hin := not_le.1 hin
    by_cases hi : p.immobile
    · rw [stopLoop.eq_1, if_pos hi]
      exact ⟨p, rfl, by linarith⟩
    · rw [nimble_next t p _ (nimble_brake_outside p (1 - p.speed) h0 h1 (by linarith) h3 (by rw [max_eq_left h2, min_eq_right hin.le]) hin.ne) (by linarith) hi]
      obtain ⟨q, hq, hqd⟩ := one (p.step (1 - p.speed) 1) (by simp [Pred.step]) (by simp [Pred.step]; exact h1) (by simp [Pred.step]; linarith)
        (by simp [Pred.step]; linarith)
      refine ⟨q, hq, hqd.trans ?_⟩
      simp [Pred.step]; linarith

theorem huge_pos : 5000 ≤ huge := by
  have h1 : (2 : ℝ) ^ 971 * 2 ≤ 2 ^ 1024 := by rw [← pow_succ]; exact pow_le_pow_right₀ (by norm_num) (by norm_num)
  have h2 : (2 : ℝ) ^ 13 ≤ 2 ^ 971 := pow_le_pow_right₀ (by norm_num) (by norm_num)
  rw [huge]
  generalize (2 : ℝ) ^ 1024 = x at *
  generalize (2 : ℝ) ^ 971 = y at *
  linarith

/-- A fold in which every candidate has a value that wins against the initial one ends with some candidate. -/
theorem foldlM_chosen {β : Type} (f : Option ℝ × β → ℝ → Option (Option ℝ × β)) (b₀ : β) (Q : β → Prop) (P : ℝ → Prop)
    (h0 : ∀ a, P a → ∃ b, f (none, b₀) a = some (some a, b) ∧ Q b) (hs : ∀ x b a, Q b → P a → ∃ y b', f (some x, b) a = some (some y, b') ∧ Q b') (a : ℝ) (l : List ℝ)
    (hP : ∀ x ∈ a :: l, P x) : ∃ y b, (a :: l).foldlM f (none, b₀) = some (some y, b) ∧ Q b := by
  have tail : ∀ l : List ℝ, (∀ x ∈ l, P x) → ∀ x b, Q b → ∃ y b', l.foldlM f (some x, b) = some (some y, b') ∧ Q b' := by
    intro l
    induction l with
    | nil => intro _ x b hb; exact ⟨x, b, rfl, hb⟩
    | cons c l ih =>
      intro hl x b hb
      obtain ⟨y, b', h1, h2⟩ := hs x b c hb (hl c (List.mem_cons_self ..))
      rw [List.foldlM_cons, h1]
      exact ih (fun z hz => hl z (List.mem_cons_of_mem _ hz)) y b' h2
  obtain ⟨b, h1, h2⟩ := h0 a (hP a (List.mem_cons_self ..))
  rw [List.foldlM_cons, h1]
  exact tail l (fun z hz => hP z (List.mem_cons_of_mem _ hz)) a b h2

/-- The hypothesis of `C112_stop` holds for a vehicle at rest, ten metres before its waypoint, with accelerations from 0 to 1 to choose from. -/
example : ∃ a, accelerationNoTime nimble 10 0 0 = some a ∧ limits nimble 0 0 = some (0, 1) := by
  have hl : limits nimble 0 0 = some (0, 1) := by
    rw [nimble_limits 0 0 (le_refl _) (by norm_num) (by norm_num) (by norm_num)]; norm_num
  have hp : ∀ a : ℝ, 0 ≤ a ∧ a ≤ 1 → ∃ p, predictStop nimble a 10 0 0 = some (some p) ∧ 0 ≤ 10 - p.dist := by
    intro a ha
    obtain ⟨q, hq, hqd⟩ := nimble_stop 10 ((Pred.mk 0 0 0 0).step a nimble.dt) (by simp [Pred.step, nimble, ha.1]) (by simp [Pred.step, nimble, ha.2])
      (by simp [Pred.step, nimble]; linarith [ha.1]) (by simp [Pred.step, nimble]; linarith [ha.2]) (by simp [Pred.step, nimble]; linarith [ha.2])
    refine ⟨q, hq, ?_⟩
    simp [Pred.step, nimble] at hqd
    linarith [ha.2]
  have hh := huge_pos
  obtain ⟨y, b, h1, -⟩ := foldlM_chosen (considerStop nimble 10 0 0) (-huge) (fun b => 0 ≤ b) (fun a => 0 ≤ a ∧ a ≤ 1)
    (fun a ha => by
      obtain ⟨p, h1, h2⟩ := hp a ha
      refine ⟨10 - p.dist, ?_, h2⟩
      simp only [considerStop, h1, Option.bind_eq_bind, Option.bind_some]
      rw [if_neg (fun h => absurd h.2 (by linarith)), if_pos ⟨h2, by linarith⟩]
      rfl)
    (fun x b a hb ha => by
      obtain ⟨p, h1, h2⟩ := hp a ha
      simp only [considerStop, h1, Option.bind_eq_bind, Option.bind_some]
      rw [if_pos ⟨h2, hb⟩]
      split
      · exact ⟨a, _, rfl, h2⟩
      · exact ⟨x, b, rfl, hb⟩)
    (candidate 0 1 0) ((List.range 30).map fun i => candidate 0 1 (i + 1))
    (by
      have h : ∀ i : ℕ, i ≤ 30 → 0 ≤ candidate 0 1 i ∧ candidate 0 1 i ≤ 1 := by
        intro i hi
        have := hull_candidate 0 1 i hi
        rw [Hull, min_eq_left (by norm_num), max_eq_right (by norm_num)] at this
        exact this
      intro x hx
      rcases List.mem_cons.1 hx with rfl | hx
      · exact h 0 (by norm_num)
      · simp only [List.mem_map, List.mem_range] at hx
        obtain ⟨i, hi, rfl⟩ := hx
        exact h (i + 1) (by omega))
  refine ⟨y, ?_, hl⟩
  unfold accelerationNoTime
  rw [hl]
  simp only [Option.bind_eq_bind, Option.bind_some]
  have : (List.range 31).foldlM (fun best i => considerStop nimble 10 0 0 best (candidate 0 1 i)) (none, -huge) = some (some y, b) := by
    rw [← h1, ← List.foldlM_map]
    rfl
  rw [this]
  rfl

/-- The speed of a vehicle with speed 1 that accelerates by `a` and then not any more. -/
theorem nimble_coast (a : ℝ) (h0 : -1 ≤ a) (h1 : a ≤ 0) :
    ∃ p : Pred, p.speed = 1 + a ∧ 0 ≤ p.dist ∧ p.dist ≤ 2 ∧ 1 ≤ p.time ∧ p.time ≤ 2 ∧ predictArrival nimble a 10 100 0 1 = arrivalEnd nimble 10 100 p := by
  have hc : clampAcc nimble a 0 1 = some a := by
    rw [nimble_clamp a 0 1 (by norm_num) (le_refl _) (by norm_num) (by norm_num), max_eq_left h0, min_eq_left (by linarith)]
  have hp : predictArrival nimble a 10 100 0 1 = (coastLoop nimble 10 ((Pred.mk 1 0 0 0).step a 1)).bind (arrivalEnd nimble 10 100) := by
    unfold predictArrival
    rw [if_neg (by norm_num [nimble]), hc]
    simp [nimble]
  by_cases hz : a = 0
  · subst hz
    refine ⟨(Pred.mk 1 0 0 0).step 0 1, by simp [Pred.step], by simp [Pred.step], by simp [Pred.step]; norm_num, by simp [Pred.step], by simp [Pred.step], ?_⟩
    rw [hp, coastLoop.eq_1, if_neg (by simp [Pred.step])]
    rfl
  · have hc' : clampAcc nimble 0 a (1 + a) = some 0 := by
      rw [nimble_clamp 0 a (1 + a) (by linarith) (by linarith) (by linarith) (by linarith), max_eq_left (by linarith), min_eq_left (by linarith)]
    have hs : (Pred.mk 1 0 0 0).step a 1 = ⟨1 + a, a, (1 + (1 + a)) * (1 / 2), 1⟩ := by
      simp [Pred.step]
    refine ⟨(Pred.mk (1 + a) a ((1 + (1 + a)) * (1 / 2)) 1).step 0 1, by simp [Pred.step], ?_, ?_, ?_, ?_, ?_⟩
    · simp only [Pred.step]; linarith
    · simp only [Pred.step]; linarith
    · simp only [Pred.step]; norm_num
    · simp only [Pred.step]; norm_num
    · rw [hp, hs, coastLoop.eq_1, if_pos (abs_pos.2 hz), if_neg (by norm_num)]
      simp only [hc', Option.bind_eq_bind, Option.bind_some]
      rw [coastLoop.eq_1, if_neg (by simp [Pred.step])]
      rfl

theorem nimble_arrival_stop : predictArrival nimble (-1) 10 100 0 1 = some none := by
  obtain ⟨p, h1, -, -, -, -, h⟩ := nimble_coast (-1) (le_refl _) (by norm_num)
  have hε : 0 < ε := by rw [ε]; positivity
  rw [h]
  unfold arrivalEnd
  rw [if_pos (by rw [h1]; simp; exact hε.le)]
  rfl

theorem nimble_arrival (a : ℝ) (h0 : -1 + 1 / 30 ≤ a) (h1 : a ≤ 0) :
    ∃ p, predictArrival nimble a 10 100 0 1 = some (some p) ∧ 10 - p.time ≤ -80 ∧ -4000 ≤ 10 - p.time := by
  obtain ⟨p, e1, e2, e3, e4, e5, h⟩ := nimble_coast a (by linarith) h1
  have hv : 1 / 30 ≤ p.speed := by linarith
  have hε : ε < 1 / 30 := by rw [ε]; norm_num
  have hr1 : 98 ≤ (100 - p.dist) / p.speed := by rw [le_div_iff₀ (by linarith)]; linarith
  have hr2 : (100 - p.dist) / p.speed ≤ 3000 := by rw [div_le_iff₀ (by linarith)]; linarith
  obtain ⟨k, k1, k2, k3⟩ := C112_whole_steps 1 ((100 - p.dist) / p.speed) (by norm_num) (by linarith) (by norm_num; linarith)
  have hbig : ¬ 100 - p.dist ≥ huge * p.speed := by
    have := huge_pos
    generalize huge = y at *
    push Not
    nlinarith
  have ha : arrivalEnd nimble 10 100 p = some (some { p with dist := (k * 1 + 1 / 10 ^ 6) * p.speed + p.dist, time := k * 1 + 1 / 10 ^ 6 + p.time }) := by
    unfold arrivalEnd
    rw [if_neg (by rw [abs_of_pos (by linarith)]; linarith)]
    have hb : ¬ nimble.braking = true := by simp [nimble]
    rw [if_neg hb]
    change (if 100 - p.dist ≥ huge * p.speed then none else (roundTime 1 ((100 - p.dist) / p.speed) (1 / 10 ^ 6)).bind _) = _
    rw [if_neg hbig, k1]
    rfl
  refine ⟨_, h.trans ha, ?_, ?_⟩
  · change 10 - ((k : ℝ) * 1 + 1 / 10 ^ 6 + p.time) ≤ -80
    linarith
  · change -4000 ≤ 10 - ((k : ℝ) * 1 + 1 / 10 ^ 6 + p.time)
    linarith

/-- The hypothesis of `C112_time` holds for a vehicle with speed 1 that has ten seconds for a hundred metres. -/
example : accelerationByTime nimble 10 100 0 1 (-1) 0 = some 0 := by
  have hh := huge_pos
  have hε : ε < 1 := by rw [ε]; norm_num
  have hh0 : |huge| = huge := abs_of_pos (by linarith)
  obtain ⟨y, b, h1, h2⟩ := foldlM_chosen (considerTime nimble 10 100 0 1) (huge, huge) (fun b => b.1 ≤ -80) (fun a => -1 + 1 / 30 ≤ a ∧ a ≤ 0)
    (fun a ha => by
      obtain ⟨p, h1, h2, h3⟩ := nimble_arrival a ha.1 ha.2
      refine ⟨(10 - p.time, 100 - p.dist), ?_, h2⟩
      simp only [considerTime, h1, Option.bind_eq_bind, Option.bind_some]
      rw [if_pos]
      · rfl
      · refine Or.inl ⟨?_, ?_⟩
        · rw [not_lt, abs_of_neg (by linarith)]; linarith
        · simp only [hh0]
          rw [abs_of_neg (by linarith)]; linarith)
    (fun x b a hb ha => by
      obtain ⟨p, h1, h2, -⟩ := nimble_arrival a ha.1 ha.2
      simp only [considerTime, h1, Option.bind_eq_bind, Option.bind_some]
      split
      · exact ⟨a, _, rfl, h2⟩
      · exact ⟨x, b, rfl, hb⟩)
    0 ((List.range 29).map fun i => candidate (-1) 0 (i + 1))
    (by
      intro x hx
      rcases List.mem_cons.1 hx with rfl | hx
      · norm_num
      · simp only [List.mem_map, List.mem_range] at hx
        obtain ⟨i, hi, rfl⟩ := hx
        have h0 : (0 : ℝ) ≤ i := Nat.cast_nonneg _
        have h1 : (i : ℝ) + 1 ≤ 30 := by exact_mod_cast (by omega : i + 1 ≤ 30)
        unfold candidate
        push_cast
        constructor <;> linarith)
  have hcs : candidates (-1) 0 = -1 :: 0 :: ((List.range 29).map fun i => candidate (-1) 0 (i + 1)) := by
    unfold candidates
    rw [if_neg (by norm_num), if_pos (by rw [ε]; norm_num)]
    rfl
  have hfold : (candidates (-1) 0).foldlM (fun best a => considerTime nimble 10 100 0 1 best a) (none, huge, huge) = some (some y, b) := by
    rw [hcs, List.foldlM_cons]
    have : considerTime nimble 10 100 0 1 (none, huge, huge) (-1) = some (none, huge, huge) := by
      simp only [considerTime, nimble_arrival_stop, Option.bind_eq_bind, Option.bind_some]
      rfl
    rw [this]
    exact h1
  unfold accelerationByTime
  rw [hfold]
  simp only [Option.bind_eq_bind, Option.bind_some]
  have ht : 0 < timeTol := by rw [timeTol]; positivity
  rw [if_pos (by simp only [nimble]; linarith)]
  rfl

/-- The hypotheses of `C112_last_braking` hold for a vehicle with speed 1/2, three steps before its waypoint. -/
example : 3 * (1 : ℝ) < 7 / 2 ∧ limits { nimble with braking := true } 0 (1 / 2) = some (-(1 / 2), 1 / 2) ∧ (3 / 5 : ℝ) ≤ travelled 1 (1 / 2) (1 / 2) ∧
    travelled 1 (1 / 2) (-(1 / 2)) ≤ (3 / 5 : ℝ) := by
  refine ⟨by norm_num, ?_, by norm_num [travelled], by norm_num [travelled]⟩
  have := nimble_limits 0 (1 / 2) (by norm_num) (by norm_num) (by norm_num) (by norm_num)
  have e : limits { nimble with braking := true } 0 (1 / 2) = limits nimble 0 (1 / 2) := rfl
  rw [e, this]
  norm_num

/-- The hypotheses of `C112_last_passing` hold for a vehicle with speed 1/2, two steps before its waypoint. -/
example : 2 * (1 : ℝ) < 5 / 2 ∧ limits nimble 0 (1 / 2) = some (-(1 / 2), 1 / 2) ∧ (1 : ℝ) ≤ travelled 1 (1 / 2) (1 / 2) + travelled 1 (1 / 2 + 1 / 2 * 1) 0 ∧
    travelled 1 (1 / 2) (-(1 / 2)) + travelled 1 (1 / 2 + -(1 / 2) * 1) 0 ≤ (1 : ℝ) := by
  refine ⟨by norm_num, ?_, by norm_num [travelled], by norm_num [travelled]⟩
  rw [nimble_limits 0 (1 / 2) (by norm_num) (by norm_num) (by norm_num) (by norm_num)]
  norm_num

end Verif.Follow
