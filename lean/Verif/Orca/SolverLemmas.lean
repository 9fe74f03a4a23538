import Verif.Orca.Spec
import Mathlib.Tactic.Linarith
import Mathlib.Tactic.LinearCombination
import Mathlib.Tactic.Ring
/-
Lemmas for **C169** and **C170**: the search for a velocity.
-/
namespace Verif.Orca
open Geometry Classical

/-- A place on the line. -/
def Line.at (l : Line) (t : ℝ) : Pt := l.point.add (l.dir.smul t)

theorem violation_eq (l : Line) (v : Pt) : violation l v = excess l v := by
  unfold violation excess cross2d Pt.sub; simp only; ring

theorem excess_at (c o : Line) (t : ℝ) :
    excess o (c.at t) = t * cross2d c.dir o.dir - cross2d o.dir (c.point.sub o.point) := by
  unfold excess Line.at cross2d Pt.sub Pt.add Pt.smul; simp only; ring

theorem excess_on (c : Line) (t : ℝ) : excess c (c.at t) = 0 := by
  unfold excess Line.at Pt.add Pt.smul; simp only; ring

theorem at_of_on {c : Line} {v : Pt} (hc : c.Proper) (hp : Flat c.point) (hv : Flat v) (h : excess c v = 0) :
    v = c.at (inner c.dir (v.sub c.point)) := by
  unfold Line.Proper at hc
  unfold Flat at hp hv
  unfold excess at h
  obtain ⟨h1, h2⟩ := hc
  unfold Line.at inner Pt.add Pt.smul Pt.sub
  ext <;> simp only
  · rw [h2]; linear_combination c.dir.y * h - (v.x - c.point.x) * h1
  · rw [h2]; linear_combination -c.dir.x * h - (v.y - c.point.y) * h1
  · rw [h2, hp, hv]; ring

theorem eps_pos : (0 : ℝ) < orcaEps := by unfold orcaEps; norm_num

theorem clear_cases {d e : Pt} (h : Clear d e) : cross2d d e = 0 ∨ ¬ |cross2d d e| ≤ orcaEps := by
  rcases h with h | h
  · exact .inl h
  · exact .inr (not_le.mpr h)

theorem narrow_some {c o : Line} {b b' : ℝ × ℝ} (hc : Clear c.dir o.dir) (h : narrow c b o = some b') (hb : b.1 ≤ b.2) :
    b'.1 ≤ b'.2 ∧ ∀ t, (b'.1 ≤ t ∧ t ≤ b'.2) ↔ (b.1 ≤ t ∧ t ≤ b.2) ∧ excess o (c.at t) ≤ 0 := by
  unfold narrow at h
  simp only at h
  have e : ∀ t, excess o (c.at t) ≤ 0 ↔ t * cross2d c.dir o.dir ≤ cross2d o.dir (c.point.sub o.point) := by
    intro t; rw [excess_at, sub_nonpos]
  simp only [e]
  generalize cross2d o.dir (c.point.sub o.point) = n at *
  rcases clear_cases hc with h0 | h0
  · rw [h0] at h ⊢
    rw [if_pos (by rw [abs_zero]; exact eps_pos.le)] at h
    split at h
    · exact absurd h (by simp)
    · rename_i hn
      cases h
      exact ⟨hb, fun t => ⟨fun ht => ⟨ht, by linarith⟩, fun ht => ht.1⟩⟩
  · rw [if_neg h0] at h
    have hne : cross2d c.dir o.dir ≠ 0 := by
      intro hz; apply h0; rw [hz, abs_zero]; exact eps_pos.le
    generalize cross2d c.dir o.dir = d at *
    split at h
    · rename_i hd
      split at h
      · exact absurd h (by simp)
      · rename_i hlt
        cases h
        simp only at hlt ⊢
        have hd' : 0 < d := lt_of_le_of_ne hd (Ne.symm hne)
        refine ⟨not_lt.mp hlt, fun t => ?_⟩
        rw [le_min_iff, le_div_iff₀ hd']
        tauto
    · rename_i hd
      split at h
      · exact absurd h (by simp)
      · rename_i hlt
        cases h
        simp only at hlt ⊢
        have hd' : d < 0 := not_le.mp hd
        refine ⟨not_lt.mp hlt, fun t => ?_⟩
        rw [max_le_iff, div_le_iff_of_neg hd']
        tauto

theorem narrow_none {c o : Line} {b : ℝ × ℝ} (hc : Clear c.dir o.dir) (h : narrow c b o = none) (t : ℝ) (hb : b.1 ≤ t ∧ t ≤ b.2) :
    0 < excess o (c.at t) := by
  unfold narrow at h
  simp only at h
  rw [excess_at]
  generalize cross2d o.dir (c.point.sub o.point) = n at *
  rcases clear_cases hc with h0 | h0
  · rw [h0] at h ⊢
    rw [if_pos (by rw [abs_zero]; exact eps_pos.le)] at h
    split at h
    · linarith
    · exact absurd h (by simp)
  · rw [if_neg h0] at h
    have hne : cross2d c.dir o.dir ≠ 0 := by
      intro hz; apply h0; rw [hz, abs_zero]; exact eps_pos.le
    generalize cross2d c.dir o.dir = d at *
    split at h
    · rename_i hd
      have hd' : 0 < d := lt_of_le_of_ne hd (Ne.symm hne)
      split at h
      · rename_i hlt
        simp only at hlt
        have : n / d < t := by
          rcases min_lt_iff.mp hlt with h' | h'
          · linarith
          · linarith
        rw [div_lt_iff₀ hd'] at this; linarith
      · exact absurd h (by simp)
    · rename_i hd
      have hd' : d < 0 := not_le.mp hd
      split at h
      · rename_i hlt
        simp only at hlt
        have : t < n / d := by
          rcases lt_max_iff.mp hlt with h' | h'
          · linarith
          · linarith
        rw [lt_div_iff_of_neg hd'] at this; linarith
      · exact absurd h (by simp)

theorem fold_some {c : Line} : ∀ {before : List Line} {b b' : ℝ × ℝ}, (∀ o ∈ before, Clear c.dir o.dir) →
    before.foldlM (narrow c) b = some b' → b.1 ≤ b.2 →
    b'.1 ≤ b'.2 ∧ ∀ t, (b'.1 ≤ t ∧ t ≤ b'.2) ↔ (b.1 ≤ t ∧ t ≤ b.2) ∧ ∀ o ∈ before, excess o (c.at t) ≤ 0
  | [], b, b', _, h, hb => by
    cases h
    exact ⟨hb, fun t => ⟨fun ht => ⟨ht, by simp⟩, fun ht => ht.1⟩⟩
  | o :: before, b, b', hc, h, hb => by
    rw [List.foldlM_cons] at h
    cases hn : narrow c b o with
    | none => rw [hn] at h; exact absurd h (by simp)
    | some b1 =>
      rw [hn] at h
      obtain ⟨h1, h2⟩ := narrow_some (hc o (by simp)) hn hb
      obtain ⟨h3, h4⟩ := fold_some (before := before) (fun o ho => hc o (by simp [ho])) h h1
      refine ⟨h3, fun t => ?_⟩
      rw [h4, h2]
      simp only [List.mem_cons, forall_eq_or_imp]
      tauto

theorem fold_none {c : Line} : ∀ {before : List Line} {b : ℝ × ℝ}, (∀ o ∈ before, Clear c.dir o.dir) →
    before.foldlM (narrow c) b = none → b.1 ≤ b.2 → ∀ t, b.1 ≤ t ∧ t ≤ b.2 → ∃ o ∈ before, 0 < excess o (c.at t)
  | [], b, _, h, _, _, _ => absurd h (by simp)
  | o :: before, b, hc, h, hb, t, ht => by
    rw [List.foldlM_cons] at h
    cases hn : narrow c b o with
    | none => exact ⟨o, by simp, narrow_none (hc o (by simp)) hn t ht⟩
    | some b1 =>
      rw [hn] at h
      obtain ⟨h1, h2⟩ := narrow_some (hc o (by simp)) hn hb
      by_cases hx : excess o (c.at t) ≤ 0
      · obtain ⟨q, hq, hq'⟩ := fold_none (before := before) (fun o ho => hc o (by simp [ho])) h h1 t ((h2 t).mpr ⟨ht, hx⟩)
        exact ⟨q, by simp [hq], hq'⟩
      · exact ⟨o, by simp, not_le.mp hx⟩

/-- Without `Clear`: the interval only shrinks. -/
theorem narrow_sub {c o : Line} {b b' : ℝ × ℝ} (h : narrow c b o = some b') (hb : b.1 ≤ b.2) :
    b'.1 ≤ b'.2 ∧ b.1 ≤ b'.1 ∧ b'.2 ≤ b.2 := by
  unfold narrow at h
  simp only at h
  split at h
  · split at h
    · exact absurd h (by simp)
    · cases h; exact ⟨hb, le_refl _, le_refl _⟩
  · split at h
    · split at h
      · exact absurd h (by simp)
      · rename_i hlt; cases h; exact ⟨not_lt.mp hlt, le_refl _, min_le_left _ _⟩
    · split at h
      · exact absurd h (by simp)
      · rename_i hlt; cases h; exact ⟨not_lt.mp hlt, le_max_left _ _, le_refl _⟩

theorem fold_sub {c : Line} : ∀ {before : List Line} {b b' : ℝ × ℝ}, before.foldlM (narrow c) b = some b' → b.1 ≤ b.2 →
    b'.1 ≤ b'.2 ∧ b.1 ≤ b'.1 ∧ b'.2 ≤ b.2
  | [], b, b', h, hb => by cases h; exact ⟨hb, le_refl _, le_refl _⟩
  | o :: before, b, b', h, hb => by
    rw [List.foldlM_cons] at h
    cases hn : narrow c b o with
    | none => rw [hn] at h; exact absurd h (by simp)
    | some b1 =>
      rw [hn] at h
      obtain ⟨h1, h2, h3⟩ := narrow_sub hn hb
      obtain ⟨h4, h5, h6⟩ := fold_sub (before := before) h h1
      exact ⟨h4, h2.trans h5, h6.trans h3⟩

theorem within_at {c : Line} (hc : c.Proper) (limit t : ℝ) : Within limit (c.at t) ↔
    (t + inner c.point c.dir) ^ 2 ≤ inner c.point c.dir * inner c.point c.dir + limit * limit - inner c.point c.point := by
  obtain ⟨h1, h2⟩ := hc
  unfold Within Line.at inner Pt.add Pt.smul
  simp only
  rw [h2]
  constructor
  · intro h; linear_combination h - t ^ 2 * h1
  · intro h; linear_combination h + t ^ 2 * h1

theorem mem_roots {d p t : ℝ} (hd : 0 ≤ d) : (-p - Real.sqrt d ≤ t ∧ t ≤ -p + Real.sqrt d) ↔ (t + p) ^ 2 ≤ d := by
  constructor
  · rintro ⟨h1, h2⟩
    have := abs_le.mpr ⟨(by linarith : -Real.sqrt d ≤ t + p), (by linarith : t + p ≤ Real.sqrt d)⟩
    rw [← sq_abs]
    calc |t + p| ^ 2 ≤ Real.sqrt d ^ 2 := by gcongr
      _ = d := Real.sq_sqrt hd
  · intro h
    have := abs_le.mp (Real.abs_le_sqrt h)
    constructor <;> linarith [this.1, this.2]

theorem interval_some {before : List Line} {c : Line} {limit : ℝ} {b : ℝ × ℝ} (hp : c.Proper)
    (hc : ∀ o ∈ before, Clear c.dir o.dir) (h : interval before c limit = some b) :
    b.1 ≤ b.2 ∧ ∀ t, (b.1 ≤ t ∧ t ≤ b.2) ↔ Within limit (c.at t) ∧ ∀ o ∈ before, Allows o (c.at t) := by
  unfold interval at h
  simp only at h
  split at h
  · exact absurd h (by simp)
  · rename_i hd
    obtain ⟨h1, h2⟩ := fold_some hc h (by
      simp only
      linarith [Real.sqrt_nonneg (inner c.point c.dir * inner c.point c.dir + limit * limit - inner c.point c.point)])
    refine ⟨h1, fun t => ?_⟩
    rw [h2, within_at hp]
    simp only
    rw [mem_roots (not_lt.mp hd)]
    rfl

theorem interval_none {before : List Line} {c : Line} {limit : ℝ} (hp : c.Proper)
    (hc : ∀ o ∈ before, Clear c.dir o.dir) (h : interval before c limit = none) (t : ℝ) :
    ¬ (Within limit (c.at t) ∧ ∀ o ∈ before, Allows o (c.at t)) := by
  rintro ⟨hw, ha⟩
  rw [within_at hp] at hw
  unfold interval at h
  simp only at h
  split at h
  · rename_i hd; nlinarith [sq_nonneg (t + inner c.point c.dir)]
  · rename_i hd
    obtain ⟨o, ho, ho'⟩ := fold_none hc h (by
      simp only
      linarith [Real.sqrt_nonneg (inner c.point c.dir * inner c.point c.dir + limit * limit - inner c.point c.point)])
      t ((mem_roots (not_lt.mp hd)).mpr hw)
    exact absurd (ha o ho) (not_le.mpr ho')

/-- What is to be small: the distance from the wish, or the component against it. -/
def cost (wish : Pt) (align : Bool) (v : Pt) : ℝ := if align then -inner wish v else apart2 v wish

theorem choose_mem (c : Line) (wish : Pt) (align : Bool) {b : ℝ × ℝ} (hb : b.1 ≤ b.2) :
    b.1 ≤ choose c wish align b ∧ choose c wish align b ≤ b.2 := by
  unfold choose
  split
  · split <;> constructor <;> linarith
  · simp only
    split
    · exact ⟨le_refl _, hb⟩
    · split
      · exact ⟨hb, le_refl _⟩
      · rename_i h1 h2; exact ⟨not_lt.mp h1, not_lt.mp h2⟩

theorem choose_best {c : Line} (hp : c.Proper) (wish : Pt) (align : Bool) {b : ℝ × ℝ} (t : ℝ) (ht : b.1 ≤ t ∧ t ≤ b.2) :
    cost wish align (c.at (choose c wish align b)) ≤ cost wish align (c.at t) := by
  have hb : b.1 ≤ b.2 := ht.1.trans ht.2
  obtain ⟨h1, h2⟩ := hp
  cases align with
  | true =>
    have e : ∀ s, cost wish true (c.at s) = -inner wish c.point - s * inner wish c.dir := by
      intro s; unfold cost inner Line.at Pt.add Pt.smul; simp only [if_true]; ring
    rw [e, e]
    unfold choose
    simp only [if_true]
    split
    · rename_i hi; nlinarith [ht.2]
    · rename_i hi; nlinarith [ht.1, not_lt.mp hi]
  | false =>
    have e : ∀ s, cost wish false (c.at s) = s ^ 2 - 2 * s * inner c.dir (wish.sub c.point) + apart2 c.point wish := by
      intro s; unfold cost apart2 inner Line.at Pt.add Pt.smul Pt.sub; simp only [Bool.false_eq_true, if_false]
      rw [h2]; linear_combination s ^ 2 * h1
    rw [e, e]
    unfold choose
    simp only [Bool.false_eq_true, if_false]
    generalize inner c.dir (wish.sub c.point) = w
    split
    · rename_i hi; nlinarith [ht.1]
    · split
      · rename_i hi; nlinarith [ht.2]
      · nlinarith [sq_nonneg (t - w)]

theorem applyOnLine_some {before : List Line} {c : Line} {limit : ℝ} {wish r : Pt} {align : Bool} (hp : c.Proper)
    (hz : Flat c.point) (hc : ∀ o ∈ before, Clear c.dir o.dir) (h : applyOnLine before c limit wish align = some r) :
    Possible before limit r ∧ excess c r = 0 ∧
      ∀ v, Possible before limit v → excess c v = 0 → cost wish align r ≤ cost wish align v := by
  unfold applyOnLine at h
  cases hi : interval before c limit with
  | none => rw [hi] at h; exact absurd h (by simp)
  | some b =>
    rw [hi] at h
    simp only [Option.map_some, Option.some.injEq] at h
    change c.at _ = r at h
    obtain ⟨h1, h2⟩ := interval_some hp hc hi
    have hm := (h2 _).mp (choose_mem c wish align h1)
    rw [← h]
    refine ⟨⟨?_, hm.1, hm.2⟩, excess_on _ _, fun v hv hv' => ?_⟩
    · unfold Flat Line.at Pt.add Pt.smul at *
      simp only
      rw [hz, hp.2]; ring
    · have he := at_of_on hp hz hv.1 hv'
      rw [he]
      apply choose_best hp
      rw [h2, ← he]
      exact hv.2

theorem applyOnLine_none {before : List Line} {c : Line} {limit : ℝ} {wish : Pt} {align : Bool} (hp : c.Proper)
    (hz : Flat c.point) (hc : ∀ o ∈ before, Clear c.dir o.dir) (h : applyOnLine before c limit wish align = none) :
    ¬ ∃ v, Possible before limit v ∧ excess c v = 0 := by
  rintro ⟨v, hv, hv'⟩
  unfold applyOnLine at h
  rw [Option.map_eq_none_iff] at h
  have he := at_of_on hp hz hv.1 hv'
  exact interval_none hp hc h _ (by rw [← he]; exact hv.2)

/-- The place at the part `k` of the way from `v` to `w`. -/
def between (k : ℝ) (v w : Pt) : Pt := (v.smul (1 - k)).add (w.smul k)

theorem excess_between (l : Line) (k : ℝ) (v w : Pt) : excess l (between k v w) = (1 - k) * excess l v + k * excess l w := by
  unfold excess between Pt.add Pt.smul; simp only; ring

theorem within_between {limit k : ℝ} {v w : Pt} (h0 : 0 ≤ k) (h1 : k ≤ 1) (hv : Within limit v) (hw : Within limit w) :
    Within limit (between k v w) := by
  unfold Within at *
  have e : (between k v w).x ^ 2 + (between k v w).y ^ 2 + (between k v w).z ^ 2 =
      (1 - k) * (v.x ^ 2 + v.y ^ 2 + v.z ^ 2) + k * (w.x ^ 2 + w.y ^ 2 + w.z ^ 2) -
        k * (1 - k) * ((v.x - w.x) ^ 2 + (v.y - w.y) ^ 2 + (v.z - w.z) ^ 2) := by
    unfold between Pt.add Pt.smul; simp only; ring
  rw [e]
  have h2 : 0 ≤ k * (1 - k) * ((v.x - w.x) ^ 2 + (v.y - w.y) ^ 2 + (v.z - w.z) ^ 2) := by
    have : 0 ≤ 1 - k := by linarith
    positivity
  nlinarith

theorem possible_between {lines : List Line} {limit k : ℝ} {v w : Pt} (h0 : 0 ≤ k) (h1 : k ≤ 1) (hv : Possible lines limit v)
    (hw : Possible lines limit w) : Possible lines limit (between k v w) := by
  refine ⟨?_, within_between h0 h1 hv.2.1 hw.2.1, fun l hl => ?_⟩
  · have a := hv.1; have b := hw.1
    unfold Flat at *
    unfold between Pt.add Pt.smul; simp only; rw [a, b]; ring
  · have a := hv.2.2 l hl; have b := hw.2.2 l hl
    unfold Allows at *
    rw [excess_between]
    nlinarith

theorem cost_between {wish : Pt} {align : Bool} {k : ℝ} {v w : Pt} (h0 : 0 ≤ k) (h1 : k ≤ 1)
    (h : cost wish align w ≤ cost wish align v) : cost wish align (between k v w) ≤ cost wish align v := by
  cases align with
  | true =>
    have e : cost wish true (between k v w) = (1 - k) * cost wish true v + k * cost wish true w := by
      unfold cost inner between Pt.add Pt.smul; simp only [if_true]; ring
    rw [e]; nlinarith
  | false =>
    have e : cost wish false (between k v w) = (1 - k) * cost wish false v + k * cost wish false w
        - k * (1 - k) * apart2 v w := by
      unfold cost apart2 between Pt.add Pt.smul; simp only [Bool.false_eq_true, if_false]; ring
    rw [e]
    have : 0 ≤ k * (1 - k) * apart2 v w := by
      have : 0 ≤ 1 - k := by linarith
      unfold apart2; positivity
    nlinarith

/-- Between a velocity a line allows and one it does not allow there is one on the line. -/
theorem crossing {l : Line} {v w : Pt} (hv : excess l v ≤ 0) (hw : 0 < excess l w) :
    ∃ k, 0 ≤ k ∧ k ≤ 1 ∧ excess l (between k v w) = 0 := by
  have hd : 0 < excess l w - excess l v := by linarith
  refine ⟨-excess l v / (excess l w - excess l v), by apply div_nonneg <;> linarith, ?_, ?_⟩
  · rw [div_le_one hd]; linarith
  · rw [excess_between]; field_simp; ring

/-- The velocity is possible and no possible velocity costs less. -/
def Best (lines : List Line) (limit : ℝ) (wish : Pt) (align : Bool) (v : Pt) : Prop :=
  Possible lines limit v ∧ ∀ u, Possible lines limit u → cost wish align v ≤ cost wish align u

theorem possible_append {lines : List Line} {l : Line} {limit : ℝ} {v : Pt} :
    Possible (lines ++ [l]) limit v ↔ Possible lines limit v ∧ Allows l v := by
  unfold Possible
  simp only [List.mem_append, List.mem_singleton]
  constructor
  · rintro ⟨h1, h2, h3⟩; exact ⟨⟨h1, h2, fun m hm => h3 m (.inl hm)⟩, h3 l (.inr rfl)⟩
  · rintro ⟨⟨h1, h2, h3⟩, h4⟩
    refine ⟨h1, h2, ?_⟩
    rintro m (hm | rfl)
    · exact h3 m hm
    · exact h4

/-- Where the search starts again on a new line, it finds the best velocity for all lines so far, or there is none. -/
theorem next_line {before : List Line} {l : Line} {limit : ℝ} {wish result : Pt} {align : Bool} (hp : l.Proper)
    (hz : Flat l.point) (hc : ∀ o ∈ before, Clear l.dir o.dir) (hb : Best before limit wish align result)
    (hv : 0 < excess l result) :
    (applyOnLine before l limit wish align = none → ¬ ∃ v, Possible (before ++ [l]) limit v) ∧
      ∀ r, applyOnLine before l limit wish align = some r → Best (before ++ [l]) limit wish align r := by
  have key : ∀ v, Possible (before ++ [l]) limit v → ∃ u, Possible before limit u ∧ excess l u = 0 ∧
      cost wish align u ≤ cost wish align v := by
    intro v h
    rw [possible_append] at h
    obtain ⟨k, h0, h1, h2⟩ := crossing h.2 hv
    exact ⟨_, possible_between h0 h1 h.1 hb.1, h2, cost_between h0 h1 (hb.2 v h.1)⟩
  constructor
  · rintro h ⟨v, hv'⟩
    obtain ⟨u, h1, h2, -⟩ := key v hv'
    exact applyOnLine_none hp hz hc h ⟨u, h1, h2⟩
  · intro r h
    obtain ⟨h1, h2, h3⟩ := applyOnLine_some hp hz hc h
    refine ⟨possible_append.mpr ⟨h1, h2.le⟩, fun v hv' => ?_⟩
    obtain ⟨u, h4, h5, h6⟩ := key v hv'
    exact (h3 u h4 h5).trans h6

theorem solveFrom_spec {limit : ℝ} {wish : Pt} {align : Bool} : ∀ {rest before : List Line} {result : Pt},
    (∀ l ∈ before ++ rest, l.Proper ∧ Flat l.point) → AllClear (before ++ rest) → Best before limit wish align result →
    let s := solveFrom limit wish align before rest result
    s.1 ≤ (before ++ rest).length ∧ Best ((before ++ rest).take s.1) limit wish align s.2 ∧
      (s.1 < (before ++ rest).length → ¬ ∃ v, Possible ((before ++ rest).take (s.1 + 1)) limit v)
  | [], before, result, _, _, hb => by
    unfold solveFrom
    simpa using hb
  | l :: rest, before, result, hp, hc, hb => by
    have e : before ++ l :: rest = (before ++ [l]) ++ rest := by simp
    have hl := hp l (by simp)
    have hcl : ∀ o ∈ before, Clear l.dir o.dir := fun o ho => hc l (by simp) o (by simp [ho])
    unfold solveFrom
    by_cases hv : 0 < violation l result
    · rw [violation_eq] at hv
      obtain ⟨n1, n2⟩ := next_line hl.1 hl.2 hcl hb hv
      rw [violation_eq, if_pos hv]
      cases ha : applyOnLine before l limit wish align with
      | none =>
        simp only
        refine ⟨by simp, by simpa using hb, fun _ => ?_⟩
        have : (before ++ l :: rest).take (before.length + 1) = before ++ [l] := by
          rw [List.take_append]; simp
        rw [this]
        exact n1 ha
      | some r =>
        simp only
        rw [e] at hp hc ⊢
        exact solveFrom_spec hp hc (n2 r ha)
    · rw [if_neg hv]
      rw [violation_eq] at hv
      rw [e] at hp hc ⊢
      refine solveFrom_spec hp hc ⟨possible_append.mpr ⟨hb.1, not_lt.mp hv⟩, fun u hu => ?_⟩
      exact hb.2 u (possible_append.mp hu).1

/- The first choice. -/

theorem normalize_some {v u : Pt} (h : normalize v = some u) : 0 < v.norm ∧ u = v.smul (1 / v.norm) := by
  unfold Geometry.normalize at h
  split at h
  · exact absurd h (by simp)
  · rename_i hn
    cases h
    refine ⟨?_, rfl⟩
    have h0 : 0 ≤ v.norm := Real.sqrt_nonneg _
    rw [abs_of_nonneg h0, not_le] at hn
    exact lt_trans (by unfold eps; positivity) hn

theorem norm_sq (v : Pt) : v.norm ^ 2 = v.x ^ 2 + v.y ^ 2 + v.z ^ 2 := by
  unfold Pt.norm; exact Real.sq_sqrt (by positivity)

theorem inner_le {limit n : ℝ} {u w : Pt} (hl : 0 ≤ limit) (hn : 0 ≤ n) (hu : Within limit u)
    (hw : w.x ^ 2 + w.y ^ 2 + w.z ^ 2 = n ^ 2) : inner w u ≤ limit * n := by
  unfold Within at hu
  have h : inner w u ^ 2 ≤ (limit * n) ^ 2 := by
    have e : inner w u ^ 2 = (w.x ^ 2 + w.y ^ 2 + w.z ^ 2) * (u.x ^ 2 + u.y ^ 2 + u.z ^ 2)
        - ((w.x * u.y - w.y * u.x) ^ 2 + (w.x * u.z - w.z * u.x) ^ 2 + (w.y * u.z - w.z * u.y) ^ 2) := by
      unfold inner; ring
    rw [e, hw, mul_pow]
    have : 0 ≤ (w.x * u.y - w.y * u.x) ^ 2 + (w.x * u.z - w.z * u.x) ^ 2 + (w.y * u.z - w.z * u.y) ^ 2 := by positivity
    nlinarith [mul_le_mul_of_nonneg_left hu (sq_nonneg n)]
  exact abs_le_of_sq_le_sq' h (by positivity) |>.2

theorem first_within {limit : ℝ} {wish r : Pt} {align : Bool} (ha : align = true → Within 1 wish)
    (h : firstChoice limit wish align = some r) : Within limit r := by
  unfold firstChoice at h
  split at h
  · rename_i hal
    cases h
    have := ha hal
    unfold Within Pt.smul at *
    simp only
    nlinarith [sq_nonneg limit, mul_le_mul_of_nonneg_left this (sq_nonneg limit)]
  · split at h
    · cases hn : normalize wish with
      | none => rw [hn] at h; exact absurd h (by simp)
      | some u =>
        rw [hn] at h
        obtain ⟨h0, rfl⟩ := normalize_some hn
        cases h
        have h1 := norm_sq wish
        unfold Within Pt.smul
        simp only
        have : (wish.x * (1 / wish.norm) * limit) ^ 2 + (wish.y * (1 / wish.norm) * limit) ^ 2 + (wish.z * (1 / wish.norm) * limit) ^ 2
            = (wish.x ^ 2 + wish.y ^ 2 + wish.z ^ 2) * (1 / wish.norm) ^ 2 * limit ^ 2 := by ring
        rw [this, ← h1]
        apply le_of_eq
        field_simp
    · rename_i hn
      cases h
      unfold inner at hn
      unfold Within
      linarith [not_lt.mp hn]

theorem first_best {limit : ℝ} {wish r : Pt} {align : Bool} (hl : 0 ≤ limit) (hw : Flat wish)
    (ha : align = true → wish.x ^ 2 + wish.y ^ 2 = 1) (h : firstChoice limit wish align = some r) :
    Best [] limit wish align r := by
  have hin := first_within (fun hal => by
    have := ha hal
    unfold Within Flat at *; rw [hw]; linarith) h
  unfold Flat at hw
  unfold firstChoice at h
  split at h
  · rename_i hal
    have h1 := ha hal
    cases h
    refine ⟨⟨by unfold Flat Pt.smul; simp only; rw [hw]; ring, hin, by simp⟩, fun u hu => ?_⟩
    have := inner_le (n := 1) hl (by norm_num) hu.2.1 (show wish.x ^ 2 + wish.y ^ 2 + wish.z ^ 2 = 1 ^ 2 by rw [hw]; linarith)
    have e : cost wish align (wish.smul limit) = -limit := by
      unfold cost inner Pt.smul; rw [if_pos hal]; simp only; rw [hw]; linear_combination -limit * h1
    rw [e]
    unfold cost
    rw [if_pos hal]; linarith
  · rename_i hal
    have e : ∀ v, cost wish align v = apart2 v wish := fun v => by unfold cost; rw [if_neg hal]
    split at h
    · rename_i hlt
      cases hn : normalize wish with
      | none => rw [hn] at h; exact absurd h (by simp)
      | some q =>
        rw [hn] at h
        obtain ⟨h0, rfl⟩ := normalize_some hn
        cases h
        have h1 := norm_sq wish
        refine ⟨⟨by unfold Flat Pt.smul; simp only; rw [hw]; ring, hin, by simp⟩, fun u hu => ?_⟩
        have h2 := inner_le (n := wish.norm) hl h0.le hu.2.1 h1.symm
        rw [e, e]
        have hlt' : limit < wish.norm := by
          apply lt_of_pow_lt_pow_left₀ 2 h0.le
          rw [h1]; unfold inner at hlt; linarith
        generalize wish.norm = n at *
        have h3 : apart2 ((wish.smul (1 / n)).smul limit) wish = (n - limit) ^ 2 := by
          have : apart2 ((wish.smul (1 / n)).smul limit) wish = (wish.x ^ 2 + wish.y ^ 2 + wish.z ^ 2) * (1 / n * limit - 1) ^ 2 := by
            unfold apart2 Pt.smul; simp only; ring
          rw [this, ← h1]; field_simp; ring
        have h4 : apart2 u wish = (u.x ^ 2 + u.y ^ 2 + u.z ^ 2) - 2 * inner wish u + n ^ 2 := by
          unfold apart2 inner; rw [h1]; ring
        rw [h3, h4]
        -- (u - a) . (a - w) >= 0 with a = (limit / n) w
        have h5 : 0 ≤ (u.x - wish.x / n * limit) ^ 2 + (u.y - wish.y / n * limit) ^ 2 + (u.z - wish.z / n * limit) ^ 2 := by positivity
        have h6 : (u.x - wish.x / n * limit) ^ 2 + (u.y - wish.y / n * limit) ^ 2 + (u.z - wish.z / n * limit) ^ 2 =
            (u.x ^ 2 + u.y ^ 2 + u.z ^ 2) - 2 * (limit / n) * inner wish u + limit ^ 2 := by
          have : limit ^ 2 = (wish.x ^ 2 + wish.y ^ 2 + wish.z ^ 2) / n ^ 2 * limit ^ 2 := by rw [← h1]; field_simp
          rw [this]; unfold inner; field_simp; ring
        rw [h6] at h5
        have h7 : limit / n < 1 := by rw [div_lt_one h0]; exact hlt'
        have h8 : limit / n * (limit * n) = limit ^ 2 := by field_simp
        nlinarith [mul_le_mul_of_nonneg_left h2 (show 0 ≤ 1 - limit / n by linarith)]
    · cases h
      refine ⟨⟨hw, hin, by simp⟩, fun u _ => ?_⟩
      rw [e, e]
      have : apart2 wish wish = 0 := by unfold apart2; ring
      rw [this]; unfold apart2; positivity

/-- The search over all lines: the lines before the one that failed, if any, and a best velocity for them. -/
theorem solve_spec {lines : List Line} {limit : ℝ} {wish : Pt} {align : Bool} {s : Nat × Pt} (hl : 0 ≤ limit) (hw : Flat wish)
    (ha : align = true → wish.x ^ 2 + wish.y ^ 2 = 1) (hp : ∀ l ∈ lines, l.Proper ∧ Flat l.point) (hc : AllClear lines)
    (h : solve lines limit wish align = some s) :
    s.1 ≤ lines.length ∧ Best (lines.take s.1) limit wish align s.2 ∧
      (s.1 < lines.length → ¬ ∃ v, Possible (lines.take (s.1 + 1)) limit v) := by
  unfold solve at h
  cases hf : firstChoice limit wish align with
  | none => rw [hf] at h; exact absurd h (by simp)
  | some r =>
    rw [hf] at h
    cases h
    exact solveFrom_spec (before := []) hp hc (first_best hl hw ha hf)

/- The lines between the new line and the earlier ones. -/

theorem unit_eq {a b : Pt} (ha : a.x ^ 2 + a.y ^ 2 = 1) (hb : b.x ^ 2 + b.y ^ 2 = 1) (hc : a.x * b.y - a.y * b.x = 0)
    (hi : 0 < a.x * b.x + a.y * b.y) : a.x = b.x ∧ a.y = b.y := by
  have h1 : (a.x * b.x + a.y * b.y) ^ 2 = 1 := by
    have : (a.x * b.x + a.y * b.y) ^ 2 = (a.x ^ 2 + a.y ^ 2) * (b.x ^ 2 + b.y ^ 2) - (a.x * b.y - a.y * b.x) ^ 2 := by ring
    rw [this, ha, hb, hc]; norm_num
  have h2 : a.x * b.x + a.y * b.y = 1 := by nlinarith
  have h3 : (a.x - b.x) ^ 2 + (a.y - b.y) ^ 2 = 0 := by nlinarith
  constructor <;> nlinarith [sq_nonneg (a.x - b.x), sq_nonneg (a.y - b.y)]

theorem unit_opposite {a b : Pt} (ha : a.x ^ 2 + a.y ^ 2 = 1) (hb : b.x ^ 2 + b.y ^ 2 = 1) (hc : a.x * b.y - a.y * b.x = 0)
    (hi : ¬ 0 < a.x * b.x + a.y * b.y) : b.x = -a.x ∧ b.y = -a.y := by
  have h1 : (a.x * b.x + a.y * b.y) ^ 2 = 1 := by
    have : (a.x * b.x + a.y * b.y) ^ 2 = (a.x ^ 2 + a.y ^ 2) * (b.x ^ 2 + b.y ^ 2) - (a.x * b.y - a.y * b.x) ^ 2 := by ring
    rw [this, ha, hb, hc]; norm_num
  have h2 : a.x * b.x + a.y * b.y = -1 := by nlinarith
  have h3 : (a.x + b.x) ^ 2 + (a.y + b.y) ^ 2 = 0 := by nlinarith
  constructor <;> nlinarith [sq_nonneg (a.x + b.x), sq_nonneg (a.y + b.y)]

theorem project_ok {li lj : Line} (hi : li.Proper) (hj : lj.Proper) : ∃ q, project li lj = some q := by
  have key : ∀ e : ℝ, 0 < e → e ≤ (lj.dir.x - li.dir.x) ^ 2 + (lj.dir.y - li.dir.y) ^ 2 → (1 / 2 ^ 52) ^ 2 < e →
      ∃ d, normalize (lj.dir.sub li.dir) = some d := by
    intro e _ h2 h3
    unfold Geometry.normalize
    have h0 : 0 ≤ (lj.dir.sub li.dir).norm := Real.sqrt_nonneg _
    have h4 : ¬ |(lj.dir.sub li.dir).norm| ≤ eps := by
      rw [abs_of_nonneg h0, not_le]
      apply lt_of_pow_lt_pow_left₀ 2 h0
      rw [norm_sq]
      unfold eps Pt.sub
      simp only
      nlinarith [sq_nonneg (lj.dir.z - li.dir.z)]
    rw [if_neg h4]
    exact ⟨_, rfl⟩
  unfold project
  simp only
  obtain ⟨i1, i2⟩ := hi
  obtain ⟨j1, j2⟩ := hj
  split
  · split
    · exact ⟨_, rfl⟩
    · rename_i hin
      obtain ⟨d, hd⟩ := key 2 (by norm_num) (by
        unfold inner at hin; rw [i2, j2] at hin
        nlinarith [not_lt.mp hin]) (by norm_num)
      rw [hd]; exact ⟨_, rfl⟩
  · rename_i hdet
    obtain ⟨d, hd⟩ := key (orcaEps ^ 2) (by have := eps_pos; positivity) (by
      have h1 : cross2d li.dir lj.dir ^ 2 ≤ (lj.dir.x - li.dir.x) ^ 2 + (lj.dir.y - li.dir.y) ^ 2 := by
        have : cross2d li.dir lj.dir ^ 2 = (li.dir.x ^ 2 + li.dir.y ^ 2) * ((lj.dir.x - li.dir.x) ^ 2 + (lj.dir.y - li.dir.y) ^ 2)
            - (li.dir.x * (lj.dir.x - li.dir.x) + li.dir.y * (lj.dir.y - li.dir.y)) ^ 2 := by unfold cross2d; ring
        rw [this, i1]; nlinarith [sq_nonneg (li.dir.x * (lj.dir.x - li.dir.x) + li.dir.y * (lj.dir.y - li.dir.y))]
      have h2 := not_le.mp hdet
      have h3 : orcaEps ^ 2 < cross2d li.dir lj.dir ^ 2 := by
        rw [← sq_abs (cross2d _ _)]
        have := eps_pos
        gcongr
      linarith) (by unfold orcaEps; norm_num)
    rw [hd]; exact ⟨_, rfl⟩

theorem project_none {li lj : Line} (hi : li.Proper) (hj : lj.Proper) (hc : Clear li.dir lj.dir) (h : project li lj = some none) :
    li.dir.x = lj.dir.x ∧ li.dir.y = lj.dir.y := by
  unfold project at h
  simp only at h
  rcases clear_cases hc with h0 | h0
  · rw [if_pos (by rw [h0, abs_zero]; exact eps_pos.le)] at h
    split at h
    · rename_i hin
      unfold inner at hin; rw [hi.2] at hin
      exact unit_eq hi.1 hj.1 h0 (by linarith)
    · cases hn : normalize (lj.dir.sub li.dir) <;> rw [hn] at h <;> exact absurd h (by simp)
  · rw [if_neg h0] at h
    cases hn : normalize (lj.dir.sub li.dir) <;> rw [hn] at h <;> exact absurd h (by simp)

/-- Proper and level. -/
def Line.Good (l : Line) : Prop := l.Proper ∧ Flat l.point

theorem project_some {li lj q : Line} (hi : li.Good) (hj : lj.Good) (hc : Clear li.dir lj.dir)
    (h : project li lj = some (some q)) :
    q.Good ∧ (∀ v, Allows q v ↔ excess lj v ≤ excess li v) ∧
      ∃ k, q.dir = ⟨(lj.dir.x - li.dir.x) * k, (lj.dir.y - li.dir.y) * k, 0⟩ := by
  obtain ⟨⟨i1, i2⟩, i3⟩ := hi
  obtain ⟨⟨j1, j2⟩, j3⟩ := hj
  unfold Flat at i3 j3
  -- for any place where both lines are equally far
  have key : ∀ (p d : Pt), normalize (lj.dir.sub li.dir) = some d → p.z = 0 → excess lj p = excess li p →
      (Line.mk p d).Good ∧ (∀ v, Allows ⟨p, d⟩ v ↔ excess lj v ≤ excess li v) ∧
      ∃ k, d = ⟨(lj.dir.x - li.dir.x) * k, (lj.dir.y - li.dir.y) * k, 0⟩ := by
    intro p d hd hz he
    obtain ⟨h0, rfl⟩ := normalize_some hd
    have h1 := norm_sq (lj.dir.sub li.dir)
    generalize (lj.dir.sub li.dir).norm = n at *
    unfold Pt.sub at h1
    simp only at h1
    rw [i2, j2] at h1
    refine ⟨⟨⟨?_, ?_⟩, hz⟩, fun v => ?_, 1 / n, ?_⟩
    · unfold Pt.smul Pt.sub
      simp only
      have : ((lj.dir.x - li.dir.x) * (1 / n)) ^ 2 + ((lj.dir.y - li.dir.y) * (1 / n)) ^ 2 =
        ((lj.dir.x - li.dir.x) ^ 2 + (lj.dir.y - li.dir.y) ^ 2 + (0 - 0) ^ 2) * (1 / n) ^ 2 := by ring
      rw [this, ← h1]; field_simp
    · unfold Pt.smul Pt.sub; simp only; rw [i2, j2]; ring
    · have e : excess ⟨p, (lj.dir.sub li.dir).smul (1 / n)⟩ v = (excess lj v - excess li v) / n := by
        unfold excess at he ⊢
        unfold Pt.smul Pt.sub
        simp only
        field_simp
        linear_combination -he
      unfold Allows
      rw [e, div_nonpos_iff]
      constructor
      · rintro (⟨_, h'⟩ | ⟨h', _⟩) <;> linarith
      · intro h'; exact .inr ⟨by linarith, h0.le⟩
    · unfold Pt.smul Pt.sub; ext <;> simp only; rw [i2, j2]; ring
  unfold project at h
  simp only at h
  rcases clear_cases hc with h0 | h0
  · rw [if_pos (by rw [h0, abs_zero]; exact eps_pos.le)] at h
    split at h
    · exact absurd h (by simp)
    · rename_i hin
      cases hn : normalize (lj.dir.sub li.dir) with
      | none => rw [hn] at h; exact absurd h (by simp)
      | some d =>
        rw [hn] at h
        cases h
        unfold inner at hin; rw [i2] at hin
        obtain ⟨ox, oy⟩ := unit_opposite i1 j1 h0 (by intro hc'; apply hin; linarith)
        refine key _ d hn ?_ ?_
        · unfold Pt.smul Pt.add; simp only; rw [i3, j3]; ring
        · unfold excess Pt.smul Pt.add; simp only; rw [ox, oy]; ring
  · rw [if_neg h0] at h
    have hne : cross2d li.dir lj.dir ≠ 0 := by
      intro hz; apply h0; rw [hz, abs_zero]; exact eps_pos.le
    cases hn : normalize (lj.dir.sub li.dir) with
    | none => rw [hn] at h; exact absurd h (by simp)
    | some d =>
      rw [hn] at h
      cases h
      refine key _ d hn ?_ ?_
      · unfold Pt.smul Pt.add; simp only; rw [i3, i2]; ring
      · change excess lj (li.at _) = excess li (li.at _)
        rw [excess_on, excess_at]; field_simp; ring

theorem projections_spec {li : Line} (hi : li.Good) {r : Pt} : ∀ {before : List Line}, (∀ j ∈ before, j.Good ∧ Clear li.dir j.dir) →
    (∀ j ∈ before, excess j r < excess li r) →
    ∃ ps, projections li before = some ps ∧ (∀ q ∈ ps, q.Good) ∧
      (∀ v, (∀ q ∈ ps, Allows q v) ↔ ∀ j ∈ before, excess j v ≤ excess li v) ∧
      ∀ q ∈ ps, ∃ j ∈ before, ∃ k, q.dir = ⟨(j.dir.x - li.dir.x) * k, (j.dir.y - li.dir.y) * k, 0⟩
  | [], _, _ => ⟨[], rfl, by simp, by simp, by simp⟩
  | j :: before, hb, hr => by
    obtain ⟨ps, h1, h2, h3, h4⟩ := projections_spec hi (r := r) (before := before) (fun k hk => hb k (by simp [hk]))
      (fun k hk => hr k (by simp [hk]))
    have hj := hb j (by simp)
    obtain ⟨q, hq⟩ := project_ok hi.1 hj.1.1
    unfold projections at h1 ⊢
    rw [List.mapM_cons, hq]
    cases hm : before.mapM (project li) with
    | none => rw [hm] at h1; exact absurd h1 (by simp)
    | some qs =>
      rw [hm] at h1
      simp only [Option.map_some, Option.some.injEq] at h1
      cases q with
      | none =>
        obtain ⟨ex, ey⟩ := project_none hi.1 hj.1.1 hj.2 hq
        refine ⟨ps, by simpa using h1, h2, fun v => ?_, fun q hq' => ?_⟩
        · rw [h3]
          simp only [List.mem_cons, forall_eq_or_imp]
          refine ⟨fun h => ⟨?_, h⟩, fun h => h.2⟩
          have := hr j (by simp)
          unfold excess at this ⊢
          rw [← ex, ← ey] at this ⊢
          linarith
        · obtain ⟨k, hk, hk'⟩ := h4 q hq'
          exact ⟨k, by simp [hk], hk'⟩
      | some q =>
        obtain ⟨g1, g2, g3⟩ := project_some hi hj.1 hj.2 hq
        refine ⟨q :: ps, by simpa using h1, ?_, fun v => ?_, ?_⟩
        · intro q' hq'
          rcases List.mem_cons.mp hq' with rfl | hq'
          · exact g1
          · exact h2 q' hq'
        · simp only [List.mem_cons, forall_eq_or_imp]
          rw [h3, g2]
        · intro q' hq'
          rcases List.mem_cons.mp hq' with rfl | hq'
          · exact ⟨j, by simp, g3⟩
          · obtain ⟨k, hk, hk'⟩ := h4 q' hq'
            exact ⟨k, by simp [hk], hk'⟩

/- The worst excess. -/

/-- Linear functions that are positive at 0 stay so until one of them is zero. -/
theorem first_zero : ∀ (l : List (ℝ × ℝ)), (∀ p ∈ l, 0 < p.1) →
    ∃ k, 0 ≤ k ∧ k ≤ 1 ∧ (∀ p ∈ l, 0 ≤ (1 - k) * p.1 + k * p.2) ∧ (k = 1 ∨ ∃ p ∈ l, (1 - k) * p.1 + k * p.2 = 0)
  | [], _ => ⟨1, by norm_num, le_refl _, by simp, .inl rfl⟩
  | q :: l, h => by
    obtain ⟨k, h0, h1, h2, h3⟩ := first_zero l (fun p hp => h p (by simp [hp]))
    have hq := h q (by simp)
    by_cases hx : 0 ≤ (1 - k) * q.1 + k * q.2
    · refine ⟨k, h0, h1, ?_, ?_⟩
      · intro p hp
        rcases List.mem_cons.mp hp with rfl | hp
        · exact hx
        · exact h2 p hp
      · rcases h3 with h3 | ⟨p, hp, hp'⟩
        · exact .inl h3
        · exact .inr ⟨p, by simp [hp], hp'⟩
    · have hx' := not_le.mp hx
      have hd : 0 < q.1 - q.2 := by nlinarith
      have hle : q.1 / (q.1 - q.2) ≤ k := by rw [div_le_iff₀ hd]; nlinarith
      have hn : 0 ≤ q.1 / (q.1 - q.2) := div_nonneg hq.le hd.le
      refine ⟨q.1 / (q.1 - q.2), hn, hle.trans h1, ?_, .inr ⟨q, by simp, by field_simp; ring⟩⟩
      intro p hp
      rcases List.mem_cons.mp hp with rfl | hp
      · apply le_of_eq; field_simp; ring
      · have a := h2 p hp
        have b := h p (by simp [hp])
        generalize q.1 / (q.1 - q.2) = m at *
        rcases eq_or_lt_of_le h0 with h0 | h0
        · have : m = 0 := le_antisymm (by rw [h0]; exact hle) hn
          rw [this]; linarith
        · have e : k * ((1 - m) * p.1 + m * p.2) = (k - m) * p.1 + m * ((1 - k) * p.1 + k * p.2) := by ring
          have : 0 ≤ k * ((1 - m) * p.1 + m * p.2) := by
            rw [e]
            have := mul_nonneg (sub_nonneg.mpr hle) b.le
            have := mul_nonneg hn a
            linarith
          exact nonneg_of_mul_nonneg_right this h0

/-- The state of the second search: no line is exceeded by more than `d`, and nothing does better than `d`. -/
def Inv (before : List Line) (limit d : ℝ) (r : Pt) : Prop :=
  Possible [] limit r ∧ 0 ≤ d ∧ (∀ j ∈ before, excess j r ≤ d) ∧
    ∀ u, Possible [] limit u → d ≤ 0 ∨ ∃ j ∈ before, d ≤ excess j u

theorem step_update {before : List Line} {l : Line} {limit d : ℝ} {r : Pt} (hl : 0 ≤ limit)
    (hg : ∀ j ∈ before ++ [l], j.Good) (hc : AllClear (before ++ [l])) (hc' : ClearDifferences (before ++ [l]))
    (hn : ¬ ∃ v, Possible (before ++ [l]) limit v) (hinv : Inv before limit d r) (hv : d < excess l r) :
    ∃ ps s, projections l before = some ps ∧ solve ps limit ⟨-l.dir.y, l.dir.x, 0⟩ true = some s ∧ ¬ s.1 < ps.length ∧
      Inv (before ++ [l]) limit (excess l s.2) s.2 := by
  obtain ⟨i1, i2, i3, i4⟩ := hinv
  have hlg := hg l (by simp)
  obtain ⟨ps, p1, p2, p3, p4⟩ := projections_spec hlg (r := r) (before := before)
    (fun j hj => ⟨hg j (by simp [hj]), hc l (by simp) j (by simp [hj])⟩) (fun j hj => (i3 j hj).trans_lt hv)
  have hs : solve ps limit ⟨-l.dir.y, l.dir.x, 0⟩ true =
      some (solveFrom limit ⟨-l.dir.y, l.dir.x, 0⟩ true [] ps (Pt.smul ⟨-l.dir.y, l.dir.x, 0⟩ limit)) := rfl
  generalize hse : solveFrom limit ⟨-l.dir.y, l.dir.x, 0⟩ true [] ps (Pt.smul ⟨-l.dir.y, l.dir.x, 0⟩ limit) = s at hs
  have hclear : AllClear ps := by
    intro a ha b hb
    obtain ⟨ja, hja, ka, ea⟩ := p4 a ha
    obtain ⟨jb, hjb, kb, eb⟩ := p4 b hb
    have ua := (p2 a ha).1.1
    have ub := (p2 b hb).1.1
    rw [ea] at ua ⊢
    rw [eb] at ub ⊢
    exact hc' l (by simp) ja (by simp [hja]) jb (by simp [hjb]) ka kb ua ub
  obtain ⟨s1, s2, s3⟩ := solve_spec hl (by rfl) (fun _ => by simp only; linarith [hlg.1.1]) p2 hclear hs
  have hall : ¬ s.1 < ps.length := by
    intro hlt
    apply s3 hlt
    refine ⟨r, i1.1, i1.2.1, fun q hq => ?_⟩
    exact (p3 r).mpr (fun j hj => (i3 j hj).trans hv.le) q (List.mem_of_mem_take hq)
  rw [List.take_of_length_le (not_lt.mp hall)] at s2
  obtain ⟨b1, b2⟩ := s2
  have hcost : ∀ v, cost ⟨-l.dir.y, l.dir.x, 0⟩ true v = excess l v + (l.dir.y * l.point.x - l.dir.x * l.point.y) := by
    intro v; unfold cost inner excess; simp only [if_true]; ring
  have hbest : ∀ u, Possible [] limit u → (∀ j ∈ before, excess j u ≤ excess l u) → excess l s.2 ≤ excess l u := by
    intro u hu hu'
    have := b2 u ⟨hu.1, hu.2.1, (p3 u).mpr hu'⟩
    rw [hcost, hcost] at this
    linarith
  have hbelow := (p3 s.2).mp b1.2.2
  have hpos : 0 < excess l s.2 := by
    by_contra hneg
    apply hn
    refine ⟨s.2, b1.1, b1.2.1, fun j hj => ?_⟩
    rcases List.mem_append.mp hj with hj | hj
    · exact (hbelow j hj).trans (not_lt.mp hneg)
    · rw [List.mem_singleton.mp hj]; exact not_lt.mp hneg
  refine ⟨ps, s, p1, hs, hall, ⟨b1.1, b1.2.1, by simp⟩, hpos.le, ?_, fun u hu => .inr ?_⟩
  · intro j hj
    rcases List.mem_append.mp hj with hj | hj
    · exact hbelow j hj
    · rw [List.mem_singleton.mp hj]
  · by_cases hu' : ∀ j ∈ before, excess j u ≤ excess l u
    · exact ⟨l, by simp, hbest u hu hu'⟩
    · obtain ⟨k, k0, k1, k2, k3⟩ := first_zero (before.map fun j => (excess l r - excess j r, excess l u - excess j u)) (by
        intro p hp
        obtain ⟨j, hj, rfl⟩ := List.mem_map.mp hp
        have := i3 j hj
        simp only; linarith)
      have hy : Possible [] limit (between k r u) := possible_between k0 k1 i1 hu
      have hyf : ∀ j ∈ before, excess j (between k r u) ≤ excess l (between k r u) := by
        intro j hj
        have := k2 _ (List.mem_map_of_mem hj)
        simp only at this
        rw [excess_between, excess_between]; linarith
      have h1 := hbest _ hy hyf
      rcases k3 with k3 | ⟨p, hp, hp'⟩
      · exfalso
        apply hu'
        intro j hj
        have := k2 _ (List.mem_map_of_mem hj)
        simp only at this
        rw [k3] at this; linarith
      · obtain ⟨j, hj, rfl⟩ := List.mem_map.mp hp
        simp only at hp'
        have h2 : excess l (between k r u) = (1 - k) * excess j r + k * excess j u := by
          rw [excess_between]; linarith
        have h3 := i3 j hj
        rw [h2] at h1
        have h4 : (1 - k) * excess j r ≤ (1 - k) * d := mul_le_mul_of_nonneg_left h3 (by linarith)
        rcases i4 u hu with i4 | ⟨m, hm, hm'⟩
        · have : d = 0 := le_antisymm i4 i2
          rw [this, mul_zero] at h4
          refine ⟨j, by simp [hj], ?_⟩
          have h5 : 0 < excess j u := by
            by_contra hneg
            nlinarith [not_lt.mp hneg]
          nlinarith
        · by_cases hjm : excess m u ≤ excess j u
          · exact ⟨j, by simp [hj], by nlinarith⟩
          · refine ⟨m, by simp [hm], by nlinarith [not_le.mp hjm]⟩

theorem resolveFrom_spec {limit : ℝ} (hl : 0 ≤ limit) : ∀ {rest before : List Line} {d : ℝ} {r : Pt},
    (∀ j ∈ before ++ rest, j.Good) → AllClear (before ++ rest) → ClearDifferences (before ++ rest) →
    (¬ ∃ v, Possible (before ++ rest.take 1) limit v) → Inv before limit d r →
    ∃ v e, resolveFrom limit before rest d r = some v ∧ Inv (before ++ rest) limit e v
  | [], before, d, r, _, _, _, _, hi => ⟨r, d, rfl, by simpa using hi⟩
  | l :: rest, before, d, r, hg, hc, hc', hn, hi => by
    have e : before ++ l :: rest = (before ++ [l]) ++ rest := by simp
    have hn' : ¬ ∃ v, Possible (before ++ [l] ++ rest.take 1) limit v := by
      rintro ⟨v, h1, h2, h3⟩
      exact hn ⟨v, h1, h2, fun j hj => h3 j (by simp at hj ⊢; tauto)⟩
    simp only [List.take_succ_cons, List.take_zero] at hn
    rw [e] at hg hc hc' ⊢
    unfold resolveFrom
    rw [violation_eq]
    split
    · rename_i hv
      obtain ⟨ps, s, h1, h2, h3, h4⟩ := step_update hl (fun j hj => hg j (by simp at hj ⊢; tauto))
        (fun a ha b hb => hc a (by simp at ha ⊢; tauto) b (by simp at hb ⊢; tauto))
        (fun a ha b hb c hc2 => hc' a (by simp at ha ⊢; tauto) b (by simp at hb ⊢; tauto) c (by simp at hc2 ⊢; tauto)) hn hi hv
      rw [h1]
      simp only [Option.bind_eq_bind, Option.bind_some]
      rw [h2]
      simp only [Option.bind_some]
      rw [if_neg h3, violation_eq]
      exact resolveFrom_spec hl hg hc hc' hn' h4
    · rename_i hv
      refine resolveFrom_spec hl hg hc hc' hn' ⟨hi.1, hi.2.1, ?_, fun u hu => ?_⟩
      · intro j hj
        rcases List.mem_append.mp hj with hj | hj
        · exact hi.2.2.1 j hj
        · rw [List.mem_singleton.mp hj]; exact not_lt.mp hv
      · rcases hi.2.2.2 u hu with h | ⟨j, hj, hj'⟩
        · exact .inl h
        · exact .inr ⟨j, by simp [hj], hj'⟩

end Verif.Orca
