import Verif.Geometry.CurveTheorems
import Mathlib.Topology.Order.OrderClosed
import Mathlib.Topology.Piecewise
import Mathlib.Topology.Instances.Real.Lemmas
/-
C88 (a spline goes through its control points without jumps), C89 (place on the spline and place on one of its curves).
-/
namespace Verif.Geometry
open Classical

/-! ### Lengths -/

theorem foldl_add_length (l : List Curve) (z : ℝ) : l.foldl (fun t c => t + c.length) z = z + (l.map Curve.length).sum := by
  induction l generalizing z with
  | nil => simp
  | cons c l ih => rw [List.foldl_cons, ih, List.map_cons, List.sum_cons, add_assoc]

theorem foldl_add_nonneg (l : List Nat) (g : Nat → ℝ) (z : ℝ) (hg : ∀ i, 0 ≤ g i) :
    z ≤ l.foldl (fun t i => t + g i) z ∧ ∀ i ∈ l, z + g i ≤ l.foldl (fun t i => t + g i) z := by
  induction l generalizing z with
  | nil => simp
  | cons c l ih =>
    rw [List.foldl_cons]
    obtain ⟨h1, h2⟩ := ih (z + g c)
    have hc := hg c
    refine ⟨by linarith, ?_⟩
    intro i hi
    rcases List.mem_cons.mp hi with rfl | hi
    · exact h1
    · have := h2 i hi; linarith

theorem lengthWith_sample (k : Curve) (n : Nat) :
    0 ≤ k.lengthWith n ∧ ∀ i : Nat, i < n → Real.sqrt ((k.tangent (i / n)).x ^ 2 + (k.tangent (i / n)).y ^ 2 + (k.tangent (i / n)).z ^ 2) * (1 / n) ≤ k.lengthWith n := by
  unfold Curve.lengthWith
  simp only
  have key := foldl_add_nonneg (List.range n) (fun i =>
    Real.sqrt ((3 * ((i : ℝ) * (1 / n)) * ((i : ℝ) * (1 / n)) * k.a.x + 2 * ((i : ℝ) * (1 / n)) * k.b.x + k.c.x) *
        (3 * ((i : ℝ) * (1 / n)) * ((i : ℝ) * (1 / n)) * k.a.x + 2 * ((i : ℝ) * (1 / n)) * k.b.x + k.c.x) +
      (3 * ((i : ℝ) * (1 / n)) * ((i : ℝ) * (1 / n)) * k.a.y + 2 * ((i : ℝ) * (1 / n)) * k.b.y + k.c.y) *
        (3 * ((i : ℝ) * (1 / n)) * ((i : ℝ) * (1 / n)) * k.a.y + 2 * ((i : ℝ) * (1 / n)) * k.b.y + k.c.y) +
      (3 * ((i : ℝ) * (1 / n)) * ((i : ℝ) * (1 / n)) * k.a.z + 2 * ((i : ℝ) * (1 / n)) * k.b.z + k.c.z) *
        (3 * ((i : ℝ) * (1 / n)) * ((i : ℝ) * (1 / n)) * k.a.z + 2 * ((i : ℝ) * (1 / n)) * k.b.z + k.c.z)) *
      (1 / n)) 0 (fun i => mul_nonneg (Real.sqrt_nonneg _) (by positivity))
  refine ⟨key.1, fun i hi => ?_⟩
  have h := key.2 i (List.mem_range.mpr hi)
  rw [zero_add] at h
  refine le_trans (le_of_eq ?_) h
  simp only [Curve.tangent]
  congr 2
  ring

theorem length_sample (k : Curve) :
    0 ≤ k.length ∧ ∀ i : Nat, i < 100 → Real.sqrt ((k.tangent (i / 100)).x ^ 2 + (k.tangent (i / 100)).y ^ 2 + (k.tangent (i / 100)).z ^ 2) * (1 / 100) ≤ k.length := by
  have h := lengthWith_sample k 100
  rw [Nat.cast_ofNat] at h
  exact h

/-- The length of a curve is zero only if the curve stays at one point. -/
theorem length_pos_of_ne (k : Curve) (h : k.point 0 ≠ k.point 1) : 0 < k.length := by
  obtain ⟨h0, h1⟩ := length_sample k
  refine lt_of_le_of_ne h0 fun hz => h ?_
  have hs : ∀ i : Nat, i < 100 → (k.tangent (i / 100)).x = 0 ∧ (k.tangent (i / 100)).y = 0 ∧ (k.tangent (i / 100)).z = 0 := by
    intro i hi
    have h2 := h1 i hi
    rw [← hz] at h2
    have h3 : Real.sqrt ((k.tangent (i / 100)).x ^ 2 + (k.tangent (i / 100)).y ^ 2 + (k.tangent (i / 100)).z ^ 2) = 0 :=
      le_antisymm (by linarith) (Real.sqrt_nonneg _)
    rw [Real.sqrt_eq_zero (by positivity)] at h3
    have hx := sq_nonneg (k.tangent (i / 100)).x
    have hy := sq_nonneg (k.tangent (i / 100)).y
    have hzz := sq_nonneg (k.tangent (i / 100)).z
    refine ⟨?_, ?_, ?_⟩ <;> apply pow_eq_zero_iff (two_ne_zero) |>.mp <;> linarith
  have g0 := hs 0 (by norm_num)
  have g1 := hs 1 (by norm_num)
  have g2 := hs 2 (by norm_num)
  simp only [Curve.tangent, Nat.cast_zero, Nat.cast_one, Nat.cast_ofNat] at g0 g1 g2
  obtain ⟨x0, y0, z0⟩ := g0
  obtain ⟨x1, y1, z1⟩ := g1
  obtain ⟨x2, y2, z2⟩ := g2
  norm_num at x0 y0 z0
  unfold Curve.point
  simp only [Pt.mk.injEq]
  refine ⟨?_, ?_, ?_⟩ <;> linarith

/-! ### The curve that belongs to a place -/

attribute [local irreducible] Curve.lengthWith

/-- Value along a chain of curves: on the first curve as long as `s` is below its length, then on the others. -/
noncomputable def along {α : Type} (f : Curve → ℝ → α) (c : Curve) : List Curve → ℝ → α
  | [], s => f c (s / c.length)
  | c' :: l, s => if s < c.length then f c (s / c.length) else along f c' l (s - c.length)

theorem along_indexFrom {α : Type} (f : Curve → ℝ → α) (c : Curve) (l : List Curve) (s prev : ℝ) (i : Nat)
    (hp : ∀ x ∈ c :: l, 0 < x.length) (h0 : prev ≤ s) (h1 : s < prev + ((c :: l).map Curve.length).sum) :
    ∃ j v x, indexFrom s (c :: l) i prev = some (i + j, v) ∧ (c :: l)[j]? = some x ∧ f x (v / x.length) = along f c l (s - prev) ∧
      prev + (((c :: l).take j).map Curve.length).sum + v = s ∧ 0 ≤ v ∧ v < x.length := by
  induction l generalizing c prev i with
  | nil =>
    have h1' : s < prev + c.length := by simpa using h1
    exact ⟨0, s - prev, c, by simp [indexFrom, h0, h1'], rfl, rfl, by simp, by linarith, by linarith⟩
  | cons c' l ih =>
    by_cases hc : s < prev + c.length
    · refine ⟨0, s - prev, c, by simp [indexFrom, h0, hc], rfl, ?_, by simp, by linarith, by linarith⟩
      unfold along; rw [if_pos (by linarith)]
    · have hc' := not_lt.mp hc
      obtain ⟨j, v, x, e1, e2, e3, e4, e5⟩ := ih c' (prev + c.length) (i + 1) (fun x hx => hp x (List.mem_cons_of_mem _ hx)) hc'
        (by rw [List.map_cons, List.sum_cons] at h1; linarith)
      refine ⟨j + 1, v, x, ?_, by simpa using e2, ?_, ?_, e5⟩
      · unfold indexFrom
        rw [if_neg (by intro h; exact absurd h.2 hc), e1]
        simp only [Option.some.injEq, Prod.mk.injEq, and_true]; omega
      · rw [e3]
        conv_rhs => unfold along
        rw [if_neg (by linarith)]; congr 1; ring
      · rw [List.take_succ_cons, List.map_cons, List.sum_cons]; linarith

theorem along_beyond {α : Type} (f : Curve → ℝ → α) (c : Curve) (l : List Curve) (s : ℝ)
    (hp : ∀ x ∈ c :: l, 0 < x.length) (h1 : ((c :: l).map Curve.length).sum ≤ s) :
    ∃ x, (c :: l).getLast? = some x ∧ along f c l s = f x ((s - (((c :: l).map Curve.length).sum - x.length)) / x.length) := by
  induction l generalizing c s with
  | nil => exact ⟨c, rfl, by simp [along]⟩
  | cons c' l ih =>
    rw [List.map_cons, List.sum_cons] at h1
    have hs : 0 ≤ ((c' :: l).map Curve.length).sum :=
      List.sum_nonneg (by
        intro x hx
        obtain ⟨y, hy, rfl⟩ := List.mem_map.mp hx
        exact (hp y (List.mem_cons_of_mem _ hy)).le)
    obtain ⟨x, e1, e2⟩ := ih c' (s - c.length) (fun x hx => hp x (List.mem_cons_of_mem _ hx)) (by linarith)
    refine ⟨x, by rw [List.getLast?_cons_cons]; exact e1, ?_⟩
    unfold along
    rw [if_neg (by linarith), e2, List.map_cons (a := c), List.sum_cons (a := c.length)]
    congr 2; ring

/-- What the theorems need of a spline: at least one curve, curves of positive length, total length the sum of the lengths. -/
structure Chain (k : Spline) (c : Curve) (l : List Curve) : Prop where
  curves : k.curves = c :: l
  total : k.total = ((c :: l).map Curve.length).sum
  pos : ∀ x ∈ c :: l, 0 < x.length

theorem onCurve_along {α : Type} {k : Spline} {c : Curve} {l : List Curve} (h : Chain k c l) (f : Curve → ℝ → α) (s : ℝ) :
    k.onCurve f s = some (along f c l s) := by
  unfold Spline.onCurve Spline.index
  by_cases h0 : s < 0
  · rw [if_pos h0, h.curves]
    simp only [List.getElem?_cons_zero, Option.map_some, Option.some.injEq]
    cases l with
    | nil => rfl
    | cons c' l =>
      unfold along
      rw [if_pos (lt_trans h0 (h.pos c (List.mem_cons_self ..)))]
  · rw [if_neg h0]
    by_cases h1 : k.total ≤ s
    · rw [if_pos h1]
      obtain ⟨x, e1, e2⟩ := along_beyond f c l s h.pos (by rw [← h.total]; exact h1)
      rw [h.curves, e1]
      simp only
      rw [← List.getLast?_eq_getElem?, e1, e2, h.total]
      rfl
    · rw [if_neg h1]
      obtain ⟨j, v, x, e1, e2, e3, -⟩ := along_indexFrom f c l s 0 0 h.pos (not_lt.mp h0) (by rw [zero_add, ← h.total]; exact not_le.mp h1)
      rw [h.curves, e1]
      simp only [zero_add]
      rw [e2, Option.map_some, e3, sub_zero]

/-! ### Construction of the spline -/

/-- The coefficients of the curves in terms of four points that the curve shape is made of. -/
theorem curveAt_ends {cp : List Pt} {i : Nat} {c : Curve} (h : curveAt cp i = some c) : cp[i]? = some (c.point 0) ∧ cp[i + 1]? = some (c.point 1) := by
  unfold curveAt at h
  simp only at h
  split at h
  · rename_i hi
    subst hi
    split at h
    · rename_i p0 p1 p2 e0 e1 e2
      obtain rfl := Option.some.inj h
      rw [e0, e1]
      obtain ⟨x0, y0, z0⟩ := p0
      obtain ⟨x1, y1, z1⟩ := p1
      simp only [Curve.point, Option.some.injEq, Pt.mk.injEq]
      refine ⟨⟨?_, ?_, ?_⟩, ?_, ?_, ?_⟩ <;> ring
    · cases h
  · split at h
    · split at h
      · rename_i p0 p1 p2 e0 e1 e2
        obtain rfl := Option.some.inj h
        rw [e1, e2]
        obtain ⟨x0, y0, z0⟩ := p1
        obtain ⟨x1, y1, z1⟩ := p2
        simp only [Curve.point, Option.some.injEq, Pt.mk.injEq]
        refine ⟨⟨?_, ?_, ?_⟩, ?_, ?_, ?_⟩ <;> ring
      · cases h
    · split at h
      · rename_i p0 p1 p2 p3 e0 e1 e2 e3
        obtain rfl := Option.some.inj h
        rw [e1, e2]
        obtain ⟨x0, y0, z0⟩ := p1
        obtain ⟨x1, y1, z1⟩ := p2
        simp only [Curve.point, Option.some.injEq, Pt.mk.injEq]
        refine ⟨⟨?_, ?_, ?_⟩, ?_, ?_, ?_⟩ <;> ring
      · cases h

theorem curveAt_tangent_start {cp : List Pt} {i : Nat} {c : Curve} (h : curveAt cp (i + 1) = some c) :
    ∃ p q, cp[i]? = some p ∧ cp[i + 2]? = some q ∧ c.tangent 0 = chord p q := by
  unfold curveAt at h
  simp only [Nat.add_eq_zero_iff, one_ne_zero, and_false, if_false] at h
  split at h
  · split at h
    · rename_i p0 p1 p2 e0 e1 e2
      obtain rfl := Option.some.inj h
      refine ⟨p0, p2, e0, e2, ?_⟩
      simp only [Curve.tangent, chord, Pt.mk.injEq]
      refine ⟨?_, ?_, ?_⟩ <;> ring
    · cases h
  · split at h
    · rename_i p0 p1 p2 p3 e0 e1 e2 e3
      obtain rfl := Option.some.inj h
      refine ⟨p0, p2, e0, e2, ?_⟩
      simp only [Curve.tangent, chord, Pt.mk.injEq]
      refine ⟨?_, ?_, ?_⟩ <;> ring
    · cases h

theorem curveAt_tangent_stop {cp : List Pt} {i : Nat} {c : Curve} (hi : i + 2 < cp.length) (h : curveAt cp i = some c) :
    ∃ p q, cp[i]? = some p ∧ cp[i + 2]? = some q ∧ c.tangent 1 = chord p q := by
  unfold curveAt at h
  simp only at h
  split at h
  · rename_i h0
    subst h0
    split at h
    · rename_i p0 p1 p2 e0 e1 e2
      obtain rfl := Option.some.inj h
      refine ⟨p0, p2, e0, e2, ?_⟩
      simp only [Curve.tangent, chord, Pt.mk.injEq]
      refine ⟨?_, ?_, ?_⟩ <;> ring
    · cases h
  · rw [if_neg (by omega)] at h
    split at h
    · rename_i p0 p1 p2 p3 e0 e1 e2 e3
      obtain rfl := Option.some.inj h
      refine ⟨p1, p3, e1, e3, ?_⟩
      simp only [Curve.tangent, chord, Pt.mk.injEq]
      refine ⟨?_, ?_, ?_⟩ <;> ring
    · cases h

theorem curveAt_defined {cp : List Pt} {i : Nat} (h3 : 3 ≤ cp.length) (hi : i + 1 < cp.length) : ∃ c, curveAt cp i = some c := by
  unfold curveAt
  simp only
  split
  · rw [List.getElem?_eq_getElem (show 0 < cp.length by omega), List.getElem?_eq_getElem (show 1 < cp.length by omega),
      List.getElem?_eq_getElem (show 2 < cp.length by omega)]
    exact ⟨_, rfl⟩
  · split
    · rw [List.getElem?_eq_getElem (show i - 1 < cp.length by omega), List.getElem?_eq_getElem (show i < cp.length by omega),
        List.getElem?_eq_getElem (show i + 1 < cp.length by omega)]
      exact ⟨_, rfl⟩
    · rw [List.getElem?_eq_getElem (show i - 1 < cp.length by omega), List.getElem?_eq_getElem (show i < cp.length by omega),
        List.getElem?_eq_getElem (show i + 1 < cp.length by omega), List.getElem?_eq_getElem (show i + 2 < cp.length by omega)]
      exact ⟨_, rfl⟩

theorem mapM_getElem? {α β : Type} {f : α → Option β} {l : List α} {r : List β} (h : l.mapM f = some r) :
    r.length = l.length ∧ ∀ i : Nat, ∀ y : β, r[i]? = some y → ∃ x, l[i]? = some x ∧ f x = some y := by
  induction l generalizing r with
  | nil =>
    simp only [List.mapM_nil, Option.pure_def, Option.some.injEq] at h
    subst h; simp
  | cons a l ih =>
    rw [List.mapM_cons] at h
    simp only [Option.bind_eq_bind, Option.pure_def, Option.bind_eq_some_iff, Option.some.injEq] at h
    obtain ⟨b, hb, r', hr, rfl⟩ := h
    obtain ⟨h1, h2⟩ := ih hr
    refine ⟨by simp [h1], ?_⟩
    intro i y hy
    cases i with
    | zero => exact ⟨a, rfl, by simpa using hb.trans (by simpa using hy)⟩
    | succ i => exact h2 i y (by simpa using hy)

theorem mapM_defined {α β : Type} {f : α → Option β} {l : List α} (h : ∀ x ∈ l, ∃ y, f x = some y) : ∃ r, l.mapM f = some r := by
  induction l with
  | nil => exact ⟨[], rfl⟩
  | cons a l ih =>
    obtain ⟨y, hy⟩ := h a (List.mem_cons_self ..)
    obtain ⟨r, hr⟩ := ih fun x hx => h x (List.mem_cons_of_mem _ hx)
    exact ⟨y :: r, by rw [List.mapM_cons, hy, hr]; rfl⟩

theorem unique_head (a : Pt) (l : List Pt) : (unique (a :: l)).head? = some a := by
  induction l with
  | nil => simp [unique]
  | cons b l ih =>
    unfold unique
    split
    · exact ih
    · rfl

theorem unique_spec (l : List Pt) : NoRepeat (unique l) ∧ ∀ p, p ∈ unique l ↔ p ∈ l := by
  induction l using unique.induct with
  | case1 => simp [unique, NoRepeat]
  | case2 a => 
    rw [unique]
    refine ⟨?_, fun p => Iff.rfl⟩
    intro i p q _ hq; simp at hq
  | case3 a l ih =>
    rw [unique, if_pos rfl]
    refine ⟨ih.1, fun p => ?_⟩
    rw [ih.2]; simp
  | case4 a b l h ih =>
    rw [unique, if_neg h]
    refine ⟨?_, fun p => by rw [List.mem_cons, ih.2, List.mem_cons (a := p) (b := a)]⟩
    intro i p q hp hq
    cases i with
    | zero =>
      have h1 := unique_head b l
      rw [List.head?_eq_getElem?] at h1
      simp only [List.getElem?_cons_zero, Option.some.injEq, zero_add, List.getElem?_cons_succ] at hp hq
      rw [h1] at hq
      rw [← hp, ← Option.some.inj hq]; exact h
    | succ i => exact ih.1 i p q (by simpa using hp) (by simpa using hq)

/-- A spline with at least three control points, as the constructor makes it. -/
structure Made (k : Spline) : Prop where
  three : 3 ≤ k.cp.length
  norep : NoRepeat k.cp
  count : k.curves.length + 1 = k.cp.length
  shape : ∀ (i : Nat) (c : Curve), k.curves[i]? = some c → curveAt k.cp i = some c

theorem made_of_make {raw : List Pt} {k : Spline} (h : Spline.make raw = some k) (h3 : 3 ≤ k.cp.length) : Made k := by
  have hu := unique_spec raw
  unfold Spline.make at h
  simp only at h
  split at h
  · cases h
  · rename_i hq; obtain rfl := Option.some.inj h; simp only at h3; rw [hq] at h3; simp at h3
  · rename_i hq; obtain rfl := Option.some.inj h; simp only at h3; rw [hq] at h3; simp at h3
  · rw [Option.map_eq_some_iff] at h
    obtain ⟨cs, hm, rfl⟩ := h
    simp only at h3
    obtain ⟨h1, h2⟩ := mapM_getElem? hm
    rw [List.length_range] at h1
    refine ⟨h3, hu.1, by simp only; omega, ?_⟩
    intro i c hc
    obtain ⟨x, hx, hf⟩ := h2 i c hc
    obtain ⟨hi, rfl⟩ := List.getElem?_eq_some_iff.mp hx
    rw [List.getElem_range] at hf
    exact hf

theorem made_chain {k : Spline} (h : Made k) : ∃ c l, Chain k c l := by
  have h3 := h.three
  have hc := h.count
  match hk : k.curves with
  | [] => rw [hk] at hc; simp at hc; omega
  | c :: l =>
    refine ⟨c, l, hk, ?_, ?_⟩
    · unfold Spline.total
      split
      · rename_i e; rw [e] at h3; simp at h3
      · rw [foldl_add_length, zero_add, hk]
    · intro x hx
      rw [← hk] at hx
      obtain ⟨i, hi⟩ := List.getElem?_of_mem hx
      obtain ⟨e0, e1⟩ := curveAt_ends (h.shape i x hi)
      exact length_pos_of_ne x (h.norep i _ _ e0 e1)

theorem point_made {k : Spline} (h : Made k) (s : ℝ) : k.point s = k.onCurve Curve.point s := by
  have h3 := h.three
  unfold Spline.point
  split
  · rename_i e; rw [e] at h3; simp at h3
  · rename_i e; rw [e] at h3; simp at h3
  · rename_i e; rw [e] at h3; simp at h3
  · rfl

theorem tangent_made {k : Spline} (h : Made k) (s : ℝ) : k.tangent s = k.onCurve Curve.tangent s := by
  have h3 := h.three
  unfold Spline.tangent
  split
  · rename_i e; rw [e] at h3; simp at h3
  · rename_i e; rw [e] at h3; simp at h3
  · rename_i e; rw [e] at h3; simp at h3
  · rfl

theorem normal_made {k : Spline} (h : Made k) (s : ℝ) : k.normal s = k.onCurve Curve.normal s := by
  have h3 := h.three
  unfold Spline.normal
  split
  · rename_i e; rw [e] at h3; simp at h3
  · rename_i e; rw [e] at h3; simp at h3
  · rename_i e; rw [e] at h3; simp at h3
  · rfl

/-- Place of control point number `i`: the sum of the lengths of the curves before it. -/
noncomputable def knot (cs : List Curve) (i : Nat) : ℝ := ((cs.take i).map Curve.length).sum

theorem along_local {α : Type} (f : Curve → ℝ → α) (c : Curve) (l : List Curve) (j : Nat) (x : Curve) (v : ℝ)
    (hp : ∀ y ∈ c :: l, 0 < y.length) (hx : (c :: l)[j]? = some x) (h0 : 0 ≤ v) (h1 : v < x.length ∨ j + 1 = (c :: l).length) :
    along f c l (knot (c :: l) j + v) = f x (v / x.length) := by
  induction l generalizing c j with
  | nil =>
    obtain rfl : j = 0 := by
      have := (List.getElem?_eq_some_iff.mp hx).1
      simp at this; omega
    simp only [List.getElem?_cons_zero, Option.some.injEq] at hx
    subst hx
    simp [knot, along]
  | cons c' l ih =>
    cases j with
    | zero =>
      simp only [List.getElem?_cons_zero, Option.some.injEq] at hx
      subst hx
      rcases h1 with h1 | h1
      · unfold along
        simp only [knot, List.take_zero, List.map_nil, List.sum_nil, zero_add]
        rw [if_pos h1]
      · simp at h1
    | succ j =>
      have hk : knot (c :: c' :: l) (j + 1) = c.length + knot (c' :: l) j := by
        unfold knot; rw [List.take_succ_cons, List.map_cons, List.sum_cons]
      have hn : 0 ≤ knot (c' :: l) j := by
        unfold knot
        apply List.sum_nonneg
        intro y hy
        obtain ⟨z, hz, rfl⟩ := List.mem_map.mp hy
        exact (hp z (List.mem_cons_of_mem _ (List.mem_of_mem_take hz))).le
      unfold along
      rw [if_neg (by rw [hk]; linarith), ← ih c' j (fun y hy => hp y (List.mem_cons_of_mem _ hy)) (by simpa using hx)
        (by rcases h1 with h1 | h1
            · exact Or.inl h1
            · exact Or.inr (by simpa using h1))]
      congr 1
      rw [hk]; ring

theorem knot_succ {cs : List Curve} {i : Nat} {c : Curve} (h : cs[i]? = some c) : knot cs (i + 1) = knot cs i + c.length := by
  unfold knot
  rw [List.take_add_one, h, List.map_append, List.sum_append]
  simp

/-- **C88** A spline made of points that are not all the same keeps the points, in order, but for repeated neighbours, and it exists unless no
point is given. -/
theorem make_points (raw : List Pt) :
    (Spline.make raw = none ↔ raw = []) ∧ ∀ k, Spline.make raw = some k → (∀ p, p ∈ k.cp ↔ p ∈ raw) ∧ NoRepeat k.cp := by
  have hu := unique_spec raw
  unfold Spline.make
  simp only
  split
  · rename_i e
    rw [e] at hu
    have : raw = [] := List.eq_nil_iff_forall_not_mem.mpr fun p hp => by simpa using (hu.2 p).mpr hp
    exact ⟨⟨fun _ => this, fun _ => rfl⟩, fun k h => nomatch h⟩
  all_goals
    rename_i e
  · refine ⟨⟨fun h => (nomatch h), fun h => ?_⟩, fun k h => ?_⟩
    · rw [h] at e; simp [unique] at e
    · obtain rfl := Option.some.inj h; exact ⟨hu.2, hu.1⟩
  · refine ⟨⟨fun h => (nomatch h), fun h => ?_⟩, fun k h => ?_⟩
    · rw [h] at e; simp [unique] at e
    · obtain rfl := Option.some.inj h; exact ⟨hu.2, hu.1⟩
  · rename_i e0 e1
    have h3 : 3 ≤ (unique raw).length := by
      match h : unique raw with
      | [] => exact absurd h e0
      | [a] => exact absurd h (e1 a)
      | [a, b] => exact absurd h (e a b)
      | _ :: _ :: _ :: _ => simp
    obtain ⟨r, hr⟩ := mapM_defined (f := curveAt (unique raw)) (l := List.range ((unique raw).length - 1)) fun i hi =>
      curveAt_defined h3 (by rw [List.mem_range] at hi; omega)
    rw [hr]
    refine ⟨⟨fun h => (nomatch h), fun h => ?_⟩, fun k h => ?_⟩
    · rw [h] at h3; simp [unique] at h3
    · obtain rfl := Option.some.inj h; exact ⟨hu.2, hu.1⟩

/-- **C88** A spline of at least three control points goes through them in order: there are increasing places from 0 to the length of the
spline at which its point is the control point. In between, at each inner control point, the tangent is half of the way from the control
point before to the one after. -/
theorem spline_points (raw : List Pt) (k : Spline) (h : Spline.make raw = some k) (h3 : 3 ≤ k.cp.length) :
    ∃ S : Nat → ℝ, S 0 = 0 ∧ S (k.cp.length - 1) = k.total ∧ (∀ i, i + 1 < k.cp.length → S i < S (i + 1)) ∧
      (∀ i p, k.cp[i]? = some p → k.point (S i) = some p) ∧
      ∀ i p q, k.cp[i]? = some p → k.cp[i + 2]? = some q → k.tangent (S (i + 1)) = some (chord p q) := by
  have hm := made_of_make h h3
  obtain ⟨c, l, hc⟩ := made_chain hm
  have hcount := hm.count
  refine ⟨knot k.curves, by simp [knot], ?_, ?_, ?_, ?_⟩
  · rw [hc.total, ← hc.curves]
    unfold knot
    rw [← hcount, Nat.add_sub_cancel, List.take_length]
  · intro i hi
    have hi' : i < k.curves.length := by omega
    rw [knot_succ (List.getElem?_eq_getElem hi')]
    have := hc.pos _ (by rw [← hc.curves]; exact List.getElem_mem hi')
    linarith
  · intro i p hp
    rw [point_made hm, onCurve_along hc]
    have hi := (List.getElem?_eq_some_iff.mp hp).1
    by_cases hl : i < k.curves.length
    · have hx := List.getElem?_eq_getElem hl
      obtain ⟨e0, -⟩ := curveAt_ends (hm.shape i _ hx)
      have hpos := hc.pos _ (by rw [← hc.curves]; exact List.getElem_mem hl)
      have ha := along_local Curve.point c l i _ 0 hc.pos (by rw [← hc.curves]; exact hx) le_rfl (Or.inl hpos)
      rw [add_zero, zero_div, ← hc.curves] at ha
      rw [ha, ← e0, hp]
    · obtain rfl : i = k.curves.length - 1 + 1 := by
        have := hm.three; omega
      have hl' : k.curves.length - 1 < k.curves.length := by have := hm.three; omega
      have hx := List.getElem?_eq_getElem hl'
      obtain ⟨-, e1⟩ := curveAt_ends (hm.shape _ _ hx)
      have hpos := hc.pos _ (by rw [← hc.curves]; exact List.getElem_mem hl')
      have ha := along_local Curve.point c l _ _ (k.curves[k.curves.length - 1]).length hc.pos (by rw [← hc.curves]; exact hx) hpos.le
        (Or.inr (by rw [← hc.curves]; omega))
      rw [div_self hpos.ne', ← hc.curves, ← knot_succ hx] at ha
      rw [ha, ← e1, hp]
  · intro i p q hp hq
    rw [tangent_made hm, onCurve_along hc]
    have hi := (List.getElem?_eq_some_iff.mp hq).1
    have hl : i + 1 < k.curves.length := by omega
    have hx := List.getElem?_eq_getElem hl
    obtain ⟨p', q', e0, e1, e2⟩ := curveAt_tangent_start (hm.shape _ _ hx)
    rw [hp] at e0
    rw [hq] at e1
    obtain rfl := Option.some.inj e0
    obtain rfl := Option.some.inj e1
    have hpos := hc.pos _ (by rw [← hc.curves]; exact List.getElem_mem hl)
    have ha := along_local Curve.tangent c l (i + 1) _ 0 hc.pos (by rw [← hc.curves]; exact hx) le_rfl (Or.inl hpos)
    rw [add_zero, zero_div, ← hc.curves] at ha
    rw [ha, e2]

theorem along_continuous (f : Curve → ℝ → ℝ) (c : Curve) (l : List Curve) (hp : ∀ y ∈ c :: l, 0 < y.length) (hf : ∀ c, Continuous (f c))
    (hj : ∀ (i : Nat) (x y : Curve), (c :: l)[i]? = some x → (c :: l)[i + 1]? = some y → f x 1 = f y 0) : Continuous (along f c l) := by
  induction l generalizing c with
  | nil =>
    change Continuous fun s => f c (s / c.length)
    exact (hf c).comp (continuous_id.div_const _)
  | cons c' l ih =>
    have hc := hp c (List.mem_cons_self ..)
    have hc' := hp c' (by simp)
    have hi := ih c' (fun y hy => hp y (List.mem_cons_of_mem _ hy)) (fun i x y hx hy => hj (i + 1) x y (by simpa using hx) (by simpa using hy))
    have e : along f c (c' :: l) = fun s => if c.length ≤ s then along f c' l (s - c.length) else f c (s / c.length) := by
      funext s
      conv_lhs => unfold along
      by_cases h : s < c.length
      · rw [if_pos h, if_neg (not_le.mpr h)]
      · rw [if_neg h, if_pos (not_lt.mp h)]
    rw [e]
    refine Continuous.if_le (hi.comp (continuous_id.sub continuous_const)) ((hf c).comp (continuous_id.div_const _)) continuous_const continuous_id ?_
    intro s hs
    change c.length = s at hs
    rw [← hs, sub_self, div_self hc.ne', hj 0 c c' rfl rfl]
    have := along_local f c' l 0 c' 0 (fun y hy => hp y (List.mem_cons_of_mem _ hy)) rfl le_rfl (Or.inl hc')
    simpa [knot] using this

theorem along_map {α β : Type} (f : Curve → ℝ → α) (g : α → β) (c : Curve) (l : List Curve) (s : ℝ) :
    g (along f c l s) = along (fun c s => g (f c s)) c l s := by
  induction l generalizing c s with
  | nil => rfl
  | cons c' l ih =>
    unfold along
    split
    · rfl
    · exact ih c' _

/-- Curves that follow each other in a spline have a common point and a common tangent there. -/
theorem joined {k : Spline} (hm : Made k) (i : Nat) (x y : Curve) (hx : k.curves[i]? = some x) (hy : k.curves[i + 1]? = some y) :
    x.point 1 = y.point 0 ∧ x.tangent 1 = y.tangent 0 := by
  have sx := hm.shape _ _ hx
  have sy := hm.shape _ _ hy
  have hi := (List.getElem?_eq_some_iff.mp hy).1
  have hcount := hm.count
  have h1 := (curveAt_ends sx).2
  have h2 := (curveAt_ends sy).1
  obtain ⟨p, q, e0, e1, e2⟩ := curveAt_tangent_stop (by omega) sx
  obtain ⟨p', q', f0, f1, f2⟩ := curveAt_tangent_start sy
  rw [e0] at f0
  rw [e1] at f1
  refine ⟨Option.some.inj (h1.symm.trans h2), ?_⟩
  rw [e2, f2, Option.some.inj f0, Option.some.inj f1]

/-- **C88** A spline of at least three control points has a point and a tangent at every place, also before its start and beyond its end, and
neither of them jumps. -/
theorem spline_continuous (raw : List Pt) (k : Spline) (h : Spline.make raw = some k) (h3 : 3 ≤ k.cp.length) :
    (∃ g : ℝ → Pt, (∀ s, k.point s = some (g s)) ∧ Continuous (fun s => (g s).x) ∧ Continuous (fun s => (g s).y) ∧ Continuous (fun s => (g s).z)) ∧
    ∃ g : ℝ → Pt, (∀ s, k.tangent s = some (g s)) ∧ Continuous (fun s => (g s).x) ∧ Continuous (fun s => (g s).y) ∧ Continuous (fun s => (g s).z) := by
  have hm := made_of_make h h3
  obtain ⟨c, l, hc⟩ := made_chain hm
  have hj := joined hm
  rw [hc.curves] at hj
  refine ⟨⟨along Curve.point c l, fun s => by rw [point_made hm, onCurve_along hc], ?_, ?_, ?_⟩,
    ⟨along Curve.tangent c l, fun s => by rw [tangent_made hm, onCurve_along hc], ?_, ?_, ?_⟩⟩
  · simp only [along_map Curve.point Pt.x]
    exact along_continuous _ c l hc.pos (fun c => by simp only [Curve.point]; fun_prop) fun i x y hx hy => by rw [(hj i x y hx hy).1]
  · simp only [along_map Curve.point Pt.y]
    exact along_continuous _ c l hc.pos (fun c => by simp only [Curve.point]; fun_prop) fun i x y hx hy => by rw [(hj i x y hx hy).1]
  · simp only [along_map Curve.point Pt.z]
    exact along_continuous _ c l hc.pos (fun c => by simp only [Curve.point]; fun_prop) fun i x y hx hy => by rw [(hj i x y hx hy).1]
  · simp only [along_map Curve.tangent Pt.x]
    exact along_continuous _ c l hc.pos (fun c => by simp only [Curve.tangent]; fun_prop) fun i x y hx hy => by rw [(hj i x y hx hy).2]
  · simp only [along_map Curve.tangent Pt.y]
    exact along_continuous _ c l hc.pos (fun c => by simp only [Curve.tangent]; fun_prop) fun i x y hx hy => by rw [(hj i x y hx hy).2]
  · simp only [along_map Curve.tangent Pt.z]
    exact along_continuous _ c l hc.pos (fun c => by simp only [Curve.tangent]; fun_prop) fun i x y hx hy => by rw [(hj i x y hx hy).2]

/-- Three points in a bend, one of them given twice, are a case for the theorems. -/
theorem bend_made : ∃ k, Spline.make [⟨0, 0, 0⟩, ⟨1, 0, 0⟩, ⟨1, 0, 0⟩, ⟨1, 1, 0⟩] = some k ∧ k.cp = [⟨0, 0, 0⟩, ⟨1, 0, 0⟩, ⟨1, 1, 0⟩] := by
  have hu : unique [⟨0, 0, 0⟩, ⟨1, 0, 0⟩, ⟨1, 0, 0⟩, ⟨1, 1, 0⟩] = [⟨0, 0, 0⟩, ⟨1, 0, 0⟩, ⟨1, 1, 0⟩] := by
    simp [unique]
  have hne : Spline.make [⟨0, 0, 0⟩, ⟨1, 0, 0⟩, ⟨1, 0, 0⟩, ⟨1, 1, 0⟩] ≠ none := by
    rw [Ne, (make_points _).1]; simp
  obtain ⟨k, hk⟩ := Option.ne_none_iff_exists'.mp hne
  refine ⟨k, hk, ?_⟩
  unfold Spline.make at hk
  rw [hu] at hk
  simp only [Option.map_eq_some_iff] at hk
  obtain ⟨_, -, rfl⟩ := hk
  rfl

/-! ### Places on the spline and on its curves -/

theorem sAt_eq {k : Spline} {i : Nat} (v : ℝ) (h : i < k.curves.length) : k.sAt i v = some (knot k.curves i + v) := by
  unfold Spline.sAt knot
  rw [if_pos h, foldl_add_length, zero_add]

theorem indexFrom_local (l : List Curve) (i : Nat) (prev : ℝ) (j : Nat) (x : Curve) (v : ℝ) (hp : ∀ y ∈ l, 0 < y.length)
    (hx : l[j]? = some x) (h0 : 0 ≤ v) (h1 : v < x.length) : indexFrom (prev + knot l j + v) l i prev = some (i + j, v) := by
  induction l generalizing j prev i with
  | nil => simp at hx
  | cons c l ih =>
    cases j with
    | zero =>
      simp only [List.getElem?_cons_zero, Option.some.injEq] at hx
      subst hx
      unfold indexFrom
      simp only [knot, List.take_zero, List.map_nil, List.sum_nil, add_zero]
      rw [if_pos ⟨by linarith, by linarith⟩]; simp
    | succ j =>
      have hk : knot (c :: l) (j + 1) = c.length + knot l j := by
        unfold knot; rw [List.take_succ_cons, List.map_cons, List.sum_cons]
      have hn : 0 ≤ knot l j := by
        unfold knot
        apply List.sum_nonneg
        intro y hy
        obtain ⟨z, hz, rfl⟩ := List.mem_map.mp hy
        exact (hp z (List.mem_cons_of_mem _ (List.mem_of_mem_take hz))).le
      unfold indexFrom
      rw [if_neg (by rw [hk]; intro h; linarith [h.2]), hk]
      have := ih (i + 1) (prev + c.length) j (fun y hy => hp y (List.mem_cons_of_mem _ hy)) (by simpa using hx)
      rw [show prev + (c.length + knot l j) + v = prev + c.length + knot l j + v by ring, this]
      simp only [Option.some.injEq, Prod.mk.injEq, and_true]; omega

/-- **C89** Every place on a spline of at least three control points belongs to one of its curves, and going back from the place on the curve
gives the place on the spline. -/
theorem index_back (raw : List Pt) (k : Spline) (h : Spline.make raw = some k) (h3 : 3 ≤ k.cp.length) (s : ℝ) :
    ∃ i v c, k.index s = some (i, v) ∧ k.curves[i]? = some c ∧ k.sAt i v = some s ∧ (0 ≤ s → 0 ≤ v) ∧ (s < k.total → v < c.length) := by
  have hm := made_of_make h h3
  obtain ⟨c, l, hc⟩ := made_chain hm
  have hlen : 0 < k.curves.length := by rw [hc.curves]; simp
  have hc0 := hc.pos c (by simp)
  by_cases h0 : s < 0
  · refine ⟨0, s, c, by unfold Spline.index; rw [if_pos h0], by rw [hc.curves]; rfl, by rw [sAt_eq _ hlen]; simp [knot], ?_, ?_⟩
    · intro h; linarith
    · intro _; linarith
  · by_cases h1 : k.total ≤ s
    · have hl : k.curves.length - 1 < k.curves.length := by omega
      have hx := List.getElem?_eq_getElem hl
      have hpos := hc.pos _ (by rw [← hc.curves]; exact List.getElem_mem hl)
      have hkn : knot k.curves k.curves.length = k.total := by
        unfold knot; rw [List.take_length, hc.total, hc.curves]
      have hks := knot_succ hx
      rw [Nat.sub_add_cancel hlen, hkn] at hks
      refine ⟨k.curves.length - 1, s - (k.total - (k.curves[k.curves.length - 1]).length), _, ?_, hx, ?_, ?_, ?_⟩
      · unfold Spline.index
        rw [if_neg h0, if_pos h1, List.getLast?_eq_getElem?, hx]
      · rw [sAt_eq _ hl]; congr 1; linarith
      · intro _; linarith
      · intro h; linarith
    · obtain ⟨j, v, x, e1, e2, -, e4, e5, e6⟩ := along_indexFrom Curve.point c l s 0 0 hc.pos (not_lt.mp h0)
        (by rw [zero_add, ← hc.total]; exact not_le.mp h1)
      rw [← hc.curves] at e2 e4
      have hj := (List.getElem?_eq_some_iff.mp e2).1
      refine ⟨j, v, x, ?_, e2, ?_, fun _ => e5, fun _ => e6⟩
      · unfold Spline.index
        rw [if_neg h0, if_neg h1, hc.curves, e1, zero_add]
      · rw [sAt_eq _ hj]; congr 1; unfold knot; linarith

/-- **C89** Every place on a curve is a place of the spline that belongs to this curve, and the point of the spline there is the point of the
curve at the same share of its length. -/
theorem sAt_back (raw : List Pt) (k : Spline) (h : Spline.make raw = some k) (h3 : 3 ≤ k.cp.length) (i : Nat) (c : Curve) (v : ℝ)
    (hi : k.curves[i]? = some c) (h0 : 0 ≤ v) (h1 : v < c.length) :
    ∃ s, k.sAt i v = some s ∧ k.index s = some (i, v) ∧ k.point s = some (c.point (v / c.length)) := by
  have hm := made_of_make h h3
  obtain ⟨c', l, hc⟩ := made_chain hm
  have hl := (List.getElem?_eq_some_iff.mp hi).1
  have hx : k.index (knot k.curves i + v) = some (i, v) := by
    have hpos : ∀ y ∈ k.curves, 0 < y.length := by rw [hc.curves]; exact hc.pos
    have hn : 0 ≤ knot k.curves i := by
      unfold knot
      apply List.sum_nonneg
      intro y hy
      obtain ⟨z, hz, rfl⟩ := List.mem_map.mp hy
      exact (hpos z (List.mem_of_mem_take hz)).le
    have hle : knot k.curves (i + 1) ≤ k.total := by
      rw [hc.total, ← hc.curves]
      unfold knot
      conv_rhs => rw [← List.take_append_drop (i + 1) k.curves, List.map_append, List.sum_append]
      have : 0 ≤ ((k.curves.drop (i + 1)).map Curve.length).sum := by
        apply List.sum_nonneg
        intro y hy
        obtain ⟨z, hz, rfl⟩ := List.mem_map.mp hy
        exact (hpos z (List.mem_of_mem_drop hz)).le
      linarith
    rw [knot_succ hi] at hle
    unfold Spline.index
    rw [if_neg (by linarith), if_neg (by linarith)]
    have := indexFrom_local k.curves 0 0 i c v hpos hi h0 h1
    rwa [zero_add, zero_add] at this
  refine ⟨_, sAt_eq v hl, hx, ?_⟩
  rw [point_made hm]
  unfold Spline.onCurve
  rw [hx]
  simp [hi]

example : ∃ k, Spline.make [⟨0, 0, 0⟩, ⟨1, 0, 0⟩, ⟨1, 0, 0⟩, ⟨1, 1, 0⟩] = some k ∧ 3 ≤ k.cp.length := by
  obtain ⟨k, h, e⟩ := bend_made
  exact ⟨k, h, by rw [e]; simp⟩

end Verif.Geometry
