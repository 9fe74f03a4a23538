import Verif.Geometry.SplineUseTheorems
/-
C91 (crossings of a curve with a polygon) and C92 (crossings of a spline with a polygon and with a straight line, place of a pose on a spline).
-/
namespace Verif.Geometry
open Classical

attribute [local irreducible] Curve.lengthWith

/-- The outline of the closed polygon. -/
def ring (polygon : List Pt) : List Pt := polygon ++ polygon.take 1

theorem zip_last (a x : Pt) (l : List Pt) :
    (a :: l).zip l ++ [((a :: l).getLast (by simp), x)] = (a :: l ++ [x]).zip (l ++ [x]) := by
  induction l generalizing a with
  | nil => simp
  | cons b l ih =>
    have := ih b
    rw [List.zip_cons_cons, List.getLast_cons (by simp), List.cons_append, this]
    simp

theorem sides_closed (polygon : List Pt) (h : 2 ≤ polygon.length) (e : Pt × Pt) :
    e ∈ polygonSides polygon true ↔ ∃ i : Nat, (ring polygon)[i]? = some e.1 ∧ (ring polygon)[i + 1]? = some e.2 := by
  have : polygonSides polygon true = (ring polygon).zip ((ring polygon).drop 1) := by
    unfold polygonSides
    rw [if_neg (by omega)]
    match polygon, h with
    | a :: b :: l, _ =>
      have hz := zip_last a a (b :: l)
      rw [List.getLast?_eq_some_getLast (by simp)]
      simp only [if_true, List.head?_cons, List.drop_succ_cons, List.drop_zero, ring, List.take_succ_cons, List.take_zero, List.cons_append]
      rw [List.cons_append] at hz
      exact hz
  rw [this, List.mem_iff_getElem?]
  apply exists_congr
  intro i
  rw [List.getElem?_zip_eq_some, List.getElem?_drop, Nat.add_comm 1 i]

theorem polygon_mem {k : Curve} {polygon : List Pt} {backward close : Bool} :
    ∃ l, k.collisionsPolygon polygon backward close = some l ∧
      ∀ s, s ∈ l ↔ ∃ e ∈ polygonSides polygon close, ∃ m, k.collisions e.1 e.2 backward = some m ∧ s ∈ m := by
  unfold Curve.collisionsPolygon
  generalize polygonSides polygon close = sides
  induction sides with
  | nil => exact ⟨[], rfl, by simp⟩
  | cons e sides ih =>
    obtain ⟨l, hl, hs⟩ := ih
    obtain ⟨m, hm⟩ := collisions_defined k e.1 e.2 backward
    rw [Option.map_eq_some_iff] at hl
    obtain ⟨r, hr, rfl⟩ := hl
    refine ⟨m ++ r.flatten, ?_, ?_⟩
    · rw [List.mapM_cons, hm]
      simp only [Option.bind_eq_bind, Option.bind_some]
      rw [hr]; rfl
    · intro s
      rw [List.mem_append, hs]
      constructor
      · rintro (h | ⟨e', he, h⟩)
        · exact ⟨e, List.mem_cons_self .., m, hm, h⟩
        · exact ⟨e', List.mem_cons_of_mem _ he, h⟩
      · rintro ⟨e', he, m', hm', h⟩
        rcases List.mem_cons.mp he with rfl | he
        · rw [hm] at hm'
          obtain rfl := Option.some.inj hm'
          exact Or.inl h
        · exact Or.inr ⟨e', he, m', hm', h⟩

/-- Every side of the outline has a length seen from above, and meets the curve in a polynomial the solver can deal with. -/
def Regular (k : Curve) (outline : List Pt) : Prop :=
  ∀ (i : Nat) (p0 p1 : Pt), outline[i]? = some p0 → outline[i + 1]? = some p1 →
    (p0.x ≠ p1.x ∨ p0.y ≠ p1.y) ∧ WellPosed fun t => area p0 p1 (k.point t)

/-- **C91** The crossings of a curve with the outline of a closed polygon, with the same gaps as `collisions_partial`. -/
theorem collisionsPolygon_partial (k : Curve) (polygon : List Pt) (backward : Bool) (h2 : 2 ≤ polygon.length)
    (h : Regular k (polygon ++ polygon.take 1)) :
    ∃ l, k.collisionsPolygon polygon backward true = some l ∧
      (∀ s, 0 < s → s < 1 → (s ∈ l ↔ OnOutline (polygon ++ polygon.take 1) (k.point s))) ∧
      (∀ s, 0 ≤ s → s ≤ 1 → OnOutline (polygon ++ polygon.take 1) (k.point s) → s ∈ l) ∧ (∀ s ∈ l, 0 ≤ s ∧ s ≤ 1) := by
  obtain ⟨l, hl, hm⟩ := polygon_mem (k := k) (polygon := polygon) (backward := backward) (close := true)
  refine ⟨l, hl, ?_, ?_, ?_⟩
  · intro s h0 h1
    rw [hm]
    constructor
    · rintro ⟨e, he, m, hc, hs⟩
      obtain ⟨i, hi0, hi1⟩ := (sides_closed polygon h2 e).mp he
      obtain ⟨hne, hw⟩ := h i _ _ hi0 hi1
      obtain ⟨l', hl', hx, -⟩ := collisions_partial k e.1 e.2 backward hne hw
      rw [hl'] at hc
      obtain rfl := Option.some.inj hc
      exact ⟨i, e.1, e.2, hi0, hi1, (hx s h0 h1).mp hs⟩
    · rintro ⟨i, a, b, hi0, hi1, ho⟩
      obtain ⟨hne, hw⟩ := h i _ _ hi0 hi1
      obtain ⟨l', hl', hx, -⟩ := collisions_partial k a b backward hne hw
      exact ⟨(a, b), (sides_closed polygon h2 (a, b)).mpr ⟨i, hi0, hi1⟩, l', hl', (hx s h0 h1).mpr ho⟩
  · rintro s h0 h1 ⟨i, a, b, hi0, hi1, ho⟩
    obtain ⟨hne, hw⟩ := h i _ _ hi0 hi1
    obtain ⟨l', hl', -, hx, -⟩ := collisions_partial k a b backward hne hw
    rw [hm]
    exact ⟨(a, b), (sides_closed polygon h2 (a, b)).mpr ⟨i, hi0, hi1⟩, l', hl', hx s h0 h1 ho⟩
  · intro s hs
    obtain ⟨e, he, m, hc, hs⟩ := (hm s).mp hs
    obtain ⟨i, hi0, hi1⟩ := (sides_closed polygon h2 e).mp he
    obtain ⟨hne, hw⟩ := h i _ _ hi0 hi1
    obtain ⟨l', hl', -, -, hx⟩ := collisions_partial k e.1 e.2 backward hne hw
    rw [hl'] at hc
    obtain rfl := Option.some.inj hc
    exact hx s hs

/-- The first value of a set is the smallest, the last one the largest, and only an empty set has none. -/
theorem pick_spec (backward : Bool) (l : List ℝ) :
    (pick backward l = none ↔ l = []) ∧ ∀ m, pick backward l = some m → m ∈ l ∧ ∀ y ∈ l, if backward then y ≤ m else m ≤ y := by
  cases l with
  | nil => simp [pick]
  | cons x l =>
    refine ⟨by simp [pick], ?_⟩
    intro m hm
    simp only [pick, Option.some.injEq] at hm
    have key : ∀ (l : List ℝ) (x m : ℝ), l.foldl (fun m y => if backward then max m y else min m y) x = m →
        m ∈ x :: l ∧ ∀ y ∈ x :: l, if backward then y ≤ m else m ≤ y := by
      intro l
      induction l with
      | nil => 
        intro x m h
        simp only [List.foldl_nil] at h
        subst h
        cases backward <;> simp
      | cons a l ih =>
        intro x m h
        rw [List.foldl_cons] at h
        obtain ⟨h1, h2⟩ := ih _ _ h
        cases backward with
        | false =>
          simp only [Bool.false_eq_true, if_false] at h1 h2 ⊢
          have hx := h2 _ (List.mem_cons_self ..)
          refine ⟨?_, ?_⟩
          · rcases List.mem_cons.mp h1 with e | e
            · rw [e]; rcases min_choice x a with e' | e' <;> rw [e'] <;> simp
            · exact List.mem_cons_of_mem _ (List.mem_cons_of_mem _ e)
          · intro y hy
            rcases List.mem_cons.mp hy with rfl | hy
            · exact le_trans hx (min_le_left _ _)
            · rcases List.mem_cons.mp hy with rfl | hy
              · exact le_trans hx (min_le_right _ _)
              · exact h2 y (List.mem_cons_of_mem _ hy)
        | true =>
          simp only [if_true] at h1 h2 ⊢
          have hx := h2 _ (List.mem_cons_self ..)
          refine ⟨?_, ?_⟩
          · rcases List.mem_cons.mp h1 with e | e
            · rw [e]; rcases max_choice x a with e' | e' <;> rw [e'] <;> simp
            · exact List.mem_cons_of_mem _ (List.mem_cons_of_mem _ e)
          · intro y hy
            rcases List.mem_cons.mp hy with rfl | hy
            · exact le_trans (le_max_left _ _) hx
            · rcases List.mem_cons.mp hy with rfl | hy
              · exact le_trans (le_max_right _ _) hx
              · exact h2 y (List.mem_cons_of_mem _ hy)
    exact key l x m hm

theorem knot_cons (c : Curve) (l : List Curve) (j : Nat) : knot (c :: l) (j + 1) = c.length + knot l j := by
  unfold knot; rw [List.take_succ_cons, List.map_cons, List.sum_cons]

theorem curveCollisions_mem (polygon : List Pt) (backward : Bool) (range : Option (ℝ × ℝ)) (cs : List Curve) (first : ℝ) :
    ∃ l, curveCollisions polygon backward range cs first = some l ∧
      ∀ s, s ∈ l ↔ ∃ (j : Nat) (x : Curve) (m : List ℝ) (v : ℝ), cs[j]? = some x ∧ curveInRange (first + knot cs j) x.length range ∧
        x.collisionsPolygon polygon backward true = some m ∧ v ∈ m ∧ s = first + knot cs j + v * x.length := by
  induction cs generalizing first with
  | nil => exact ⟨[], rfl, by simp⟩
  | cons c cs ih =>
    obtain ⟨l, hl, hs⟩ := ih (first + c.length)
    obtain ⟨m, hm, -⟩ := polygon_mem (k := c) (polygon := polygon) (backward := backward) (close := true)
    have tail : ∀ s, s ∈ l → ∃ (j : Nat) (x : Curve) (m : List ℝ) (v : ℝ), (c :: cs)[j]? = some x ∧ curveInRange (first + knot (c :: cs) j) x.length range ∧
        x.collisionsPolygon polygon backward true = some m ∧ v ∈ m ∧ s = first + knot (c :: cs) j + v * x.length := by
      intro s h
      obtain ⟨j, x, m', v, e1, e2, e3, e4, e5⟩ := (hs s).mp h
      refine ⟨j + 1, x, m', v, by simpa using e1, ?_, e3, e4, ?_⟩
      · rw [knot_cons, ← add_assoc]; exact e2
      · rw [e5, knot_cons]; ring
    by_cases hr : curveInRange first c.length range
    · refine ⟨m.map (fun s => first + s * c.length) ++ l, ?_, ?_⟩
      · rw [curveCollisions, if_pos hr, hm, hl]
      · intro s
        rw [List.mem_append, List.mem_map]
        constructor
        · rintro (⟨v, hv, rfl⟩ | h)
          · exact ⟨0, c, m, v, rfl, by simpa [knot] using hr, hm, hv, by simp [knot]⟩
          · exact tail s h
        · rintro ⟨j, x, m', v, e1, e2, e3, e4, e5⟩
          cases j with
          | zero =>
            simp only [List.getElem?_cons_zero, Option.some.injEq] at e1
            subst e1
            rw [hm] at e3
            obtain rfl := Option.some.inj e3
            exact Or.inl ⟨v, e4, by rw [e5]; simp [knot]⟩
          | succ j =>
            refine Or.inr ((hs s).mpr ⟨j, x, m', v, by simpa using e1, ?_, e3, e4, ?_⟩)
            · rw [knot_cons, ← add_assoc] at e2; exact e2
            · rw [e5, knot_cons]; ring
    · refine ⟨l, ?_, ?_⟩
      · rw [curveCollisions, if_neg hr, hl]; simp
      · intro s
        constructor
        · exact tail s
        · rintro ⟨j, x, m', v, e1, e2, e3, e4, e5⟩
          cases j with
          | zero =>
            simp only [List.getElem?_cons_zero, Option.some.injEq] at e1
            subst e1
            exact absurd (by simpa [knot] using e2) hr
          | succ j =>
            refine (hs s).mpr ⟨j, x, m', v, by simpa using e1, ?_, e3, e4, ?_⟩
            · rw [knot_cons, ← add_assoc] at e2; exact e2
            · rw [e5, knot_cons]; ring

theorem knot_nonneg {cs : List Curve} (hp : ∀ y ∈ cs, 0 < y.length) (i : Nat) : 0 ≤ knot cs i := by
  unfold knot
  apply List.sum_nonneg
  intro y hy
  obtain ⟨z, hz, rfl⟩ := List.mem_map.mp hy
  exact (hp z (List.mem_of_mem_take hz)).le

theorem knot_mono {cs : List Curve} (hp : ∀ y ∈ cs, 0 < y.length) {i j : Nat} (h : i ≤ j) : knot cs i ≤ knot cs j := by
  induction j, h using Nat.le_induction with
  | base => exact le_rfl
  | succ j h ih =>
    by_cases hj : j < cs.length
    · rw [knot_succ (List.getElem?_eq_getElem hj)]
      have := hp _ (List.getElem_mem hj)
      linarith
    · have : knot cs (j + 1) = knot cs j := by
        unfold knot; rw [List.take_of_length_le (by omega), List.take_of_length_le (by omega)]
      rw [this]; exact ih

theorem knot_total {k : Spline} {c : Curve} {l : List Curve} (hc : Chain k c l) : knot k.curves k.curves.length = k.total := by
  unfold knot; rw [List.take_length, hc.total, hc.curves]

/-- Point of the spline at a place given by a curve and a share of its length. -/
theorem point_at {k : Spline} (hm : Made k) {j : Nat} {x : Curve} (hx : k.curves[j]? = some x) {v : ℝ} (h0 : 0 ≤ v) (h1 : v ≤ 1) :
    k.point (knot k.curves j + v * x.length) = some (x.point v) := by
  obtain ⟨c, l, hc⟩ := made_chain hm
  rw [point_made hm, onCurve_along hc]
  have hpos : 0 < x.length := hc.pos x (by rw [← hc.curves]; exact List.mem_of_getElem? hx)
  by_cases hv : v < 1
  · have := along_local Curve.point c l j x (v * x.length) hc.pos (by rw [← hc.curves]; exact hx) (mul_nonneg h0 hpos.le)
      (Or.inl (by nlinarith))
    rw [← hc.curves] at this
    rw [this, mul_div_cancel_right₀ _ hpos.ne']
  · obtain rfl : v = 1 := le_antisymm h1 (not_lt.mp hv)
    rw [one_mul]
    by_cases hl : j + 1 < k.curves.length
    · have hy := List.getElem?_eq_getElem hl
      have hpy := hc.pos _ (by rw [← hc.curves]; exact List.getElem_mem hl)
      have := along_local Curve.point c l (j + 1) _ 0 hc.pos (by rw [← hc.curves]; exact hy) le_rfl (Or.inl hpy)
      rw [← hc.curves, knot_succ hx, add_zero, zero_div] at this
      rw [this, (joined hm j x _ hx hy).1]
    · have hj := (List.getElem?_eq_some_iff.mp hx).1
      have := along_local Curve.point c l j x x.length hc.pos (by rw [← hc.curves]; exact hx) hpos.le (Or.inr (by rw [← hc.curves]; omega))
      rw [← hc.curves, div_self hpos.ne'] at this
      rw [this]

/-- Every place of a spline is on one of its curves. -/
theorem place_on_curve {k : Spline} (hm : Made k) {s : ℝ} (h0 : 0 ≤ s) (h1 : s ≤ k.total) :
    ∃ (j : Nat) (x : Curve) (v : ℝ), k.curves[j]? = some x ∧ s = knot k.curves j + v * x.length ∧ 0 ≤ v ∧ v ≤ 1 ∧ (s < k.total → v < 1) := by
  obtain ⟨c, l, hc⟩ := made_chain hm
  by_cases h : s < k.total
  · obtain ⟨j, v, x, -, e2, -, e4, e5, e6⟩ := along_indexFrom Curve.point c l s 0 0 hc.pos h0 (by rw [zero_add, ← hc.total]; exact h)
    rw [← hc.curves] at e2 e4
    have hpos : 0 < x.length := hc.pos x (by rw [← hc.curves]; exact List.mem_of_getElem? e2)
    refine ⟨j, x, v / x.length, e2, ?_, div_nonneg e5 hpos.le, ((div_lt_one hpos).mpr e6).le, fun _ => (div_lt_one hpos).mpr e6⟩
    rw [div_mul_cancel₀ _ hpos.ne']; unfold knot; linarith
  · have he : s = k.total := le_antisymm h1 (not_lt.mp h)
    have hlen : 0 < k.curves.length := by rw [hc.curves]; simp
    have hl : k.curves.length - 1 < k.curves.length := by omega
    have hx := List.getElem?_eq_getElem hl
    have hks := knot_succ hx
    rw [Nat.sub_add_cancel hlen, knot_total hc] at hks
    exact ⟨_, _, 1, hx, by rw [he, hks, one_mul], by norm_num, le_rfl, fun h' => absurd h' h⟩

/-- **C92** The crossings that a spline of at least three control points reports with a closed polygon, seen from above: every place that is not
the place of a control point is reported exactly if its point is on the outline, the places of control points are reported if their point is
on the outline, and every reported place is between the ends of the spline. If a range of places is given, this holds for the places in the
range, but places outside of it may be reported too (`collisions_range_violated`). Missing: what `collisions_partial` lacks; splines of one and
two control points. -/
theorem spline_collisions_partial (raw : List Pt) (k : Spline) (h : Spline.make raw = some k) (h3 : 3 ≤ k.cp.length) (polygon : List Pt)
    (backward : Bool) (range : Option (ℝ × ℝ)) (h2 : 2 ≤ polygon.length) (hr : ∀ c ∈ k.curves, Regular c (polygon ++ polygon.take 1)) :
    ∃ l, k.collisions polygon backward range = some l ∧
      (∀ s ∈ l, 0 ≤ s ∧ s ≤ k.total ∧ ((∀ i : Nat, s ≠ ((k.curves.take i).map Curve.length).sum) →
        ∃ p, k.point s = some p ∧ OnOutline (polygon ++ polygon.take 1) p)) ∧
      (∀ s p, 0 ≤ s → s ≤ k.total → (∀ lo hi, range = some (lo, hi) → lo ≤ s ∧ s ≤ hi ∧ lo < k.total) → k.point s = some p →
        OnOutline (polygon ++ polygon.take 1) p → s ∈ l) := by
  have hm := made_of_make h h3
  obtain ⟨c, l, hc⟩ := made_chain hm
  have hpos : ∀ y ∈ k.curves, 0 < y.length := by rw [hc.curves]; exact hc.pos
  have he : k.collisions polygon backward range = curveCollisions polygon backward range k.curves 0 := by
    unfold Spline.collisions
    rw [if_neg (by omega)]
    split
    · rename_i e; rw [e] at h3; simp at h3
    · rename_i e; rw [e] at h3; simp at h3
    · rename_i e; rw [e] at h3; simp at h3
    · rfl
  rw [he]
  obtain ⟨r, hr1, hr2⟩ := curveCollisions_mem polygon backward range k.curves 0
  refine ⟨r, hr1, ?_, ?_⟩
  · intro s hs
    obtain ⟨j, x, m, v, e1, e2, e3, e4, e5⟩ := (hr2 s).mp hs
    rw [zero_add] at e5
    have hxm := List.mem_of_getElem? e1
    have hx := hpos x hxm
    obtain ⟨m', f1, f2, f3, f4⟩ := collisionsPolygon_partial x polygon backward h2 (hr x hxm)
    rw [f1] at e3
    obtain rfl := Option.some.inj e3
    obtain ⟨v0, v1⟩ := f4 v e4
    have hj := (List.getElem?_eq_some_iff.mp e1).1
    have hk0 := knot_nonneg hpos j
    have hk1 := knot_mono hpos (show j + 1 ≤ k.curves.length by omega)
    rw [knot_total hc, knot_succ e1] at hk1
    have hv0 : 0 ≤ v * x.length := mul_nonneg v0 hx.le
    have hv1 : v * x.length ≤ x.length := by nlinarith
    refine ⟨by rw [e5]; linarith, by rw [e5]; linarith, ?_⟩
    intro hn
    have hvne0 : v ≠ 0 := by
      intro hv; apply hn j; rw [e5, hv, zero_mul, add_zero]; rfl
    have hvne1 : v ≠ 1 := by
      intro hv; apply hn (j + 1); rw [e5, hv, one_mul, ← knot_succ e1]; rfl
    refine ⟨x.point v, by rw [e5]; exact point_at hm e1 v0 v1, ?_⟩
    exact (f2 v (lt_of_le_of_ne v0 hvne0.symm) (lt_of_le_of_ne v1 hvne1)).mp e4
  · intro s p h0 h1 hrange hp ho
    obtain ⟨j, x, v, e1, e2, v0, v1, v2⟩ := place_on_curve hm h0 h1
    have hxm := List.mem_of_getElem? e1
    have hx := hpos x hxm
    obtain ⟨m', f1, f2, f3, f4⟩ := collisionsPolygon_partial x polygon backward h2 (hr x hxm)
    have hpt := point_at hm e1 v0 v1
    rw [← e2, hp] at hpt
    rw [Option.some.inj hpt] at ho
    rw [hr2]
    refine ⟨j, x, m', v, e1, ?_, f1, f3 v v0 v1 ho, by rw [e2, zero_add]⟩
    rw [zero_add]
    have hv0 : 0 ≤ v * x.length := mul_nonneg v0 hx.le
    cases range with
    | none => trivial
    | some r =>
      obtain ⟨lo, hi⟩ := r
      obtain ⟨g1, g2, g3⟩ := hrange lo hi rfl
      refine ⟨Or.inr ?_, by simp only; linarith⟩
      simp only
      by_cases hs : s < k.total
      · have : v * x.length < x.length := by have := v2 hs; nlinarith
        linarith
      · have hst : s = k.total := le_antisymm h1 (not_lt.mp hs)
        have : v * x.length ≤ x.length := by nlinarith
        linarith

/-- **C92** The crossing that is reported is the first one, or the last one if the search is backward; if none is reported, no point of the
spline between its ends is on the outline. -/
theorem spline_collision_partial (raw : List Pt) (k : Spline) (h : Spline.make raw = some k) (h3 : 3 ≤ k.cp.length) (polygon : List Pt)
    (backward : Bool) (h2 : 2 ≤ polygon.length) (hr : ∀ c ∈ k.curves, Regular c (polygon ++ polygon.take 1)) :
    ∃ o, k.collision polygon backward none = some o ∧
      (∀ s p, 0 ≤ s → s ≤ k.total → k.point s = some p → OnOutline (polygon ++ polygon.take 1) p →
        ∃ s', o = some s' ∧ if backward then s ≤ s' else s' ≤ s) ∧
      (∀ s, o = some s → 0 ≤ s ∧ s ≤ k.total ∧ ((∀ i : Nat, s ≠ ((k.curves.take i).map Curve.length).sum) →
        ∃ p, k.point s = some p ∧ OnOutline (polygon ++ polygon.take 1) p)) := by
  obtain ⟨l, e1, e2, e3⟩ := spline_collisions_partial raw k h h3 polygon backward none h2 hr
  obtain ⟨p1, p2⟩ := pick_spec backward l
  refine ⟨pick backward l, by unfold Spline.collision; rw [e1]; rfl, ?_, ?_⟩
  · intro s p h0 h1 hp ho
    have hs := e3 s p h0 h1 (fun _ _ h => nomatch h) hp ho
    have hne : pick backward l ≠ none := by
      rw [Ne, p1]; intro h; rw [h] at hs; simp at hs
    obtain ⟨m, hm⟩ := Option.ne_none_iff_exists'.mp hne
    exact ⟨m, hm, (p2 m hm).2 s hs⟩
  · intro s hs
    exact e2 s (p2 s hs).1

end Verif.Geometry
