import Verif.Geometry.SplineCrossTheorems
/-
C92 (crossing of a spline with a straight line, place of a pose on a spline), and the cases in which the reported crossings are wrong.
-/
namespace Verif.Geometry
open Classical

theorem lengthWith_straight (c d : Pt) (n : Nat) (hn : 0 < n) :
    (⟨⟨0, 0, 0⟩, ⟨0, 0, 0⟩, c, d⟩ : Curve).lengthWith n = Real.sqrt (c.x * c.x + c.y * c.y + c.z * c.z) := by
  unfold Curve.lengthWith
  simp only [mul_zero, zero_add]
  have key : ∀ (r : ℝ) (l : List Nat) (z : ℝ), l.foldl (fun ret (_ : Nat) => ret + r) z = z + l.length * r := by
    intro r l
    induction l with
    | nil => simp
    | cons a l ih => intro z; rw [List.foldl_cons, ih, List.length_cons]; push_cast; ring
  rw [key, List.length_range, zero_add, mul_comm (Real.sqrt _), ← mul_assoc, mul_one_div_cancel (by exact_mod_cast hn.ne'), one_mul]

attribute [local irreducible] Curve.lengthWith

/-- The length of a straight curve that is passed evenly is the distance of its ends. -/
theorem length_straight (c d : Pt) : (⟨⟨0, 0, 0⟩, ⟨0, 0, 0⟩, c, d⟩ : Curve).length = Real.sqrt (c.x * c.x + c.y * c.y + c.z * c.z) := by
  unfold Curve.length; exact lengthWith_straight c d 100 (by norm_num)

theorem firstCollision_spec (k : Spline) (p0 p1 : Pt) (backward : Bool) (idx : List Nat) (hi : ∀ i ∈ idx, i < k.curves.length) :
    (firstCollision k p0 p1 backward idx = some none ∧ ∀ i ∈ idx, ∀ x, k.curves[i]? = some x → x.collisions p0 p1 backward = some []) ∨
    ∃ pre i post x m v, idx = pre ++ i :: post ∧ (∀ j ∈ pre, ∀ y, k.curves[j]? = some y → y.collisions p0 p1 backward = some []) ∧
      k.curves[i]? = some x ∧ x.collisions p0 p1 backward = some m ∧ pick backward m = some v ∧
      firstCollision k p0 p1 backward idx = some (some (knot k.curves i + v * x.length)) := by
  induction idx with
  | nil => exact Or.inl ⟨rfl, by simp⟩
  | cons i idx ih =>
    have hil := hi i (List.mem_cons_self ..)
    have hx := List.getElem?_eq_getElem hil
    obtain ⟨m, hm⟩ := collisions_defined (k.curves[i]) p0 p1 backward
    have hc : (k.curves[i]).collision p0 p1 backward = some (pick backward m) := by unfold Curve.collision; rw [hm]; rfl
    rcases hp : pick backward m with _ | v
    · have hm0 : m = [] := (pick_spec backward m).1.mp hp
      have hs : firstCollision k p0 p1 backward (i :: idx) = firstCollision k p0 p1 backward idx := by
        conv_lhs => unfold firstCollision
        rw [hx]; simp only; rw [hc, hp]
      rw [hs]
      have hhead : ∀ y, k.curves[i]? = some y → y.collisions p0 p1 backward = some [] := by
        intro y hy
        rw [hx] at hy
        obtain rfl := Option.some.inj hy
        rw [hm, hm0]
      rcases ih (fun j hj => hi j (List.mem_cons_of_mem _ hj)) with ⟨h1, h2⟩ | ⟨pre, i', post, x, m', v, h1, h2, h3⟩
      · refine Or.inl ⟨h1, ?_⟩
        intro j hj y hy
        rcases List.mem_cons.mp hj with rfl | hj
        · exact hhead y hy
        · exact h2 j hj y hy
      · refine Or.inr ⟨i :: pre, i', post, x, m', v, by rw [h1]; rfl, ?_, h3⟩
        intro j hj y hy
        rcases List.mem_cons.mp hj with rfl | hj
        · exact hhead y hy
        · exact h2 j hj y hy
    · refine Or.inr ⟨[], i, idx, _, m, v, rfl, by simp, hx, hm, hp, ?_⟩
      unfold firstCollision
      rw [hx]; simp only; rw [hc, hp]
      simp only
      rw [sAt_eq _ hil]; rfl

/-- **C92** The crossing of a spline of at least three control points with the straight line between two points: the first one, or the last one
if the search is backward; if none is reported, no point of the spline between its ends is on the line. -/
theorem spline_segment_partial (raw : List Pt) (k : Spline) (h : Spline.make raw = some k) (h3 : 3 ≤ k.cp.length) (p0 p1 : Pt)
    (backward : Bool) (hne : p0.x ≠ p1.x ∨ p0.y ≠ p1.y) (hr : ∀ c ∈ k.curves, WellPosed fun t => area p0 p1 (c.point t)) :
    ∃ o, k.collisionSegment p0 p1 backward = some o ∧
      (∀ s p, 0 ≤ s → s ≤ k.total → k.point s = some p → OnSegment p0 p1 p → ∃ s', o = some s' ∧ if backward then s ≤ s' else s' ≤ s) ∧
      (∀ s, o = some s → 0 ≤ s ∧ s ≤ k.total ∧ ((∀ i : Nat, s ≠ ((k.curves.take i).map Curve.length).sum) →
        ∃ p, k.point s = some p ∧ OnSegment p0 p1 p)) := by
  have hm := made_of_make h h3
  obtain ⟨c, l, hc⟩ := made_chain hm
  have hpos : ∀ y ∈ k.curves, 0 < y.length := by rw [hc.curves]; exact hc.pos
  obtain ⟨idx, hidx⟩ : ∃ idx, (if backward then (List.range k.curves.length).map (fun i => k.curves.length - 1 - i) else List.range k.curves.length) = idx := ⟨_, rfl⟩
  have hmem : ∀ i, i ∈ idx ↔ i < k.curves.length := by
    intro i
    rw [← hidx]
    cases backward with
    | false => simp
    | true =>
      simp only [if_true, List.mem_map, List.mem_range]
      constructor
      · rintro ⟨a, ha, rfl⟩; omega
      · intro hi; exact ⟨k.curves.length - 1 - i, by omega, by omega⟩
  have hsorted : idx.Pairwise (fun a b => if backward then b < a else a < b) := by
    rw [← hidx]
    cases backward with
    | false => simpa using List.pairwise_lt_range
    | true =>
      simp only [if_true]
      rw [List.pairwise_map]
      refine List.Pairwise.imp_of_mem ?_ (List.pairwise_lt_range (n := k.curves.length))
      intro a b ha hb hab
      rw [List.mem_range] at ha hb
      omega
  have hrep : ∀ (j : Nat) (x : Curve) (v : ℝ), k.curves[j]? = some x → 0 ≤ v → v ≤ 1 → OnSegment p0 p1 (x.point v) →
      ∃ m, x.collisions p0 p1 backward = some m ∧ v ∈ m := by
    intro j x v hx v0 v1 ho
    obtain ⟨m, f1, -, f3, -⟩ := collisions_partial x p0 p1 backward hne (hr x (List.mem_of_getElem? hx))
    exact ⟨m, f1, f3 v v0 v1 ho⟩
  have he : k.collisionSegment p0 p1 backward = firstCollision k p0 p1 backward idx := by
    unfold Spline.collisionSegment; simp only; rw [hidx]
  rw [he]
  rcases firstCollision_spec k p0 p1 backward idx (fun i hi => (hmem i).mp hi) with ⟨h1, h2⟩ | ⟨pre, i, post, x, m, v, h1, h2, hx, h4, h5, h6⟩
  · refine ⟨none, h1, ?_, fun _ h => nomatch h⟩
    intro s p s0 s1 hp ho
    obtain ⟨j, x, v, e1, e2, v0, v1, -⟩ := place_on_curve hm s0 s1
    have hpt := point_at hm e1 v0 v1
    rw [← e2, hp] at hpt
    rw [Option.some.inj hpt] at ho
    obtain ⟨m, f1, f2⟩ := hrep j x v e1 v0 v1 ho
    rw [h2 j ((hmem j).mpr (List.getElem?_eq_some_iff.mp e1).1) x e1] at f1
    obtain rfl := Option.some.inj f1
    simp at f2
  · have hxm := List.mem_of_getElem? hx
    have hxp := hpos x hxm
    obtain ⟨m', f1, f2, f3, f4⟩ := collisions_partial x p0 p1 backward hne (hr x hxm)
    rw [f1] at h4
    obtain rfl := Option.some.inj h4
    obtain ⟨g1, g2⟩ := (pick_spec backward m').2 v h5
    obtain ⟨v0, v1⟩ := f4 v g1
    have hj := (List.getElem?_eq_some_iff.mp hx).1
    have hk0 := knot_nonneg hpos i
    have hk1 := knot_mono hpos (show i + 1 ≤ k.curves.length by omega)
    rw [knot_total hc, knot_succ hx] at hk1
    have hv0 : 0 ≤ v * x.length := mul_nonneg v0 hxp.le
    have hv1 : v * x.length ≤ x.length := by nlinarith
    refine ⟨_, h6, ?_, ?_⟩
    · intro s p s0 s1 hp ho
      refine ⟨_, rfl, ?_⟩
      obtain ⟨j, y, w, e1, e2, w0, w1, -⟩ := place_on_curve hm s0 s1
      have hpt := point_at hm e1 w0 w1
      rw [← e2, hp] at hpt
      rw [Option.some.inj hpt] at ho
      obtain ⟨m, q1, q2⟩ := hrep j y w e1 w0 w1 ho
      have hyp := hpos y (List.mem_of_getElem? e1)
      have hw0 : 0 ≤ w * y.length := mul_nonneg w0 hyp.le
      have hw1 : w * y.length ≤ y.length := by nlinarith
      have hjm := (hmem j).mpr (List.getElem?_eq_some_iff.mp e1).1
      rw [h1] at hjm hsorted
      rcases List.mem_append.mp hjm with hjp | hjp
      · rw [h2 j hjp y e1] at q1
        obtain rfl := Option.some.inj q1
        simp at q2
      · rcases List.mem_cons.mp hjp with rfl | hjp
        · rw [hx] at e1
          obtain rfl := Option.some.inj e1
          rw [f1] at q1
          obtain rfl := Option.some.inj q1
          have := g2 w q2
          rw [e2]
          cases backward with
          | false => simp only [Bool.false_eq_true, if_false] at this ⊢; nlinarith
          | true => simp only [if_true] at this ⊢; nlinarith
        · have hr := (List.pairwise_cons.mp (List.pairwise_append.mp hsorted).2.1).1 j hjp
          rw [e2]
          cases backward with
          | false =>
            simp only [Bool.false_eq_true, if_false] at hr ⊢
            have := knot_mono hpos (show i + 1 ≤ j by omega)
            rw [knot_succ hx] at this
            linarith
          | true =>
            simp only [if_true] at hr ⊢
            have := knot_mono hpos (show j + 1 ≤ i by omega)
            rw [knot_succ e1] at this
            linarith
    · intro s hs
      obtain rfl := Option.some.inj hs
      refine ⟨by linarith, by linarith, ?_⟩
      intro hn
      have hvne0 : v ≠ 0 := by
        intro hv; apply hn i; rw [hv, zero_mul, add_zero]; rfl
      have hvne1 : v ≠ 1 := by
        intro hv; apply hn (i + 1); rw [hv, one_mul, ← knot_succ hx]; rfl
      exact ⟨x.point v, point_at hm hx v0 v1, (f2 v (lt_of_le_of_ne v0 hvne0.symm) (lt_of_le_of_ne v1 hvne1)).mp g1⟩

/-- The place of a pose is the first crossing with the line across the pose. -/
theorem sValue_segment (k : Spline) (hm : Made k) (pose : Pose) (threshold : ℝ) :
    k.sValue pose threshold = k.collisionSegment (transformPoint pose ⟨0, threshold, 0⟩) (transformPoint pose ⟨0, -threshold, 0⟩) false := by
  have h3 := hm.three
  have key : ∀ (n j : Nat), j + n = k.curves.length →
      curveSValue pose threshold (k.curves.drop j) (knot k.curves j) =
        firstCollision k (transformPoint pose ⟨0, threshold, 0⟩) (transformPoint pose ⟨0, -threshold, 0⟩) false (List.range' j n) := by
    intro n
    induction n with
    | zero =>
      intro j hj
      rw [List.drop_of_length_le (by omega)]; rfl
    | succ n ih =>
      intro j hj
      have hl : j < k.curves.length := by omega
      have hx := List.getElem?_eq_getElem hl
      rw [List.drop_eq_getElem_cons hl, List.range'_succ]
      unfold curveSValue firstCollision
      rw [hx]
      simp only [Curve.sValue]
      cases (k.curves[j]).collision (transformPoint pose ⟨0, threshold, 0⟩) (transformPoint pose ⟨0, -threshold, 0⟩) false with
      | none => rfl
      | some o =>
        cases o with
        | none =>
          simp only
          rw [← knot_succ hx]
          exact ih (j + 1) (by omega)
        | some s =>
          simp only
          rw [sAt_eq _ hl]; rfl
  have h0 := key k.curves.length 0 (by omega)
  unfold Spline.sValue Spline.collisionSegment
  simp only [Bool.false_eq_true, if_false]
  rw [List.range_eq_range', ← h0]
  split
  · rename_i e; rw [e] at h3; simp at h3
  · rename_i e; rw [e] at h3; simp at h3
  · rename_i e; rw [e] at h3; simp at h3
  · simp [knot]

/-- **C92** The place of a pose on a spline of at least three control points: for a position on the spline at place `s0` a place is found, not
beyond `s0`, and its point is on the line across the pose that reaches `reach` to both sides; a pose whose line across does not meet the spline
has no place. -/
theorem spline_place_partial (raw : List Pt) (k : Spline) (h : Spline.make raw = some k) (h3 : 3 ≤ k.cp.length) (pos : Pt) (θ reach : ℝ)
    (hreach : reach ≠ 0) (p0 p1 : Pt) (hp0 : p0 = ⟨pos.x - reach * Real.sin θ, pos.y + reach * Real.cos θ, pos.z⟩)
    (hp1 : p1 = ⟨pos.x + reach * Real.sin θ, pos.y - reach * Real.cos θ, pos.z⟩)
    (hr : ∀ c ∈ k.curves, WellPosed fun t => area p0 p1 (c.point t)) :
    ∃ o, k.sValue ⟨pos, ⟨0, 0, Real.sin (θ / 2), Real.cos (θ / 2)⟩⟩ reach = some o ∧
      (∀ s p, 0 ≤ s → s ≤ k.total → k.point s = some p → OnSegment p0 p1 p → ∃ s', o = some s' ∧ s' ≤ s) ∧
      (∀ s, 0 ≤ s → s ≤ k.total → k.point s = some pos → ∃ s', o = some s' ∧ s' ≤ s) ∧
      (∀ s, o = some s → 0 ≤ s ∧ s ≤ k.total ∧ ((∀ i : Nat, s ≠ ((k.curves.take i).map Curve.length).sum) →
        ∃ p, k.point s = some p ∧ OnSegment p0 p1 p)) := by
  have hm := made_of_make h h3
  have hne : p0.x ≠ p1.x ∨ p0.y ≠ p1.y := by
    by_contra hn
    push Not at hn
    obtain ⟨hx, hy⟩ := hn
    rw [hp0, hp1] at hx hy
    simp only at hx hy
    have h1 : reach * Real.sin θ = 0 := by linarith
    have h2 : reach * Real.cos θ = 0 := by linarith
    have hs := (mul_eq_zero.mp h1).resolve_left hreach
    have hc := (mul_eq_zero.mp h2).resolve_left hreach
    have := Real.sin_sq_add_cos_sq θ
    rw [hs, hc] at this; norm_num at this
  obtain ⟨o, e1, e2, e3⟩ := spline_segment_partial raw k h h3 p0 p1 false hne hr
  have hs : k.sValue ⟨pos, ⟨0, 0, Real.sin (θ / 2), Real.cos (θ / 2)⟩⟩ reach = k.collisionSegment p0 p1 false := by
    rw [sValue_segment k hm, transformPoint_yaw, transformPoint_yaw, hp0, hp1]
    congr 2 <;> simp <;> ring
  rw [hs]
  refine ⟨o, e1, ?_, ?_, e3⟩
  · intro s p a b c d
    simpa using e2 s p a b c d
  · intro s a b c
    have : OnSegment p0 p1 pos := by
      refine ⟨1 / 2, by norm_num, by norm_num, ?_, ?_⟩ <;> rw [hp0, hp1] <;> simp only <;> ring
    simpa using e2 s pos a b c this

/-- The first metre of the way from (0, 0) to (2, 0). -/
def half0 : Curve := ⟨⟨0, 0, 0⟩, ⟨0, 0, 0⟩, ⟨1, 0, 0⟩, ⟨0, 0, 0⟩⟩

/-- The second metre. -/
def half1 : Curve := ⟨⟨0, 0, 0⟩, ⟨0, 0, 0⟩, ⟨1, 0, 0⟩, ⟨1, 0, 0⟩⟩

theorem halves_length : half0.length = 1 ∧ half1.length = 1 := by
  unfold half0 half1
  rw [length_straight, length_straight]
  norm_num

/-- The spline through (0, 0), (1, 0) and (2, 0). -/
theorem straight_made : Spline.make [⟨0, 0, 0⟩, ⟨1, 0, 0⟩, ⟨2, 0, 0⟩] = some ⟨[⟨0, 0, 0⟩, ⟨1, 0, 0⟩, ⟨2, 0, 0⟩], [half0, half1]⟩ := by
  have hu : unique [⟨0, 0, 0⟩, ⟨1, 0, 0⟩, ⟨2, 0, 0⟩] = [⟨0, 0, 0⟩, ⟨1, 0, 0⟩, ⟨2, 0, 0⟩] := by
    simp [unique]
  have h0 : curveAt [⟨0, 0, 0⟩, ⟨1, 0, 0⟩, ⟨2, 0, 0⟩] 0 = some half0 := by
    simp only [curveAt, List.getElem?_cons_zero, List.getElem?_cons_succ, if_true, half0]
    norm_num
  have h1 : curveAt [⟨0, 0, 0⟩, ⟨1, 0, 0⟩, ⟨2, 0, 0⟩] 1 = some half1 := by
    simp only [curveAt, List.getElem?_cons_zero, List.getElem?_cons_succ, half1]
    norm_num
  unfold Spline.make
  rw [hu]
  simp only [List.length_cons, List.length_nil]
  have : List.range (0 + 1 + 1 + 1 - 1) = [0, 1] := by decide
  rw [this, List.mapM_cons, List.mapM_cons, List.mapM_nil, h0, h1]
  rfl

/-- A line across the straight spline at (1/4, 0), drawn as a polygon of two points. -/
theorem straight_regular : ∀ c ∈ [half0, half1], Regular c ([⟨1 / 4, -1, 0⟩, ⟨1 / 4, 1, 0⟩] ++ [⟨1 / 4, -1, 0⟩, ⟨1 / 4, 1, 0⟩].take 1) := by
  intro c hc i p0 p1 hp0 hp1
  have key : ∀ (y0 y1 : ℝ), 1 ≤ |y1 - y0| → c ∈ [half0, half1] → WellPosed fun t => area ⟨1 / 4, y0, 0⟩ ⟨1 / 4, y1, 0⟩ (c.point t) := by
    intro y0 y1 hy hc
    have hpos : (1 : ℝ) / 10 ^ 7 < |-(y1 - y0)| := by rw [abs_neg]; exact lt_of_lt_of_le (by norm_num) hy
    simp only [List.mem_cons, List.not_mem_nil, or_false] at hc
    rcases hc with rfl | rfl
    · refine ⟨0, 0, -(y1 - y0), 1 / 4 * (y1 - y0), fun t => ?_, Or.inr (Or.inr (Or.inl ⟨rfl, rfl, hpos⟩))⟩
      unfold area Curve.point half0; simp only; ring
    · refine ⟨0, 0, -(y1 - y0), 1 / 4 * (y1 - y0) - (y1 - y0), fun t => ?_, Or.inr (Or.inr (Or.inl ⟨rfl, rfl, hpos⟩))⟩
      unfold area Curve.point half1; simp only; ring
  match i with
  | 0 =>
    simp only [List.take_succ_cons, List.take_zero, List.cons_append, List.nil_append, List.getElem?_cons_zero, List.getElem?_cons_succ,
      zero_add, Option.some.injEq] at hp0 hp1
    subst hp0; subst hp1
    exact ⟨Or.inr (by norm_num), key _ _ (by norm_num) hc⟩
  | 1 =>
    simp only [List.take_succ_cons, List.take_zero, List.cons_append, List.nil_append, List.getElem?_cons_zero, List.getElem?_cons_succ,
      Option.some.injEq] at hp0 hp1
    subst hp0; subst hp1
    exact ⟨Or.inr (by norm_num), key _ _ (by norm_num) hc⟩
  | i + 2 => simp at hp1

/-- The straight spline and the line across are a case for the theorems on crossings. -/
example : ∃ k, Spline.make [⟨0, 0, 0⟩, ⟨1, 0, 0⟩, ⟨2, 0, 0⟩] = some k ∧ 3 ≤ k.cp.length ∧
    (∀ c ∈ k.curves, Regular c ([⟨1 / 4, -1, 0⟩, ⟨1 / 4, 1, 0⟩] ++ [⟨1 / 4, -1, 0⟩, ⟨1 / 4, 1, 0⟩].take 1)) ∧
    ∀ c ∈ k.curves, WellPosed fun t => area ⟨1 / 4, -1, 0⟩ ⟨1 / 4, 1, 0⟩ (c.point t) :=
  ⟨_, straight_made, by simp, straight_regular, fun c hc => (straight_regular c hc 0 ⟨1 / 4, -1, 0⟩ ⟨1 / 4, 1, 0⟩ rfl rfl).2⟩

/-- **C92** fails for a search in a range of places: the crossing at place 1/4 is reported by a search in the places from 1/2 to 3/4. -/
theorem collisions_range_violated :
    ∃ (k : Spline) (l : List ℝ), Spline.make [⟨0, 0, 0⟩, ⟨1, 0, 0⟩, ⟨2, 0, 0⟩] = some k ∧
      k.collisions [⟨1 / 4, -1, 0⟩, ⟨1 / 4, 1, 0⟩] false (some (1 / 2, 3 / 4)) = some l ∧ 1 / 4 ∈ l := by
  obtain ⟨l, h1, h2⟩ := curveCollisions_mem [⟨1 / 4, -1, 0⟩, ⟨1 / 4, 1, 0⟩] false (some (1 / 2, 3 / 4)) [half0, half1] 0
  refine ⟨_, l, straight_made, ?_, ?_⟩
  · unfold Spline.collisions
    rw [if_neg (by simp)]
    exact h1
  · obtain ⟨m, f1, -, f3, -⟩ := collisionsPolygon_partial half0 [⟨1 / 4, -1, 0⟩, ⟨1 / 4, 1, 0⟩] false (by simp) (straight_regular half0 (by simp))
    rw [h2]
    refine ⟨0, half0, m, 1 / 4, rfl, ?_, f1, f3 _ (by norm_num) (by norm_num) ?_, ?_⟩
    · simp only [knot, List.take_zero, List.map_nil, List.sum_nil, curveInRange, halves_length.1]
      norm_num
    · refine ⟨0, ⟨1 / 4, -1, 0⟩, ⟨1 / 4, 1, 0⟩, rfl, rfl, 1 / 2, by norm_num, by norm_num, ?_, ?_⟩ <;> (simp [half0, Curve.point]; try norm_num)
    · simp only [knot, List.take_zero, List.map_nil, List.sum_nil, halves_length.1]
      norm_num

/-- **C92** fails for every spline of two control points: no crossing with a straight line is ever reported. -/
theorem two_points_segment_violated (p q : Pt) (h : p ≠ q) :
    ∃ k, Spline.make [p, q] = some k ∧ (∃ s, 0 ≤ s ∧ s ≤ k.total ∧ k.point s = some p) ∧ ∀ p0 p1 backward, k.collisionSegment p0 p1 backward = some none := by
  obtain ⟨h1, h2, h3, h4⟩ := two_points p q h
  refine ⟨_, h1, ⟨0, le_rfl, by rw [h2]; exact h3.le, ?_⟩, ?_⟩
  · rw [(h4 0 le_rfl h3.le).1]
    simp
  · intro p0 p1 backward
    unfold Spline.collisionSegment
    cases backward <;> rfl

/-- **C92** fails for a spline of two control points and a polygon whose closing side it crosses: the spline from (0, 0) to (2, 0) crosses the
side from (1, -1) to (1, 1) that closes the polygon, and no other side, but no crossing is reported. -/
theorem two_points_polygon_violated :
    ∃ k polygon p, Spline.make [⟨0, 0, 0⟩, ⟨2, 0, 0⟩] = some k ∧ k.point 1 = some p ∧ OnOutline (polygon ++ polygon.take 1) p ∧
      ∀ backward range, k.collisions polygon backward range = some [] := by
  obtain ⟨h1, h2, h3, h4⟩ := two_points ⟨0, 0, 0⟩ ⟨2, 0, 0⟩ (by simp)
  have hd : distance ⟨2, 0, 0⟩ ⟨0, 0, 0⟩ = 2 := by
    unfold distance
    have : ((2 : ℝ) - 0) ^ 2 + (0 - 0) ^ 2 + (0 - 0) ^ 2 = 2 ^ 2 := by norm_num
    simp only
    rw [this]; exact Real.sqrt_sq (by norm_num)
  refine ⟨_, [⟨1, 1, 0⟩, ⟨3, 1, 0⟩, ⟨3, -1, 0⟩, ⟨1, -1, 0⟩], _, h1, (h4 1 (by norm_num) (by rw [hd]; norm_num)).1, ?_, ?_⟩
  · refine ⟨3, ⟨1, -1, 0⟩, ⟨1, 1, 0⟩, rfl, rfl, 1 / 2, by norm_num, by norm_num, ?_, ?_⟩
    · simp only [hd]; norm_num
    · norm_num
  · intro backward range
    unfold Spline.collisions
    rw [if_neg (by simp)]
    simp only
    have hseg : getLineSegments [⟨1, 1, 0⟩, ⟨3, 1, 0⟩, ⟨3, -1, 0⟩, ⟨1, -1, 0⟩] false =
        [⟨⟨1, 1, 0⟩, ⟨3, 1, 0⟩⟩, ⟨⟨3, 1, 0⟩, ⟨3, -1, 0⟩⟩, ⟨⟨3, -1, 0⟩, ⟨1, -1, 0⟩⟩] := by
      have e1 : (1 : ℝ) ≠ -1 := by norm_num
      simp [getLineSegments, segments, e1]
    rw [hseg]
    have key : ∀ a b : Pt, ClearPair ⟨⟨0, 0, 0⟩, ⟨2, 0, 0⟩⟩ ⟨a, b⟩ → ¬ (a.y = 0 ∧ b.y = 0) → ¬ Meet ⟨⟨0, 0, 0⟩, ⟨2, 0, 0⟩⟩ ⟨a, b⟩ →
        (⟨⟨0, 0, 0⟩, ⟨2, 0, 0⟩⟩ : Seg).sValueSeg ⟨a, b⟩ true = some none := by
      intro a b hc hn hm
      refine (s_of_crossing _ _ hc ?_ true (Or.inl (by norm_num))).2 hm
      rintro ⟨g1, g2, -⟩
      unfold area at g1 g2
      simp only at g1 g2
      exact hn ⟨by linarith, by linarith⟩
    have k1 := key ⟨1, 1, 0⟩ ⟨3, 1, 0⟩
      ⟨Or.inr (by unfold area; norm_num), Or.inr (by unfold area; norm_num), Or.inr (by unfold area; norm_num), Or.inr (by unfold area; norm_num)⟩
      (by norm_num)
      (by rintro ⟨p, ⟨t, t0, t1, tx, ty⟩, ⟨u, u0, u1, ux, uy⟩⟩; simp only at tx ty ux uy; linarith)
    have k2 := key ⟨3, 1, 0⟩ ⟨3, -1, 0⟩
      ⟨Or.inr (by unfold area; norm_num), Or.inr (by unfold area; norm_num), Or.inr (by unfold area; norm_num), Or.inr (by unfold area; norm_num)⟩
      (by norm_num)
      (by rintro ⟨p, ⟨t, t0, t1, tx, ty⟩, ⟨u, u0, u1, ux, uy⟩⟩; simp only at tx ty ux uy; linarith)
    have k3 := key ⟨3, -1, 0⟩ ⟨1, -1, 0⟩
      ⟨Or.inr (by unfold area; norm_num), Or.inr (by unfold area; norm_num), Or.inr (by unfold area; norm_num), Or.inr (by unfold area; norm_num)⟩
      (by norm_num)
      (by rintro ⟨p, ⟨t, t0, t1, tx, ty⟩, ⟨u, u0, u1, ux, uy⟩⟩; simp only at tx ty ux uy; linarith)
    rw [List.mapM_cons, List.mapM_cons, List.mapM_cons, List.mapM_nil, k1, k2, k3]
    rfl

end Verif.Geometry
