import Verif.Contact.Spec
import Verif.Geometry.SplinePlaceTheorems
import Mathlib.Tactic.FieldSimp
/-
C207 (contact of two entities), C208 (crossing of a part of a spline), C209 (altitudes of a part of a spline).
-/
namespace Verif.Contact
open Verif.Geometry Classical

/-! ### C207 -/

theorem share_exists (c d x : ℝ) (hd : 0 ≤ d) (h : 2 * |x - c| ≤ d) : ∃ u : ℝ, 0 ≤ u ∧ u ≤ 1 ∧ x = c - d * 0.5 + u * d := by
  have h1 := abs_le.mp (show |x - c| ≤ d / 2 by linarith)
  rcases hd.eq_or_lt with hd | hd
  · subst hd
    refine ⟨0, le_rfl, zero_le_one, ?_⟩
    have : x = c := by linarith [h1.1, h1.2]
    rw [this]; ring
  · refine ⟨(x - c + d / 2) / d, div_nonneg (by linarith) hd.le, (div_le_one hd).mpr (by linarith), ?_⟩
    field_simp
    ring

/-- The outline of an upright box holds exactly what is below or above a point of the box. -/
theorem hull_iff (pose : Pose) (box : BBox) (hu : Upright pose) (hp : Proper box) (x y : ℝ) :
    InHull (outline pose box) x y ↔ ∃ q : Pt, 2 * |q.x - box.center.x| ≤ box.dims.x ∧ 2 * |q.y - box.center.y| ≤ box.dims.y ∧
      x = (transformPoint pose q).x ∧ y = (transformPoint pose q).y := by
  obtain ⟨ux, uy, un⟩ := hu
  obtain ⟨hx, hy, hz⟩ := hp
  unfold InHull outline toRing corners transformPoint rotate Pt.add flat
  simp only [List.map_cons, List.map_nil, List.take_succ_cons, List.take_zero, List.cons_append, List.nil_append, ux, uy, mul_zero, zero_mul,
    add_zero, zero_add, sub_zero, zero_sub, neg_zero]
  generalize pose.orientation.z = oz at *
  generalize pose.orientation.w = ow at *
  constructor
  · rintro ⟨w, hw, hn, hs, e1, e2⟩
    match w, hw with
    | [a, b, c, d, e], _ =>
      simp only [List.zipWith_cons_cons, List.zipWith_nil_right, List.sum_cons, List.sum_nil] at hs e1 e2
      have ha := hn a (by simp); have hb := hn b (by simp); have hc := hn c (by simp); have hd := hn d (by simp); have he := hn e (by simp)
      refine ⟨⟨box.center.x + (a + d + e - b - c) * (box.dims.x * 0.5), box.center.y + (a + b + e - c - d) * (box.dims.y * 0.5), 0⟩, ?_, ?_, ?_, ?_⟩
      · rw [add_sub_cancel_left, abs_mul, abs_of_nonneg (show 0 ≤ box.dims.x * 0.5 by linarith)]
        have : |a + d + e - b - c| ≤ 1 := abs_le.mpr ⟨by linarith, by linarith⟩
        linarith [mul_le_mul_of_nonneg_right this (show 0 ≤ box.dims.x * 0.5 by linarith)]
      · rw [add_sub_cancel_left, abs_mul, abs_of_nonneg (show 0 ≤ box.dims.y * 0.5 by linarith)]
        have : |a + b + e - c - d| ≤ 1 := abs_le.mpr ⟨by linarith, by linarith⟩
        linarith [mul_le_mul_of_nonneg_right this (show 0 ≤ box.dims.y * 0.5 by linarith)]
      · rw [e1]
        obtain rfl : a = 1 - b - c - d - e := by linarith
        ring
      · rw [e2]
        obtain rfl : a = 1 - b - c - d - e := by linarith
        ring
  · rintro ⟨q, h1, h2, e1, e2⟩
    obtain ⟨u, u0, u1, eu⟩ := share_exists _ _ _ hx h1
    obtain ⟨v, v0, v1, ev⟩ := share_exists _ _ _ hy h2
    refine ⟨[u * v, (1 - u) * v, (1 - u) * (1 - v), u * (1 - v), 0], by simp, ?_, ?_, ?_, ?_⟩
    · intro t ht
      simp only [List.mem_cons, List.not_mem_nil, or_false] at ht
      rcases ht with rfl | rfl | rfl | rfl | rfl
      · exact mul_nonneg u0 v0
      · exact mul_nonneg (by linarith) v0
      · exact mul_nonneg (by linarith) (by linarith)
      · exact mul_nonneg u0 (by linarith)
      · exact le_rfl
    · simp only [List.sum_cons, List.sum_nil]; ring
    · simp only [List.zipWith_cons_cons, List.zipWith_nil_right, List.sum_cons, List.sum_nil]
      rw [e1, eu, ev]; ring
    · simp only [List.zipWith_cons_cons, List.zipWith_nil_right, List.sum_cons, List.sum_nil]
      rw [e2, eu, ev]; ring

theorem at_upright {pose : Pose} (hu : Upright pose) (q p : Pt) :
    At pose q p ↔ p.x = (transformPoint pose q).x ∧ p.y = (transformPoint pose q).y ∧ p.z = pose.position.z + q.z := by
  obtain ⟨ux, uy, un⟩ := hu
  unfold At cross transformPoint rotate Pt.add
  simp only [ux, uy]
  have : pose.orientation.w * pose.orientation.w = 1 - pose.orientation.z * pose.orientation.z := by nlinarith
  refine and_congr ?_ (and_congr ?_ ?_)
  · constructor <;> intro h <;> rw [h] <;> simp only [this] <;> ring
  · constructor <;> intro h <;> rw [h] <;> simp only [this] <;> ring
  · constructor <;> intro h <;> rw [h] <;> ring

theorem outline_length (pose : Pose) (box : BBox) : (outline pose box).length = 5 := by
  simp [outline, toRing, corners]

theorem boxes_iff (m : List Pt → List Pt → Bool) (hm : Intersects m) (pose0 pose1 : Pose) (box0 box1 : BBox)
    (hu0 : Upright pose0) (hu1 : Upright pose1) (hp0 : Proper box0) (hp1 : Proper box1) :
    checkCollision2D m pose0 box0 pose1 box1 = true ↔ ∃ p, InBox pose0 box0 p ∧ InBox pose1 box1 p := by
  unfold checkCollision2D
  have hz : |box0.dims.z + box1.dims.z| = box0.dims.z + box1.dims.z := abs_of_nonneg (add_nonneg hp0.2.2 hp1.2.2)
  rw [hz]
  split
  · rename_i h
    simp only [Bool.false_eq_true, false_iff, not_exists, not_and]
    rintro p ⟨q0, a0, -, -, z0⟩ ⟨q1, a1, -, -, z1⟩
    have e0 := ((at_upright hu0 _ _).mp a0).2.2
    have e1 := ((at_upright hu1 _ _).mp a1).2.2
    have b0 := abs_le.mp (show |q0.z - box0.center.z| ≤ box0.dims.z / 2 by linarith)
    have b1 := abs_le.mp (show |q1.z - box1.center.z| ≤ box1.dims.z / 2 by linarith)
    have : |pose0.position.z + box0.center.z - (pose1.position.z + box1.center.z)| ≤ (box0.dims.z + box1.dims.z) * 0.5 := by
      apply abs_le.mpr
      constructor <;> linarith [b0.1, b0.2, b1.1, b1.2]
    linarith
  · rename_i h
    rw [hm _ _ (outline_length ..) (outline_length ..)]
    have h' := abs_le.mp (not_lt.mp h)
    constructor
    · rintro ⟨x, y, i0, i1⟩
      obtain ⟨q0, x0, y0, ex0, ey0⟩ := (hull_iff _ _ hu0 hp0 x y).mp i0
      obtain ⟨q1, x1, y1, ex1, ey1⟩ := (hull_iff _ _ hu1 hp1 x y).mp i1
      obtain ⟨z, l0, r0, l1, r1⟩ : ∃ z : ℝ, pose0.position.z + box0.center.z - box0.dims.z / 2 ≤ z ∧
          z ≤ pose0.position.z + box0.center.z + box0.dims.z / 2 ∧ pose1.position.z + box1.center.z - box1.dims.z / 2 ≤ z ∧
          z ≤ pose1.position.z + box1.center.z + box1.dims.z / 2 := by
        have z0 := hp0.2.2
        have z1 := hp1.2.2
        rcases le_total (pose0.position.z + box0.center.z - box0.dims.z / 2) (pose1.position.z + box1.center.z - box1.dims.z / 2) with hle | hle
        · exact ⟨_, hle, by linarith [h'.1], le_rfl, by linarith⟩
        · exact ⟨_, le_rfl, by linarith, hle, by linarith [h'.2]⟩
      refine ⟨⟨x, y, z⟩, ⟨⟨q0.x, q0.y, z - pose0.position.z⟩, (at_upright hu0 _ _).mpr ⟨?_, ?_, by simp⟩, x0, y0, ?_⟩,
        ⟨⟨q1.x, q1.y, z - pose1.position.z⟩, (at_upright hu1 _ _).mpr ⟨?_, ?_, by simp⟩, x1, y1, ?_⟩⟩
      · simp only [transformPoint, rotate, Pt.add, hu0.1, hu0.2.1] at ex0 ⊢
        rw [ex0]; ring
      · simp only [transformPoint, rotate, Pt.add, hu0.1, hu0.2.1] at ey0 ⊢
        rw [ey0]; ring
      · have : |z - pose0.position.z - box0.center.z| ≤ box0.dims.z / 2 := abs_le.mpr ⟨by linarith, by linarith⟩
        simp only; linarith
      · simp only [transformPoint, rotate, Pt.add, hu1.1, hu1.2.1] at ex1 ⊢
        rw [ex1]; ring
      · simp only [transformPoint, rotate, Pt.add, hu1.1, hu1.2.1] at ey1 ⊢
        rw [ey1]; ring
      · have : |z - pose1.position.z - box1.center.z| ≤ box1.dims.z / 2 := abs_le.mpr ⟨by linarith, by linarith⟩
        simp only; linarith
    · rintro ⟨p, ⟨q0, a0, x0, y0, -⟩, ⟨q1, a1, x1, y1, -⟩⟩
      obtain ⟨e0, f0, -⟩ := (at_upright hu0 _ _).mp a0
      obtain ⟨e1, f1, -⟩ := (at_upright hu1 _ _).mp a1
      exact ⟨p.x, p.y, (hull_iff _ _ hu0 hp0 _ _).mpr ⟨q0, x0, y0, e0, f0⟩, (hull_iff _ _ hu1 hp1 _ _).mpr ⟨q1, x1, y1, e1, f1⟩⟩

/-- **C207** Two entities that stand upright collide exactly if they are two, both exist, and some point of space belongs to both of their boxes.
Missing: entities that are tilted (`C207_tilted_violated`). -/
theorem C207_contact_partial (m : List Pt → List Pt → Bool) (hm : Intersects m) (entities : String → Option (Pose × BBox))
    (hu : ∀ n e, entities n = some e → Upright e.1 ∧ Proper e.2) (first second : String) :
    checkCollision m entities first second = true ↔
      first ≠ second ∧ ∃ a b, entities first = some a ∧ entities second = some b ∧ ∃ p, InBox a.1 a.2 p ∧ InBox b.1 b.2 p := by
  unfold checkCollision
  by_cases h : first = second
  · simp [h]
  · rw [if_pos h]
    match ea : entities first, eb : entities second with
    | none, _ => simp [h]
    | some a, none => simp [h]
    | some a, some b =>
      have ha := hu _ _ ea
      have hb := hu _ _ eb
      simp only
      rw [boxes_iff m hm _ _ _ _ ha.1 hb.1 ha.2 hb.2]
      simp [h]

/-- **C207** Who is asked first does not matter, however the entities stand. -/
theorem C207_symmetric (m : List Pt → List Pt → Bool) (hm : Intersects m) (entities : String → Option (Pose × BBox)) (first second : String) :
    checkCollision m entities first second = checkCollision m entities second first := by
  unfold checkCollision
  by_cases h : first = second
  · rw [h]
  · rw [if_pos h, if_pos (Ne.symm h)]
    match ea : entities first, eb : entities second with
    | none, none => rfl
    | none, some _ => rfl
    | some _, none => rfl
    | some a, some b =>
      simp only
      unfold checkCollision2D
      rw [abs_sub_comm, add_comm a.2.dims.z b.2.dims.z]
      split
      · rfl
      · apply Bool.eq_iff_iff.mpr
        rw [hm _ _ (outline_length ..) (outline_length ..), hm _ _ (outline_length ..) (outline_length ..)]
        constructor <;> rintro ⟨x, y, h0, h1⟩ <;> exact ⟨x, y, h1, h0⟩

/-- **C207** fails for entities that are tilted: a long box that points steeply down has a point in the box of another entity that stands upright
on the ground far below, but the two do not collide, whatever is said about their outlines. -/
theorem C207_tilted_violated : ∃ (pose0 pose1 : Pose) (box0 box1 : BBox), Unit pose0.orientation ∧ Upright pose1 ∧ Proper box0 ∧ Proper box1 ∧
    (∃ p, InBox pose0 box0 p ∧ InBox pose1 box1 p) ∧
    ∀ (m : List Pt → List Pt → Bool) (entities : String → Option (Pose × BBox)) (a b : String),
      entities a = some (pose0, box0) → entities b = some (pose1, box1) → checkCollision m entities a b = false := by
  refine ⟨⟨⟨0, 0, 0⟩, ⟨0, 3 / 5, 0, 4 / 5⟩⟩, ⟨⟨28 / 5, 0, -(96 / 5)⟩, ⟨0, 0, 0, 1⟩⟩, ⟨⟨0, 0, 0⟩, ⟨100, 2, 2⟩⟩, ⟨⟨0, 0, 0⟩, ⟨1, 1, 1⟩⟩,
    by norm_num [Geometry.Unit], by norm_num [Upright], by norm_num [Proper], by norm_num [Proper],
    ⟨⟨28 / 5, 0, -(96 / 5)⟩, ⟨⟨20, 0, 0⟩, by norm_num [At, cross], by norm_num, by norm_num, by norm_num⟩,
      ⟨⟨0, 0, 0⟩, by norm_num [At, cross], by norm_num, by norm_num, by norm_num⟩⟩, ?_⟩
  intro m entities a b ha hb
  unfold checkCollision
  by_cases h : a = b
  · simp [h]
  · rw [if_pos h, ha, hb]
    simp only
    unfold checkCollision2D
    rw [if_pos]
    simp only
    rw [abs_of_nonneg (by norm_num), abs_of_nonneg (by norm_num)]
    norm_num

/-- What boost promises can be kept. -/
theorem intersects_exists : ∃ m, Intersects m :=
  ⟨fun r0 r1 => decide (∃ x y, InHull r0 x y ∧ InHull r1 x y), fun r0 r1 _ _ => by simp⟩

/-- A case for `C207_contact_partial`: one car turned by a right angle in front of another one, and a bridge. -/
example : ∃ (m : List Pt → List Pt → Bool) (entities : String → Option (Pose × BBox)), Intersects m ∧
    (∀ n e, entities n = some e → Upright e.1 ∧ Proper e.2) ∧ checkCollision m entities "ego" "car" = true ∧
    checkCollision m entities "ego" "bridge" = false := by
  obtain ⟨m, hm⟩ := intersects_exists
  let entities : String → Option (Pose × BBox) := fun n =>
    if n = "ego" then some (⟨⟨0, 0, 0⟩, ⟨0, 0, 0, 1⟩⟩, ⟨⟨1, 0, 1⟩, ⟨4, 2, 2⟩⟩)
    else if n = "car" then some (⟨⟨3, 1, 0⟩, ⟨0, 0, 1, 0⟩⟩, ⟨⟨1, 0, 1⟩, ⟨4, 2, 2⟩⟩)
    else if n = "bridge" then some (⟨⟨0, 0, 5⟩, ⟨0, 0, 0, 1⟩⟩, ⟨⟨0, 0, 0⟩, ⟨10, 10, 1⟩⟩) else none
  have hu : ∀ n e, entities n = some e → Upright e.1 ∧ Proper e.2 := by
    intro n e h
    simp only [entities] at h
    split at h
    · obtain rfl := Option.some.inj h; norm_num [Upright, Proper]
    · split at h
      · obtain rfl := Option.some.inj h; norm_num [Upright, Proper]
      · split at h
        · obtain rfl := Option.some.inj h; norm_num [Upright, Proper]
        · cases h
  refine ⟨m, entities, hm, hu, ?_, ?_⟩
  · rw [C207_contact_partial m hm entities hu]
    refine ⟨by decide, _, _, rfl, rfl, ⟨2, 0, 1⟩, ⟨⟨2, 0, 1⟩, by norm_num [At, cross], ?_⟩, ⟨1, 1, 1⟩, by norm_num [At, cross], ?_⟩
    · norm_num
    · norm_num
  · simp [checkCollision, entities, checkCollision2D]
    intro h
    norm_num [abs_of_nonneg, abs_of_neg] at h

/-! ### C208 -/

theorem dropWhile_sorted (l : List ℝ) (h : l.Pairwise (· ≤ ·)) (a : ℝ) (x : ℝ) :
    x ∈ l.dropWhile (fun s => decide (s < a)) ↔ x ∈ l ∧ a ≤ x := by
  induction l with
  | nil => simp
  | cons y l ih =>
    rw [List.pairwise_cons] at h
    by_cases hy : y < a
    · rw [List.dropWhile_cons_of_pos (by simpa using hy), ih h.2, List.mem_cons]
      constructor
      · rintro ⟨h1, h2⟩; exact ⟨Or.inr h1, h2⟩
      · rintro ⟨rfl | h1, h2⟩
        · exact absurd h2 (not_le.mpr hy)
        · exact ⟨h1, h2⟩
    · rw [List.dropWhile_cons_of_neg (by simpa using hy)]
      refine ⟨fun hx => ⟨hx, ?_⟩, fun hx => hx.1⟩
      rcases List.mem_cons.mp hx with rfl | hx
      · exact not_lt.mp hy
      · exact le_trans (not_lt.mp hy) (h.1 x hx)

theorem takeWhile_sorted (l : List ℝ) (h : l.Pairwise (· ≤ ·)) (b : ℝ) (x : ℝ) :
    x ∈ l.takeWhile (fun s => decide (s ≤ b)) ↔ x ∈ l ∧ x ≤ b := by
  induction l with
  | nil => simp
  | cons y l ih =>
    rw [List.pairwise_cons] at h
    by_cases hy : y ≤ b
    · rw [List.takeWhile_cons_of_pos (by simpa using hy), List.mem_cons, ih h.2, List.mem_cons]
      constructor
      · rintro (rfl | ⟨h1, h2⟩)
        · exact ⟨Or.inl rfl, hy⟩
        · exact ⟨Or.inr h1, h2⟩
      · rintro ⟨rfl | h1, h2⟩
        · exact Or.inl rfl
        · exact Or.inr ⟨h1, h2⟩
    · rw [List.takeWhile_cons_of_neg (by simpa using hy)]
      simp only [List.not_mem_nil, false_iff, not_and]
      intro hx hb
      rcases List.mem_cons.mp hx with rfl | hx
      · exact hy hb
      · exact hy (le_trans (h.1 x hx) hb)

theorem between_spec (l : List ℝ) (a b : ℝ) :
    let m := ((set l).dropWhile fun s => decide (s < a)).takeWhile fun s => decide (s ≤ b)
    m.Pairwise (· ≤ ·) ∧ ∀ x, x ∈ m ↔ x ∈ l ∧ a ≤ x ∧ x ≤ b := by
  have hs : (set l).Pairwise (· ≤ ·) := List.pairwise_insertionSort _ l
  have hd : ((set l).dropWhile fun s => decide (s < a)).Pairwise (· ≤ ·) := hs.sublist (List.dropWhile_sublist _)
  refine ⟨hd.sublist (List.takeWhile_sublist _), fun x => ?_⟩
  rw [takeWhile_sorted _ hd, dropWhile_sorted _ hs, set, List.mem_insertionSort, and_assoc]

theorem head_least {l : List ℝ} (h : l.Pairwise (· ≤ ·)) {x : ℝ} (hx : x ∈ l) : ∃ m ∈ l, l.head? = some m ∧ m ≤ x := by
  cases l with
  | nil => cases hx
  | cons y l =>
    refine ⟨y, by simp, rfl, ?_⟩
    rcases List.mem_cons.mp hx with rfl | hx
    · exact le_rfl
    · exact (List.pairwise_cons.mp h).1 x hx

theorem last_greatest {l : List ℝ} (h : l.Pairwise (· ≤ ·)) {x : ℝ} (hx : x ∈ l) : ∃ m ∈ l, l.getLast? = some m ∧ x ≤ m := by
  have hne : l ≠ [] := by rintro rfl; cases hx
  refine ⟨l.getLast hne, List.getLast_mem _, List.getLast?_eq_some_getLast hne, ?_⟩
  rw [← List.dropLast_append_getLast hne] at h hx
  rcases List.mem_append.mp hx with hx | hx
  · exact (List.pairwise_append.mp h).2.2 x hx _ (by simp)
  · rw [List.mem_singleton.mp hx]

/-- **C208** The crossing that a part of a spline reports with a closed polygon, seen from above, as the way from the start of the part: of the
crossings of the part in the range it is not later than any (not earlier, if the search is backward), so there is one if the part crosses the
polygon there; it is between the ends of the part; and it is a crossing, unless it is at a control point. Missing: what `spline_collisions_partial`
lacks; a range may be ignored, as shown by `C208_range_violated`. -/
theorem C208_crossing_partial (raw : List Pt) (k : Spline) (h : Spline.make raw = some k) (h3 : 3 ≤ k.cp.length) (start stop : ℝ)
    (hs : 0 ≤ start) (hle : start ≤ stop) (ht : stop ≤ k.total) (polygon : List Pt) (backward : Bool) (range : Option (ℝ × ℝ))
    (h2 : 2 ≤ polygon.length) (hr : ∀ c ∈ k.curves, Regular c (polygon ++ polygon.take 1)) :
    ∃ o, (⟨k, start, stop⟩ : Sub).collision polygon backward range = some o ∧
      (∀ d p, 0 ≤ d → d ≤ stop - start → (∀ lo hi, range = some (lo, hi) → lo ≤ d ∧ d ≤ hi ∧ lo < k.total - start) →
        k.point (start + d) = some p → OnOutline (polygon ++ polygon.take 1) p → ∃ r, o = some r ∧ if backward then d ≤ r else r ≤ d) ∧
      ∀ r, o = some r → 0 ≤ r ∧ r ≤ stop - start ∧ ((∀ i : Nat, start + r ≠ ((k.curves.take i).map Curve.length).sum) →
        ∃ p, k.point (start + r) = some p ∧ OnOutline (polygon ++ polygon.take 1) p) := by
  obtain ⟨l, e1, e2, e3⟩ := spline_collisions_partial raw k h h3 polygon backward (range.map fun r => (r.1 + start, r.2 + start)) h2 hr
  obtain ⟨b1, b2⟩ := between_spec l start stop
  unfold Sub.collision
  rw [if_neg (not_lt.mpr hle)]
  simp only
  rw [e1]
  simp only
  generalize hb : (((set l).dropWhile fun s => decide (s < start)).takeWhile fun s => decide (s ≤ stop)) = m at b1 b2
  have inside : ∀ d p, 0 ≤ d → d ≤ stop - start → (∀ lo hi, range = some (lo, hi) → lo ≤ d ∧ d ≤ hi ∧ lo < k.total - start) →
        k.point (start + d) = some p → OnOutline (polygon ++ polygon.take 1) p → start + d ∈ m := by
    intro d p d0 d1 hrange hp ho
    rw [b2]
    refine ⟨e3 _ p (by linarith) (by linarith) ?_ hp ho, by linarith, by linarith⟩
    intro lo hi he
    match range, he with
    | some (a, b), he =>
      simp only [Option.map_some, Option.some.injEq, Prod.mk.injEq] at he
      obtain ⟨f1, f2, f3⟩ := hrange a b rfl
      refine ⟨?_, ?_, ?_⟩ <;> linarith [he.1, he.2]
  have back : ∀ s, s ∈ m → 0 ≤ s - start ∧ s - start ≤ stop - start ∧ ((∀ i : Nat, start + (s - start) ≠ ((k.curves.take i).map Curve.length).sum) →
        ∃ p, k.point (start + (s - start)) = some p ∧ OnOutline (polygon ++ polygon.take 1) p) := by
    intro s hs
    obtain ⟨f1, f2, f3⟩ := (b2 s).mp hs
    refine ⟨by linarith, by linarith, ?_⟩
    rw [add_sub_cancel]
    exact (e2 s f1).2.2
  cases backward with
  | true =>
    rw [if_pos rfl]
    refine ⟨_, rfl, ?_, ?_⟩
    · intro d p d0 d1 hrange hp ho
      obtain ⟨x, -, g2, g3⟩ := last_greatest b1 (inside d p d0 d1 hrange hp ho)
      exact ⟨x - start, by rw [g2]; rfl, by rw [if_pos rfl]; linarith⟩
    · intro r hr
      obtain ⟨s, g1, rfl⟩ := Option.map_eq_some_iff.mp hr
      exact back s (List.mem_of_getLast? g1)
  | false =>
    rw [if_neg (by simp)]
    refine ⟨_, rfl, ?_, ?_⟩
    · intro d p d0 d1 hrange hp ho
      obtain ⟨x, -, g2, g3⟩ := head_least b1 (inside d p d0 d1 hrange hp ho)
      exact ⟨x - start, by rw [g2]; rfl, by rw [if_neg (by simp)]; linarith⟩
    · intro r hr
      obtain ⟨s, g1, rfl⟩ := Option.map_eq_some_iff.mp hr
      exact back s (List.mem_of_head? g1)

/-- **C208** A part that ends before it starts is an error, and so is a polygon of fewer than two points. -/
theorem C208_error (k : Spline) (h3 : 3 ≤ k.cp.length) (start stop : ℝ) (polygon : List Pt)
    (backward : Bool) (range : Option (ℝ × ℝ)) :
    (⟨k, start, stop⟩ : Sub).collision polygon backward range = none ↔ stop < start ∨ polygon.length ≤ 1 := by
  unfold Sub.collision
  by_cases hs : stop < start
  · rw [if_pos hs]; simp [hs]
  rw [if_neg hs]
  simp only [hs, false_or]
  by_cases hp : polygon.length ≤ 1
  · have : ∀ r, k.collisions polygon backward r = none := fun r => by unfold Spline.collisions; rw [if_pos hp]
    rw [this]; simp [hp]
  · obtain ⟨l, hl, -⟩ := curveCollisions_mem polygon backward (range.map fun r => (r.1 + start, r.2 + start)) k.curves 0
    have : k.collisions polygon backward (range.map fun r => (r.1 + start, r.2 + start)) = some l := by
      unfold Spline.collisions
      rw [if_neg hp, ← hl]
      match k.cp, h3 with
      | _ :: _ :: _ :: _, _ => rfl
    rw [this]
    simp only [hp, iff_false]
    split <;> simp

/-- A case for `C208_crossing_partial`: the second half metre of the straight spline, and a line across it. -/
example : ∃ k, Spline.make [⟨0, 0, 0⟩, ⟨1, 0, 0⟩, ⟨2, 0, 0⟩] = some k ∧ 3 ≤ k.cp.length ∧ (1 : ℝ) / 8 ≤ 1 / 2 ∧ (1 : ℝ) / 2 ≤ k.total ∧
    ∀ c ∈ k.curves, Regular c ([⟨1 / 4, -1, 0⟩, ⟨1 / 4, 1, 0⟩] ++ [⟨1 / 4, -1, 0⟩, ⟨1 / 4, 1, 0⟩].take 1) :=
  ⟨_, straight_made, by simp, by norm_num, by
    simp only [Spline.total, List.foldl_cons, List.foldl_nil, halves_length.1, halves_length.2]; norm_num, straight_regular⟩

/-- **C208** fails for a range: the part from 0 to 2 reports the crossing at 1/4, although places from 1/2 to 3/4 are asked for. -/
theorem C208_range_violated : ∃ (k : Spline), Spline.make [⟨0, 0, 0⟩, ⟨1, 0, 0⟩, ⟨2, 0, 0⟩] = some k ∧
    ∃ r : ℝ, (⟨k, 0, 2⟩ : Sub).collision [⟨1 / 4, -1, 0⟩, ⟨1 / 4, 1, 0⟩] false (some (1 / 2, 3 / 4)) = some (some r) ∧ r ≤ 1 / 4 := by
  obtain ⟨k, l, hk, hl, hm⟩ := collisions_range_violated
  refine ⟨k, hk, ?_⟩
  obtain ⟨b1, b2⟩ := between_spec l 0 2
  unfold Sub.collision
  rw [if_neg (by norm_num)]
  simp only [Option.map_some, add_zero]
  rw [hl]
  simp only [Bool.false_eq_true, if_false]
  generalize (((set l).dropWhile fun s => decide (s < 0)).takeWhile fun s => decide (s ≤ 2)) = m at b1 b2
  obtain ⟨x, -, g2, g3⟩ := head_least b1 ((b2 (1 / 4)).mpr ⟨hm, by norm_num, by norm_num⟩)
  exact ⟨x - 0, by rw [g2]; rfl, by linarith⟩

/-! ### C209 -/

/-- A straight spline of three points at equal distances. -/
theorem line_made (a d : Pt) (hd : d ≠ ⟨0, 0, 0⟩) :
    Spline.make [a, a.add d, (a.add d).add d] =
      some ⟨[a, a.add d, (a.add d).add d], [⟨⟨0, 0, 0⟩, ⟨0, 0, 0⟩, d, a⟩, ⟨⟨0, 0, 0⟩, ⟨0, 0, 0⟩, d, a.add d⟩]⟩ := by
  have hne : ∀ b : Pt, b ≠ b.add d := by
    intro b h
    apply hd
    unfold Pt.add at h
    have h1 := congrArg Pt.x h; have h2 := congrArg Pt.y h; have h3 := congrArg Pt.z h
    simp only at h1 h2 h3
    ext <;> simp only <;> linarith
  have hu : unique [a, a.add d, (a.add d).add d] = [a, a.add d, (a.add d).add d] := by
    simp [unique, hne]
  have h0 : curveAt [a, a.add d, (a.add d).add d] 0 = some ⟨⟨0, 0, 0⟩, ⟨0, 0, 0⟩, d, a⟩ := by
    simp only [curveAt, List.getElem?_cons_zero, List.getElem?_cons_succ, if_true, Pt.add]
    congr 2 <;> ext <;> simp only <;> ring
  have h1 : curveAt [a, a.add d, (a.add d).add d] 1 = some ⟨⟨0, 0, 0⟩, ⟨0, 0, 0⟩, d, a.add d⟩ := by
    simp only [curveAt, List.getElem?_cons_zero, List.getElem?_cons_succ, Pt.add, one_ne_zero, if_false, List.length_cons, List.length_nil]
    rw [if_pos (by norm_num)]
    refine congrArg some ?_
    have h2 : ∀ x y : ℝ, (2 * (x + y)) * 0.5 = x + y := fun x y => by ring
    have h3 : ∀ x y : ℝ, (-1 * x + (x + y + y)) * 0.5 = y := fun x y => by ring
    have h4 : ∀ x y : ℝ, (x - 2 * (x + y) + (x + y + y)) * 0.5 = 0 := fun x y => by ring
    simp only [h2, h3, h4, zero_mul]
  unfold Spline.make
  rw [hu]
  simp only [List.length_cons, List.length_nil]
  have : List.range (0 + 1 + 1 + 1 - 1) = [0, 1] := by decide
  rw [this, List.mapM_cons, List.mapM_cons, List.mapM_nil, h0, h1]
  rfl

theorem tryAltitude_spec (m : Option ℝ × Option ℝ) (S : ℝ → Prop)
    (hm : (m = (none, none) ∧ ∀ z, ¬ S z) ∨ ∃ lo hi, m = (some lo, some hi) ∧ S lo ∧ S hi ∧ ∀ z, S z → lo ≤ z ∧ z ≤ hi) (z : ℝ) :
    ∃ lo hi, tryAltitude m z = (some lo, some hi) ∧ (S lo ∨ lo = z) ∧ (S hi ∨ hi = z) ∧ ∀ y, S y ∨ y = z → lo ≤ y ∧ y ≤ hi := by
  rcases hm with ⟨rfl, hn⟩ | ⟨lo, hi, rfl, h1, h2, h3⟩
  · refine ⟨z, z, rfl, Or.inr rfl, Or.inr rfl, ?_⟩
    rintro y (hy | rfl)
    · exact absurd hy (hn y)
    · exact ⟨le_rfl, le_rfl⟩
  · unfold tryAltitude
    have hlh := (h3 lo h1).2
    by_cases c1 : z < lo
    · have c2 : ¬ hi < z := by linarith
      refine ⟨z, hi, by simp [c1, c2], Or.inr rfl, Or.inl h2, ?_⟩
      rintro y (hy | rfl)
      · exact ⟨by linarith [(h3 y hy).1], (h3 y hy).2⟩
      · exact ⟨le_rfl, by linarith⟩
    · by_cases c2 : hi < z
      · refine ⟨lo, z, by simp [c1, c2], Or.inl h1, Or.inr rfl, ?_⟩
        rintro y (hy | rfl)
        · exact ⟨(h3 y hy).1, by linarith [(h3 y hy).2]⟩
        · exact ⟨by linarith, le_rfl⟩
      · refine ⟨lo, hi, by simp [c1, c2], Or.inl h1, Or.inl h2, ?_⟩
        rintro y (hy | rfl)
        · exact h3 y hy
        · exact ⟨not_lt.mp c1, not_lt.mp c2⟩

/-- The altitudes met by the loop. -/
def Met (start stop : ℝ) (cp : List Pt) (lengths : List ℝ) (s z : ℝ) : Prop :=
  ∃ (i : Nat) (p : Pt), cp[i]? = some p ∧ p.z = z ∧ start ≤ s + (lengths.take i).sum ∧ s + (lengths.take i).sum ≤ stop

theorem scan_spec (start stop : ℝ) (cp : List Pt) (lengths : List ℝ) (s : ℝ) (hl : cp.length ≤ lengths.length + 1) (m : Option ℝ × Option ℝ) (S : ℝ → Prop)
    (hm : (m = (none, none) ∧ ∀ z, ¬ S z) ∨ ∃ lo hi, m = (some lo, some hi) ∧ S lo ∧ S hi ∧ ∀ z, S z → lo ≤ z ∧ z ≤ hi) :
    ∃ m', scan start stop cp lengths s m = some m' ∧
      ((m' = (none, none) ∧ ∀ z, ¬ (S z ∨ Met start stop cp lengths s z)) ∨
        ∃ lo hi, m' = (some lo, some hi) ∧ (S lo ∨ Met start stop cp lengths s lo) ∧ (S hi ∨ Met start stop cp lengths s hi) ∧
          ∀ z, S z ∨ Met start stop cp lengths s z → lo ≤ z ∧ z ≤ hi) := by
  induction cp generalizing lengths s m S with
  | nil =>
    have : ∀ z, (S z ∨ Met start stop [] lengths s z) ↔ S z := fun z => by simp [Met]
    simp only [this]
    exact ⟨m, rfl, hm⟩
  | cons p ps ih =>
    obtain ⟨S', hS', hm'⟩ : ∃ S' : ℝ → Prop, (∀ z, S' z ↔ S z ∨ (z = p.z ∧ start ≤ s ∧ s ≤ stop)) ∧
        (((if start ≤ s ∧ s ≤ stop then tryAltitude m p.z else m) = (none, none) ∧ ∀ z, ¬ S' z) ∨
          ∃ lo hi, (if start ≤ s ∧ s ≤ stop then tryAltitude m p.z else m) = (some lo, some hi) ∧ S' lo ∧ S' hi ∧ ∀ z, S' z → lo ≤ z ∧ z ≤ hi) := by
      refine ⟨fun z => S z ∨ (z = p.z ∧ start ≤ s ∧ s ≤ stop), fun z => Iff.rfl, ?_⟩
      by_cases hc : start ≤ s ∧ s ≤ stop
      · rw [if_pos hc]
        obtain ⟨lo, hi, g1, g2, g3, g4⟩ := tryAltitude_spec m S hm p.z
        exact Or.inr ⟨lo, hi, g1, by simpa [hc] using g2, by simpa [hc] using g3, by simpa [hc] using g4⟩
      · rw [if_neg hc]
        simpa [hc] using hm
    match ps, lengths, hl with
    | [], lengths, _ =>
      refine ⟨_, rfl, ?_⟩
      have : ∀ z, (S z ∨ Met start stop [p] lengths s z) ↔ S' z := by
        intro z
        rw [hS']
        apply or_congr Iff.rfl
        constructor
        · rintro ⟨i, q, h1, rfl, h2, h3⟩
          match i, h1 with
          | 0, h1 =>
            simp only [List.getElem?_cons_zero, Option.some.injEq] at h1
            subst h1
            simp only [List.take_zero, List.sum_nil, add_zero] at h2 h3
            exact ⟨rfl, h2, h3⟩
        · rintro ⟨rfl, h2, h3⟩
          exact ⟨0, p, rfl, rfl, by simpa using h2, by simpa using h3⟩
      simp only [this]
      exact hm'
    | q :: ps, l :: lengths, hl =>
      obtain ⟨m', e1, e2⟩ := ih lengths (s + l) (by simp only [List.length_cons] at hl ⊢; omega) _ S' hm'
      refine ⟨m', e1, ?_⟩
      have : ∀ z, (S z ∨ Met start stop (p :: q :: ps) (l :: lengths) s z) ↔ (S' z ∨ Met start stop (q :: ps) lengths (s + l) z) := by
        intro z
        rw [hS', or_assoc]
        apply or_congr Iff.rfl
        constructor
        · rintro ⟨i, r, h1, rfl, h2, h3⟩
          match i, h1 with
          | 0, h1 =>
            simp only [List.getElem?_cons_zero, Option.some.injEq] at h1
            subst h1
            simp only [List.take_zero, List.sum_nil, add_zero] at h2 h3
            exact Or.inl ⟨rfl, h2, h3⟩
          | i + 1, h1 =>
            simp only [List.take_succ_cons, List.sum_cons, ← add_assoc] at h2 h3
            exact Or.inr ⟨i, r, by simpa using h1, rfl, h2, h3⟩
        · rintro (⟨rfl, h2, h3⟩ | ⟨i, r, h1, h2, h3, h4⟩)
          · exact ⟨0, p, rfl, rfl, by simpa using h2, by simpa using h3⟩
          · exact ⟨i + 1, r, by simpa using h1, h2, by simpa [← add_assoc] using h3, by simpa [← add_assoc] using h4⟩
      simp only [this]
      exact e2

theorem range_spec (u : Sub) (hl : u.spline.cp.length ≤ u.spline.curves.length + 1) :
    ∃ lo hi, u.altitudeRange = some (lo, hi) ∧
      (((∀ z, ¬ Altitude u z) ∧ lo = doubleMin ∧ hi = doubleMax) ∨
        (Altitude u lo ∧ Altitude u hi ∧ ∀ z, Altitude u z → lo ≤ z ∧ z ≤ hi)) := by
  obtain ⟨m, e1, e2⟩ := scan_spec u.start u.stop u.spline.cp (u.spline.curves.map Curve.length) 0 (by simpa using hl) (none, none) (fun _ => False)
    (Or.inl ⟨rfl, fun _ h => h⟩)
  have hA : ∀ z, (False ∨ Met u.start u.stop u.spline.cp (u.spline.curves.map Curve.length) 0 z) ↔ Altitude u z := by
    intro z
    unfold Met Altitude ControlPoint
    rw [false_or]
    constructor
    · rintro ⟨i, p, h1, h2, h3, h4⟩
      rw [zero_add] at h3 h4
      rw [← List.map_take] at h3 h4
      exact ⟨i, _, ⟨p, h1, h2, rfl⟩, h3, h4⟩
    · rintro ⟨i, s, ⟨p, h1, h2, rfl⟩, h3, h4⟩
      rw [List.map_take] at h3 h4
      exact ⟨i, p, h1, h2, by rw [zero_add]; exact h3, by rw [zero_add]; exact h4⟩
  simp only [hA] at e2
  unfold Sub.altitudeRange
  rw [e1]
  rcases e2 with ⟨rfl, h⟩ | ⟨lo, hi, rfl, h⟩
  · exact ⟨_, _, rfl, Or.inl ⟨h, rfl, rfl⟩⟩
  · exact ⟨lo, hi, rfl, Or.inr h⟩

/-- **C209** If a part of a spline of at least three points holds one of its points, an entity is looked for exactly if its altitude is not more than
1 below the lowest and not more than 1 above the highest of the points that the part holds. Missing: parts that hold no point
(`C209_between_violated`), altitudes between the points (`C209_slope_violated`), and splines of two points (`C209_two_violated`). -/
theorem C209_level_partial (raw : List Pt) (k : Spline) (h : Spline.make raw = some k) (h3 : 3 ≤ k.cp.length) (start stop altitude : ℝ)
    (hz : ∃ z, Altitude ⟨k, start, stop⟩ z) :
    ∃ b, (⟨k, start, stop⟩ : Sub).level altitude = some b ∧
      (b = true ↔ (∃ z, Altitude ⟨k, start, stop⟩ z ∧ z - 1 ≤ altitude) ∧ ∃ z, Altitude ⟨k, start, stop⟩ z ∧ altitude ≤ z + 1) := by
  have hm := made_of_make h h3
  obtain ⟨lo, hi, e1, e2⟩ := range_spec ⟨k, start, stop⟩ (by simp only; rw [hm.count])
  obtain ⟨z, hz⟩ := hz
  rcases e2 with ⟨hn, -⟩ | ⟨g1, g2, g3⟩
  · exact absurd hz (hn z)
  unfold Sub.level
  rw [e1]
  refine ⟨_, rfl, ?_⟩
  rw [decide_eq_true_iff]
  unfold withinRange altitudeThreshold
  constructor
  · rintro ⟨a, b⟩
    exact ⟨⟨lo, g1, a⟩, ⟨hi, g2, b⟩⟩
  · rintro ⟨⟨y, hy, a⟩, ⟨x, hx, b⟩⟩
    exact ⟨by linarith [(g3 y hy).1], by linarith [(g3 x hx).2]⟩

/-- **C209** If a part holds no point of the spline, only entities at about -1 or above are looked for, wherever the part is: the lower end of the
range is the smallest positive number. -/
theorem C209_empty (raw : List Pt) (k : Spline) (h : Spline.make raw = some k) (h3 : 3 ≤ k.cp.length) (start stop altitude : ℝ)
    (hz : ∀ z, ¬ Altitude ⟨k, start, stop⟩ z) :
    ∃ b, (⟨k, start, stop⟩ : Sub).level altitude = some b ∧
      (b = true ↔ 1 / 2 ^ 1022 - 1 ≤ altitude ∧ altitude ≤ (2 - 1 / 2 ^ 52) * 2 ^ 1023 + 1) := by
  have hm := made_of_make h h3
  obtain ⟨lo, hi, e1, e2⟩ := range_spec ⟨k, start, stop⟩ (by simp only; rw [hm.count])
  rcases e2 with ⟨-, rfl, rfl⟩ | ⟨g1, -, -⟩
  · unfold Sub.level
    rw [e1]
    refine ⟨_, rfl, ?_⟩
    rw [decide_eq_true_iff]
    exact Iff.rfl
  · exact absurd g1 (hz lo)

/-- **C209** The altitudes of a whole spline are those of its points: the lowest and the highest. -/
theorem C209_whole (raw : List Pt) (k : Spline) (h : Spline.make raw = some k) :
    ∃ lo hi, splineAltitudeRange k = some (lo, hi) ∧ (∃ p ∈ raw, p.z = lo) ∧ (∃ p ∈ raw, p.z = hi) ∧ ∀ p ∈ raw, lo ≤ p.z ∧ p.z ≤ hi := by
  obtain ⟨e1, e2⟩ := make_points raw
  obtain ⟨e3, -⟩ := e2 k h
  have hne : raw ≠ [] := by rintro rfl; rw [e1.mpr rfl] at h; cases h
  simp only [← e3]
  unfold splineAltitudeRange
  match hk : k.cp with
  | [] =>
    obtain ⟨p, hp⟩ := List.exists_mem_of_ne_nil raw hne
    rw [← e3, hk] at hp; cases hp
  | p :: ps =>
    have key : ∀ (ps : List Pt) (lo hi : ℝ), ∃ lo' hi', ps.foldl (fun m (q : Pt) => (min m.1 q.z, max m.2 q.z)) (lo, hi) = (lo', hi') ∧
        (lo' = lo ∨ ∃ q ∈ ps, q.z = lo') ∧ (hi' = hi ∨ ∃ q ∈ ps, q.z = hi') ∧ lo' ≤ lo ∧ hi ≤ hi' ∧ ∀ q ∈ ps, lo' ≤ q.z ∧ q.z ≤ hi' := by
      intro ps
      induction ps with
      | nil => intro lo hi; exact ⟨lo, hi, rfl, Or.inl rfl, Or.inl rfl, le_rfl, le_rfl, by simp⟩
      | cons q ps ih =>
        intro lo hi
        obtain ⟨a, b, f1, f2, f3, f4, f5, f6⟩ := ih (min lo q.z) (max hi q.z)
        refine ⟨a, b, f1, ?_, ?_, le_trans f4 (min_le_left _ _), le_trans (le_max_left _ _) f5, ?_⟩
        · rcases f2 with f2 | ⟨r, hr, f2⟩
          · rcases min_choice lo q.z with e | e
            · exact Or.inl (by rw [f2, e])
            · exact Or.inr ⟨q, by simp, by rw [f2, e]⟩
          · exact Or.inr ⟨r, by simp [hr], f2⟩
        · rcases f3 with f3 | ⟨r, hr, f3⟩
          · rcases max_choice hi q.z with e | e
            · exact Or.inl (by rw [f3, e])
            · exact Or.inr ⟨q, by simp, by rw [f3, e]⟩
          · exact Or.inr ⟨r, by simp [hr], f3⟩
        · intro r hr
          rcases List.mem_cons.mp hr with rfl | hr
          · exact ⟨le_trans f4 (min_le_right _ _), le_trans (le_max_right _ _) f5⟩
          · exact f6 r hr
    obtain ⟨a, b, f1, f2, f3, f4, f5, f6⟩ := key ps p.z p.z
    refine ⟨a, b, by simp only [f1], ?_, ?_, ?_⟩
    · rcases f2 with f2 | ⟨r, hr, f2⟩
      · exact ⟨p, by simp, f2.symm⟩
      · exact ⟨r, by simp [hr], f2⟩
    · rcases f3 with f3 | ⟨r, hr, f3⟩
      · exact ⟨p, by simp, f3.symm⟩
      · exact ⟨r, by simp [hr], f3⟩
    · intro q hq
      rcases List.mem_cons.mp hq with rfl | hq
      · exact ⟨f4, f5⟩
      · exact f6 q hq

/-- **C209** fails for splines of two points: the question for the altitudes of a part of it is an error, wherever the part is. -/
theorem C209_two_violated (raw : List Pt) (k : Spline) (h : Spline.make raw = some k) (h2 : k.cp.length = 2) (start stop altitude : ℝ) :
    (⟨k, start, stop⟩ : Sub).level altitude = none := by
  have hc : k.curves = [] := by
    unfold Spline.make at h
    simp only at h
    split at h
    · cases h
    · obtain rfl := Option.some.inj h; rfl
    · obtain rfl := Option.some.inj h; rfl
    · rename_i e1 e2 e3
      obtain ⟨cs, -, rfl⟩ := Option.map_eq_some_iff.mp h
      simp only at h2
      match hu : unique raw, h2 with
      | [a, b], _ => exact absurd hu (e3 a b)
  unfold Sub.level Sub.altitudeRange
  match hk : k.cp, h2 with
  | [a, b], _ => simp only [hc, List.map_nil, scan, Option.map_none]

/-- A case for `C209_two_violated`. -/
example : ∃ k, Spline.make [⟨0, 0, 0⟩, ⟨10, 0, 0⟩] = some k ∧ k.cp.length = 2 := by
  have hu : unique [⟨0, 0, 0⟩, ⟨10, 0, 0⟩] = [⟨0, 0, 0⟩, ⟨10, 0, 0⟩] := by simp [unique]
  refine ⟨⟨[⟨0, 0, 0⟩, ⟨10, 0, 0⟩], []⟩, ?_, rfl⟩
  unfold Spline.make
  rw [hu]

/-- **C209** fails for a part that holds no point of the spline, at an altitude below 0: an entity that is on the part itself is not looked for. -/
theorem C209_between_violated : ∃ (raw : List Pt) (k : Spline) (start stop s : ℝ) (p : Pt), Spline.make raw = some k ∧ 3 ≤ k.cp.length ∧
    0 ≤ start ∧ stop ≤ k.total ∧ start < s ∧ s < stop ∧ k.point s = some p ∧ (⟨k, start, stop⟩ : Sub).level p.z = some false := by
  have hmk := line_made ⟨0, 0, -10⟩ ⟨1, 0, 0⟩ (by intro h; simpa using congrArg Pt.x h)
  have hm := made_of_make hmk (by simp)
  have l0 : (⟨⟨0, 0, 0⟩, ⟨0, 0, 0⟩, ⟨1, 0, 0⟩, ⟨0, 0, -10⟩⟩ : Curve).length = 1 := by rw [length_straight]; norm_num
  have l1 : (⟨⟨0, 0, 0⟩, ⟨0, 0, 0⟩, ⟨1, 0, 0⟩, (⟨0, 0, -10⟩ : Pt).add ⟨1, 0, 0⟩⟩ : Curve).length = 1 := by rw [length_straight]; norm_num
  have hp := point_at hm (j := 0) rfl (v := 1 / 2) (by norm_num) (by norm_num)
  rw [l0] at hp
  simp only [knot, List.take_zero, List.map_nil, List.sum_nil] at hp
  refine ⟨_, _, 1 / 4, 3 / 4, _, _, hmk, by simp, by norm_num, ?_, ?_, ?_, hp, ?_⟩
  · simp only [Spline.total, List.foldl_cons, List.foldl_nil, l0, l1]; norm_num
  · norm_num
  · norm_num
  · unfold Sub.level Sub.altitudeRange
    simp only [List.map_cons, List.map_nil, l0, l1, scan]
    norm_num [Curve.point, withinRange, altitudeThreshold, Pt.add]
    intro h
    exfalso
    have : (0 : ℝ) < doubleMin := by unfold doubleMin; positivity
    linarith

/-- **C209** fails on a slope: an entity on the part itself, beyond the only point that the part holds, is not looked for. -/
theorem C209_slope_violated : ∃ (raw : List Pt) (k : Spline) (start stop s : ℝ) (p : Pt), Spline.make raw = some k ∧ 3 ≤ k.cp.length ∧
    0 ≤ start ∧ stop ≤ k.total ∧ start < s ∧ s < stop ∧ k.point s = some p ∧ 0 < p.z ∧ (∃ z, Altitude ⟨k, start, stop⟩ z) ∧
    (⟨k, start, stop⟩ : Sub).level p.z = some false := by
  have hmk := line_made ⟨0, 0, 0⟩ ⟨3, 0, 4⟩ (by intro h; simpa using congrArg Pt.x h)
  have hm := made_of_make hmk (by simp)
  have h25 : Real.sqrt 25 = 5 := by rw [show (25 : ℝ) = 5 ^ 2 by norm_num]; exact Real.sqrt_sq (by norm_num)
  have l0 : (⟨⟨0, 0, 0⟩, ⟨0, 0, 0⟩, ⟨3, 0, 4⟩, ⟨0, 0, 0⟩⟩ : Curve).length = 5 := by rw [length_straight]; norm_num; exact h25
  have l1 : (⟨⟨0, 0, 0⟩, ⟨0, 0, 0⟩, ⟨3, 0, 4⟩, (⟨0, 0, 0⟩ : Pt).add ⟨3, 0, 4⟩⟩ : Curve).length = 5 := by rw [length_straight]; norm_num; exact h25
  have hp := point_at hm (j := 1) rfl (v := 3 / 5) (by norm_num) (by norm_num)
  rw [l1] at hp
  simp only [knot, List.take_succ_cons, List.take_zero, List.map_cons, List.map_nil, List.sum_cons, List.sum_nil, l0] at hp
  refine ⟨_, _, 4, 9, _, _, hmk, by simp, by norm_num, ?_, ?_, ?_, hp, ?_, ?_, ?_⟩
  · simp only [Spline.total, List.foldl_cons, List.foldl_nil, l0, l1]; norm_num
  · norm_num
  · norm_num
  · norm_num [Curve.point, Pt.add]
  · exact ⟨_, 1, 5, ⟨_, rfl, rfl, by simp [l0]⟩, by norm_num, by norm_num⟩
  · unfold Sub.level Sub.altitudeRange
    simp only [List.map_cons, List.map_nil, l0, l1, scan]
    norm_num [Curve.point, withinRange, altitudeThreshold, Pt.add, tryAltitude]

end Verif.Contact
