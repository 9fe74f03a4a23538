import Verif.Matching.MatchTheorems
/-! C220, C221: the outline that is matched, the lanes of a route, and other lanes. -/
namespace Verif.Matching
open Verif.Geometry Classical

/-! ### The outline -/

theorem yaw_level (θ : ℝ) : Real.cos (quatToEuler ⟨0, 0, Real.sin (θ / 2), Real.cos (θ / 2)⟩).z = Real.cos θ ∧
    Real.sin (quatToEuler ⟨0, 0, Real.sin (θ / 2), Real.cos (θ / 2)⟩).z = Real.sin θ := by
  have h := heading_level θ
  unfold heading at h
  unfold quatToEuler
  simp only [h]
  rw [if_neg (by simp)]
  simp only [Real.arcsin_zero, neg_zero, Real.cos_zero, div_one]
  exact atan2_of_unit (by rw [add_comm]; exact Real.sin_sq_add_cos_sq θ)

/-- **C220** The outline that is matched has two points: the front left corner and the rear right corner of the box made smaller about its centre. -/
theorem C220_outline_partial (pos : Pt) (θ : ℝ) (box : BBox) (ratio : ℝ) :
    hull ⟨pos, ⟨0, 0, Real.sin (θ / 2), Real.cos (θ / 2)⟩⟩ box ratio =
      [1, -1].map fun j : ℝ =>
        (pos.x + (box.center.x + j * ratio * (box.dims.x / 2)) * Real.cos θ - (box.center.y + j * ratio * (box.dims.y / 2)) * Real.sin θ,
          pos.y + (box.center.x + j * ratio * (box.dims.x / 2)) * Real.sin θ + (box.center.y + j * ratio * (box.dims.y / 2)) * Real.cos θ) := by
  obtain ⟨h1, h2⟩ := yaw_level θ
  unfold hull
  simp only [h1, h2, List.map_cons, List.map_nil]
  congr 1
  · ext <;> simp only <;> ring
  · congr 1
    ext <;> simp only <;> ring

/-- **C220** The front right corner is not in the outline that is matched, for every box with a length and a width: the outline is a diagonal. -/
theorem C220_outline_violated (pos : Pt) (θ : ℝ) (box : BBox) (ratio : ℝ) (hr : 0 < ratio) (hx : 0 < box.dims.x) (hy : 0 < box.dims.y) :
    ∃ a b, hull ⟨pos, ⟨0, 0, Real.sin (θ / 2), Real.cos (θ / 2)⟩⟩ box ratio = [a, b] ∧
      ¬ OnSegment ⟨a.1, a.2, 0⟩ ⟨b.1, b.2, 0⟩
        ⟨pos.x + (box.center.x + ratio * (box.dims.x / 2)) * Real.cos θ - (box.center.y - ratio * (box.dims.y / 2)) * Real.sin θ,
          pos.y + (box.center.x + ratio * (box.dims.x / 2)) * Real.sin θ + (box.center.y - ratio * (box.dims.y / 2)) * Real.cos θ, 0⟩ := by
  refine ⟨_, _, C220_outline_partial pos θ box ratio, ?_⟩
  rintro ⟨u, -, -, h1, h2⟩
  simp only at h1 h2
  have hcs := Real.sin_sq_add_cos_sq θ
  generalize Real.cos θ = c at *
  generalize Real.sin θ = s at *
  -- in the frame of the box
  have e1 : u * (ratio * box.dims.x) * (s ^ 2 + c ^ 2) = 0 := by linear_combination c * h1 + s * h2
  have e2 : (u - 1) * (ratio * box.dims.y) * (s ^ 2 + c ^ 2) = 0 := by linear_combination -s * h1 + c * h2
  rw [hcs, mul_one] at e1 e2
  have p1 := (mul_pos hr hx).ne'
  have p2 := (mul_pos hr hy).ne'
  have u0 := (mul_eq_zero.mp e1).resolve_right p1
  have u1 := (mul_eq_zero.mp e2).resolve_right p2
  linarith

/-- A car of four by two metres. -/
example : (0 : ℝ) < 4 / 5 ∧ 0 < (⟨⟨1, 0, 0⟩, ⟨4, 2, 2⟩⟩ : BBox).dims.x ∧ 0 < (⟨⟨1, 0, 0⟩, ⟨4, 2, 2⟩⟩ : BBox).dims.y := by norm_num

/-! ### With a route -/

/-- **C221** With a route, its lanes come first, in their order, and only then those of C220; what is found is made canonical. -/
theorem C221_route (r : Road) (canonical : LanePose → Option LanePose) (p : Pose) (box : BBox) (route : List Id) (crosswalk : Bool) (reach : ℝ) :
    ∃ o, FirstPlace (fun i => onLane r p i reach) route o ∧
      (o = none → locate r canonical p box route crosswalk reach = none) ∧
      (∀ x, o = some (some x) → locate r canonical p box route crosswalk reach = some (canonical x)) ∧
      (o = some none → onBox r p box crosswalk reach = none → locate r canonical p box route crosswalk reach = none) ∧
      (o = some none → onBox r p box crosswalk reach = some none → locate r canonical p box route crosswalk reach = some none) ∧
      (∀ x, o = some none → onBox r p box crosswalk reach = some (some x) → locate r canonical p box route crosswalk reach = some (canonical x)) := by
  refine ⟨_, onLanes_first r p reach route, ?_⟩
  have e : (if route = [] then some none else onLanes r p reach route) = onLanes r p reach route := by
    cases route with
    | nil => rfl
    | cons i l => rw [if_neg (by simp)]
  unfold locate
  simp only [e]
  refine ⟨fun h => by rw [h], fun x h => by rw [h], fun h h' => ?_, fun h h' => ?_, fun x h h' => ?_⟩ <;> rw [h] <;> simp only [h'] <;> rfl

/-- **C221** A pedestrian that has no place is put on a lane near its position within two metres to either side; if the road ends before that place,
at the end of the road: at its start for a place before it and at its end otherwise. -/
theorem C221_pedestrian (r : Road) (canonical : LanePose → Option LanePose) (canonicalize : LanePose → Road.Canonical) (length : Id → ℝ)
    (make : LanePose → Option LanePose) (p : Pose) (box : BBox) (route : List Id) (crosswalk : Bool) (reach : ℝ) :
    (∀ o, o ≠ some none → locate r canonical p box route crosswalk reach = o →
      locatePedestrian r canonical canonicalize length make p box route crosswalk reach = o) ∧
    (locate r canonical p box route crosswalk reach = some none →
      ∃ o, FirstPlace (fun i => onLane r p i 2) (r.nearby p.position crosswalk) o ∧
        (o = none ∨ o = some none → locatePedestrian r canonical canonicalize length make p box route crosswalk reach = o) ∧
        (∀ x y, o = some (some x) → canonicalize x = .pose y →
          locatePedestrian r canonical canonicalize length make p box route crosswalk reach = some (canonical x)) ∧
        ∀ x id, o = some (some x) → canonicalize x = .ends id →
          (x.s < 0 → locatePedestrian r canonical canonicalize length make p box route crosswalk reach = (make ⟨id, 0, x.offset, x.rpy⟩).map some) ∧
          (0 ≤ x.s → locatePedestrian r canonical canonicalize length make p box route crosswalk reach =
            (make ⟨id, length id, x.offset, x.rpy⟩).map some)) := by
  constructor
  · intro o ho h
    unfold locatePedestrian
    rw [h]
    cases o with
    | none => rfl
    | some o => cases o with
      | none => exact absurd rfl ho
      | some x => rfl
  · intro h
    refine ⟨_, onLanes_first r p 2 (r.nearby p.position crosswalk), ?_⟩
    unfold locatePedestrian
    rw [h]
    unfold onNearby
    refine ⟨?_, fun x y hx hy => ?_, fun x id hx hid => ⟨fun h0 => ?_, fun h0 => ?_⟩⟩
    · rintro (h | h) <;> simp only [h]
    · simp only [hx, hy]
    · simp only [hx, hid]; rw [if_pos h0]
    · simp only [hx, hid]; rw [if_neg (not_lt.mpr h0)]

/-! ### All lanes beside -/

theorem insertId_mem (x y : Id) (l : List Id) : y ∈ insertId x l ↔ y = x ∨ y ∈ l := by
  induction l with
  | nil => simp [insertId]
  | cons z l ih =>
    unfold insertId
    split
    · simp
    · split
      · rename_i h; rw [h]; simp
      · simp only [List.mem_cons, ih]; tauto

theorem insertId_sorted (x : Id) {l : List Id} (h : l.Pairwise (· < ·)) : (insertId x l).Pairwise (· < ·) := by
  induction l with
  | nil => simp [insertId]
  | cons y l ih =>
    rw [List.pairwise_cons] at h
    unfold insertId
    split
    · rename_i hl
      rw [List.pairwise_cons]
      refine ⟨fun z hz => ?_, List.pairwise_cons.mpr h⟩
      rcases List.mem_cons.mp hz with rfl | hz
      · exact hl
      · exact lt_trans hl (h.1 z hz)
    · rename_i hl
      split
      · exact List.pairwise_cons.mpr h
      · rename_i hne
        rw [List.pairwise_cons]
        refine ⟨fun z hz => ?_, ih h.2⟩
        rcases (insertId_mem x z l).mp hz with rfl | hz
        · exact lt_of_le_of_ne (not_lt.mp hl) (fun e => hne e.symm)
        · exact h.1 z hz

theorem foldl_insertId (l set : List Id) (h : set.Pairwise (· < ·)) :
    (l.foldl (fun s i => insertId i s) set).Pairwise (· < ·) ∧ ∀ y, y ∈ l.foldl (fun s i => insertId i s) set ↔ y ∈ l ∨ y ∈ set := by
  induction l generalizing set with
  | nil => exact ⟨h, by simp⟩
  | cons x l ih =>
    rw [List.foldl_cons]
    obtain ⟨a, b⟩ := ih _ (insertId_sorted x h)
    refine ⟨a, fun y => ?_⟩
    rw [b, insertId_mem, List.mem_cons]
    tauto

theorem mapM_places (f : Id → Option (Option LanePose)) (hf : ∀ i x, f i = some (some x) → x.id = i) (l : List Id) (hl : l.Pairwise (· < ·)) :
    (l.mapM f = none ↔ ∃ i ∈ l, f i = none) ∧ ∀ out, l.mapM f = some out →
      (out.filterMap _root_.id).Pairwise (fun x y => x.id < y.id) ∧ ∀ x, x ∈ out.filterMap _root_.id ↔ ∃ i ∈ l, f i = some (some x) := by
  induction l with
  | nil =>
    refine ⟨by simp, fun out h => ?_⟩
    simp only [List.mapM_nil] at h
    cases h
    simp
  | cons i l ih =>
    rw [List.pairwise_cons] at hl
    obtain ⟨h1, h2⟩ := ih hl.2
    rw [List.mapM_cons]
    cases hi : f i with
    | none => exact ⟨⟨fun _ => ⟨i, by simp, hi⟩, fun _ => rfl⟩, fun out h => by cases h⟩
    | some o =>
      cases hm : l.mapM f with
      | none =>
        refine ⟨⟨fun _ => ?_, fun _ => rfl⟩, fun out h => by cases h⟩
        obtain ⟨j, hj, hn⟩ := h1.mp hm
        exact ⟨j, by simp [hj], hn⟩
      | some rest =>
        obtain ⟨a, b⟩ := h2 rest hm
        have hdef : ¬ ∃ j ∈ l, f j = none := by rw [← h1, hm]; simp
        refine ⟨⟨nofun, ?_⟩, fun out h => ?_⟩
        · rintro ⟨j, hj, hn⟩
          rcases List.mem_cons.mp hj with rfl | hj
          · rw [hi] at hn; cases hn
          · exact absurd ⟨j, hj, hn⟩ hdef
        · have : out = o :: rest := by cases h; rfl
          rw [this]
          cases o with
          | none =>
            rw [List.filterMap_cons_none rfl]
            refine ⟨a, fun x => ?_⟩
            rw [b]
            simp [hi]
          | some x =>
            have hfm : (some x :: rest).filterMap _root_.id = x :: rest.filterMap _root_.id := rfl
            rw [hfm, List.pairwise_cons]
            refine ⟨⟨fun y hy => ?_, a⟩, fun y => ?_⟩
            · obtain ⟨j, hj, hy⟩ := (b y).mp hy
              rw [hf _ _ hi, hf _ _ hy]
              exact hl.1 j hj
            · rw [List.mem_cons, b]
              simp only [List.mem_cons, exists_eq_or_imp, hi, Option.some.injEq]
              constructor
              · rintro (h | h)
                · exact Or.inl h.symm
                · exact Or.inr h
              · rintro (h | h)
                · exact Or.inl h.symm
                · exact Or.inr h

/-- **C221** All places of a pose about a lane: those on the lane itself and on the lanes to its left and right, before it and after it, each lane
once and in the order of their numbers. The call fails exactly if lanes of the opposite direction are asked for or one of these lanes fails. -/
theorem C221_all (r : Road) (p : Pose) (id : Id) (reach : ℝ) (opposite : Bool) :
    (allPoses r p id reach opposite = none ↔ opposite = true ∨
      ∃ i, (i = id ∨ i ∈ r.lefts id ∨ i ∈ r.rights id ∨ i ∈ r.previous id ∨ i ∈ r.next id) ∧ onLane r p i reach = none) ∧
    ∀ l, allPoses r p id reach opposite = some l → l.Pairwise (fun x y => x.id < y.id) ∧
      ∀ x, x ∈ l ↔ ∃ i, (i = id ∨ i ∈ r.lefts id ∨ i ∈ r.rights id ∨ i ∈ r.previous id ∨ i ∈ r.next id) ∧ onLane r p i reach = some (some x) := by
  obtain ⟨hs, hm⟩ := foldl_insertId (r.lefts id ++ r.rights id ++ r.previous id ++ r.next id) [id] (by simp)
  unfold allPoses
  cases opposite with
  | true => simp
  | false =>
    simp only [Bool.false_eq_true, if_false, false_or]
    obtain ⟨h1, h2⟩ := mapM_places (fun i => onLane r p i reach) (fun i x h => onLane_id h) _ hs
    generalize List.foldl (fun s i => insertId i s) [id] (r.lefts id ++ r.rights id ++ r.previous id ++ r.next id) = ids at *
    have hids : ∀ i, i ∈ ids ↔ (i = id ∨ i ∈ r.lefts id ∨ i ∈ r.rights id ∨ i ∈ r.previous id ∨ i ∈ r.next id) := by
      intro i
      rw [hm]
      simp only [List.mem_append, List.mem_cons, List.not_mem_nil, or_false]
      tauto
    simp only [hids] at h1 h2
    constructor
    · rw [Option.map_eq_none_iff, h1]
    · intro l hl
      rw [Option.map_eq_some_iff] at hl
      obtain ⟨out, ho, rfl⟩ := hl
      exact h2 out ho

/-! ### Another lane for a goal -/

theorem alternatives_spec (r : Road) (canonical : LanePose → Option LanePose) (route : Id → Id → List Id) (start goal : Id) (p : Pose)
    (set : List (ℝ × Id)) (out : List (LanePose × List Id)) (h : alternatives r canonical route start goal p set = some out) :
    ∀ y w, (y, w) ∈ out ↔ ∃ o i x, (o, i) ∈ set ∧ i ≠ goal ∧ route start i ≠ [] ∧ w = route start i ∧ onLane r p i 3 = some (some x) ∧ canonical x = some y := by
  induction set generalizing out with
  | nil =>
    simp only [alternatives, Option.some.injEq] at h
    rw [← h]; simp
  | cons e set ih =>
    obtain ⟨o, i⟩ := e
    have hskip : ∀ out, alternatives r canonical route start goal p set = some out →
        (∀ x y, ¬ (i ≠ goal ∧ route start i ≠ [] ∧ onLane r p i 3 = some (some x) ∧ canonical x = some y)) →
        ∀ y w, (y, w) ∈ out ↔ ∃ o' j x, (o', j) ∈ (o, i) :: set ∧ j ≠ goal ∧ route start j ≠ [] ∧ w = route start j ∧
          onLane r p j 3 = some (some x) ∧ canonical x = some y := by
      intro out ho hno y w
      rw [ih out ho]
      constructor
      · rintro ⟨o', j, x, hj, rest⟩; exact ⟨o', j, x, by simp [hj], rest⟩
      · rintro ⟨o', j, x, hj, a, b, c, d, e⟩
        rcases List.mem_cons.mp hj with hj | hj
        · simp only [Prod.mk.injEq] at hj
          obtain ⟨-, rfl⟩ := hj
          exact absurd ⟨a, b, d, e⟩ (hno x y)
        · exact ⟨o', j, x, hj, a, b, c, d, e⟩
    simp only [alternatives] at h
    split at h
    · rename_i hc
      refine hskip out h ?_
      rintro x y ⟨a, b, -⟩
      rcases hc with hc | hc
      · exact a hc
      · exact b hc
    · rename_i hc
      push Not at hc
      cases hi : onLane r p i 3 with
      | none => simp [hi] at h
      | some q =>
        cases q with
        | none =>
          simp only [hi] at h
          refine hskip out h ?_
          rintro x y ⟨-, -, d, -⟩
          rw [hi] at d; cases d
        | some x =>
          simp only [hi] at h
          cases hcan : canonical x with
          | none =>
            simp only [hcan] at h
            refine hskip out h ?_
            rintro x' y ⟨-, -, d, e⟩
            rw [hi] at d; cases d
            rw [hcan] at e; cases e
          | some z =>
            simp only [hcan, Option.map_eq_some_iff] at h
            obtain ⟨rest, hr, rfl⟩ := h
            intro y w
            rw [List.mem_cons, ih rest hr]
            constructor
            · rintro (h | ⟨o', j, x, hj, t⟩)
              · simp only [Prod.mk.injEq] at h
                exact ⟨o, i, x, by simp, hc.1, hc.2, h.2, hi, by rw [hcan, h.1]⟩
              · exact ⟨o', j, x, by simp [hj], t⟩
            · rintro ⟨o', j, x', hj, a, b, c, d, e⟩
              rcases List.mem_cons.mp hj with hj | hj
              · simp only [Prod.mk.injEq] at hj
                obtain ⟨-, rfl⟩ := hj
                rw [hi] at d; cases d
                rw [hcan] at e; cases e
                exact Or.inl (by rw [c])
              · exact Or.inr ⟨o', j, x', hj, a, b, c, d, e⟩

theorem shortest_spec (l : List (LanePose × List Id)) :
    (shortest l = none ↔ l = []) ∧ ∀ y, shortest l = some y → ∃ w, (y, w) ∈ l ∧ ∀ e ∈ l, w.length ≤ e.2.length := by
  cases l with
  | nil => simp [shortest]
  | cons x l =>
    refine ⟨by simp [shortest], fun y hy => ?_⟩
    simp only [shortest, Option.some.injEq] at hy
    have key : ∀ (l : List (LanePose × List Id)) (x : LanePose × List Id),
        let b := l.foldl (fun best y => if y.2.length < best.2.length then y else best) x
        b ∈ x :: l ∧ ∀ e ∈ x :: l, b.2.length ≤ e.2.length := by
      intro l
      induction l with
      | nil => intro x; simp
      | cons z l ih =>
        intro x
        rw [List.foldl_cons]
        obtain ⟨a, b⟩ := ih (if z.2.length < x.2.length then z else x)
        generalize List.foldl (fun best y => if y.2.length < best.2.length then y else best) (if z.2.length < x.2.length then z else x) l = best at *
        refine ⟨?_, fun e he => ?_⟩
        · rcases List.mem_cons.mp a with h | h
          · rw [h]; split <;> simp
          · simp [h]
        · have hb := b _ (by simp : (if z.2.length < x.2.length then z else x) ∈ _ :: l)
          rcases List.mem_cons.mp he with rfl | he
          · split at hb <;> omega
          · rcases List.mem_cons.mp he with rfl | he
            · split at hb <;> omega
            · exact b e (by simp [he])
    obtain ⟨a, b⟩ := key l x
    rw [← hy]
    exact ⟨_, a, b⟩

/-- **C221** A goal that can be reached is kept. Otherwise another lane at the goal is taken, never the lane of the goal, that can be reached and on which
the goal has a canonical place, with the shortest route; there is none exactly if no lane is such. -/
theorem C221_alternative (r : Road) (canonical : LanePose → Option LanePose) (route : Id → Id → List Id) (start : Id) (goal : LanePose × Pose)
    (box : BBox) (good : Id → LanePose → Prop)
    (hgood : ∀ i y, good i y ↔ i ∈ r.within (hull goal.2 box (4 / 5)) 3 ∧ r.compliant i = true ∧ i ≠ goal.1.id ∧ route start i ≠ [] ∧
      ∃ x, onLane r goal.2 i 3 = some (some x) ∧ canonical x = some y) :
    (route start goal.1.id ≠ [] → alternative r canonical route start goal box = some (some goal.1)) ∧
    (route start goal.1.id = [] →
      (alternative r canonical route start goal box = some none → ∀ i y, ¬ good i y) ∧
      ∀ y, alternative r canonical route start goal box = some (some y) →
        ∃ i, good i y ∧ ∀ j z, good j z → (route start i).length ≤ (route start j).length) := by
  constructor
  · intro h
    unfold alternative
    rw [if_pos h]
  · intro h
    have hspec := findMatching_spec r goal.2 box false 3 (4 / 5)
    have hall := C220_all r goal.2 box false 3 (4 / 5)
    unfold alternative
    rw [if_neg (by simpa using h)]
    cases hm : findMatching r goal.2 box false 3 (4 / 5) with
    | none => exact ⟨nofun, nofun⟩
    | some o =>
      cases o with
      | none =>
        refine ⟨fun _ i y hg => ?_, nofun⟩
        obtain ⟨a, b, -, -, x, hx, -⟩ := (hgood i y).mp hg
        have := hspec.2.1.mp hm i (by unfold found; simp [a, b])
        rw [hx] at this; cases this
      | some set =>
        obtain ⟨-, hmem⟩ := hall set hm
        simp only [Option.map_eq_some_iff]
        have key : ∀ out, alternatives r canonical route start goal.1.id goal.2 set = some out →
            ∀ y w, (y, w) ∈ out ↔ ∃ i, good i y ∧ w = route start i := by
          intro out ho y w
          rw [alternatives_spec r canonical route start goal.1.id goal.2 set out ho]
          constructor
          · rintro ⟨o, i, x, hi, a, b, c, d, e⟩
            obtain ⟨m1, m2, -⟩ := (hmem o i).mp hi
            exact ⟨i, (hgood i y).mpr ⟨m1, by simpa using m2, a, b, x, d, e⟩, c⟩
          · rintro ⟨i, hg, c⟩
            obtain ⟨m1, m2, a, b, x, d, e⟩ := (hgood i y).mp hg
            exact ⟨x.offset, i, x, (hmem _ i).mpr ⟨m1, Or.inr m2, x, d, rfl⟩, a, b, c, d, e⟩
        constructor
        · rintro ⟨out, ho, hn⟩ i y hg
          have hnil := (shortest_spec out).1.mp hn
          have := (key out ho y (route start i)).mpr ⟨i, hg, rfl⟩
          rw [hnil] at this; cases this
        · rintro y ⟨out, ho, hs⟩
          obtain ⟨w, hw, hle⟩ := (shortest_spec out).2 y hs
          obtain ⟨i, hg, rfl⟩ := (key out ho y w).mp hw
          exact ⟨i, hg, fun j z hj => hle _ ((key out ho z (route start j)).mpr ⟨j, hj, rfl⟩)⟩

/-! ### A case -/

/-- A map with the straight lane 7 of `skew_lane` and, beside it, lane 9 with the same centre line. -/
noncomputable def sampleRoad : Road where
  centre i := if i = 7 ∨ i = 9 then some ⟨[⟨0, 0, 0⟩, ⟨10, 0, 0⟩], []⟩ else none
  previous _ := []
  next _ := []
  lefts i := if i = 7 then [9] else []
  rights _ := []
  nearby _ _ := [9]
  within _ _ := [9, 7]
  compliant _ := true

/-- A pose on this map is matched to lane 7, has a place there, and places on both lanes; a goal that cannot be reached on lane 7 goes to lane 9. -/
theorem sample_case : ∃ (p : Pose) (l : LanePose) (l' : LanePose), onLane sampleRoad p 7 2 = some (some l) ∧ onLane sampleRoad p 9 2 = some (some l') ∧
    l.offset = l'.offset := by
  obtain ⟨p, s, l, hu, hp, e1, e2, e3, hn, hl, rfl⟩ := skew_lane
  obtain ⟨l', hl', -, hs, ho, -⟩ := (C218_place _ 9 p 2 l.s _ _ e1 e2 e3 (Or.inl (by norm_num)) hu).2 hn
  obtain ⟨l'', hl'', -, hs', ho', -⟩ := (C218_place _ 7 p 2 l.s _ _ e1 e2 e3 (Or.inl (by norm_num)) hu).2 hn
  rw [hl] at hl''
  cases hl''
  refine ⟨p, l, l', ?_, ?_, ?_⟩
  · unfold onLane sampleRoad; simpa using hl
  · unfold onLane sampleRoad; simpa using hl'
  · obtain ⟨a, b, -⟩ := ho
    obtain ⟨a', b', -⟩ := ho'
    rw [hp] at a b a' b'
    have c := b (by norm_num)
    have c' := b' (by norm_num)
    rw [← a'] at a
    nlinarith

example : ∃ p box, matchToLane sampleRoad p box false 2 (4 / 5) = some (some 7) ∧ allPoses sampleRoad p 7 2 false ≠ none ∧
    allPoses sampleRoad p 7 2 false ≠ some [] ∧ ∃ x, onBox sampleRoad p box false 2 = some (some x) ∧ x.id = 7 := by
  obtain ⟨p, l, l', h7, h9, hoff⟩ := sample_case
  refine ⟨p, ⟨⟨0, 0, 0⟩, ⟨1, 1, 1⟩⟩, ?_⟩
  obtain ⟨c1, c2, c3⟩ := C220_closest sampleRoad p ⟨⟨0, 0, 0⟩, ⟨1, 1, 1⟩⟩ false 2 (4 / 5) [9, 7] (by simp [sampleRoad])
  have hm : matchToLane sampleRoad p ⟨⟨0, 0, 0⟩, ⟨1, 1, 1⟩⟩ false 2 (4 / 5) = some (some 7) := by
    cases h : matchToLane sampleRoad p ⟨⟨0, 0, 0⟩, ⟨1, 1, 1⟩⟩ false 2 (4 / 5) with
    | none =>
      obtain ⟨i, hi, hn⟩ := c1.mp h
      simp only [List.mem_cons, List.not_mem_nil, or_false] at hi
      rcases hi with rfl | rfl
      · rw [h9] at hn; cases hn
      · rw [h7] at hn; cases hn
    | some o =>
      cases o with
      | none =>
        have := c2.mp h 7 (by simp)
        rw [h7] at this; cases this
      | some i =>
        obtain ⟨hi, x, hx, hall⟩ := c3 i h
        simp only [List.mem_cons, List.not_mem_nil, or_false] at hi
        rcases hi with rfl | rfl
        · have := hall 7 (by simp) l h7
          simp only at hx
          rw [h9] at hx
          cases hx
          rw [hoff] at this
          rcases this with h | h
          · exact absurd h (lt_irrefl _)
          · exact absurd h.2 (by decide)
        · rfl
  refine ⟨hm, ?_, ?_, ?_⟩
  · rw [Ne, (C221_all sampleRoad p 7 2 false).1]
    rintro (h | ⟨i, hi, hn⟩)
    · cases h
    · simp only [sampleRoad, if_true, List.mem_cons, List.not_mem_nil, or_false] at hi
      rcases hi with rfl | rfl
      · rw [h7] at hn; cases hn
      · rw [h9] at hn; cases hn
  · intro h
    have := ((C221_all sampleRoad p 7 2 false).2 [] h).2 l
    simp only [List.not_mem_nil, false_iff] at this
    exact this ⟨7, Or.inl rfl, h7⟩
  · have := (C220_order sampleRoad p ⟨⟨0, 0, 0⟩, ⟨1, 1, 1⟩⟩ false 2).2.2 7 hm
    exact ⟨l, (this.2 (some (some l)) (by simp)).mpr ⟨[], 7, _, rfl, h7, by simp⟩, onLane_id h7⟩

end Verif.Matching
