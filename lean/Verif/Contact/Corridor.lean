import Verif.Contact.Model
/-
The entity in front, found along a trajectory: /repo/simulation/behavior_tree_plugin/src/action_node.cpp (N).
-/
namespace Verif.Contact
open Verif.Geometry Classical

/-- `compute_bound_point`, N 302-311: `none` if the spline has no normal vector or point there, an exception. -/
noncomputable def boundPoint (k : Spline) (width s direction : ℝ) : Option Pt :=
  match k.normal s, k.point s with
  | some normal, some center =>
    let theta := atan2 normal.y normal.x
    some ⟨center.x + direction * 0.5 * width * Real.cos theta, center.y + direction * 0.5 * width * Real.sin theta, center.z⟩
  | _, _ => none

/-- `buildQuadrilateralData`, N 285-341: the outlines, each with its place. `bg::correct` (boost, not in /repo) may turn an outline around, which
is the same outline. -/
noncomputable def quadrilaterals (k : Spline) (width : ℝ) (segments : Nat) : Option (List (List Pt × ℝ)) :=
  if segments = 0 then some []
  else
    let step := k.total / segments
    match (List.range (segments + 1)).mapM fun i => boundPoint k width (step * (i : Nat)) 1,
      (List.range (segments + 1)).mapM fun i => boundPoint k width (step * (i : Nat)) (-1) with
    | some right, some left =>
      (List.range segments).mapM fun i =>
        match right[i]?, left[i]?, left[i + 1]?, right[i + 1]? with
        | some a, some b, some c, some d => some ([flat a, flat b, flat c, flat d, flat a], step * (i : Nat))
        | _, _, _, _ => none
    | _, _ => none

/-- `intersectsTrajectory`, N 343-354. -/
noncomputable def intersectsTrajectory (intersects : List Pt → List Pt → Bool) (quads : List (List Pt × ℝ)) (target : List Pt) : Option ℝ :=
  (quads.find? fun q => intersects q.1 target).map (·.2)

/-- An entity with its name, pose and box, as in `other_entity_status_`. -/
structure Other where
  name : String
  pose : Pose
  box : BBox

/-- The loop of `detectEntityCollisions`, N 369-387, with the nearest one so far. The outline has five points, so N 375-377 is never taken. -/
noncomputable def nearest (intersects : List Pt → List Pt → Bool) (quads : List (List Pt × ℝ)) (own : String) :
    List Other → Option (String × ℝ) → Option (String × ℝ)
  | [], best => best
  | e :: l, best => nearest intersects quads own l <|
    if own = e.name then best
    else match intersectsTrajectory intersects quads (outline e.pose e.box) with
      | none => best
      | some start => match best with
        | none => some (e.name, start)
        | some b => if start < b.2 then some (e.name, start) else some b

/-- `detectEntityCollisions`, N 356-390: `others` in the order of the hash map. -/
noncomputable def detectEntityCollisions (intersects : List Pt → List Pt → Bool) (quads : List (List Pt × ℝ)) (others : List Other) (own : String) :
    Option (String × ℝ) :=
  if quads.isEmpty then none else nearest intersects quads own others none

/-- `getFrontEntityNameAndDistanceByTrajectory`, N 392-408. -/
noncomputable def frontByTrajectory (intersects : List Pt → List Pt → Bool) (waypoints : List Pt) (width : ℝ) (segments : Nat)
    (others : List Other) (own : String) : Option (Option (String × ℝ)) :=
  if waypoints.length < 2 then some none
  else match Spline.make waypoints with
    | none => none
    | some k => match quadrilaterals k (max 0 width) segments with
      | none => none
      | some quads => some (detectEntityCollisions intersects quads others own)

end Verif.Contact
