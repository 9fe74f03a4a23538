import Mathlib.Analysis.Normed.Module.Basic
import Mathlib.Algebra.Order.Floor.Ring
import Mathlib.Algebra.Order.Archimedean.Real.Basic
/-!
The center lines of lanelets when a map is loaded.

LL = simulation/traffic_simulator/src/lanelet_wrapper/lanelet_loader.cpp,
LH = simulation/traffic_simulator/include/traffic_simulator/lanelet_wrapper/lanelet_wrapper.hpp.

Points are elements of a normed space, so that nothing depends on there being three coordinates.
-/

namespace Verif.Lanes

/-- Exceptions. -/
inductive Fault where
  /-- `std::out_of_range` -/
  | range
  /-- `common::SemanticError`, `common::SimulationError` -/
  | thrown
  /-- undefined behaviour -/
  | undefined
  deriving DecidableEq

variable {V : Type} [NormedAddCommGroup V] [NormedSpace ℝ V]

/-- `calculateSegmentDistances`, LL 238-246. -/
noncomputable def distances : List V → List ℝ
  | a :: b :: l => ‖b - a‖ :: distances (b :: l)
  | _ => []

/-- A number and what comes out when others are added to it, one after the other. -/
noncomputable def sums (t : ℝ) : List ℝ → List ℝ
  | [] => [t]
  | d :: l => t :: sums (t + d) l

/-- `calculateAccumulatedLengths`, LL 235-255: zero, then the partial sums. -/
noncomputable def accumulated (line : List V) : List ℝ := sums 0 (distances line)

/-- `lanelet::geometry::length` of a line. -/
noncomputable def total (line : List V) : ℝ := (distances line).sum

open Classical in
/-- LL 199-206: the first pair of neighbours with the length between them. -/
noncomputable def search (t : ℝ) : List ℝ → Nat → Option Nat
  | a :: b :: l, i => if a ≤ t ∧ t ≤ b then some i else search t (b :: l) (i + 1)
  | _, _ => none

open Classical in
/-- `findNearestIndexPair`, LL 191-208: the first of the two indices. -/
noncomputable def nearest (acc : List ℝ) (t : ℝ) : Except Fault Nat :=
  match acc[1]? with
  | none => .error .range
  | some a =>
    if t < a then .ok 0
    else match acc[acc.length - 2]? with
      | none => .error .range
      | some b =>
        if b < t then .ok (acc.length - 2)
        else match search t acc 0 with
          | some i => .ok i
          | none => .error .thrown

open Classical in
/-- LL 216-227: the point of the line at a length, none if the division is by zero and the coordinates are NaN. -/
noncomputable def pointAt (line : List V) (t : ℝ) : Except Fault (Option V) :=
  match nearest (accumulated line) t with
  | .error e => .error e
  | .ok i => match line[i]?, line[i + 1]?, (accumulated line)[i]?, (accumulated line)[i + 1]? with
    | some back, some front, some x, some y =>
      .ok (if y - x = 0 then none else some (back + ((t - x) / (y - x)) • (front - back)))
    | _, _, _, _ => .error .range

/-- `resamplePoints`, LL 185-233. -/
noncomputable def resample (line : List V) (n : Nat) : Except Fault (List (Option V)) :=
  (List.range (n + 1)).mapM fun i : Nat => pointAt line ((i : ℝ) / n * total line)

/-- LL 144-149: the number of segments; numbers beyond the range of `std::int32_t` are not modelled. -/
noncomputable def segmentCount (left right : List V) : Nat :=
  max ⌈(if total left > total right then total left else total right) / 2⌉₊ 1

/-- LL 159. -/
noncomputable def middle : Option V → Option V → Option V
  | some l, some r => some ((2 : ℝ)⁻¹ • (r + l))
  | _, _ => none

/-- `generateFineCenterline`, LL 141-166. -/
noncomputable def centerline (left right : List V) : Except Fault (List (Option V)) :=
  match resample left (segmentCount left right) with
  | .error e => .error e
  | .ok ls => match resample right (segmentCount left right) with
    | .error e => .error e
    | .ok rs => .ok (List.zipWith middle ls rs)

/-- `overwriteLaneletsCenterline`, LL 178-182, for one lanelet. `custom` is the center line that the map gives, if any. -/
noncomputable def chosen (useCustom : Bool) (custom : Option (List V)) (left right : List V) : Except Fault (List (Option V)) :=
  match useCustom, custom with
  | true, some c => .ok (c.map some)
  | _, _ => centerline left right

/-- `centerPoints`, LH 194-214. -/
noncomputable def centerPoints : List V → List V
  | [p, q] => [p, (2 : ℝ)⁻¹ • (p + q), q]
  | l => l

end Verif.Lanes
