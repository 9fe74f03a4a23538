/-
Model of positions on the road network.

P = simulation/traffic_simulator/src/lanelet_wrapper/pose.cpp, R = simulation/traffic_simulator/src/lanelet_wrapper/route.cpp,
M = simulation/traffic_simulator/src/lanelet_wrapper/lanelet_map.cpp.

The lanelet map is given by the lengths of the lanelets, the order in which the routing graph lists the successors and
predecessors of each, and whether its turn direction is "straight". Lengths are rational: rounding is not modelled. A loop
that does not end has the result `none`.
-/
namespace Verif.Lanelet

abbrev Id := Nat

structure Road where
  length : Id → Rat
  /-- M 192-203 `nextLaneletIds` -/
  next : Id → List Id
  /-- M `previousLaneletIds` -/
  prev : Id → List Id
  /-- `attributeOr("turn_direction", "else") == "straight"` -/
  straight : Id → Bool

/-- `LaneletPose`; offset and rotation are copied unchanged by all functions here and left out. -/
structure Pose where
  id : Id
  s : Rat
  deriving DecidableEq, Repr

/-- The result of `canonicalizeLaneletPose`: a pose, or the lanelet where the road ends. -/
inductive Canonical
  | pose (p : Pose)
  | endOfRoad (id : Id)
  deriving DecidableEq, Repr

/-- P 347-356: the first loop. -/
def backward (r : Road) (p : Pose) : Option Canonical :=
  if p.s < 0 then
    match r.prev p.id with
    | [] => some (.endOfRoad p.id)
    | i :: _ => backward r ⟨i, p.s + r.length i⟩
  else some (.pose p)
partial_fixpoint

/-- P 357-368: the second loop. -/
def forward (r : Road) (p : Pose) : Option Canonical :=
  if r.length p.id < p.s then
    match r.next p.id with
    | [] => some (.endOfRoad p.id)
    | i :: _ => forward r ⟨i, p.s - r.length p.id⟩
  else some (.pose p)
partial_fixpoint

/-- P 343-370 -/
def canonicalize (r : Road) (p : Pose) : Option Canonical :=
  match backward r p with
  | some (.pose q) => forward r q
  | x => x

/-- P 384-394: the loop over all successors in the route; the search is not ended when one is found. -/
def intoRoute (r : Road) (route : List Id) : List Id → Bool × Pose → Bool × Pose
  | [], x => x
  | i :: l, (found, p) =>
    if i ∈ route then intoRoute r route l (true, ⟨i, p.s - r.length p.id⟩) else intoRoute r route l (found, p)

/-- P 380-398 -/
def forwardRoute (r : Road) (route : List Id) (p : Pose) : Option Canonical :=
  if r.length p.id < p.s then
    match intoRoute r route (r.next p.id) (false, p) with
    | (true, q) => forwardRoute r route q
    | (false, q) => some (.endOfRoad q.id)
  else some (.pose p)
partial_fixpoint

/-- P 372-400 -/
def canonicalizeRoute (r : Road) (route : List Id) (p : Pose) : Option Canonical :=
  if p.s < 0 then canonicalize r p else forwardRoute r route p

/-- P 270-275, 286-291: a straight successor if there is one, otherwise the first. -/
def pick (r : Road) (l : List Id) : Option Id := (l.filter r.straight).head?.or l.head?

/-- The result of `alongLaneletPose`: a pose or an exception. -/
inductive Along
  | pose (p : Pose)
  | error
  deriving DecidableEq, Repr

/-- P 267-282 -/
def alongForward (r : Road) (p : Pose) : Option Along :=
  if r.length p.id ≤ p.s then
    match pick r (r.next p.id) with
    | none => some .error
    | some i => alongForward r ⟨i, p.s - r.length p.id⟩
  else some (.pose p)
partial_fixpoint

/-- P 283-298 -/
def alongBackward (r : Road) (p : Pose) : Option Along :=
  if p.s < 0 then
    match pick r (r.prev p.id) with
    | none => some .error
    | some i => alongBackward r ⟨i, p.s + r.length i⟩
  else some (.pose p)
partial_fixpoint

/-- P 261-300 -/
def along (r : Road) (p : Pose) (d : Rat) : Option Along :=
  if 0 ≤ p.s + d then alongForward r ⟨p.id, p.s + d⟩ else alongBackward r ⟨p.id, p.s + d⟩

/-- P 302-325: movement along a route; at the end of the road the pose stays at the end. -/
def alongRoute (r : Road) (route : List Id) (p : Pose) (d : Rat) : Option Pose :=
  match canonicalizeRoute r route ⟨p.id, p.s + d⟩ with
  | some (.pose q) => some q
  | some (.endOfRoad i) => some ⟨i, if p.s + d ≤ 0 then 0 else r.length i⟩
  | none => none

/-- P 205-259 -/
def alternatives (r : Road) (p : Pose) : Option (List Pose) :=
  if p.s < 0 then
    (r.prev p.id).foldlM (fun acc i => do
      let q : Pose := ⟨i, p.s + r.length i⟩
      let l ← alternatives r q
      return acc ++ (if l.isEmpty then [q] else l)) []
  else if r.length p.id < p.s then
    (r.next p.id).foldlM (fun acc i => do
      let q : Pose := ⟨i, p.s - r.length p.id⟩
      let l ← alternatives r q
      return acc ++ (if l.isEmpty then [q] else l)) []
  else some [p]
partial_fixpoint

/-! ### Lists of lanelets -/

/-- R 122-138 -/
def followLoop (r : Road) (distance : Rat) (ref : Id) (total : Rat) (acc : List Id) : Option (List Id) :=
  if total < distance then
    match pick r (r.next ref) with
    | some i => followLoop r distance i (total + r.length i) (acc ++ [i])
    | none => some acc
  else some acc
partial_fixpoint

/-- R 113-140 `followingLanelets` -/
def following (r : Road) (id : Id) (distance : Rat) (includeSelf : Bool) : Option (List Id) :=
  followLoop r distance id 0 (if includeSelf then [id] else [])

/-- R 149-164 -/
def previousLoop (r : Road) (distance : Rat) (ref : Id) (total : Rat) (acc : List Id) : Option (List Id) :=
  if total < distance then
    match pick r (r.prev ref) with
    | some i => previousLoop r distance i (total + r.length i) (acc ++ [i])
    | none => some acc
  else some acc
partial_fixpoint

/-- R 142-166 `previousLanelets` -/
def previous (r : Road) (id : Id) (distance : Rat) : Option (List Id) := previousLoop r distance id 0 [id]

/-- R 83-102: the loop over the route; `none` is the exception. -/
def routeLoop (r : Road) (id : Id) (horizon : Rat) (includeSelf : Bool) : List Id → Bool → Rat → List Id → Option (Rat × List Id)
  | [], _, total, acc => some (total, acc)
  | i :: l, true, total, acc =>
    if i ∈ r.next (acc.getLast?.getD id) then
      if horizon < total + r.length i then some (total + r.length i, acc ++ [i])
      else routeLoop r id horizon includeSelf l true (total + r.length i) (acc ++ [i])
    else none
  | i :: l, false, total, acc =>
    if i = id then routeLoop r id horizon includeSelf l true total (if includeSelf then acc ++ [i] else acc)
    else routeLoop r id horizon includeSelf l false total acc

/-- The result of `followingLanelets` on a route: a list or an exception. -/
inductive Lanelets
  | list (l : List Id)
  | error
  deriving DecidableEq, Repr

/-- R 62-111 `followingLanelets` on a route -/
def followingRoute (r : Road) (id : Id) (route : List Id) (horizon : Rat) (includeSelf : Bool) : Option Lanelets :=
  match route.getLast? with
  | none => some (.list [])
  | some last =>
    match routeLoop r id horizon includeSelf route false 0 [] with
    | none => some .error
    | some (total, acc) =>
      if acc.isEmpty then some .error
      else if total ≤ horizon then (following r last (horizon - total) false).map fun l => .list (acc ++ l)
      else some (.list acc)

end Verif.Lanelet
