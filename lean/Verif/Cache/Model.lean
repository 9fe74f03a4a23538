/-
The caches of what is computed from the map, and the map that is in use.

  LH = simulation/traffic_simulator/include/traffic_simulator/lanelet_wrapper/lanelet_wrapper.hpp
  LC = simulation/traffic_simulator/src/lanelet_wrapper/lanelet_wrapper.cpp
  LM = simulation/traffic_simulator/src/lanelet_wrapper/lanelet_map.cpp
-/
namespace Verif.Cache

/-- How a call ends: with a value, with what the computation throws, with `std::out_of_range` of `at`, or with the error that the value is not known. -/
inductive Answer (E B : Type) where
  | value (b : B)
  | thrown (e : E)
  | outOfRange
  | missing
  deriving DecidableEq

/-- What a call asks for: the value, what is made of it (`getCenterPointsSpline`), or the value only if it is known (LH 108-118 `getRoute` without a map, LH 224-230 `getLength` without a map). -/
inductive Wish where
  | value
  | made
  | known
  deriving DecidableEq

/-- Where a thread is in a call. Between these places it holds no lock. -/
inductive Place (A E B C : Type) where
  | idle
  | check (k : A) (w : Wish)
  | compute (k : A) (w : Wish)
  | append (k : A) (b : B) (w : Wish)
  | read (k : A) (w : Wish)
  | done (k : A) (w : Wish) (r : Answer E (B ⊕ C))

/-- LH 77-145 `RouteCache`, LH 147-219 `CenterPointsCache`, LH 221-262 `LaneletLengthCache`, with the threads that use it. `data` is `data_`, `made` is `splines_` (only of center points). -/
structure State (A E B C : Type) where
  data : A → Option B
  made : A → Option C
  place : Nat → Place A E B C

/-- A new cache. -/
def State.new {A E B C : Type} : State A E B C := ⟨fun _ => none, fun _ => none, fun _ => .idle⟩

variable {A E B C : Type}

/-- A thread goes on to a place. -/
def State.goto (s : State A E B C) (i : Nat) (p : Place A E B C) : State A E B C := { s with place := fun j => if j = i then p else s.place j }

/-- LH 135-141, 187-192, 254-258: `appendData`, under the lock. -/
def append [DecidableEq A] (make : B → C) (k : A) (b : B) (s : State A E B C) : State A E B C :=
  { s with data := fun a => if a = k then some b else s.data a, made := fun a => if a = k then some (make b) else s.made a }

/-- LH 128-133, 175-185, 248-252: `readData` and `readDataSpline`, under the lock. -/
def read (k : A) (w : Wish) (s : State A E B C) : Answer E (B ⊕ C) :=
  match w with
  | .made => match s.made k with
    | some c => .value (.inr c)
    | none => .outOfRange
  | _ => match s.data k with
    | some b => .value (.inl b)
    | none => .outOfRange

/-- LH 80-118, 150-166, 224-239: the next step of thread `i` in `getRoute`, `getCenterPoints`, `getCenterPointsSpline` or `getLength`. What takes the lock is one step. `f` is the computation,
which throws if a lanelet is not in the map. -/
def step [DecidableEq A] (f : A → Except E B) (make : B → C) (i : Nat) (s : State A E B C) : State A E B C :=
  match s.place i with
  | .idle => s
  | .check k w => match s.data k with
    | some _ => s.goto i (.read k w)
    | none => if w = .known then s.goto i (.done k w .missing) else s.goto i (.compute k w)
  | .compute k w => match f k with
    | .ok b => s.goto i (.append k b w)
    | .error e => s.goto i (.done k w (.thrown e))
  | .append k b w => (append make k b s).goto i (.read k w)
  | .read k w => s.goto i (.done k w (read k w s))
  | .done _ _ _ => s

/-- A thread calls. -/
def call (k : A) (w : Wish) (i : Nat) (s : State A E B C) : State A E B C :=
  match s.place i with
  | .idle => s.goto i (.check k w)
  | .done _ _ _ => s.goto i (.check k w)
  | _ => s

/-- LH 175-179: the reference that `readData` of center points returns is copied in LM 187-190 without the lock, while this thread is here. -/
def copies (s : State A E B C) (i : Nat) (k : A) : Prop := ∃ b, s.place i = .done k .value (.value (.inl b))

/-- LH 187-192: the assignment in `appendData` is the next thing this thread does. -/
def writes (s : State A E B C) (i : Nat) (k : A) : Prop := ∃ b w, s.place i = .append k b w

/-- routing_graph_type.hpp 24: `RoutingGraphType`. -/
inductive Graph where
  | vehicle
  | vehicleWithRoadShoulder
  | pedestrian
  deriving DecidableEq

/-- What is asked about the map: a route (with the graph and whether lanes may be changed), center points, their spline, the length. -/
inductive Query (I : Type) where
  | route (g : Graph) (a b : I) (change : Bool)
  | points (i : I)
  | spline (i : I)
  | length (i : I)
  deriving DecidableEq

/-- What a map says: everything is computed from it. -/
structure Map (I E R P Q L : Type) where
  route : Graph → I → I → Bool → Except E R
  points : I → Except E P
  spline : P → Q
  length : I → Except E L

/-- What is known in an instance of `LaneletWrapper`, LH 279-310. -/
structure Instance (I E R P Q L : Type) where
  map : Map I E R P Q L
  vehicle : I × I × Bool → Option R
  shoulder : I × I × Bool → Option R
  pedestrian : I × I × Bool → Option R
  points : I → Option P
  splines : I → Option Q
  lengths : I → Option L

/-- The static members. -/
structure World (I E R P Q L : Type) where
  path : Option String
  inst : Option (Instance I E R P Q L)

variable {I R P Q L : Type}

/-- LC 23-30: `activate`, with one thread. An empty path counts as none. -/
def activate (path : String) (_ : World I E R P Q L) : World I E R P Q L := ⟨if path = "" then none else some path, none⟩

/-- LC 104-117: `getInstance`; `load` is `LaneletLoader::load` and the constructor LC 94-102. None if no path is set. -/
def getInstance (load : String → Map I E R P Q L) (w : World I E R P Q L) : Option (Instance I E R P Q L) :=
  match w.inst with
  | some i => some i
  | none => w.path.map fun p => ⟨load p, fun _ => none, fun _ => none, fun _ => none, fun _ => none, fun _ => none, fun _ => none⟩

/-- An answer to a query. -/
inductive Reply (E R P Q L : Type) where
  | route (r : R)
  | points (p : P)
  | spline (q : Q)
  | length (l : L)
  | thrown (e : E)
  | outOfRange
  | noMap
  deriving DecidableEq

/-- LC 68-82: `routeCache`. -/
def routes (n : Instance I E R P Q L) : Graph → I × I × Bool → Option R
  | .vehicle => n.vehicle
  | .vehicleWithRoadShoulder => n.shoulder
  | .pedestrian => n.pedestrian

/-- LH 135-141 in the cache of LC 68-82. -/
def setRoute [DecidableEq I] (n : Instance I E R P Q L) (g : Graph) (k : I × I × Bool) (r : R) : Instance I E R P Q L :=
  match g with
  | .vehicle => { n with vehicle := fun a => if a = k then some r else n.vehicle a }
  | .vehicleWithRoadShoulder => { n with shoulder := fun a => if a = k then some r else n.shoulder a }
  | .pedestrian => { n with pedestrian := fun a => if a = k then some r else n.pedestrian a }

/-- LH 187-192. -/
def setPoints [DecidableEq I] (n : Instance I E R P Q L) (i : I) (p : P) : Instance I E R P Q L :=
  { n with points := fun a => if a = i then some p else n.points a, splines := fun a => if a = i then some (n.map.spline p) else n.splines a }

/-- LH 254-258. -/
def setLength [DecidableEq I] (n : Instance I E R P Q L) (i : I) (l : L) : Instance I E R P Q L := { n with lengths := fun a => if a = i then some l else n.lengths a }

/-- LH 80-106, 150-166, 232-239 with one thread: the answer, and what is known then. -/
def ask [DecidableEq I] (n : Instance I E R P Q L) : Query I → Reply E R P Q L × Instance I E R P Q L
  | .route g a b c => match routes n g (a, b, c) with
    | some r => (.route r, n)
    | none => match n.map.route g a b c with
      | .error e => (.thrown e, n)
      | .ok r => let n := setRoute n g (a, b, c) r
        (match routes n g (a, b, c) with | some r => .route r | none => .outOfRange, n)
  | .points i => match n.points i with
    | some p => (.points p, n)
    | none => match n.map.points i with
      | .error e => (.thrown e, n)
      | .ok p => let n := setPoints n i p
        (match n.points i with | some p => .points p | none => .outOfRange, n)
  | .spline i => match n.points i with
    | some _ => (match n.splines i with | some q => .spline q | none => .outOfRange, n)
    | none => match n.map.points i with
      | .error e => (.thrown e, n)
      | .ok p => let n := setPoints n i p
        (match n.splines i with | some q => .spline q | none => .outOfRange, n)
  | .length i => match n.lengths i with
    | some l => (.length l, n)
    | none => match n.map.length i with
      | .error e => (.thrown e, n)
      | .ok l => let n := setLength n i l
        (match n.lengths i with | some l => .length l | none => .outOfRange, n)

/-- A query to the static interface, LM 45-48, 187-196, route.cpp 51-60. -/
def query [DecidableEq I] (load : String → Map I E R P Q L) (w : World I E R P Q L) (q : Query I) : Reply E R P Q L × World I E R P Q L :=
  match getInstance load w with
  | none => (.noMap, w)
  | some n => let (r, n) := ask n q; (r, { w with inst := some n })

/-- What several threads do with the static members, LC 23-30 and 104-117: `activate` destroys the instance, whose generation is counted here; `use` uses the reference that `getInstance` returned. -/
structure Shared where
  generation : Nat
  alive : Bool
  held : Nat → Option Nat
  undefined : Bool

/-- What a thread does next. -/
inductive Act where
  | get (i : Nat)
  | use (i : Nat)
  | activate

/-- LC 23-30, 104-117. -/
def act (s : Shared) : Act → Shared
  | .get i => { s with alive := true, held := fun j => if j = i then some s.generation else s.held j }
  | .use i => match s.held i with
    | none => s
    | some g => { s with undefined := s.undefined || decide (g ≠ s.generation) || !s.alive }
  | .activate => if s.alive then { s with alive := false, generation := s.generation + 1 } else s

end Verif.Cache
