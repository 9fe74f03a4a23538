import Verif.RandomTest.Model
/-
What the theorems about random tests say, apart from the model's own functions.
-/
namespace Verif.RandomTest
section
variable {K : Type} [Field K] [LinearOrder K] {σ : Type}

/-- `q` is `d` ahead of `p` on the road: on the same lanelet, or on one that follows. -/
inductive Ahead (m : Map K) : Pose K → Pose K → K → Prop
  | here {i : Int} {s t : K} : s ≤ t → t ≤ m.length i → Ahead m ⟨i, s⟩ ⟨i, t⟩ (t - s)
  | on {i j : Int} {s d : K} {q : Pose K} : s ≤ m.length i → j ∈ m.following i → Ahead m ⟨j, 0⟩ q d →
      Ahead m ⟨i, s⟩ q (m.length i - s + d)

/-- `q` is `d` behind `p` on the road: on the same lanelet, or on one before it. -/
inductive Behind (m : Map K) : Pose K → Pose K → K → Prop
  | here {i : Int} {s t : K} : 0 ≤ t → t ≤ s → Behind m ⟨i, s⟩ ⟨i, t⟩ (s - t)
  | on {i j : Int} {s d : K} {q : Pose K} : 0 ≤ s → j ∈ m.previous i → Behind m ⟨j, m.length j⟩ q d →
      Behind m ⟨i, s⟩ q (s + d)

/-- `q` is `d` away from `p` on the road. -/
def Road (m : Map K) (p q : Pose K) (d : K) : Prop := Ahead m p q d ∨ Behind m p q d

/-- The poses beside `p`: itself, that on the opposite lane, those as far from the beginning of the
lanelets besides. -/
def Beside (m : Map K) (p q : Pose K) : Prop :=
  q = p ∨ m.opposite p = some q ∨ ∃ j ∈ m.besides p.id, q = ⟨j, p.s⟩

/-- `q` is at a distance from `lo` to `hi` on the road from `p` or from a pose beside it. -/
def Near (m : Map K) (p : Pose K) (lo hi : K) (q : Pose K) : Prop :=
  ∃ o d, Beside m p o ∧ Road m o q d ∧ lo ≤ d ∧ d ≤ hi

/-- The pose is on a part of a lanelet. -/
def Part.Has (r : Part K) (q : Pose K) : Prop := q.id = r.id ∧ r.start ≤ q.s ∧ q.s ≤ r.stop

/-- The pose is on the map. -/
def OnMap (m : Map K) (q : Pose K) : Prop := q.id ∈ m.ids ∧ 0 ≤ q.s ∧ q.s ≤ m.length q.id

/-- The poses beside a pose are within their lanelets. -/
def Fits (m : Map K) (p : Pose K) : Prop := ∀ o, Beside m p o → 0 ≤ o.s ∧ o.s ≤ m.length o.id

/-- An index is one of those asked for, and a number of the unit interval is in it. -/
structure Engine.Lawful (e : Engine K σ) : Prop where
  index : ∀ g n, 0 < n → (e.index g n).1 < n
  unit : ∀ g, 0 ≤ (e.unit g).1 ∧ (e.unit g).1 < 1

/-- There is a way from the start to the goal, or to the lane opposite to it. -/
def Reachable (m : Map K) (start goal : Pose K) : Prop :=
  (start.id = goal.id ∧ start.s < goal.s) ∨ m.route start.id goal.id ≠ [] ∨
    ∃ o, m.opposite goal = some o ∧ m.route start.id o.id ≠ []

/-- What is asked of a goal. -/
def AskedGoal (m : Map K) (p : Suite K) (goal : Pose K) : Prop :=
  (p.goalId < 0 → OnMap m goal) ∧
  (0 ≤ p.goalId → p.partialGoal = false → goal = ⟨p.goalId, p.goalS⟩) ∧
  (0 ≤ p.goalId → p.partialGoal = true → Near m ⟨p.goalId, p.goalS⟩ 0 p.partialDistance goal)

/-- The square of the distance of two points. -/
def squared (p q : Point K) : K := (p.x - q.x) ^ 2 + (p.y - q.y) ^ 2 + (p.z - q.z) ^ 2

/-- A square root that is never larger than the real one. -/
def Map.Root (m : Map K) : Prop := ∀ x, 0 ≤ x → 0 ≤ m.sqrt x ∧ m.sqrt x * m.sqrt x ≤ x

/-- What is asked of the vehicles. -/
structure AskedNpcs (m : Map K) (p : Suite K) (P : Pose K → Prop) (l : List (Npc K)) : Prop where
  names : ∀ (i : Nat) (v : Npc K), l[i]? = some v → v.name = "npc" ++ toString i
  near : ∀ v ∈ l, P v.start
  speeds : p.minSpeed ≤ p.maxSpeed → ∀ v ∈ l, p.minSpeed ≤ v.speed ∧ v.speed ≤ p.maxSpeed
  apart : ∀ (i j : Nat) (v w : Npc K), i < j → l[i]? = some v → l[j]? = some w →
    5 * 5 < squared (m.place v.start) (m.place w.start)

end
end Verif.RandomTest
