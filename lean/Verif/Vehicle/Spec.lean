import Verif.Vehicle.Model
/-
Vocabulary of the statements about vehicle models.
-/
namespace Verif.Vehicle

/-- The gears that drive forward. -/
def Forward (g : Gear) : Prop := (∃ k, g = .drive k) ∨ g = .low ∨ g = .low2

/-- The gears that drive backward. -/
def Backward (g : Gear) : Prop := g = .reverse ∨ g = .reverse2

/-- The direction of the velocity `v` agrees with the gear `g`. -/
def Agrees (g : Gear) (v : ℝ) : Prop := (Forward g ∧ 0 ≤ v) ∨ (Backward g ∧ v ≤ 0)

/-- `x` is not outside the interval with ends `a` and `b`, in either order. -/
def Between (a b x : ℝ) : Prop := (a ≤ x ∧ x ≤ b) ∨ (b ≤ x ∧ x ≤ a)

/-- `c` limited to `-lim … lim`. -/
noncomputable def limited (c lim : ℝ) : ℝ := max (-lim) (min c lim)

/-- Where the steering of a model goes when the command `c` is applied. -/
noncomputable def steerGoal (m : Model) (c : ℝ) : ℝ := match m.kind with
  | .delayVel | .delayMapAccGeared => limited c m.p.steerLim
  | _ => limited c m.p.steerLim * m.p.steerScale

/-- The distance between the positions of two states is at most `d`. -/
def Within (a b : State) (d : ℝ) : Prop := (b.x - a.x) ^ 2 + (b.y - a.y) ^ 2 ≤ d ^ 2

/-- The commands of `l` with the drive command coming `n` steps and the steering command `k` steps late; before that the commands are 0.
The gear and the slope are not late. -/
def late (n k : Nat) (l : List (Gear × Input)) : List (Gear × Input) :=
  l.mapIdx fun i s =>
    (s.1, { s.2 with drive := if i < n then 0 else (l[i - n]?.map (·.2.drive)).getD 0
                     steer := if i < k then 0 else (l[i - k]?.map (·.2.steer)).getD 0 })

/-- Every row of the map has an entry for every velocity, and there is a row for every command. -/
def AccMap.Rectangular (m : AccMap) : Prop := m.rows.length = m.acc.length ∧ ∀ row ∈ m.rows, row.length = m.vel.length

/-- The entry of the map for the command number `i` and the velocity number `j`. -/
def AccMap.entry (m : AccMap) (i j : Nat) : ℝ := (m.rows.getD i []).getD j 0

/-- How far `q` is on the way from `lo` to `hi`. -/
noncomputable def share (lo hi q : ℝ) : ℝ := (q - lo) / (hi - lo)

/-- The bilinear interpolation between the four entries around a command and a velocity. -/
noncomputable def AccMap.bilinear (m : AccMap) (i j : Nat) (acc vel : ℝ) : ℝ :=
  let s := share (m.acc.getD i 0) (m.acc.getD (i + 1) 0) acc
  let t := share (m.vel.getD j 0) (m.vel.getD (j + 1) 0) vel
  (1 - s) * ((1 - t) * m.entry i j + t * m.entry i (j + 1)) + s * ((1 - t) * m.entry (i + 1) j + t * m.entry (i + 1) (j + 1))

end Verif.Vehicle
