import Verif.Noise.Model
import Verif.Geometry.Spec
/-! What is said about the errors added to what is published. -/
namespace Verif.Noise
open Verif.Geometry Classical

/-- A value with an error: one part is proportional to the value, one part is added. The variates are the multiplicative and the additive one. -/
def Shifted (e : Err) (variates : ℝ × ℝ) (value result : ℝ) : Prop :=
  result = (1 + (e.multiplicative.mean + e.multiplicative.deviation * variates.1)) * value +
    (e.additive.mean + e.additive.deviation * variates.2)

/-- The variates for the error number `i` of a message, when `n` were drawn before it: two for each error, in the order that the compiler chose. -/
def Pair (tape : ℕ → ℝ) (first : Bool) (n i : ℕ) : ℝ × ℝ :=
  if first then (tape (n + 2 * i), tape (n + 2 * i + 1)) else (tape (n + 2 * i + 1), tape (n + 2 * i))

/-- The additive error number `i` of a message, when `n` variates were drawn before it. -/
def Added (tape : ℕ → ℝ) (first : Bool) (n : ℕ) (e : Err) (i : ℕ) : ℝ :=
  e.additive.mean + e.additive.deviation * (Pair tape first n i).2

/-- An error that is always nothing. -/
def Silent (e : Err) : Prop := e.additive.mean = 0 ∧ e.additive.deviation = 0 ∧ e.multiplicative.mean = 0 ∧ e.multiplicative.deviation = 0

/-- An error that is a constant added to the value. -/
def Constant (e : Err) (c : ℝ) : Prop :=
  e.additive.mean = c ∧ e.additive.deviation = 0 ∧ e.multiplicative.mean = 0 ∧ e.multiplicative.deviation = 0

/-- Two orientations are the same: they turn every vector to the same vector. -/
def SameTurn (p q : Quat) : Prop := ∀ v, rotate p v = rotate q v

/-- A turn about the first axis by an angle: the vector keeps its first part and the others turn from the second axis to the third one. -/
noncomputable def turnX (a : ℝ) (v : Pt) : Pt := ⟨v.x, Real.cos a * v.y - Real.sin a * v.z, Real.sin a * v.y + Real.cos a * v.z⟩
/-- A turn about the second axis. -/
noncomputable def turnY (a : ℝ) (v : Pt) : Pt := ⟨Real.cos a * v.x + Real.sin a * v.z, v.y, -Real.sin a * v.x + Real.cos a * v.z⟩
/-- A turn about the third axis. -/
noncomputable def turnZ (a : ℝ) (v : Pt) : Pt := ⟨Real.cos a * v.x - Real.sin a * v.y, Real.sin a * v.x + Real.cos a * v.y, v.z⟩

/-- The angles describe the orientation by turns about the axes of the vehicle, first about the first axis, then about the second one, then about
the third one. -/
def AnglesOf (q : Quat) (a : Pt) : Prop := ∀ v, turnX a.x (turnY a.y (turnZ a.z v)) = rotate q v

/-- The angles describe the orientation as roll, pitch and yaw: the vehicle is turned about its third axis by the yaw, then about its second axis
by the pitch, then about its first axis by the roll. -/
def RollPitchYaw (q : Quat) (a : Pt) : Prop := ∀ v, turnZ a.z (turnY a.y (turnX a.x v)) = rotate q v

/-- The legacy noise of a vector: three variates, from the one number `n` on, times the standard deviation; nothing if that is not positive. -/
noncomputable def Disturbed (tape : ℕ → ℝ) (deviation : ℝ) (n : ℕ) (v : Pt) : Pt :=
  if 0 < deviation then v.add ((⟨tape n, tape (n + 1), tape (n + 2)⟩ : Pt).smul deviation) else v

/-- The number of variates that a standard deviation needs. -/
noncomputable def needs (deviation : ℝ) : ℕ := if 0 < deviation then 3 else 0

end Verif.Noise
