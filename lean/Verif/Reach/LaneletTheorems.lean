import Verif.Reach.Model
import Verif.Distance.LaneTheorems
import Mathlib.Tactic.NormNum
/-
C244: being in a lanelet, with a tolerance.
-/
namespace Verif.Reach
open Verif.Distance

variable {K : Type} [Field K] [LinearOrder K]

theorem inLanelet_iff (m : Map K) (p : Place K) (id : Nat) (tolerance : K) :
    inLanelet m p id tolerance = true ↔ p.pose.id = id ∨
      (∃ d, longitudinal m false ⟨⟨id, 0, 0⟩, [⟨id, 0, 0⟩]⟩ p = some d ∧ |d| ≤ tolerance) ∨
      (∃ d, longitudinal m false p ⟨⟨id, m.length id, 0⟩, [⟨id, m.length id, 0⟩]⟩ = some d ∧ |d| ≤ tolerance) := by
  have hw : ∀ o : Option K, within tolerance o = true ↔ ∃ d, o = some d ∧ |d| ≤ tolerance := by
    intro o
    cases o <;> simp [within]
  unfold inLanelet
  by_cases h : p.pose.id = id
  · simp [h]
  · rw [if_neg h]
    simp only [h, false_or, ← hw]
    cases within tolerance (longitudinal m false ⟨⟨id, 0, 0⟩, [⟨id, 0, 0⟩]⟩ p) <;> simp

/-- C244. On its own lanelet an entity is in that lanelet, whatever the tolerance. -/
theorem C244_on (m : Map K) (p : Place K) (tolerance : K) : inLanelet m p p.pose.id tolerance = true := (inLanelet_iff _ _ _ _).mpr (.inl rfl)

/-- C244. On a straight road an entity that is in a lanelet is on it, or its distance along the road from the start or from the end of the lanelet is within
the tolerance. -/
theorem C244_near [IsStrictOrderedRing K] {m : Map K} {pos : Nat → K} (h : Laid (.id K) m pos) {p : Place K} (hp : OnePoint (.id K) pos p) {id : Nat} {tolerance : K}
    (hi : inLanelet m p id tolerance = true) :
    p.pose.id = id ∨ |pos p.pose.id + p.pose.s - pos id| ≤ tolerance ∨ |pos p.pose.id + p.pose.s - (pos id + m.length id)| ≤ tolerance := by
  rcases (inLanelet_iff _ _ _ _).mp hi with h1 | ⟨d, hd, ht⟩ | ⟨d, hd, ht⟩
  · exact .inl h1
  · have := C128_longitudinal h hp hd
    simp only [AddMonoidHom.id_apply, at', add_zero] at this
    rw [this] at ht
    exact .inr (.inl ht)
  · have := C128_longitudinal h (q := ⟨⟨id, m.length id, 0⟩, [⟨id, m.length id, 0⟩]⟩) (by intro t ht; simp at ht; rw [ht]) hd
    simp only [AddMonoidHom.id_apply, at'] at this
    rw [this, abs_sub_comm] at ht
    exact .inr (.inr ht)

/-- C244. An entity before a lanelet, on a lanelet from which the map finds a way to it, is in it exactly if it is no further away from its start than the tolerance. -/
theorem C244_before [IsStrictOrderedRing K] {m : Map K} {pos : Nat → K} (h : Laid (.id K) m pos) {p : Place K} (hp : p.poses = [p.pose]) {id : Nat} (hid : p.pose.id ≠ id)
    (hl : 0 ≤ m.length id) (hw : Way m p.pose.id id (m.route false p.pose.id id)) (hb : pos p.pose.id + p.pose.s ≤ pos id) (tolerance : K) :
    inLanelet m p id tolerance = true ↔ pos id - (pos p.pose.id + p.pose.s) ≤ tolerance := by
  constructor
  · intro hi
    rcases C244_near h (by intro t ht; rw [hp] at ht; simp at ht; rw [ht]) hi with e | e | e
    · exact absurd e hid
    · rw [abs_of_nonpos (by linarith)] at e; linarith
    · rw [abs_of_nonpos (by linarith)] at e; linarith
  · intro ht
    refine (inLanelet_iff _ _ _ _).mpr (.inr (.inl ⟨pos p.pose.id + p.pose.s - pos id, ?_, ?_⟩))
    · have := (C128_found_partial h (c := false) (p := p) (q := ⟨⟨id, 0, 0⟩, [⟨id, 0, 0⟩]⟩) (by simp [hp]) (by simp) hw (by simpa using hb)).2
      simpa using this
    · rw [abs_of_nonpos (by linarith)]; linarith

/-- C244. Likewise for an entity behind the end of a lanelet. -/
theorem C244_after [IsStrictOrderedRing K] {m : Map K} {pos : Nat → K} (h : Laid (.id K) m pos) {p : Place K} (hp : p.poses = [p.pose]) {id : Nat} (hid : p.pose.id ≠ id)
    (hl : 0 ≤ m.length id) (hw : Way m id p.pose.id (m.route false id p.pose.id)) (hb : pos id + m.length id ≤ pos p.pose.id + p.pose.s) (tolerance : K) :
    inLanelet m p id tolerance = true ↔ pos p.pose.id + p.pose.s - (pos id + m.length id) ≤ tolerance := by
  constructor
  · intro hi
    rcases C244_near h (by intro t ht; rw [hp] at ht; simp at ht; rw [ht]) hi with e | e | e
    · exact absurd e hid
    · rw [abs_of_nonneg (by linarith)] at e; linarith
    · rw [abs_of_nonneg (by linarith)] at e; linarith
  · intro ht
    refine (inLanelet_iff _ _ _ _).mpr (.inr (.inr ⟨pos id + m.length id - (pos p.pose.id + p.pose.s), ?_, ?_⟩))
    · exact (C128_found_partial h (c := false) (p := ⟨⟨id, m.length id, 0⟩, [⟨id, m.length id, 0⟩]⟩) (q := p) (by simp) (by simp [hp]) hw (by simpa using hb)).2
    · rw [abs_of_nonpos (by linarith)]; linarith

/-- C244. An entity on a lanelet from and to which there is no way, such as one beside it, is not in the lanelet, whatever the tolerance. -/
theorem C244_beside (m : Map K) (p : Place K) (hp : p.poses = [p.pose]) (id : Nat) (hid : p.pose.id ≠ id) (h1 : m.route false p.pose.id id = [])
    (h2 : m.route false id p.pose.id = []) (tolerance : K) : inLanelet m p id tolerance = false := by
  rw [← Bool.not_eq_true, inLanelet_iff]
  have hs : ∀ q, p.seen m false q = p.pose := by intro q; simp [Place.seen, hp]
  have hs' : ∀ (q t : Distance.Pose K), (⟨t, [t]⟩ : Place K).seen m false q = t := by intro q t; simp [Place.seen]
  rintro (e | ⟨d, hd, _⟩ | ⟨d, hd, _⟩)
  · exact hid e
  · simp [longitudinal, hs, ahead, h1, h2, hid, Ne.symm hid, nearer] at hd
  · simp [longitudinal, hs', ahead, h1, h2, hid, Ne.symm hid, nearer] at hd

/-- C244. Off the lanes an entity is in no lanelet; otherwise the tolerance is the one given or, if there is none, half the width of the entity and a metre. -/
theorem C244_tolerance (m : Map K) (p : Place K) (width : K) (id : Nat) (tolerance : K) :
    entityInLanelet m none width id (some tolerance) = false ∧ entityInLanelet m none width id none = false ∧
    entityInLanelet m (some p) width id (some tolerance) = inLanelet m p id tolerance ∧
    entityInLanelet m (some p) width id none = inLanelet m p id (width / 2 + 1) := by
  refine ⟨rfl, rfl, rfl, ?_⟩
  simp [entityInLanelet, div_eq_mul_inv]

/-- Lanelets 1, 2, 3 of ten metres one after the other and 7 beside 2. -/
def line : Map ℚ where
  length _ := 10
  next a := if a = 1 then [2] else if a = 2 then [3] else []
  route _ a b := if a = b then [a] else if (a, b) = (1, 2) then [1, 2] else if (a, b) = (2, 3) then [2, 3] else if (a, b) = (1, 3) then [1, 2, 3] else []
  along _ _ _ := none
  across _ _ := none

def at_ (id : Nat) (s : ℚ) : Place ℚ := ⟨⟨id, s, 0⟩, [⟨id, s, 0⟩]⟩

example : inLanelet line (at_ 1 8) 2 2 = true ∧ inLanelet line (at_ 1 8) 2 1 = false ∧ inLanelet line (at_ 3 1) 2 1 = true ∧ inLanelet line (at_ 3 2) 2 1 = false ∧
    inLanelet line (at_ 7 5) 2 100 = false ∧ inLanelet line (at_ 2 5) 2 0 = true ∧ entityInLanelet line (some (at_ 1 8)) 2 2 none = true := by decide +kernel

theorem line_laid : Laid (.id ℚ) line (fun a => if a = 1 then 0 else if a = 2 then 10 else if a = 3 then 20 else 0) where
  next := by
    intro a b hb
    simp only [line] at hb
    split at hb
    · simp_all [line]
    · split at hb
      · simp_all [line]; decide +kernel
      · simp at hb
  along := by simp [line]
  first := by
    intro c a b x l hr
    simp only [line] at hr
    split at hr
    · simp_all
    · split at hr
      · simp_all
      · split at hr
        · simp_all
        · split at hr <;> simp_all
  last := by
    intro c a b x hr
    simp only [line] at hr
    split at hr
    · simp_all
    · split at hr
      · simp_all
      · split at hr
        · simp_all
        · split at hr <;> simp_all

example (tolerance : ℚ) : inLanelet line (at_ 1 8) 3 tolerance = true ↔ 12 ≤ tolerance := by
  have := C244_before line_laid (p := at_ 1 8) rfl (id := 3) (by decide) (by decide +kernel)
    (.go (b := 2) (by simp [line, at_]) (.go (b := 3) (by simp [line]) (.stay 3))) (by decide +kernel) tolerance
  rw [this]
  simp only [at_, if_true, OfNat.ofNat_ne_one, if_false]
  constructor <;> intro h <;> norm_num at * <;> linarith

end Verif.Reach
