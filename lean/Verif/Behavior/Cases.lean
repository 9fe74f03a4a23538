import Mathlib.Algebra.Order.Field.Rat
import Mathlib.Tactic.Linarith
import Mathlib.Tactic.NormNum
import Verif.Behavior.Frame
/-
What the single actions of a vehicle on its lane do.
-/
namespace Verif.Behavior

open Spec

variable {K : Type} [Field K] [LinearOrder K] {B C : Type}

/-- The form in which an action moves the vehicle. -/
def Went (env : Env B C K) (b : B) (v : K) (c : Car B C K) (t : Except Fault (Status × Car B C K)) : Prop :=
  (∀ f, env.move v b = .error f → t = .error f) ∧ ∀ b', env.move v b = .ok b' → ∃ s, (s = .running ∨ s = .success) ∧ t = .ok (s, { c with body := b' })

omit [Field K] [LinearOrder K] in
theorem went_drive (env : Env B C K) (v : K) (c : Car B C K) : Went env c.body v c (drive env v c) := by
  refine ⟨fun f hf => ?_, fun b' hb => ⟨.running, Or.inl rfl, ?_⟩⟩
  · simp only [drive, hf]; rfl
  · simp only [drive, hb]; rfl

theorem went_yield {env : Env B C K} {b : B} (hf : Forward env b) (v : K) (hv : 0 ≤ v) (s : Status) (hs : s = .running ∨ s = .success) (c : Car B C K) (hc : c.body = b) :
    Went env b v c (do
      let b ← env.move v c.body
      afterYield env s { c with body := b }) := by
  subst hc
  refine ⟨fun f hf => ?_, fun b' hb => ⟨s, hs, ?_⟩⟩
  · rw [hf]; rfl
  · obtain ⟨h1, h2⟩ := hf.stays v b' hv hb
    rw [hb]
    show afterYield env s { c with body := b' } = _
    simp [afterYield, h1, not_lt.2 h2]

theorem tries_of {env : Env B C K} {P : K → Prop} {b : B} {n : Node}
    (h : ∀ r (c : Car B C K), plain r = true → c.body = b → vehicleActs env n r c = .ok (.failure, c) ∨ ∃ v, P v ∧ Went env b v c (vehicleActs env n r c)) :
    Tries env P b n := fun r c hr hb => (h r c hr hb).imp id fun ⟨v, hv, h1, h2⟩ => ⟨v, hv, h1, h2⟩

theorem drives_of {env : Env B C K} {P : K → Prop} {b : B} {n : Node}
    (h : ∀ r (c : Car B C K), plain r = true → c.body = b → ∃ v, P v ∧ Went env b v c (vehicleActs env n r c)) :
    Drives env P b n := fun r c hr hb => (h r c hr hb).imp fun _ ⟨hv, h1, h2⟩ => ⟨hv, h1, h2⟩

theorem fails_tries {env : Env B C K} {P : K → Prop} {b : B} {n : Node} (h : Fails env b n) : Tries env P b n := fun r c hr hb => Or.inl (h r c hr hb)

/-- The speed at which the vehicle is to drive. -/
def cruise (v : View K) : K := v.target.getD v.limit

theorem followLane_tries {env : Env B C K} {P : K → Prop} {b : B} (hf : Forward env b) (hP : P (cruise (env.view b))) : Tries env P b .followLane := by
  refine tries_of fun r c hr hc => ?_
  subst hc
  simp only [vehicleActs, followLane, hr, hf.lane, not_lt.2 hf.speed, Bool.not_true, Bool.false_eq_true, if_false]
  generalize blocks (if (env.view c.body).byTrajectory = true then _ else _) _ = x
  split
  · exact Or.inl rfl
  split
  · exact Or.inl rfl
  split
  · exact Or.inl rfl
  split
  · exact Or.inl rfl
  split
  · exact Or.inl rfl
  exact Or.inr ⟨_, hP, went_drive env _ c⟩

theorem followLane_drives {env : Env B C K} {P : K → Prop} {b : B} (hf : Forward env b) (hs : (env.view b).seeAround = false) (hP : P (cruise (env.view b))) :
    Drives env P b .followLane := by
  refine drives_of fun r c hr hc => ?_
  subst hc
  simp only [vehicleActs, followLane, hr, hf.lane, not_lt.2 hf.speed, hs, Bool.not_true, Bool.false_and, Bool.false_eq_true, if_false]
  exact ⟨_, hP, went_drive env _ c⟩

/-- Actions other than following the lane fail for a vehicle that does not look out. -/
theorem blind_fails {env : Env B C K} {b : B} (hf : Forward env b) (hs : (env.view b).seeAround = false) (n : Node) (hn : n ∈ selectorNames) : Fails env b n := by
  intro r c hr hc
  subst hc
  have h0 := hf.speed
  simp only [selectorNames, List.mem_cons, List.not_mem_nil, or_false] at hn
  rcases hn with rfl | rfl | rfl | rfl | rfl | rfl
  · simp [vehicleActs, followFront, hr, hs]
  · simp [vehicleActs, stopAtLight, hr, hs]
  · simp [vehicleActs, stopAtLine, hr, hs]
  · simp [vehicleActs, stopAtCrossing, hr, hs]
  · simp [vehicleActs, yielding, hr, hs]
  · simp [vehicleActs, moveBackward, hr, hf.lane, h0]

theorem backward_fails {env : Env B C K} {b : B} (hf : Forward env b) : Fails env b .backward := by
  intro r c hr hc
  subst hc
  simp [vehicleActs, moveBackward, hr, hf.lane, hf.speed]

/-- Actions other than yielding fail for a vehicle that has to give way. -/
theorem yielding_fails {env : Env B C K} {b : B} (hf : Forward env b) (hy : (env.view b).mustYield = true) (n : Node) (hn : n ∈ [Node.front, .light, .stopLine, .crossing]) :
    Fails env b n := by
  intro r c hr hc
  subst hc
  simp only [List.mem_cons, List.not_mem_nil, or_false] at hn
  rcases hn with rfl | rfl | rfl | rfl
  · simp [vehicleActs, followFront, hr, hy]
  · simp [vehicleActs, stopAtLight, hr, hy]
  · simp [vehicleActs, stopAtLine, hr, hy]
  · simp [vehicleActs, stopAtCrossing, hr, hy]

/-- The front entity that is followed: its distance and its speed. -/
def frontOf (v : View K) : Option (K × K) := if v.byTrajectory then v.trajectoryFront else v.laneFront

theorem front_tries {env : Env B C K} {P : K → Prop} {b : B} (hf : Forward env b) (hPc : P (cruise (env.view b)))
    (hP : ∀ d u, frontOf (env.view b) = some (d, u) → ∀ x, 0 ≤ x → x ≤ cruise (env.view b) → P x) : Tries env P b .front := by
  refine tries_of fun r c hr hc => ?_
  subst hc
  simp only [vehicleActs, followFront, hr, hf.lane, not_lt.2 hf.speed, Bool.not_true, Bool.false_eq_true, if_false]
  split
  · exact Or.inl rfl
  split
  · exact Or.inl rfl
  split
  · exact Or.inl rfl
  · rename_i d u hd
    split
    · exact Or.inl rfl
    split
    · exact Or.inl rfl
    split
    · exact Or.inr ⟨_, hPc, went_drive env _ c⟩
    · have h0 : 0 ≤ (env.view c.body).target.getD (env.view c.body).limit := by
        cases ht : (env.view c.body).target with
        | none => exact hf.limit
        | some t => exact hf.target t ht
      generalize (if d ≤ (env.view c.body).stopDistance then (0 : K)
        else if (env.view c.body).stopDistance + (env.view c.body).length + 5 ≤ d then u + 2 else u) = x
      simp only [clampE, not_lt.2 h0, if_false]
      refine Or.inr ⟨_, hP d u hd _ ?_ ?_, went_drive env _ c⟩
      · split
        · exact le_refl _
        · next h => split
                    · exact h0
                    · exact not_lt.1 h
      · split
        · exact h0
        · split
          · exact le_refl _
          · next h => exact not_lt.1 h

/-- The speed chosen for a target ahead. -/
theorem slows_lower (v : View K) (d : K) : Slows v d (lower v.target (approach v d)) := by
  have hd : v.length * (1 / 2) = v.length / 2 := mul_one_div _ _
  constructor
  · intro h
    simp only [approach, hd, h, if_true, lower]
    cases v.target with
    | none => rfl
    | some t =>
      simp only
      split
      · next h => exact (min_eq_right (le_of_lt h)).symm
      · next h => exact (min_eq_left (not_lt.1 h)).symm
  · intro h
    simp only [approach, hd, not_lt.2 h, if_false, lower]
    cases v.target with
    | none => rfl
    | some t =>
      simp only
      split
      · next h => exact (min_eq_right (le_of_lt h)).symm
      · next h => exact (min_eq_left (not_lt.1 h)).symm

theorem light_tries {env : Env B C K} {P : K → Prop} {b : B} (hf : Forward env b)
    (hP : ∀ d, (env.view b).light = some d → P (lower (env.view b).target (approach (env.view b) d))) : Tries env P b .light := by
  refine tries_of fun r c hr hc => ?_
  subst hc
  simp only [vehicleActs, stopAtLight, hr, hf.lane, not_lt.2 hf.speed, Bool.not_true, Bool.false_eq_true, if_false]
  split
  · exact Or.inl rfl
  split
  · exact Or.inl rfl
  split
  · exact Or.inl rfl
  · rename_i d hd
    split
    · exact Or.inl rfl
    · exact Or.inr ⟨_, hP d hd, went_drive env _ c⟩

theorem light_drives {env : Env B C K} {P : K → Prop} {b : B} (hf : Forward env b) (hw : Watchful env b) (d : K) (hd : (env.view b).light = some d)
    (hh : d ≤ (env.view b).horizon) (hP : P (lower (env.view b).target (approach (env.view b) d))) : Drives env P b .light := by
  refine drives_of fun r c hr hc => ?_
  subst hc
  refine ⟨_, hP, ?_⟩
  simp only [vehicleActs, stopAtLight, hr, hf.lane, hw.1, hw.2, not_lt.2 hf.speed, hd, not_lt.2 hh, Bool.not_true, Bool.false_eq_true, if_false]
  exact went_drive env _ c

theorem stopLine_tries {env : Env B C K} {P : K → Prop} {b : B} (hf : Forward env b) (hPc : P (cruise (env.view b)))
    (hP : ∀ d, (env.view b).stopLine = some d → P (lower (env.view b).target (approach (env.view b) d))) : Tries env P b .stopLine := by
  refine tries_of fun r c hr hc => ?_
  subst hc
  simp only [vehicleActs, stopAtLine, hr, hf.lane, not_lt.2 hf.speed, Bool.not_true, Bool.false_eq_true, if_false]
  split
  · exact Or.inl rfl
  split
  · exact Or.inl rfl
  split
  · exact Or.inl rfl
  · rename_i d hd
    split
    · exact Or.inl rfl
    split
    · exact Or.inl rfl
    split
    · exact Or.inr ⟨_, hPc, went_drive env _ c⟩
    · exact Or.inr ⟨_, hP d hd, went_drive env _ c⟩

theorem crossing_tries {env : Env B C K} {P : K → Prop} {b : B} (hf : Forward env b)
    (hP : ∀ d, (env.view b).conflict = some d → P (lower (env.view b).target (approach (env.view b) d))) : Tries env P b .crossing := by
  refine tries_of fun r c hr hc => ?_
  subst hc
  simp only [vehicleActs, stopAtCrossing, hr, hf.lane, not_lt.2 hf.speed, Bool.not_true, Bool.false_eq_true, if_false]
  split
  · exact Or.inl rfl
  split
  · exact Or.inl rfl
  split
  · exact Or.inl rfl
  · rename_i d hd
    split
    · exact Or.inl rfl
    split
    · exact Or.inl rfl
    · exact Or.inr ⟨_, hP d hd, went_drive env _ c⟩

theorem cruise_nonneg {env : Env B C K} {b : B} (hf : Forward env b) : 0 ≤ cruise (env.view b) := by
  unfold cruise
  cases ht : (env.view b).target with
  | none => exact hf.limit
  | some t => exact hf.target t ht

theorem approach_nonneg {env : Env B C K} {b : B} (hf : Forward env b) (d : K) : 0 ≤ approach (env.view b) d := by
  unfold approach
  split
  · exact le_refl _
  · exact hf.speed

theorem lower_nonneg {env : Env B C K} {b : B} (hf : Forward env b) (d : K) : 0 ≤ lower (env.view b).target (approach (env.view b) d) := by
  unfold lower
  cases ht : (env.view b).target with
  | none => exact approach_nonneg hf d
  | some t =>
    simp only
    split
    · exact approach_nonneg hf d
    · exact hf.target t ht

theorem lower_le (v : View K) (d t : K) (ht : v.target = some t) : lower v.target (approach v d) ≤ t := by
  rw [ht]
  simp only [lower]
  split
  · next h => exact le_of_lt h
  · exact le_refl _

theorem yield_drives {env : Env B C K} {P : K → Prop} {b : B} (hf : Forward env b) (hs : (env.view b).seeAround = true)
    (h1 : (env.view b).mustYield = false → P (cruise (env.view b)))
    (h2 : (env.view b).mustYield = true → ∀ d, (env.view b).yieldStop = some d → P (approach (env.view b) d))
    (h3 : (env.view b).mustYield = true → (env.view b).yieldStop = none → P (env.view b).limit) : Drives env P b .yield := by
  refine drives_of fun r c hr hc => ?_
  subst hc
  simp only [vehicleActs, yielding, hr, hf.lane, hs, Bool.not_true, Bool.false_eq_true, if_false]
  cases hy : (env.view c.body).mustYield with
  | false =>
    simp only [Bool.not_false, if_true]
    exact ⟨_, h1 hy, went_yield hf _ (cruise_nonneg hf) _ (Or.inr rfl) c rfl⟩
  | true =>
    simp only [Bool.not_true, Bool.false_eq_true, if_false]
    cases hd : (env.view c.body).yieldStop with
    | none => exact ⟨_, h3 hy hd, went_yield hf _ hf.limit _ (Or.inl rfl) c rfl⟩
    | some d => exact ⟨_, h2 hy d hd, went_yield hf _ (approach_nonneg hf d) _ (Or.inl rfl) c rfl⟩

end Verif.Behavior
