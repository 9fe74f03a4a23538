import Verif.Vehicle.ApproachHistoryTheorems
import Mathlib.Algebra.Order.Floor.Semiring
/-
C97: a delayed model answers each command after the delay it was built with, and not otherwise.
-/
namespace Verif.Vehicle
open Classical

/-- A model without delay. -/
def strip (m : Model) : Model :=
  { m with p := { m.p with driveDelay := 0, steerDelay := 0 }, driveQueue := [], steerQueue := [] }

/-- The commands of a step with the ones at the front of the queues. -/
def front (q1 q2 : List ℝ) (u : Input) : Input :=
  { u with drive := (q1 ++ [u.drive]).headD 0, steer := (q2 ++ [u.steer]).headD 0 }

theorem step_strip (m : Model) (v : Input) (hk : m.kind.delayed = true) (g : Gear) (u : Input) (dt : ℝ) :
    ({ strip m with input := v }).step g (front m.driveQueue m.steerQueue u) dt =
      (m.step g u dt).map fun m' => { strip m' with input := front m.driveQueue m.steerQueue u } := by
  unfold Model.step Model.update
  cases hm : m.kind <;> rw [hm] at hk <;> first | (simp [Kind.delayed] at hk; done) | skip
  · simp only [strip, hm, Model.updateDelayAcc, throughQueue_fst, front, List.nil_append, List.headD_cons]
    cases h : rungeKutta (fun s => some (calcDelayAcc m.p
      { drive := (m.driveQueue ++ [u.drive]).headD 0, steer := (m.steerQueue ++ [u.steer]).headD 0 } s)) dt m.state <;>
    simp [calcDelayAcc, throughQueue, limitVx] at h ⊢ <;> simp [h]
  · simp only [strip, hm, Model.updateDelayAccGeared, throughQueue_fst, front, List.nil_append, List.headD_cons]
    cases h : rungeKutta (fun s => some (calcDelayAcc m.p
      { drive := (m.driveQueue ++ [u.drive]).headD 0, steer := (m.steerQueue ++ [u.steer]).headD 0 } s)) dt m.state <;>
    simp [calcDelayAcc, throughQueue, limitVx] at h ⊢ <;> simp [h]
  · simp only [strip, hm, Model.updateNoGuard, throughQueue_fst, front, List.nil_append, List.headD_cons, Model.getSteer]
    cases h : euler (fun s => some (calcNoGuard m.p
      { drive := (m.driveQueue ++ [u.drive]).headD 0, steer := (m.steerQueue ++ [u.steer]).headD 0, gear := u.gear, slope := u.slope }
      (m.state.steer + m.p.steerBias) s)) dt m.state <;>
    simp [calcNoGuard, throughQueue, limitVx] at h ⊢ <;> simp [h]
  · simp only [strip, hm, Model.updateMap, throughQueue_fst, front, List.nil_append, List.headD_cons]
    cases h : rungeKutta (calcMap m.p m.map
      { drive := (m.driveQueue ++ [u.drive]).headD 0, steer := (m.steerQueue ++ [u.steer]).headD 0 }) dt m.state <;>
    simp only [show ∀ v, calcMap { m.p with driveDelay := 0, steerDelay := 0 } m.map v = calcMap m.p m.map v from fun _ => rfl, h] <;>
    simp [throughQueue, limitVx]
  · simp only [strip, hm, Model.updateDelayVel, throughQueue_fst, front, List.nil_append, List.headD_cons]
    cases h : rungeKutta (fun s => some (calcDelayVel m.p
      { drive := (m.driveQueue ++ [u.drive]).headD 0, steer := (m.steerQueue ++ [u.steer]).headD 0 } s)) dt m.state <;>
    simp [calcDelayVel, throughQueue] at h ⊢ <;> simp [h]

/-- The commands that come out of the queues. -/
def fronts : List ℝ → List ℝ → List (Gear × Input) → List (Gear × Input)
  | _, _, [] => []
  | q1, q2, (g, u) :: l => (g, front q1 q2 u) :: fronts (q1 ++ [u.drive]).tail (q2 ++ [u.steer]).tail l

theorem run_strip (dt : ℝ) (l : List (Gear × Input)) : ∀ (m : Model) (v : Input), m.kind.delayed = true →
    ∃ w : Model → Input, ({ strip m with input := v }).run dt (fronts m.driveQueue m.steerQueue l) = (m.run dt l).map fun m' => { strip m' with input := w m' } := by
  induction l with
  | nil => intro m v _; exact ⟨fun _ => v, rfl⟩
  | cons a l ih =>
    obtain ⟨g, u⟩ := a
    intro m v hk
    simp only [fronts, Model.run, step_strip m v hk g u dt]
    cases h : m.step g u dt with
    | none => exact ⟨fun _ => {}, rfl⟩
    | some m1 =>
      have hp := step_kept h
      obtain ⟨w, hw⟩ := ih m1 (front m.driveQueue m.steerQueue u) (by rw [hp.kind]; exact hk)
      refine ⟨w, ?_⟩
      rw [hp.driveQueue hk, hp.steerQueue hk] at hw
      simpa using hw

theorem length_fronts (l : List (Gear × Input)) : ∀ q1 q2, (fronts q1 q2 l).length = l.length := by
  induction l with
  | nil => intros; rfl
  | cons a l ih => intros; simp [fronts, ih]

theorem fronts_get (l : List (Gear × Input)) : ∀ (q1 q2 : List ℝ) (i : Nat) (s : Gear × Input), l[i]? = some s →
    (fronts q1 q2 l)[i]? = some (s.1, { s.2 with drive := ((q1 ++ l.map (·.2.drive))[i]?).getD 0
                                                 steer := ((q2 ++ l.map (·.2.steer))[i]?).getD 0 }) := by
  induction l with
  | nil => intro _ _ i s h; simp at h
  | cons a l ih =>
    intro q1 q2 i s h
    obtain ⟨g, u⟩ := a
    cases i with
    | zero =>
      simp only [List.getElem?_cons_zero, Option.some.injEq] at h
      subst h
      cases q1 <;> cases q2 <;> simp [fronts, front]
    | succ i =>
      simp only [List.getElem?_cons_succ] at h
      simp only [fronts, List.getElem?_cons_succ, ih _ _ i s h]
      cases q1 <;> cases q2 <;> simp

theorem late_get {x : ℝ} (f : Gear × Input → ℝ) (l : List (Gear × Input)) (n i : Nat) (h : x = 0) :
    ((List.replicate n x ++ l.map f)[i]?).getD 0 = if i < n then 0 else (l[i - n]?.map f).getD 0 := by
  subst h
  by_cases hn : i < n
  · rw [if_pos hn, List.getElem?_append_left (by simpa using hn)]; simp [hn]
  · rw [if_neg hn, List.getElem?_append_right (by simpa using hn)]; simp

theorem fronts_late (n k : Nat) (l : List (Gear × Input)) : fronts (List.replicate n 0) (List.replicate k 0) l = late n k l := by
  apply List.ext_getElem?
  intro i
  by_cases hi : i < l.length
  · have hs : l[i]? = some l[i] := List.getElem?_eq_getElem hi
    rw [fronts_get l _ _ i _ hs, late_get (·.2.drive) l n i rfl, late_get (·.2.steer) l k i rfl]
    simp [late, hs]
  · rw [List.getElem?_eq_none (by rw [length_fronts]; omega), List.getElem?_eq_none (by simp [late]; omega)]

theorem queueSize_close {delay dt : ℝ} {n : Nat} (hd : 0 < dt) (h : queueSize delay dt = some n) : |n * dt - delay| ≤ dt / 2 := by
  unfold queueSize at h
  rw [if_neg (ne_of_gt hd)] at h
  split at h
  · cases h
  · rename_i hlt
    injection h with h
    subst h
    have hnn : 0 ≤ delay / dt + 1 / 2 := by linarith
    have h1 := Nat.floor_le hnn
    have h2 := Nat.lt_floor_add_one (delay / dt + 1 / 2)
    have he : delay = delay / dt * dt := by field_simp
    rw [abs_le]
    constructor <;> nlinarith

/-- C97: a delayed model behaves, for every sequence of gears and commands, like the same model without delays that gets each command a whole
number of steps later; gear and slope are not delayed. The lateness differs from the configured delay by at most half a step. -/
theorem C97_delay (kind : Kind) (p : Params) (dt : ℝ) (map : AccMap) (m : Model) (hk : kind.delayed = true) (hd : 0 < dt)
    (hm : Model.make kind p dt map = some m) :
    ∃ (m0 : Model) (n k : Nat), Model.make kind { p with driveDelay := 0, steerDelay := 0 } dt map = some m0 ∧
      |n * dt - p.driveDelay| ≤ dt / 2 ∧ |k * dt - p.steerDelay| ≤ dt / 2 ∧
      ∀ l, (m.run dt l).map (fun m => (m.state, m.getVx, m.getAx, m.getWz, m.getSteer)) =
        (m0.run dt (late n k l)).map (fun m => (m.state, m.getVx, m.getAx, m.getWz, m.getSteer)) := by
  unfold Model.make at hm
  rw [hk] at hm
  simp only [if_true, Option.bind_eq_bind, Option.bind_eq_some_iff, Option.pure_def, Option.some.injEq] at hm
  obtain ⟨n, hn, k, hk', rfl⟩ := hm
  refine ⟨_, n, k, make_sample _ _ hd rfl rfl _ hk, queueSize_close hd hn, queueSize_close hd hk', ?_⟩
  intro l
  obtain ⟨w, hw⟩ := run_strip dt l { kind, p := p.fixed, driveQueue := List.replicate n 0, steerQueue := List.replicate k 0, map } {} hk
  simp only [fronts_late] at hw
  have e : ({ strip { kind, p := p.fixed, driveQueue := List.replicate n 0, steerQueue := List.replicate k 0, map } with input := {} } : Model)
      = { kind, p := ({ p with driveDelay := 0, steerDelay := 0 } : Params).fixed, map } := rfl
  rw [e] at hw
  rw [hw, Option.map_map]
  cases h : Model.run { kind, p := p.fixed, driveQueue := List.replicate n 0, steerQueue := List.replicate k 0, map } dt l with
  | none => rfl
  | some m' =>
    have hkind : m'.kind = kind := run_invariant (dt := dt) (P := fun m => m.kind = kind)
      (fun m m' g u h1 h2 => (step_kept h2).kind.trans h1) l _ m' rfl h
    simp only [Option.map_some, Function.comp_apply, Option.some.injEq, Prod.mk.injEq]
    refine ⟨rfl, ?_, ?_, ?_, ?_⟩ <;> simp only [Model.getVx, Model.getAx, Model.getWz, Model.getSteer, strip, hkind] <;>
      cases kind <;> first | rfl | (simp [Kind.delayed] at hk)

/-- C97: an ideal model has no delay: its state after a step depends on the state before and the commands of that step only. -/
theorem C97_ideal (m n m' n' : Model) (g : Gear) (u : Input) (dt : ℝ) (hk : m.kind.delayed = false) (h1 : n.kind = m.kind) (h2 : n.p = m.p)
    (h3 : n.state = m.state) (h : m.step g u dt = some m') (h' : n.step g u dt = some n') : m'.state = n'.state := by
  have key : ∀ (f : State → State) (s a b : State), Steps f dt s a → Steps f dt s b → a = b := by
    rintro f s a b ⟨k1, k2, k3, k4, rfl, rfl, rfl, rfl, rfl⟩ ⟨j1, j2, j3, j4, rfl, rfl, rfl, rfl, rfl⟩; rfl
  cases hm : m.kind <;> rw [hm] at hk <;> first | (simp [Kind.delayed] at hk; done) | skip
  · have a := step_idealAcc hm h
    have b := step_idealAcc (h1.trans hm) h'
    rw [h2, h3] at b
    exact key _ _ _ _ a b
  · obtain ⟨s, a, ea, _⟩ := step_idealAccGeared hm h
    obtain ⟨t, b, eb, _⟩ := step_idealAccGeared (h1.trans hm) h'
    rw [h2, h3] at b
    rw [ea, eb, h3, key _ _ _ _ a b]
  · have a := (step_idealVel hm h).1
    have b := (step_idealVel (h1.trans hm) h').1
    rw [h2, h3] at b
    exact key _ _ _ _ a b

/-- A delay of 0.24 s is two steps of 0.1 s, and one of 0.26 s three. -/
example : queueSize 0.24 0.1 = some 2 ∧ queueSize 0.26 0.1 = some 3 := by
  constructor
  · unfold queueSize
    rw [if_neg (by norm_num), if_neg (by norm_num)]
    congr 1
    rw [Nat.floor_eq_iff (by norm_num)]
    norm_num
  · unfold queueSize
    rw [if_neg (by norm_num), if_neg (by norm_num)]
    congr 1
    rw [Nat.floor_eq_iff (by norm_num)]
    norm_num

/-- The commands 1, 2, 3 two steps late. -/
example : (late 2 0 [(.park, { drive := 1 }), (.park, { drive := 2 }), (.park, { drive := 3 })]).map (·.2.drive) = [0, 0, 1] := by
  simp [late]

end Verif.Vehicle
