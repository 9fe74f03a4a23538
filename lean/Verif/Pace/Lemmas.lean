import Verif.Pace.Spec
import Verif.Speed.Lemmas
/- Lemmas about jobs and frames of changes of speed. -/
namespace Verif.Pace
open Verif.Job

variable {K : Type} [Field K] [LinearOrder K]

/-! ### Lists of jobs -/

theorem inactivateLoop_skip {σ T : Type} (m : Job σ T → Bool) : ∀ (js : List (Job σ T)) (i : Nat) (st : σ),
    (∀ j ∈ js, m j = false ∨ j.active = false) → inactivateLoop m i st js = (st, js, [])
  | [], _, _, _ => rfl
  | j :: js, i, st, h => by
    unfold inactivateLoop
    rw [if_neg (by rcases h j (by simp) with h | h <;> simp [h]),
      inactivateLoop_skip m js (i + 1) st (fun k hk => h k (by simp [hk]))]

theorem inactivateLoop_append {σ T : Type} (m : Job σ T → Bool) (ys : List (Job σ T)) : ∀ (js : List (Job σ T)) (i : Nat) (st : σ),
    (∀ j ∈ js, j.active = false) → inactivateLoop m i st (js ++ ys) =
      ((inactivateLoop m (i + js.length) st ys).1, js ++ (inactivateLoop m (i + js.length) st ys).2.1,
        (inactivateLoop m (i + js.length) st ys).2.2)
  | [], _, _, _ => rfl
  | j :: js, i, st, h => by
    rw [List.cons_append]
    have e : inactivateLoop m i st (j :: (js ++ ys)) = ((inactivateLoop m (i + 1) st (js ++ ys)).1,
        j :: (inactivateLoop m (i + 1) st (js ++ ys)).2.1, (inactivateLoop m (i + 1) st (js ++ ys)).2.2) := by
      conv => lhs; unfold inactivateLoop
      rw [if_neg (by simp [h j (by simp)])]
    rw [e, inactivateLoop_append m ys js (i + 1) st (fun k hk => h k (by simp [hk]))]
    simp only [List.length_cons, Nat.add_assoc, Nat.add_comm 1, List.cons_append]

theorem updateLoop_append {σ T : Type} [Add T] (d : T) (ev : Event) (ys : List (Job σ T)) :
    ∀ (js : List (Job σ T)) (i : Nat) (st : σ), (∀ j ∈ js, j.active = false) →
    updateLoop d ev i st (js ++ ys) = ((updateLoop d ev (i + js.length) st ys).1, js ++ (updateLoop d ev (i + js.length) st ys).2.1,
        (updateLoop d ev (i + js.length) st ys).2.2.1, (updateLoop d ev (i + js.length) st ys).2.2.2)
  | [], _, _, _ => rfl
  | j :: js, i, st, h => by
    rw [List.cons_append]
    have e : updateLoop d ev i st (j :: (js ++ ys)) = ((updateLoop d ev (i + 1) st (js ++ ys)).1,
        j :: (updateLoop d ev (i + 1) st (js ++ ys)).2.1, (updateLoop d ev (i + 1) st (js ++ ys)).2.2.1,
        (updateLoop d ev (i + 1) st (js ++ ys)).2.2.2) := by
      conv => lhs; unfold updateLoop
      rw [if_neg (by simp [h j (by simp)])]
    rw [e, updateLoop_append d ev ys js (i + 1) st (fun k hk => h k (by simp [hk]))]
    simp only [List.length_cons, Nat.add_assoc, Nat.add_comm 1, List.cons_append]

theorem updateLoop_skip {σ T : Type} [Add T] (d : T) (ev : Event) : ∀ (js : List (Job σ T)) (i : Nat) (st : σ),
    (∀ j ∈ js, j.active = false ∨ j.event ≠ ev) → updateLoop d ev i st js = (st, js, [], false)
  | [], _, _, _ => rfl
  | j :: js, i, st, h => by
    unfold updateLoop
    rw [if_neg (by rcases h j (by simp) with h | h <;> simp [h]), updateLoop_skip d ev js (i + 1) st (fun k hk => h k (by simp [hk]))]

theorem update_skip {σ T : Type} [Add T] (d : T) (ev : Event) (s : S σ T) (h : ∀ j ∈ s.jobs, j.active = false ∨ j.event ≠ ev) :
    update d ev s = (s, false) := by
  unfold update
  rw [updateLoop_skip d ev s.jobs 0 s.st h]
  simp

/-- What `append` makes of the state and the jobs if no active job is in the way. -/
theorem append_free {σ T : Type} [Zero T] (u : T → σ → σ × Outcome) (c : σ → σ) (ty : JType) (s : S σ T)
    (h : ∀ j ∈ s.jobs, (j.type == ty && j.exclusive == true) = false ∨ j.active = false) :
    append u c ty true .post s = { s with jobs := s.jobs ++ [⟨u, c, ty, true, .post, true, 0⟩] } := by
  unfold append
  rw [inactivateLoop_skip _ s.jobs 0 s.st h]
  simp

/-! ### The two jobs of a request -/

/-- The job that watches the acceleration. -/
def accJob (done : K → Bool) (active : Bool) (d : K) : Job (Ent K) K :=
  ⟨fun _ e => (e, .returns (done e.motion.speed)), reset, .linearAcceleration, true, .post, active, d⟩

/-- The job that keeps the target. -/
def velJob (v : K) (c : Bool) (active : Bool) (d : K) : Job (Ent K) K :=
  ⟨plainBody v c, plainCleanup c, .linearVelocity, true, .post, active, d⟩

/-- The jobs of a request after inactive ones. -/
def Shape (done : K → Bool) (v : K) (c : Bool) (a1 a2 : Bool) (s : S (Ent K) K) : Prop :=
  ∃ pre d1 d2, (∀ j ∈ pre, j.active = false) ∧ s.jobs = pre ++ [accJob done a1 d1, velJob v c a2 d2]

/-- The part of the state after the motion of a frame. -/
def afterJobs (done : K → Bool) (v : K) (c a1 a2 : Bool) (e : Ent K) : Ent K :=
  let e := if a1 && done e.motion.speed then reset e else e
  if a2 then
    if !c && Speed.isTargetSpeedReached v e.motion.speed then plainCleanup c e else { e with target := some v }
  else e

theorem afterJobs_motion (done : K → Bool) (v : K) (c a1 a2 : Bool) (e : Ent K) :
    (afterJobs done v c a1 a2 e).motion = e.motion ∧ (afterJobs done v c a1 a2 e).standard = e.standard ∧
      (afterJobs done v c a1 a2 e).planner = e.planner := by
  unfold afterJobs reset plainCleanup
  dsimp only
  split_ifs <;> exact ⟨rfl, rfl, rfl⟩

theorem afterJobs_constraints (done : K → Bool) (v : K) (c a1 a2 : Bool) (e : Ent K) :
    (afterJobs done v c a1 a2 e).constraints = if a1 && done e.motion.speed then e.standard else e.constraints := by
  unfold afterJobs reset plainCleanup
  dsimp only
  split_ifs <;> rfl

theorem afterJobs_target (done : K → Bool) (v : K) (c a1 : Bool) (e : Ent K) :
    (afterJobs done v c a1 true e).target = if !c && Speed.isTargetSpeedReached v e.motion.speed then none else some v := by
  unfold afterJobs reset plainCleanup
  dsimp only
  split_ifs <;> simp_all

theorem frame_shape (dt : K) (w : World K) (done : K → Bool) (v : K) (c a1 a2 : Bool) (s : S (Ent K) K) (h : Shape done v c a1 a2 s)
    (m : Speed.State K) (hm : Speed.step dt s.st.constraints (s.st.target.getD w.lane) s.st.motion = some m) :
    ∃ s', frame dt w s = .ok s' ∧
      s'.st = afterJobs done v c a1 a2 { s.st with others := w.others, motion := m, planner := true } ∧
      Shape done v c (a1 && !done m.speed) (a2 && (c || !Speed.isTargetSpeedReached v m.speed)) s' := by
  obtain ⟨pre, d1, d2, hpre, hj⟩ := h
  have hskip : ∀ j ∈ s.jobs, j.active = false ∨ j.event ≠ Event.pre := by
    intro j hjm
    rw [hj] at hjm
    simp only [List.mem_append, List.mem_cons, List.not_mem_nil, or_false] at hjm
    rcases hjm with h | rfl | rfl
    · exact .inl (hpre j h)
    · exact .inr (by simp [accJob])
    · exact .inr (by simp [velJob])
  unfold frame
  rw [update_skip dt .pre { s with st := { s.st with others := w.others } } hskip]
  simp only [Bool.false_eq_true, if_false, hm]
  unfold update
  simp only [hj]
  rw [updateLoop_append dt .post _ pre 0 _ hpre]
  generalize hE : ({ s.st with others := w.others, motion := m, planner := true } : Ent K) = E
  have hEm : m = E.motion := by rw [← hE]
  subst hEm
  clear hE hm
  have key : updateLoop dt .post (0 + pre.length) E [accJob done a1 d1, velJob v c a2 d2] =
      (afterJobs done v c a1 a2 E,
        [accJob done (a1 && !done E.motion.speed) (if a1 then d1 + dt else d1),
          velJob v c (a2 && (c || !Speed.isTargetSpeedReached v E.motion.speed)) (if a2 then d2 + dt else d2)],
        (updateLoop dt .post (0 + pre.length) E [accJob done a1 d1, velJob v c a2 d2]).2.2.1, false) := by
    have hr : (reset E).motion.speed = E.motion.speed := rfl
    cases a1 <;> cases a2 <;> cases c <;> cases hd : done E.motion.speed <;>
      cases hq : Speed.isTargetSpeedReached v E.motion.speed <;>
      simp [updateLoop, accJob, velJob, afterJobs, plainBody, plainCleanup, hd, hq, hr]
  rw [key]
  simp only [Bool.false_eq_true, if_false]
  exact ⟨_, rfl, rfl, pre, _, _, hpre, rfl⟩

end Verif.Pace
