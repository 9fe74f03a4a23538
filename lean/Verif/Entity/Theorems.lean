import Verif.Entity.Request
/-
C28: speed requests. C29: stand-still duration and travelled distance.
-/
namespace Verif.Entity
open Verif.Job
set_option linter.unusedSectionVars false
variable {V : Type} [Zero V] [Add V] [Mul V] {N : Num V}

/-- Integer speeds for the examples: reached means equal. -/
def intNum : Num Int := { abs := fun x => if x < 0 then -x else x, still := fun x => x == 0, reached := fun a b => a == b }

def car : Ent Int :=
  { speed := 5, target := none, limit := none, travelled := 0, standStill := 0, step := 0, reference := none }

/-- The ops after a request that do not ask for another speed: frames in which the speed `v` is not
reached (for a request that is not continuous), limits, range checks. -/
def quiet (N : Num V) (v : V) (c : Bool) : EOp V → Prop
  | .frame _ speed _ _ => c = true ∨ N.reached v speed = false
  | .limit _ _ | .range _ | .setSpeed _ => True
  | .speed _ _ | .relative _ _ | .sync _ => False

theorem quiet_keeps (e : Ent V) (u : V → Ent V → Ent V × Outcome) (value : Option V → V) (Q : Option V → V → Prop)
    (hu : ∀ (d : V) (r : Option V) (e : Ent V), Q r e.speed → e.reference = r → u d e = ({ e with target := some (value r) }, .returns false))
    (after : List (EOp V)) : ∀ (before : List (EOp V)),
    (∀ o ∈ after, match o with
      | .frame _ speed atEnd r => atEnd = false → Q r speed
      | .limit _ _ | .range _ | .setSpeed _ => True
      | .speed _ _ | .relative _ _ | .sync _ => False) →
    Decides u (run N e before) → Decides u (run N e (before ++ after)) := by
  induction after with
  | nil => intro b _ h; rwa [List.append_nil]
  | cons o after ih =>
    intro b hq h
    have e1 : b ++ o :: after = (b ++ [o]) ++ after := by simp
    rw [e1]
    refine ih _ (fun o' ho => hq o' (by simp [ho])) ?_
    have e2 : run N e (b ++ [o]) = exec N (run N e b) o := by unfold run; rw [List.foldl_append]; rfl
    rw [e2]
    have ho := hq o (by simp)
    cases o with
    | frame st sp a r' =>
      exact (decides_frame st sp a r' (value r') h (keeps_run N e b) (fun ha d e he hr => hu d r' e (by rw [he]; exact ho ha) hr)).1
    | limit l d => exact decides_append (s := { (run N e b) with st := _ }) _ _ _ h (by simp) (fun _ => rfl) (fun _ _ => rfl)
    | range k => exact decides_append _ _ _ h (by simp) (fun _ => rfl) (fun _ _ => rfl)
    | setSpeed w => exact h
    | speed _ _ | relative _ _ | sync _ => exact ho.elim

/-- C28, in part: whatever requests are active, after requestSpeedChange(v) - unless the entity already
has that speed - the target speed is `v` at the end of the next frame and of every later one, as long
as the speed is not reached, nothing else is requested and the entity is not at the end of the
lanelets. Missing: the time until the end of the first frame (`C28_violated`) and requests for the
current speed (`C28_ignored_violated`). -/
theorem C28_frames_partial (e : Ent V) (before : List (EOp V)) (v : V) (c : Bool)
    (accepted : c = true ∨ N.reached v (run N e before).st.speed = false)
    (after : List (EOp V)) (hq : ∀ o ∈ after, quiet N v c o)
    (step speed : V) (r : Option V) (hr : c = true ∨ N.reached v speed = false)
    (ok : (frame step speed false r (run N e (before ++ .speed v c :: after))).2 = false) :
    (run N e (before ++ .speed v c :: after ++ [.frame step speed false r])).st.target = some v := by
  have h0 : Decides (absoluteBody N v c) (run N e (before ++ [.speed v c])) := by
    unfold run; rw [List.foldl_append]
    exact decides_request v c (tidy_run N e before) (by
      rcases accepted with rfl | h
      · simp
      · unfold run at h; rw [h]; rfl)
  have h1 := quiet_keeps (N := N) e (absoluteBody N v c) (fun _ => v) (fun r speed => c = true ∨ N.reached v speed = false)
    (fun d r e h1 _ => absolute_sets v c d e h1) after (before ++ [.speed v c])
    (fun o ho => by have := hq o ho; cases o <;> first | exact fun _ => this | exact this) h0
  have e3 : before ++ [.speed v c] ++ after = before ++ .speed v c :: after := by simp
  rw [e3] at h1
  have e4 : run N e (before ++ .speed v c :: after ++ [.frame step speed false r]) =
      (frame step speed false r (run N e (before ++ .speed v c :: after))).1 := by
    unfold run; rw [List.foldl_append]; rfl
  rw [e4]
  exact (decides_frame step speed false r v h1 (keeps_run N e _) (fun _ d e he _ => absolute_sets v c d e (by rw [he]; exact hr))).2 rfl ok

/-- The ops after a relative request that do not ask for another speed: frames in which the reference entity exists and the speed
relative to it is not reached (for a request that is not continuous), limits, range checks. -/
def quietRelative (N : Num V) (f : V → V) (c : Bool) : EOp V → Prop
  | .frame _ speed atEnd r => atEnd = true ∨ ∃ r', r = some r' ∧ (c = true ∨ N.reached (f r') speed = false)
  | .limit _ _ | .range _ | .setSpeed _ => True
  | .speed _ _ | .relative _ _ | .sync _ => False

/-- C28, in part, for requests relative to another entity: the target speed at the end of the next frame and of every later one
is the one relative to the speed the other entity has in that frame. Missing: as above. -/
theorem C28_relative_partial (e : Ent V) (before : List (EOp V)) (f : V → V) (c : Bool) (r0 : V)
    (present : (run N e before).st.reference = some r0)
    (accepted : c = true ∨ N.reached (f r0) (run N e before).st.speed = false)
    (after : List (EOp V)) (hq : ∀ o ∈ after, quietRelative N f c o)
    (step speed r : V) (hr : c = true ∨ N.reached (f r) speed = false)
    (ok : (frame step speed false (some r) (run N e (before ++ .relative f c :: after))).2 = false) :
    (run N e (before ++ .relative f c :: after ++ [.frame step speed false (some r)])).st.target = some (f r) := by
  have h0 : Decides (relativeBody N f c) (run N e (before ++ [.relative f c])) := by
    have e2 : run N e (before ++ [.relative f c]) = exec N (run N e before) (.relative f c) := by unfold run; rw [List.foldl_append]; rfl
    rw [e2]
    exact decides_relative f c (tidy_run N e before) r0 present (by
      rcases accepted with rfl | h
      · simp
      · rw [h]; rfl)
  have h1 := quiet_keeps (N := N) e (relativeBody N f c) (fun r => match r with | some r => f r | none => 0)
    (fun r speed => ∃ r', r = some r' ∧ (c = true ∨ N.reached (f r') speed = false))
    (fun d r e h1 h2 => by
      obtain ⟨r', rfl, h3⟩ := h1
      exact relative_sets f c r' d e h2 h3) after (before ++ [.relative f c])
    (fun o ho => by
      have := hq o ho
      cases o with
      | frame st sp a r' => exact fun ha => this.resolve_left (by simp [ha])
      | _ => exact this) h0
  have e3 : before ++ [.relative f c] ++ after = before ++ .relative f c :: after := by simp
  rw [e3] at h1
  have e4 : run N e (before ++ .relative f c :: after ++ [.frame step speed false (some r)]) =
      (frame step speed false (some r) (run N e (before ++ .relative f c :: after))).1 := by
    unfold run; rw [List.foldl_append]; rfl
  rw [e4]
  exact (decides_frame step speed false (some r) (f r) h1 (keeps_run N e _)
    (fun _ d e he hre => relative_sets f c r d e hre (by rw [he]; exact hr))).2 rfl ok

/-- A request for two more than the reference entity has, after one for 10. -/
example : (run intNum car [.frame 1 5 false (some 3), .speed 10 false, .relative (· + 2) true, .frame 1 6 false (some 6),
    .frame 1 7 false (some 8)]).st.target = some 10 ∧
    (run intNum car [.frame 1 5 false (some 3), .speed 10 false, .relative (· + 2) true, .frame 1 6 false (some 6)]).st.target = some 8 := by
  decide +kernel

/-- C28, in part: if no request for a speed that ends when it is reached is active, the target speed is
`v` at once. -/
theorem C28_at_once_partial (s : S (Ent V) V) (v : V) (c : Bool)
    (accepted : c = true ∨ N.reached v s.st.speed = false)
    (none_active : ∀ j ∈ s.jobs, j.type = .linearVelocity → ∀ e, (j.onCleanup e).target = e.target) :
    (requestSpeed N v c s).st.target = some v := by
  unfold requestSpeed
  rw [if_neg (by rcases accepted with rfl | h
                 · simp
                 · simp [h])]
  unfold append
  exact inactivate_rel (fun a b : Ent V => b.target = a.target) (fun _ => rfl) (fun a b c h h' => h'.trans h) _ 0
    { s.st with target := some v } s.jobs (fun j hj hm => none_active j hj (by simp at hm; exact hm.1))

/-- The history of `C28_violated`, and a frame later. -/
example : (run intNum car [.speed 10 false, .frame 1 6 false none, .speed 20 false,
    .frame 1 7 false none]).st.target = some 20 := by decide +kernel

/-- C28 is violated: a request made while an earlier one is active leaves no target speed at all: the
clean-up of the earlier request runs after the target speed has been set. -/
theorem C28_violated : (run intNum car [.speed 10 false, .frame 1 6 false none, .speed 20 false]).st.target
    = none := by decide +kernel

/-- C28 is violated: a request for the current speed is ignored even if another request is active: the
entity goes on to the speed requested before. -/
theorem C28_ignored_violated :
    (run intNum car [.speed 10 false, .frame 1 6 false none, .speed 6 false,
      .frame 1 7 false none]).st.target = some 10 := by decide +kernel

/-- C29, in part: in every history in which the entity is never at the end of the lanelets, the travelled
distance is the sum of |speed| * step over the frames, and the stand-still duration the sum of the
steps since it last moved. Other jobs may throw. Missing: see `C29_violated`. -/
theorem C29_partial (e : Ent V) (ops : List (EOp V)) (h : neverAtEnd ops) :
    (run N e ops).st.travelled = distance N (frames ops) ∧
    (run N e ops).st.standStill = standingTime N (frames ops) := by
  have hc := construct_inv N e
  obtain ⟨h1, h2⟩ := run_measure N ops h (construct N e) hc.1
  rw [hc.2.1] at h1
  rw [hc.2.2, standing_fold] at h2
  exact ⟨h1, h2⟩

/-- C29: the travelled distance never decreases, in any history, if adding |speed| * step does not
decrease a number. -/
theorem C29_monotone (le : V → V → Prop) (refl : ∀ a, le a a)
    (grow : ∀ a x y, le a (a + N.abs x * y)) (e : Ent V) (ops : List (EOp V)) (o : EOp V) :
    le (run N e ops).st.travelled (run N e (ops ++ [o])).st.travelled := by
  have e2 : run N e (ops ++ [o]) = exec N (run N e ops) o := by unfold run; rw [List.foldl_append]; rfl
  rw [e2]
  have hi := run_inv N e ops
  cases o with
  | frame step speed atEnd r =>
    have hf := (frame_inv (N := N) step speed atEnd r hi).2
    show le _ (frame step speed atEnd r (run N e ops)).1.st.travelled
    cases atEnd with
    | true => rw [(hf.1 rfl).1]; exact refl _
    | false => rw [(hf.2 rfl).1]; exact grow _ _ _
  | _ => rw [((exec_inv (N := N) _ hi).2 (by simp)).1]; exact refl _

/-- A history of seven frames with requests in between: moves 5, 6, stands still for two frames, moves
backwards, stands still for three frames. -/
example : let ops : List (EOp Int) := [.frame 1 5 false none, .speed 0 false, .frame 2 6 false none,
      .frame 1 0 false none, .range (fun _ => false), .frame 1 0 false none, .frame 1 (-2) false none,
      .frame 3 0 false none, .setSpeed 9, .frame 4 0 false none]
    (run intNum car ops).st.travelled = 19 ∧ (run intNum car ops).st.standStill = 7 ∧
    distance intNum (frames ops) = 19 ∧ standingTime intNum (frames ops) = 7 := by decide +kernel

/-- C29 is violated: an entity that has come to rest at the end of the lanelets stands still for ever,
but its stand-still duration does not grow. -/
theorem C29_violated (n : Nat) :
    let ops : List (EOp Int) := List.replicate n (.frame 1 0 true none)
    (run intNum car ops).st.standStill = 0 ∧ standingTime intNum (frames ops) = n := by
  constructor
  · induction n with
    | zero => rfl
    | succ n ih =>
      simp only [List.replicate_succ', run, List.foldl_append, List.foldl_cons, List.foldl_nil, exec]
      have hi : Inv intNum (run intNum car (List.replicate n (.frame 1 0 true none))) := run_inv _ _ _
      have := ((frame_inv 1 0 true none hi).2.1 rfl).2
      unfold run at this ih
      rw [this]; exact ih
  · have hf : frames (List.replicate n (EOp.frame (1 : Int) 0 true none)) = List.replicate n (1, 0) := by
      induction n with
      | zero => rfl
      | succ n ih => simp only [List.replicate_succ, frames, ih, if_true]
    rw [hf, ← standing_fold]
    have : ∀ (n : Nat) (a : Int), (List.replicate n ((1, 0) : Int × Int)).foldl
        (fun d f => if intNum.still f.2 then d + f.1 else 0) a = a + n := by
      intro n
      induction n with
      | zero => intro a; simp
      | succ n ih => intro a; simp only [List.replicate_succ, List.foldl_cons]; rw [ih]; simp [intNum]; omega
    rw [this]; omega

end Verif.Entity
