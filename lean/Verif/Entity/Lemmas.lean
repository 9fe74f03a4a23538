import Verif.Entity.Spec
import Verif.Job.Lemmas
/-
Invariants of the job list of an entity.
-/
namespace Verif.Entity
open Verif.Job
set_option linter.unusedSectionVars false

section generic
variable {σ T : Type}

theorem inactivate_rel (R : σ → σ → Prop) (refl : ∀ e, R e e) (trans : ∀ a b c, R a b → R b c → R a c)
    (m : Job σ T → Bool) (i : Nat) (st : σ) (js : List (Job σ T))
    (h : ∀ j ∈ js, m j = true → ∀ e, R e (j.onCleanup e)) : R st (inactivateLoop m i st js).1 := by
  induction js generalizing i st with
  | nil => exact refl st
  | cons j js ih =>
    unfold inactivateLoop
    split
    · rename_i c
      simp only [Bool.and_eq_true] at c
      exact trans _ _ _ (h j (by simp) c.1 st) (ih _ _ (fun j' hj => h j' (by simp [hj])))
    · exact ih _ _ (fun j' hj => h j' (by simp [hj]))

variable [Add T]

theorem update_rel (R : σ → σ → Prop) (refl : ∀ e, R e e) (trans : ∀ a b c, R a b → R b c → R a c)
    (step : T) (ev : Event) (i : Nat) (st : σ) (js : List (Job σ T))
    (h : ∀ j ∈ js, (∀ d e, R e (j.onUpdate d e).1) ∧ ∀ e, R e (j.onCleanup e)) :
    R st (updateLoop step ev i st js).1 := by
  induction js generalizing i st with
  | nil => exact refl st
  | cons j js ih =>
    have hj := h j (by simp)
    have ih' := fun i st => ih i st (fun j' hj => h j' (by simp [hj]))
    unfold updateLoop
    split
    · have hu := hj.1 j.duration st
      split
      · rename_i e; rw [e] at hu; exact hu
      · rename_i e; rw [e] at hu
        exact trans _ _ _ hu (trans _ _ _ (hj.2 _) (ih' _ _))
      · rename_i e; rw [e] at hu
        exact trans _ _ _ hu (ih' _ _)
    · exact ih' _ _

theorem update_mem (step : T) (ev : Event) (i : Nat) (st : σ) (js : List (Job σ T)) (j' : Job σ T)
    (h : j' ∈ (updateLoop step ev i st js).2.1) : ∃ j ∈ js, j'.type = j.type ∧
      j'.exclusive = j.exclusive ∧ j'.event = j.event ∧ j'.onUpdate = j.onUpdate ∧
      j'.onCleanup = j.onCleanup := by
  obtain ⟨k, hk⟩ := List.getElem?_of_mem h
  have hl : k < js.length := by
    have := (List.getElem?_eq_some_iff.mp hk).1
    simpa only [update_length] using this
  obtain ⟨j'', e1, e2⟩ := update_calls step ev i st js k _ (List.getElem?_eq_getElem hl)
  have e : j'' = j' := Option.some.inj (e1.symm.trans hk)
  subst e
  exact ⟨_, List.getElem_mem hl, e2.1, e2.2.1, e2.2.2.1, e2.2.2.2.1, e2.2.2.2.2.1⟩

/-- Jobs of another event do nothing. -/
theorem update_idle (step : T) (ev : Event) (i : Nat) (st : σ) (js : List (Job σ T))
    (h : ∀ j ∈ js, j.event ≠ ev) : updateLoop step ev i st js = (st, js, [], false) := by
  induction js generalizing i st with
  | nil => rfl
  | cons j js ih =>
    unfold updateLoop
    rw [if_neg (fun c => h j (by simp) c.1), ih _ _ (fun j' hj => h j' (by simp [hj]))]

theorem inactivate_mem (m : Job σ T → Bool) (js : List (Job σ T)) (j' : Job σ T)
    (h : j' ∈ js.map (fun j => if m j && j.active then { j with active := false } else j)) :
    ∃ j ∈ js, j'.type = j.type ∧ j'.exclusive = j.exclusive ∧ j'.event = j.event ∧
      j'.onUpdate = j.onUpdate ∧ j'.onCleanup = j.onCleanup := by
  obtain ⟨j, hj, rfl⟩ := List.mem_map.mp h
  refine ⟨j, hj, ?_⟩
  split <;> simp

end generic

variable {V : Type} [Zero V] [Add V] [Mul V] {N : Num V}

/-- The two measurements are the same. -/
def same (e e' : Ent V) : Prop := e'.travelled = e.travelled ∧ e'.standStill = e.standStill

theorem same_refl (e : Ent V) : same e e := ⟨rfl, rfl⟩
theorem same_trans (a b c : Ent V) (h : same a b) (h' : same b c) : same a c :=
  ⟨h'.1.trans h.1, h'.2.trans h.2⟩

/-- A job that does not touch the measurements. -/
def Harmless (j : Job (Ent V) V) : Prop :=
  j.type ≠ .traveledDistance ∧ j.type ≠ .standStillDuration ∧ j.event = .post ∧
  (∀ d e, same e (j.onUpdate d e).1) ∧ ∀ e, same e (j.onCleanup e)

theorem Harmless.congr {j j' : Job (Ent V) V} (h : Harmless j) (e1 : j'.type = j.type)
    (e2 : j'.event = j.event) (e3 : j'.onUpdate = j.onUpdate) (e4 : j'.onCleanup = j.onCleanup) :
    Harmless j' := by
  unfold Harmless
  rw [e1, e2, e3, e4]
  exact h

/-- The two measuring jobs come first and stay active. -/
def Inv (N : Num V) (s : S (Ent V) V) : Prop :=
  ∃ jT jS rest, s.jobs = jT :: jS :: rest ∧
    (jT.onUpdate = travelledBody N ∧ jT.active = true ∧ jT.event = .post ∧ jT.type = .traveledDistance) ∧
    (jS.onUpdate = standStillBody N ∧ jS.active = true ∧ jS.event = .post ∧ jS.type = .standStillDuration) ∧
    ∀ j ∈ rest, Harmless j

theorem inv_append (u : V → Ent V → Ent V × Outcome) (c : Ent V → Ent V) (t : JType) (x : Bool)
    {s : S (Ent V) V} (h : Inv N s) (ht1 : t ≠ .traveledDistance) (ht2 : t ≠ .standStillDuration)
    (hu : ∀ d e, same e (u d e).1) (hc : ∀ e, same e (c e)) :
    Inv N (append u c t x .post s) ∧ same s.st (append u c t x .post s).st := by
  obtain ⟨jT, jS, rest, e, hT, hS, hr⟩ := h
  constructor
  · unfold append
    simp only [inactivate_jobs, e, List.map_cons]
    rw [if_neg (by rw [hT.2.2.2]; simp [Ne.symm ht1]), if_neg (by rw [hS.2.2.2]; simp [Ne.symm ht2])]
    refine ⟨jT, jS, _, rfl, hT, hS, ?_⟩
    intro j hj
    rcases List.mem_append.mp hj with hj | hj
    · obtain ⟨j0, h0, e1, _, e2, e3, e4⟩ := inactivate_mem (T := V) _ rest j hj
      exact (hr j0 h0).congr e1 e2 e3 e4
    · simp only [List.mem_singleton] at hj
      subst hj
      exact ⟨ht1, ht2, rfl, hu, hc⟩
  · unfold append
    apply inactivate_rel same same_refl same_trans
    intro j hj hm e0
    rw [e] at hj
    simp only [List.mem_cons] at hj
    simp only [Bool.and_eq_true, beq_iff_eq] at hm
    rcases hj with rfl | rfl | hj
    · exact absurd (hT.2.2.2.symm.trans hm.1).symm ht1
    · exact absurd (hS.2.2.2.symm.trans hm.1).symm ht2
    · exact (hr j hj).2.2.2.2 e0

/-- A post-update with the measuring jobs in front. -/
theorem post_update (step : V) {s : S (Ent V) V} (h : Inv N s) :
    Inv N (update step .post s).1 ∧
    (update step .post s).1.st.travelled = s.st.travelled + N.abs s.st.speed * s.st.step ∧
    (update step .post s).1.st.standStill =
      if N.still s.st.speed then s.st.standStill + s.st.step else 0 := by
  obtain ⟨jT, jS, rest, e, hT, hS, hr⟩ := h
  have hloop : updateLoop step .post 0 s.st s.jobs =
      let e1 := (travelledBody N jT.duration s.st).1
      let e2 := (standStillBody N jS.duration e1).1
      let r := updateLoop step .post 2 e2 rest
      (r.1, { jT with duration := jT.duration + step } :: { jS with duration := jS.duration + step } :: r.2.1,
        .ran 0 :: .ran 1 :: r.2.2.1, r.2.2.2) := by
    rw [e]
    rw [updateLoop, if_pos ⟨hT.2.2.1, hT.2.1⟩, hT.1]
    simp only [travelledBody]
    rw [updateLoop, if_pos ⟨hS.2.2.1, hS.2.1⟩, hS.1]
    simp only [standStillBody]
  have hs := update_rel (same (V := V)) same_refl same_trans step .post 2
    (standStillBody N jS.duration (travelledBody N jT.duration s.st).1).1 rest
    (fun j hj => (hr j hj).2.2.2)
  unfold update
  rw [hloop]
  refine ⟨⟨_, _, _, rfl, ⟨hT.1, hT.2⟩, ⟨hS.1, hS.2⟩, ?_⟩, hs.1, hs.2⟩
  intro j hj
  obtain ⟨j0, h0, e1, _, e2, e3, e4⟩ := update_mem _ _ _ _ _ _ hj
  exact (hr j0 h0).congr e1 e2 e3 e4

theorem pre_update (step : V) {s : S (Ent V) V} (h : Inv N s) : update step .pre s = (s, false) := by
  obtain ⟨jT, jS, rest, e, hT, hS, hr⟩ := h
  have hi : updateLoop step .pre 0 s.st s.jobs = (s.st, s.jobs, [], false) := by
    apply update_idle
    intro j hj
    rw [e] at hj
    simp only [List.mem_cons] at hj
    rcases hj with rfl | rfl | hj
    · rw [hT.2.2.1]; simp
    · rw [hS.2.2.1]; simp
    · rw [(hr j hj).2.2.1]; simp
  unfold update
  rw [hi]
  simp

theorem frame_inv (step speed : V) (atEnd : Bool) (r : Option V) {s : S (Ent V) V} (h : Inv N s) :
    Inv N (frame step speed atEnd r s).1 ∧
    (atEnd = true → same s.st (frame step speed atEnd r s).1.st) ∧
    (atEnd = false →
      (frame step speed atEnd r s).1.st.travelled = s.st.travelled + N.abs speed * step ∧
      (frame step speed atEnd r s).1.st.standStill = if N.still speed then s.st.standStill + step else 0) := by
  unfold frame
  have hi : Inv N { s with st := { s.st with reference := r } } := h
  simp only [pre_update step hi]
  cases atEnd with
  | true => exact ⟨h, fun _ => ⟨rfl, rfl⟩, fun c => (by cases c)⟩
  | false =>
    have hi2 : Inv N { s with st := { s.st with reference := r, step := step, speed := speed } } := h
    obtain ⟨h1, h2, h3⟩ := post_update step hi2
    exact ⟨h1, fun c => (by cases c), fun _ => ⟨h2, h3⟩⟩

theorem exec_inv (o : EOp V) {s : S (Ent V) V} (h : Inv N s) : Inv N (exec N s o) ∧
    ((∀ step speed atEnd r, o ≠ .frame step speed atEnd r) → same s.st (exec N s o).st) := by
  cases o with
  | frame step speed atEnd r =>
    exact ⟨(frame_inv step speed atEnd r h).1, fun c => absurd rfl (c step speed atEnd r)⟩
  | speed v c =>
    show Inv N (requestSpeed N v c s) ∧ (_ → same s.st (requestSpeed N v c s).st)
    unfold requestSpeed
    split
    · exact ⟨h, fun _ => same_refl _⟩
    · have := inv_append (N := N) (absoluteBody N v c) (cancelSpeed c) .linearVelocity true
        (s := { s with st := { s.st with target := some v } }) h (by simp) (by simp)
        (by intro d e; unfold absoluteBody; split <;> exact ⟨rfl, rfl⟩)
        (by intro e; unfold cancelSpeed; split <;> exact ⟨rfl, rfl⟩)
      exact ⟨this.1, fun _ => ⟨this.2.1, this.2.2⟩⟩
  | relative f c =>
    show Inv N (requestRelative N f c s) ∧ (_ → same s.st (requestRelative N f c s).st)
    unfold requestRelative
    split
    · exact ⟨h, fun _ => same_refl _⟩
    · split
      · exact ⟨h, fun _ => same_refl _⟩
      · have := inv_append (N := N) (relativeBody N f c) (cancelSpeed c) .linearVelocity true h
          (by simp) (by simp)
          (by intro d e; unfold relativeBody; split
              · exact ⟨rfl, rfl⟩
              · split <;> exact ⟨rfl, rfl⟩)
          (by intro e; unfold cancelSpeed; split <;> exact ⟨rfl, rfl⟩)
        exact ⟨this.1, fun _ => this.2⟩
  | limit l d =>
    have := inv_append (N := N) (fun _ e => (e, .returns (d e.speed))) (fun e => { e with limit := none })
      .linearAcceleration true (s := { s with st := { s.st with limit := some l } }) h (by simp) (by simp)
      (fun _ _ => ⟨rfl, rfl⟩) (fun _ => ⟨rfl, rfl⟩)
    exact ⟨this.1, fun _ => ⟨this.2.1, this.2.2⟩⟩
  | sync f =>
    have := inv_append (N := N) (fun _ e => match f e.speed with
      | .throws => (e, .throws)
      | .finishes => (e, .returns true)
      | .sets v => ({ e with target := some v }, .returns false)) id
      .linearAcceleration true h (by simp) (by simp)
      (by intro d e; split <;> exact ⟨rfl, rfl⟩) (fun _ => ⟨rfl, rfl⟩)
    exact ⟨this.1, fun _ => this.2⟩
  | range ok =>
    have := inv_append (N := N) (fun _ e => (e, if ok e.speed then .returns false else .throws)) id
      .outOfRange true h (by simp) (by simp) (fun _ _ => ⟨rfl, rfl⟩) (fun _ => ⟨rfl, rfl⟩)
    exact ⟨this.1, fun _ => this.2⟩
  | setSpeed v => exact ⟨h, fun _ => ⟨rfl, rfl⟩⟩

theorem construct_inv (N : Num V) (e : Ent V) : Inv N (construct N e) ∧
    (construct N e).st.travelled = 0 ∧ (construct N e).st.standStill = 0 := by
  exact ⟨⟨{ onUpdate := travelledBody N, onCleanup := id, type := .traveledDistance, exclusive := true, event := .post, active := true, duration := 0 },
    { onUpdate := standStillBody N, onCleanup := id, type := .standStillDuration, exclusive := true, event := .post, active := true, duration := 0 },
    [], rfl, ⟨rfl, rfl, rfl, rfl⟩, ⟨rfl, rfl, rfl, rfl⟩, by simp⟩, rfl, rfl⟩

theorem run_inv (N : Num V) (e : Ent V) (ops : List (EOp V)) : Inv N (run N e ops) := by
  unfold run
  have := (construct_inv N e).1
  revert this
  generalize construct N e = s
  induction ops generalizing s with
  | nil => exact fun h => h
  | cons o ops ih => exact fun h => ih _ (exec_inv o h).1

/-- The measurements as folds over the frames. -/
theorem run_measure (N : Num V) (ops : List (EOp V)) (hn : neverAtEnd ops) (s : S (Ent V) V) (h : Inv N s) :
    (ops.foldl (exec N) s).st.travelled =
      (frames ops).foldl (fun d f => d + N.abs f.2 * f.1) s.st.travelled ∧
    (ops.foldl (exec N) s).st.standStill =
      (frames ops).foldl (fun d f => if N.still f.2 then d + f.1 else 0) s.st.standStill := by
  induction ops generalizing s with
  | nil => exact ⟨rfl, rfl⟩
  | cons o ops ih =>
    have hn' : neverAtEnd ops := fun a b c d hm => hn a b c d (by simp [hm])
    have hi := exec_inv (N := N) o h
    obtain ⟨i1, i2⟩ := ih hn' (exec N s o) hi.1
    rw [List.foldl_cons, i1, i2]
    have keep : (∀ step speed atEnd r, o ≠ .frame step speed atEnd r) → frames (o :: ops) = frames ops →
        (frames ops).foldl (fun d f => d + N.abs f.2 * f.1) (exec N s o).st.travelled =
          (frames (o :: ops)).foldl (fun d f => d + N.abs f.2 * f.1) s.st.travelled ∧
        (frames ops).foldl (fun d f => if N.still f.2 then d + f.1 else 0) (exec N s o).st.standStill =
          (frames (o :: ops)).foldl (fun d f => if N.still f.2 then d + f.1 else 0) s.st.standStill := by
      intro c e
      rw [e, (hi.2 c).1, (hi.2 c).2]
      exact ⟨rfl, rfl⟩
    cases o with
    | frame step speed atEnd r =>
      have ha := hn step speed atEnd r (by simp)
      subst ha
      have hf := (frame_inv (N := N) step speed false r h).2.2 rfl
      simp only [exec, frames, Bool.false_eq_true, if_false, List.foldl_cons]
      rw [hf.1, hf.2]
      exact ⟨rfl, rfl⟩
    | _ => exact keep (by simp) rfl

theorem standing_fold (N : Num V) (fs : List (V × V)) :
    fs.foldl (fun d f => if N.still f.2 then d + f.1 else 0) 0 = standingTime N fs := by
  have key : ∀ gs : List (V × V), gs.reverse.foldl (fun d f => if N.still f.2 then d + f.1 else 0) (0 : V) =
      (gs.takeWhile (fun f => N.still f.2)).reverse.foldl (fun d f => d + f.1) 0 := by
    intro gs
    induction gs with
    | nil => rfl
    | cons g gs ih =>
      rw [List.reverse_cons, List.foldl_append, ih]
      simp only [List.foldl_cons, List.foldl_nil, List.takeWhile_cons]
      by_cases c : N.still g.2 = true
      · simp [c]
      · simp [c]
  have := key fs.reverse
  rw [List.reverse_reverse] at this
  exact this

end Verif.Entity
