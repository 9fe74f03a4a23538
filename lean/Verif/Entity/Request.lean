import Verif.Entity.Lemmas
/-
Which job decides about the target speed.
-/
namespace Verif.Entity
open Verif.Job
set_option linter.unusedSectionVars false

section generic
variable {σ T : Type} [Add T]

theorem update_split (step : T) (ev : Event) (i : Nat) (st : σ) (a b : List (Job σ T)) :
    updateLoop step ev i st (a ++ b) =
      let r := updateLoop step ev i st a
      if r.2.2.2 then (r.1, r.2.1 ++ b, r.2.2.1, true)
      else
        let r' := updateLoop step ev (i + a.length) r.1 b
        (r'.1, r.2.1 ++ r'.2.1, r.2.2.1 ++ r'.2.2.1, r'.2.2.2) := by
  induction a generalizing i st with
  | nil => simp [updateLoop]
  | cons j a ih =>
    have e : i + (a.length + 1) = i + 1 + a.length := by omega
    rw [List.cons_append]
    simp only [updateLoop, List.length_cons, e]
    by_cases c : j.event = ev ∧ j.active = true
    · simp only [if_pos c]
      rcases hj : j.onUpdate j.duration st with ⟨st', out⟩
      cases out with
      | throws => simp
      | returns b' =>
        cases b' with
        | true =>
          simp only
          rw [ih]
          by_cases t : (updateLoop step ev (i + 1) (j.onCleanup st') a).2.2.2 = true <;> simp [t]
        | false =>
          simp only
          rw [ih]
          by_cases t : (updateLoop step ev (i + 1) st' a).2.2.2 = true <;> simp [t]
    · simp only [if_neg c]
      rw [ih]
      by_cases t : (updateLoop step ev (i + 1) st a).2.2.2 = true <;> simp [t]

end generic

variable {V : Type} [Zero V] [Add V] [Mul V] {N : Num V}

/-- All jobs are post-update jobs, and only the clean-up of speed requests touches the target speed. -/
def Tidy (s : S (Ent V) V) : Prop :=
  ∀ j ∈ s.jobs, j.event = .post ∧ (j.type ≠ .linearVelocity → ∀ e, (j.onCleanup e).target = e.target)

theorem tidy_append (u : V → Ent V → Ent V × Outcome) (c : Ent V → Ent V) (t : JType) (x : Bool)
    {s : S (Ent V) V} (h : Tidy s) (hc : t ≠ .linearVelocity → ∀ e, (c e).target = e.target) :
    Tidy (append u c t x .post s) := by
  intro j hj
  unfold append at hj
  simp only [inactivate_jobs] at hj
  rcases List.mem_append.mp hj with hj | hj
  · obtain ⟨j0, h0, e1, _, e2, _, e4⟩ := inactivate_mem (T := V) _ _ j hj
    rw [e1, e2, e4]; exact h j0 h0
  · simp only [List.mem_singleton] at hj
    subst hj
    exact ⟨rfl, hc⟩

theorem tidy_update (step : V) (ev : Event) {s : S (Ent V) V} (h : Tidy s) : Tidy (update step ev s).1 := by
  intro j hj
  obtain ⟨j0, h0, e1, _, e2, _, e4⟩ := update_mem _ _ _ _ _ _ hj
  rw [e1, e2, e4]; exact h j0 h0

theorem tidy_frame (step speed : V) (atEnd : Bool) (r : Option V) {s : S (Ent V) V} (h : Tidy s) :
    Tidy (frame step speed atEnd r s).1 := by
  have h1 : Tidy (update step .pre { s with st := { s.st with reference := r } }).1 := tidy_update step .pre h
  unfold frame
  simp only
  split
  · exact h1
  · split
    · exact h1
    · exact tidy_update step .post (s := { (update step .pre _).1 with st := _ }) h1

theorem tidy_exec (o : EOp V) {s : S (Ent V) V} (h : Tidy s) : Tidy (exec N s o) := by
  cases o with
  | frame step speed atEnd r => exact tidy_frame step speed atEnd r h
  | speed v c =>
    show Tidy (requestSpeed N v c s)
    unfold requestSpeed
    split
    · exact h
    · exact tidy_append _ _ _ _ (s := { s with st := _ }) h (fun c => absurd rfl c)
  | relative f c =>
    show Tidy (requestRelative N f c s)
    unfold requestRelative
    split
    · exact h
    · split
      · exact h
      · exact tidy_append _ _ _ _ h (fun c => absurd rfl c)
  | limit l d => exact tidy_append _ _ _ _ (s := { s with st := _ }) h (fun _ _ => rfl)
  | sync f => exact tidy_append _ _ _ _ h (fun _ _ => rfl)
  | range ok => exact tidy_append _ _ _ _ h (fun _ _ => rfl)
  | setSpeed v => exact h

theorem tidy_run (N : Num V) (e : Ent V) (ops : List (EOp V)) : Tidy (run N e ops) := by
  unfold run
  have : Tidy (construct N e) := by
    intro j hj
    simp only [construct, append, inactivateLoop, List.nil_append, List.mem_append, List.mem_singleton] at hj
    simp at hj
    rcases hj with rfl | rfl <;> exact ⟨rfl, fun _ _ => rfl⟩
  revert this
  generalize construct N e = s
  induction ops generalizing s with
  | nil => exact fun h => h
  | cons o ops ih => exact fun h => ih _ (tidy_exec o h)

/-- The request with the body `u` is the last one that decides about the target speed. -/
def Decides (u : V → Ent V → Ent V × Outcome) (s : S (Ent V) V) : Prop :=
  Tidy s ∧ ∃ pre jv post, s.jobs = pre ++ jv :: post ∧ jv.active = true ∧ jv.type = .linearVelocity ∧
    jv.onUpdate = u ∧
    ∀ j ∈ post, j.type ≠ .linearVelocity ∧ ∀ d e, (j.onUpdate d e).1.target = e.target

theorem decides_request (v : V) (c : Bool) {s : S (Ent V) V} (h : Tidy s)
    (hr : (N.reached v s.st.speed && !c) = false) : Decides (absoluteBody N v c) (requestSpeed N v c s) := by
  refine ⟨tidy_exec (.speed v c) h, ?_⟩
  unfold requestSpeed
  rw [hr]
  exact ⟨_, _, [], rfl, rfl, rfl, rfl, by simp⟩

theorem decides_relative (f : V → V) (c : Bool) {s : S (Ent V) V} (h : Tidy s) (r : V) (hs : s.st.reference = some r)
    (hr : (N.reached (f r) s.st.speed && !c) = false) : Decides (relativeBody N f c) (requestRelative N f c s) := by
  refine ⟨tidy_exec (.relative f c) h, ?_⟩
  unfold requestRelative
  rw [hs]
  simp only [hr]
  exact ⟨_, _, [], rfl, rfl, rfl, rfl, by simp⟩

theorem decides_append {w : V → Ent V → Ent V × Outcome} (u : V → Ent V → Ent V × Outcome) (cl : Ent V → Ent V) (t : JType)
    {s : S (Ent V) V} (h : Decides w s) (ht : t ≠ .linearVelocity) (hc : ∀ e, (cl e).target = e.target)
    (hu : ∀ d e, (u d e).1.target = e.target) : Decides w (append u cl t true .post s) := by
  obtain ⟨hT, pre, jv, post, e, h1, h2, h3, h4⟩ := h
  refine ⟨tidy_append u cl t true hT (fun _ => hc), ?_⟩
  unfold append
  simp only [inactivate_jobs, e, List.map_append, List.map_cons]
  rw [if_neg (c := (_ && jv.active) = true) (by rw [h2]; simp [Ne.symm ht])]
  refine ⟨_, jv, _, by rw [List.append_assoc, List.cons_append], h1, h2, h3, ?_⟩
  intro j hj
  rcases List.mem_append.mp hj with hj | hj
  · obtain ⟨j0, h0, e1, _, _, e3, _⟩ := inactivate_mem (T := V) _ _ j hj
    rw [e1, e3]; exact h4 j0 h0
  · simp only [List.mem_singleton] at hj
    subst hj
    exact ⟨ht, hu⟩

theorem decides_post (step : V) {u : V → Ent V → Ent V × Outcome} (v : V) {s : S (Ent V) V} (h : Decides u s)
    (hs : ∀ (d : V) (e : Ent V), e.speed = s.st.speed → e.reference = s.st.reference →
      u d e = ({ e with target := some v }, .returns false))
    (keep : ∀ j ∈ s.jobs, (∀ d e, (j.onUpdate d e).1.speed = e.speed ∧ (j.onUpdate d e).1.reference = e.reference) ∧
      ∀ e, (j.onCleanup e).speed = e.speed ∧ (j.onCleanup e).reference = e.reference) :
    Decides u (update step .post s).1 ∧
    ((update step .post s).2 = false → (update step .post s).1.st.target = some v) := by
  obtain ⟨hT, pre, jv, post, e, h1, h2, h3, h4⟩ := h
  have hT' := tidy_update step .post hT
  have hev : jv.event = .post := (hT jv (by rw [e]; simp)).1
  have hsp : (updateLoop step .post 0 s.st pre).1.speed = s.st.speed ∧
      (updateLoop step .post 0 s.st pre).1.reference = s.st.reference :=
    update_rel (fun a b : Ent V => b.speed = a.speed ∧ b.reference = a.reference) (fun _ => ⟨rfl, rfl⟩)
      (fun a b c h h' => ⟨h'.1.trans h.1, h'.2.trans h.2⟩) step .post 0
      s.st pre (fun j hj => keep j (by rw [e]; simp [hj]))
  have hrun : ∀ e0 : Ent V, e0.speed = s.st.speed ∧ e0.reference = s.st.reference →
      jv.onUpdate jv.duration e0 = ({ e0 with target := some v }, .returns false) := by
    intro e0 he0
    rw [h3]; exact hs _ e0 he0.1 he0.2
  have hsplit := update_split step .post 0 s.st pre (jv :: post)
  rw [← e] at hsplit
  simp only at hsplit
  by_cases t : (updateLoop step .post 0 s.st pre).2.2.2 = true
  · rw [if_pos t] at hsplit
    refine ⟨⟨hT', (updateLoop step .post 0 s.st pre).2.1, jv, post, ?_, h1, h2, h3, h4⟩, ?_⟩
    · show (updateLoop step .post 0 s.st s.jobs).2.1 = _
      rw [hsplit]
    · show (updateLoop step .post 0 s.st s.jobs).2.2.2 = false → _
      rw [hsplit]; intro c; cases c
  · rw [if_neg t] at hsplit
    have hcons : ∀ i, updateLoop step .post i (updateLoop step .post 0 s.st pre).1 (jv :: post) =
        let r := updateLoop step .post (i + 1) { (updateLoop step .post 0 s.st pre).1 with target := some v } post
        (r.1, { jv with duration := jv.duration + step } :: r.2.1, .ran i :: r.2.2.1, r.2.2.2) := by
      intro i
      rw [updateLoop, if_pos ⟨hev, h1⟩, hrun _ hsp]
    rw [hcons] at hsplit
    refine ⟨⟨hT', (updateLoop step .post 0 s.st pre).2.1, { jv with duration := jv.duration + step },
      (updateLoop step .post (0 + pre.length + 1)
        { (updateLoop step .post 0 s.st pre).1 with target := some v } post).2.1, ?_, ?_, ?_, ?_, ?_⟩, ?_⟩
    · show (updateLoop step .post 0 s.st s.jobs).2.1 = _
      rw [hsplit]
    · exact h1
    · exact h2
    · exact h3
    · intro j hj
      obtain ⟨j0, h0, e1, _, _, e3, _⟩ := update_mem _ _ _ _ _ _ hj
      rw [e1, e3]; exact h4 j0 h0
    · intro _
      show (updateLoop step .post 0 s.st s.jobs).1.target = some v
      rw [hsplit]
      exact update_rel (fun a b : Ent V => b.target = a.target) (fun _ => rfl) (fun a b c h h' => h'.trans h)
        step .post _ { (updateLoop step .post 0 s.st pre).1 with target := some v } post
        (fun j hj => ⟨(h4 j hj).2, (hT j (by rw [e]; simp [hj])).2 (h4 j hj).1⟩)

/-- No job changes the speed or the reference entity. -/
def KeepsSpeed (s : S (Ent V) V) : Prop :=
  ∀ j ∈ s.jobs, (∀ d e, (j.onUpdate d e).1.speed = e.speed ∧ (j.onUpdate d e).1.reference = e.reference) ∧
    ∀ e, (j.onCleanup e).speed = e.speed ∧ (j.onCleanup e).reference = e.reference

theorem keeps_append (u : V → Ent V → Ent V × Outcome) (c : Ent V → Ent V) (t : JType) (x : Bool)
    {s : S (Ent V) V} (h : KeepsSpeed s) (hu : ∀ d e, (u d e).1.speed = e.speed ∧ (u d e).1.reference = e.reference)
    (hc : ∀ e, (c e).speed = e.speed ∧ (c e).reference = e.reference) : KeepsSpeed (append u c t x .post s) := by
  intro j hj
  unfold append at hj
  simp only [inactivate_jobs] at hj
  rcases List.mem_append.mp hj with hj | hj
  · obtain ⟨j0, h0, _, _, _, e3, e4⟩ := inactivate_mem (T := V) _ _ j hj
    rw [e3, e4]; exact h j0 h0
  · simp only [List.mem_singleton] at hj
    subst hj
    exact ⟨hu, hc⟩

theorem keeps_update (step : V) (ev : Event) {s : S (Ent V) V} (h : KeepsSpeed s) :
    KeepsSpeed (update step ev s).1 := by
  intro j hj
  obtain ⟨j0, h0, _, _, _, e3, e4⟩ := update_mem _ _ _ _ _ _ hj
  rw [e3, e4]; exact h j0 h0

theorem keeps_exec (o : EOp V) {s : S (Ent V) V} (h : KeepsSpeed s) : KeepsSpeed (exec N s o) := by
  cases o with
  | frame step speed atEnd r =>
    show KeepsSpeed (frame step speed atEnd r s).1
    have h1 : KeepsSpeed (update step .pre { s with st := { s.st with reference := r } }).1 :=
      keeps_update step .pre h
    unfold frame
    simp only
    split
    · exact h1
    · split
      · exact h1
      · exact keeps_update step .post (s := { (update step .pre _).1 with st := _ }) h1
  | speed v c =>
    show KeepsSpeed (requestSpeed N v c s)
    unfold requestSpeed
    split
    · exact h
    · exact keeps_append _ _ _ _ (s := { s with st := _ }) h
        (by intro d e; unfold absoluteBody; split <;> exact ⟨rfl, rfl⟩) (by intro e; unfold cancelSpeed; split <;> exact ⟨rfl, rfl⟩)
  | relative f c =>
    show KeepsSpeed (requestRelative N f c s)
    unfold requestRelative
    split
    · exact h
    · split
      · exact h
      · exact keeps_append _ _ _ _ h
          (by intro d e; unfold relativeBody; split
              · exact ⟨rfl, rfl⟩
              · split <;> exact ⟨rfl, rfl⟩) (by intro e; unfold cancelSpeed; split <;> exact ⟨rfl, rfl⟩)
  | limit l d => exact keeps_append _ _ _ _ (s := { s with st := _ }) h (fun _ _ => ⟨rfl, rfl⟩) (fun _ => ⟨rfl, rfl⟩)
  | sync f => exact keeps_append _ _ _ _ h (by intro d e; split <;> exact ⟨rfl, rfl⟩) (fun _ => ⟨rfl, rfl⟩)
  | range ok => exact keeps_append _ _ _ _ h (fun _ _ => ⟨rfl, rfl⟩) (fun _ => ⟨rfl, rfl⟩)
  | setSpeed v => exact h

theorem keeps_run (N : Num V) (e : Ent V) (ops : List (EOp V)) : KeepsSpeed (run N e ops) := by
  unfold run
  have : KeepsSpeed (construct N e) := by
    intro j hj
    simp only [construct, append, inactivateLoop, List.nil_append, List.mem_append, List.mem_singleton] at hj
    simp at hj
    rcases hj with rfl | rfl <;> exact ⟨fun _ _ => ⟨rfl, rfl⟩, fun _ => ⟨rfl, rfl⟩⟩
  revert this
  generalize construct N e = s
  induction ops generalizing s with
  | nil => exact fun h => h
  | cons o ops ih => exact fun h => ih _ (keeps_exec o h)

theorem pre_idle (step : V) {s : S (Ent V) V} (h : Tidy s) : update step .pre s = (s, false) := by
  unfold update
  rw [update_idle _ _ _ _ _ (fun j hj => by rw [(h j hj).1]; simp)]
  simp

theorem decides_frame (step speed : V) (atEnd : Bool) (r : Option V) {u : V → Ent V → Ent V × Outcome} (v : V) {s : S (Ent V) V}
    (h : Decides u s) (hk : KeepsSpeed s)
    (hs : atEnd = false → ∀ (d : V) (e : Ent V), e.speed = speed → e.reference = r → u d e = ({ e with target := some v }, .returns false)) :
    Decides u (frame step speed atEnd r s).1 ∧
    (atEnd = false → (frame step speed atEnd r s).2 = false →
      (frame step speed atEnd r s).1.st.target = some v) := by
  unfold frame
  have ht : Tidy { s with st := { s.st with reference := r } } := h.1
  simp only [pre_idle step ht]
  cases atEnd with
  | true => exact ⟨h, fun c => (by cases c)⟩
  | false =>
    have hd : Decides u { s with st := { s.st with reference := r, step := step, speed := speed } } := h
    have := decides_post step v hd (hs rfl) hk
    exact ⟨this.1, fun _ => this.2⟩

theorem absolute_sets (v : V) (c : Bool) (d : V) (e : Ent V) (h : c = true ∨ N.reached v e.speed = false) :
    absoluteBody N v c d e = ({ e with target := some v }, .returns false) := by
  unfold absoluteBody
  rw [if_neg (by rcases h with rfl | h
                 · simp
                 · simp [h])]

theorem relative_sets (f : V → V) (c : Bool) (r : V) (d : V) (e : Ent V) (hr : e.reference = some r) (h : c = true ∨ N.reached (f r) e.speed = false) :
    relativeBody N f c d e = ({ e with target := some (f r) }, .returns false) := by
  unfold relativeBody
  rw [hr]
  simp only
  rw [if_neg (by rcases h with rfl | h
                 · simp
                 · simp [h])]

end Verif.Entity
