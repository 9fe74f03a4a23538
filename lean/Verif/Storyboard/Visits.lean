import Verif.Storyboard.InvBoard
/-
Which elements are visited by one evaluation (helper lemmas for C08).
-/
namespace Verif.Storyboard

theorem dispatch_pres (h : Hooks) (P : World → Prop)
    (hstartT : ∀ w, P w → P (h.startTrigger w).2)
    (hgoto : ∀ w s, P w → P (w.goto h.ref s))
    (hcnt : ∀ w n, P w → P (w.setCnt h.ref n))
    (hstart : ∀ w, P w → P (h.start w)) (hrun : ∀ w, P w → P (h.run w))
    (hstop : ∀ w, P w → P (h.stop w)) (s : St) (n : Nat) (w : World) (hw : P w) :
    P (dispatch h s n w) := by
  refine dispatch_rule h (fun _ _ w => P w) P ?_ ?_ ?_ ?_ ?_ ?_ ?_ ?_ ?_ ?_ ?_ s n w hw
  · intro n w hw _; exact hstartT w hw
  · intro n w hw _ _; exact hgoto _ _ (hgoto _ _ (hstartT w hw))
  · intro n w hw _ _; exact hgoto _ _ (hstartT w hw)
  · intro n w hw; exact hcnt _ _ (hgoto _ _ (hstart w hw))
  · intro n w hw _; exact hgoto _ _ (hrun w hw)
  · intro n w hw _; exact hrun w hw
  · intro n w hw _; exact hgoto _ _ hw
  · intro n w hw _; exact hgoto _ _ hw
  · intro n w hw; exact hw
  · intro n w hw; exact hw
  · intro n w hw
    split
    · exact hgoto _ _ hw
    · exact hgoto _ _ (hstop w hw)

theorem visits_cons (k : Kind) (x : Entry) (l : Log) :
    visits k (x :: l) = visits k l ++ (match x with
      | .visit r => if r.kind = k then [r] else []
      | _ => []) := by
  simp only [visits, List.reverse_cons, List.filterMap_append]
  congr 1
  cases x with
  | visit r =>
    simp only [List.filterMap_cons, List.filterMap_nil]
    by_cases h : r.kind = k <;> simp [h]
  | _ => rfl

theorem visits_emit_of_not_visit {k : Kind} {x : Entry} (w : World) (h : ∀ r, x ≠ .visit r) :
    visits k (w.emit x).log = visits k w.log := by
  rw [emit_log, visits_cons]; cases x <;> simp_all

theorem visits_goto {k : Kind} (w : World) (r : Ref) (s : St) :
    visits k (w.goto r s).log = visits k w.log := by rw [goto_log, visits_cons]; simp

theorem visits_override {k : Kind} (w : World) (r : Ref) :
    visits k (w.override r).log = visits k w.log := by
  unfold World.override; split
  · exact visits_goto _ _ _
  · rfl

theorem visits_only {k : Kind} {T : Ref → Prop} {w w' : World} (h : Only T w w')
    (hT : ∀ r, T r → r.kind ≠ k) : visits k w'.log = visits k w.log := by
  obtain ⟨d, hd, hw⟩ := h.log
  rw [hd]; clear hd
  induction d with
  | nil => rfl
  | cons x d ih =>
    rw [List.cons_append, visits_cons, ih (fun y hy => hw y (List.mem_cons_of_mem _ hy))]
    have := hw x List.mem_cons_self
    cases x <;> simp
    exact hT _ this

/-- An evaluation of an element visits that element once and, of its own kind, nothing else. -/
theorem visits_evaluate_self (h : Hooks)
    (hstopT : ∀ w, visits h.ref.kind (h.stopTrigger w).2.log = visits h.ref.kind w.log)
    (hstartT : ∀ w, visits h.ref.kind (h.startTrigger w).2.log = visits h.ref.kind w.log)
    (hstart : ∀ w, visits h.ref.kind (h.start w).log = visits h.ref.kind w.log)
    (hrun : ∀ w, visits h.ref.kind (h.run w).log = visits h.ref.kind w.log)
    (hstop : ∀ w, visits h.ref.kind (h.stop w).log = visits h.ref.kind w.log) (w : World) :
    visits h.ref.kind (evaluate h w).log = visits h.ref.kind w.log ++ [h.ref] := by
  have h0 : visits h.ref.kind (w.emit (.visit h.ref)).log = visits h.ref.kind w.log ++ [h.ref] := by
    rw [emit_log, visits_cons]; simp
  unfold evaluate
  apply dispatch_pres h (fun w' => visits h.ref.kind w'.log = visits h.ref.kind w.log ++ [h.ref])
  · intro w' h'; rw [hstartT, h']
  · intro w' s h'; rw [visits_goto, h']
  · intro w' n h'; exact h'
  · intro w' h'; rw [hstart, h']
  · intro w' h'; rw [hrun, h']
  · intro w' h'; rw [hstop, h']
  · split
    · rw [visits_override, hstopT, h0]
    · rw [hstopT, h0]

/-- An element that is running and in its last execution visits what `run` visits. -/
theorem visits_evaluate_running (h : Hooks) (k : Kind) (hk : h.ref.kind ≠ k) (cs : List Ref)
    (hrun : ∀ w, visits k (h.run w).log = visits k w.log ++ cs) (w : World)
    (hst : w.st h.ref = .running) (hstopT : (h.stopTrigger (w.emit (.visit h.ref))).1 = false)
    (hstopV : ∀ w, visits k (h.stopTrigger w).2.log = visits k w.log)
    (hs : (h.stopTrigger (w.emit (.visit h.ref))).2.st = w.st)
    (hc : (h.stopTrigger (w.emit (.visit h.ref))).2.cnt = w.cnt)
    (hmax : h.max ≤ w.cnt h.ref) :
    visits k (evaluate h w).log = visits k w.log ++ cs := by
  have h0 : visits k (h.stopTrigger (w.emit (.visit h.ref))).2.log = visits k w.log := by
    rw [hstopV, emit_log, visits_cons]; simp [hk]
  unfold evaluate
  simp only [hstopT, hs, hc, hst, Bool.false_eq_true, if_false]
  generalize (h.stopTrigger (w.emit (.visit h.ref))).2 = w1 at *
  rw [dispatch]
  split
  · rw [dispatch, if_neg (by omega), dispatch]
    rw [visits_goto, visits_goto, hrun, h0]
  · rw [hrun, h0]

/-- A running element visits what `run` visits, once per execution that goes on in this
evaluation. -/
theorem visits_evaluate_runs (h : Hooks) (k : Kind) (hk : h.ref.kind ≠ k) (cs : List Ref)
    (hrun : ∀ w, visits k (h.run w).log = visits k w.log ++ cs)
    (hrunC : ∀ w, (h.run w).cnt h.ref = w.cnt h.ref)
    (hstart : ∀ w, visits k (h.start w).log = visits k w.log)
    (hstartT : ∀ w, visits k (h.startTrigger w).2.log = visits k w.log)
    (hstartTC : ∀ w, (h.startTrigger w).2.cnt = w.cnt)
    (hstopT : ∀ w, h.stopTrigger w = (false, w)) (w : World) (hst : w.st h.ref = .running) :
    w.cnt h.ref ≤ (evaluate h w).cnt h.ref ∧
    visits k (evaluate h w).log = visits k w.log ++
      (List.replicate (1 + ((evaluate h w).cnt h.ref - w.cnt h.ref)) cs).flatten := by
  have h0 : visits k (w.emit (.visit h.ref)).log = visits k w.log := by
    rw [emit_log, visits_cons]; simp [hk]
  unfold evaluate
  simp only [hstopT, emit_st, hst, emit_cnt, Bool.false_eq_true, if_false]
  have hsnoc : ∀ j, (List.replicate j cs).flatten ++ cs = (List.replicate (1 + j) cs).flatten := by
    intro j; rw [Nat.add_comm, List.replicate_succ']; simp
  refine dispatch_rule h
    (fun s n w' => w'.cnt h.ref = n ∧ w.cnt h.ref ≤ n ∧ s ≠ .skip ∧ s ≠ .stop ∧
      visits k w'.log = visits k w.log ++
        (List.replicate (if s = .running then n - w.cnt h.ref else 1 + (n - w.cnt h.ref)) cs).flatten)
    (fun w' => w.cnt h.ref ≤ w'.cnt h.ref ∧ visits k w'.log = visits k w.log ++
        (List.replicate (1 + (w'.cnt h.ref - w.cnt h.ref)) cs).flatten)
    ?_ ?_ ?_ ?_ ?_ ?_ ?_ ?_ ?_ ?_ ?_ _ _ _ ?_
  · rintro n w' ⟨h1, h2, -, -, h3⟩ -
    rw [hstartT, hstartTC, h1]; exact ⟨h2, by simpa using h3⟩
  · rintro n w' ⟨h1, h2, -, -, h3⟩ - -
    rw [visits_goto, visits_goto, hstartT, goto_cnt, goto_cnt, hstartTC, h1]
    exact ⟨h2, by simpa using h3⟩
  · rintro n w' ⟨h1, h2, -, -, h3⟩ - -
    refine ⟨by rw [goto_cnt, hstartTC, h1], h2, by decide, by decide, ?_⟩
    rw [visits_goto, hstartT]; simpa using h3
  · rintro n w' ⟨h1, h2, -, -, h3⟩
    refine ⟨by simp, by omega, by decide, by decide, ?_⟩
    rw [setCnt_log, visits_goto, hstart]
    have : n + 1 - w.cnt h.ref = 1 + (n - w.cnt h.ref) := by omega
    simpa [this] using h3
  · rintro n w' ⟨h1, h2, -, -, h3⟩ -
    refine ⟨by rw [goto_cnt, hrunC, h1], h2, by decide, by decide, ?_⟩
    rw [visits_goto, hrun, h3, List.append_assoc]; simp [hsnoc]
  · rintro n w' ⟨h1, h2, -, -, h3⟩ -
    rw [hrunC, hrun, h3, h1, List.append_assoc]; simp [hsnoc, h2]
  · rintro n w' ⟨h1, h2, -, -, h3⟩ -
    refine ⟨h1, h2, by decide, by decide, ?_⟩
    rw [visits_goto]; simpa using h3
  · rintro n w' ⟨h1, h2, -, -, h3⟩ -
    refine ⟨h1, h2, by decide, by decide, ?_⟩
    rw [visits_goto]; simpa using h3
  · rintro n w' ⟨h1, h2, -, -, h3⟩
    rw [h1]; exact ⟨h2, by simpa using h3⟩
  · rintro n w' ⟨_, _, h, _, _⟩; exact absurd rfl h
  · rintro n w' ⟨_, _, _, h, _⟩; exact absurd rfl h
  · exact ⟨rfl, Nat.le_refl _, by decide, by decide, by rw [h0]; simp⟩

/-- Loop over children each of which is visited once. -/
theorem visits_foldl {α : Type} {k : Kind} (f : World → α → World) (r : α → Ref) (l : List α)
    (hf : ∀ w, ∀ x ∈ l, visits k (f w x).log = visits k w.log ++ [r x]) (w : World) :
    visits k (l.foldl f w).log = visits k w.log ++ l.map r := by
  induction l generalizing w with
  | nil => simp
  | cons x l ih =>
    rw [List.foldl_cons, ih (fun w y hy => hf w y (List.mem_cons_of_mem _ hy)),
      hf w x List.mem_cons_self]
    simp

theorem visits_foldl_same {α : Type} {k : Kind} (f : World → α → World) (l : List α)
    (hf : ∀ w, ∀ x ∈ l, visits k (f w x).log = visits k w.log) (w : World) :
    visits k (l.foldl f w).log = visits k w.log :=
  foldl_pres (fun w' => visits k w'.log = visits k w.log) f l
    (fun w' x hx h => by rw [hf w' x hx, h]) w rfl

theorem visits_evalAction (env : Env) (a : Nat) (w : World) :
    visits .action (evalAction env a w).log = visits .action w.log ++ [actionRef a] := by
  refine visits_evaluate_self (actionHooks env a) (fun _ => rfl) (fun _ => rfl) ?_ ?_ ?_ w
  · intro w; exact visits_emit_of_not_visit w (by simp)
  · intro w; exact visits_emit_of_not_visit w (by simp)
  · intro w; simp only [actionHooks]; split <;> rfl

theorem visits_evalAction_ne {k : Kind} (hk : Kind.action ≠ k) (env : Env) (a : Nat) (w : World) :
    visits k (evalAction env a w).log = visits k w.log :=
  visits_only (only_evalAction env a w) (by rintro r rfl; exact hk)

theorem visits_evalEvent (env : Env) (sib : List Event) (e : Event) (w : World) :
    visits .event (evalEvent env sib e w).log = visits .event w.log ++ [e.ref] := by
  refine visits_evaluate_self (eventHooks env sib e) (fun _ => rfl) ?_ ?_ ?_ ?_ w
  · intro w; exact visits_emit_of_not_visit w (by simp)
  · intro w
    show visits .event (forceStart (e.actions.map actionRef)
      (if e.priority = .override then overrideEvents sib w else w)).log = _
    unfold forceStart
    rw [visits_foldl_same _ _ (fun w c _ => visits_goto w _ _)]
    split
    · exact visits_foldl_same _ _ (fun w c _ => visits_override w _) w
    · rfl
  · intro w
    exact visits_foldl_same _ _ (fun w a _ => visits_evalAction_ne (k := .event) (by decide) env a w) w
  · intro w
    exact visits_foldl_same _ _ (fun w a _ => by
      exact (visits_evalAction_ne (k := .event) (by decide) env a _).trans (visits_override _ _)) w

theorem Event.owns_kind {sib : List Event} {e : Event} {r : Ref} (h : e.owns sib r) :
    r.kind = .event ∨ r.kind = .action := by
  rcases h with rfl | ⟨s, _, rfl⟩ | ⟨a, _, rfl⟩ <;> simp

theorem Maneuver.owns_kind {m : Maneuver} {r : Ref} (h : m.owns r) :
    r.kind = .maneuver ∨ r.kind = .event ∨ r.kind = .action := by
  rcases h with rfl | ⟨e, _, h⟩
  · exact Or.inl rfl
  · exact Or.inr (Event.owns_kind h)

theorem Group.owns_kind {m : Group} {r : Ref} (h : m.owns r) :
    r.kind = .group ∨ r.kind = .maneuver ∨ r.kind = .event ∨ r.kind = .action := by
  rcases h with rfl | ⟨e, _, h⟩
  · exact Or.inl rfl
  · exact Or.inr (Maneuver.owns_kind h)

theorem Act.owns_kind {m : Act} {r : Ref} (h : m.owns r) :
    r.kind = .act ∨ r.kind = .group ∨ r.kind = .maneuver ∨ r.kind = .event ∨ r.kind = .action := by
  rcases h with rfl | ⟨e, _, h⟩
  · exact Or.inl rfl
  · exact Or.inr (Group.owns_kind h)

theorem Story.owns_kind {m : Story} {r : Ref} (h : m.owns r) :
    r.kind = .story ∨ r.kind = .act ∨ r.kind = .group ∨ r.kind = .maneuver ∨ r.kind = .event ∨
      r.kind = .action := by
  rcases h with rfl | ⟨e, _, h⟩
  · exact Or.inl rfl
  · exact Or.inr (Act.owns_kind h)

theorem visits_evalManeuver (env : Env) (m : Maneuver) (w : World) :
    visits .maneuver (evalManeuver env m w).log = visits .maneuver w.log ++ [m.ref] := by
  have hev : ∀ e w, visits .maneuver (evalEvent env m.events e w).log = visits .maneuver w.log :=
    fun e w => visits_only (only_evalEvent env m.events e w)
      (fun r hr => by rcases Event.owns_kind hr with h | h <;> simp [h])
  refine visits_evaluate_self (maneuverHooks env m) (fun _ => rfl) (fun _ => rfl) (fun _ => rfl) ?_ ?_ w
  · intro w; exact visits_foldl_same _ _ (fun w e _ => hev e w) w
  · intro w; exact visits_foldl_same _ _ (fun w e _ => by
      exact (hev _ _).trans (visits_override _ _)) w

theorem visits_evalGroup (env : Env) (g : Group) (w : World) :
    visits .group (evalGroup env g w).log = visits .group w.log ++ [g.ref] := by
  have hev : ∀ m w, visits .group (evalManeuver env m w).log = visits .group w.log :=
    fun m w => visits_only (only_evalManeuver env m w)
      (fun r hr => by rcases Maneuver.owns_kind hr with h | h | h <;> simp [h])
  refine visits_evaluate_self (groupHooks env g) (fun _ => rfl) (fun _ => rfl) ?_ ?_ ?_ w
  · intro w; exact visits_foldl_same _ _ (fun w c _ => visits_goto w _ _) w
  · intro w; exact visits_foldl_same _ _ (fun w e _ => hev e w) w
  · intro w; exact visits_foldl_same _ _ (fun w e _ => by
      exact (hev _ _).trans (visits_override _ _)) w

theorem visits_evalAct (env : Env) (a : Act) (w : World) :
    visits .act (evalAct env a w).log = visits .act w.log ++ [a.ref] := by
  have hev : ∀ m w, visits .act (evalGroup env m w).log = visits .act w.log :=
    fun m w => visits_only (only_evalGroup env m w)
      (fun r hr => by rcases Group.owns_kind hr with h | h | h | h <;> simp [h])
  refine visits_evaluate_self (actHooks env a) ?_ ?_ (fun _ => rfl) ?_ ?_ w
  · intro w; exact visits_emit_of_not_visit w (by simp)
  · intro w; exact visits_emit_of_not_visit w (by simp)
  · intro w; exact visits_foldl_same _ _ (fun w e _ => hev e w) w
  · intro w; exact visits_foldl_same _ _ (fun w e _ => by
      exact (hev _ _).trans (visits_override _ _)) w

theorem visits_evalStory (env : Env) (s : Story) (w : World) :
    visits .story (evalStory env s w).log = visits .story w.log ++ [s.ref] := by
  have hev : ∀ m w, visits .story (evalAct env m w).log = visits .story w.log :=
    fun m w => visits_only (only_evalAct env m w)
      (fun r hr => by rcases Act.owns_kind hr with h | h | h | h | h <;> simp [h])
  refine visits_evaluate_self (storyHooks env s) (fun _ => rfl) (fun _ => rfl) (fun _ => rfl) ?_ ?_ w
  · intro w; exact visits_foldl_same _ _ (fun w e _ => hev e w) w
  · intro w; exact visits_foldl_same _ _ (fun w e _ => by
      exact (hev _ _).trans (visits_override _ _)) w

end Verif.Storyboard
