import Verif.Job.Spec
/-
What the loops do to the single jobs.
-/
namespace Verif.Job
set_option linter.unusedSimpArgs false
set_option linter.unusedSectionVars false
variable {σ T : Type}

theorem of_ran (k i : Nat) (l : List Call) : of k (.ran i :: l) = if i = k then .ran i :: of k l else of k l := by
  by_cases h : i = k <;> simp [of, List.filter_cons, Call.job, h]

theorem of_cleaned (k i : Nat) (l : List Call) :
    of k (.cleaned i :: l) = if i = k then .cleaned i :: of k l else of k l := by
  by_cases h : i = k <;> simp [of, List.filter_cons, Call.job, h]

theorem inactivate_jobs (m : Job σ T → Bool) (i : Nat) (st : σ) (js : List (Job σ T)) :
    (inactivateLoop m i st js).2.1 =
      js.map (fun j => if m j && j.active then { j with active := false } else j) := by
  induction js generalizing i st with
  | nil => rfl
  | cons j js ih =>
    unfold inactivateLoop
    by_cases h : (m j && j.active) = true
    · simp only [h, if_true, ih, List.map_cons]
    · simp only [h, ih, List.map_cons]; rfl

theorem inactivate_small (m : Job σ T → Bool) (i : Nat) (st : σ) (js : List (Job σ T)) (k : Nat)
    (h : k < i ∨ i + js.length ≤ k) : of k (inactivateLoop m i st js).2.2 = [] := by
  induction js generalizing i st with
  | nil => rfl
  | cons j js ih =>
    simp only [List.length_cons] at h
    unfold inactivateLoop
    split
    · show of k (Call.cleaned i :: _) = []
      rw [show of k (Call.cleaned i :: (inactivateLoop m (i + 1) (j.onCleanup st) js).2.2) =
        of k (inactivateLoop m (i + 1) (j.onCleanup st) js).2.2 from by
          unfold of; rw [List.filter_cons_of_neg]; simp [Call.job]; omega]
      exact ih (i + 1) _ (by omega)
    · exact ih (i + 1) _ (by omega)

theorem inactivate_calls (m : Job σ T → Bool) (i : Nat) (st : σ) (js : List (Job σ T)) (k : Nat)
    (j : Job σ T) (h : js[k]? = some j) :
    of (i + k) (inactivateLoop m i st js).2.2 = if m j && j.active then [.cleaned (i + k)] else [] := by
  induction js generalizing i st k with
  | nil => simp at h
  | cons a js ih =>
    unfold inactivateLoop
    cases k with
    | zero =>
      simp only [List.getElem?_cons_zero, Option.some.injEq] at h
      subst h
      by_cases c : (m a && a.active) = true
      · simp only [c, if_true]
        have := inactivate_small m (i + 1) (a.onCleanup st) js i (by omega)
        simp [of_ran, of_cleaned, this]
      · simp only [c]
        exact inactivate_small m (i + 1) st js i (by omega)
    | succ k =>
      simp only [List.getElem?_cons_succ] at h
      have e : i + (k + 1) = i + 1 + k := by omega
      by_cases c : (m a && a.active) = true
      · simp only [c, if_true]
        rw [e, ← ih (i + 1) (a.onCleanup st) k h]
        unfold of
        rw [List.filter_cons_of_neg]
        simp [Call.job]; omega
      · simp only [c]
        rw [e]
        exact ih (i + 1) st k h

/-- What an update can do to one job. -/
def Upd (ev : Event) (k : Nat) (j j' : Job σ T) (calls : List Call) : Prop :=
  j'.type = j.type ∧ j'.exclusive = j.exclusive ∧ j'.event = j.event ∧ j'.onUpdate = j.onUpdate ∧
  j'.onCleanup = j.onCleanup ∧
  ((calls = [] ∧ j' = j) ∨
   (j.active = true ∧ j.event = ev ∧ j'.active = true ∧ calls = [.ran k]) ∨
   (j.active = true ∧ j.event = ev ∧ j'.active = false ∧ calls = [.ran k, .cleaned k]))

variable [Add T]

theorem update_small (step : T) (ev : Event) (i : Nat) (st : σ) (js : List (Job σ T)) (k : Nat)
    (h : k < i ∨ i + js.length ≤ k) : of k (updateLoop step ev i st js).2.2.1 = [] := by
  induction js generalizing i st with
  | nil => rfl
  | cons j js ih =>
    simp only [List.length_cons] at h
    have n1 : ¬ (i == k) = true := by simp; omega
    unfold updateLoop
    split
    · split
      · simp [of, Call.job]; omega
      · have := ih (i + 1) (j.onCleanup ‹σ›) (by omega)
        unfold of at this ⊢
        simp only [List.filter_cons, Call.job]
        rw [if_neg n1, if_neg n1]
        exact this
      · have := ih (i + 1) ‹σ› (by omega)
        unfold of at this ⊢
        simp only [List.filter_cons, Call.job]
        rw [if_neg n1]
        exact this
    · exact ih (i + 1) _ (by omega)

theorem update_length (step : T) (ev : Event) (i : Nat) (st : σ) (js : List (Job σ T)) :
    (updateLoop step ev i st js).2.1.length = js.length := by
  induction js generalizing i st with
  | nil => rfl
  | cons j js ih =>
    unfold updateLoop
    split
    · split <;> simp [ih]
    · simp [ih]

theorem update_calls (step : T) (ev : Event) (i : Nat) (st : σ) (js : List (Job σ T)) (k : Nat)
    (j : Job σ T) (h : js[k]? = some j) :
    ∃ j', (updateLoop step ev i st js).2.1[k]? = some j' ∧
      Upd ev (i + k) j j' (of (i + k) (updateLoop step ev i st js).2.2.1) := by
  induction js generalizing i st k with
  | nil => simp at h
  | cons a js ih =>
    unfold updateLoop
    cases k with
    | zero =>
      simp only [List.getElem?_cons_zero, Option.some.injEq] at h
      subst h
      split
      · rename_i c
        split
        · exact ⟨a, rfl, rfl, rfl, rfl, rfl, rfl, .inr (.inl ⟨c.2, c.1, c.2, by simp [of, Call.job]⟩)⟩
        · refine ⟨_, rfl, rfl, rfl, rfl, rfl, rfl, .inr (.inr ⟨c.2, c.1, rfl, ?_⟩)⟩
          have := update_small step ev (i + 1) (a.onCleanup ‹σ›) js i (by omega)
          simp [of_ran, of_cleaned, this]
        · refine ⟨_, rfl, rfl, rfl, rfl, rfl, rfl, .inr (.inl ⟨c.2, c.1, c.2, ?_⟩)⟩
          have := update_small step ev (i + 1) ‹σ› js i (by omega)
          simp [of_ran, of_cleaned, this]
      · exact ⟨_, rfl, rfl, rfl, rfl, rfl, rfl, .inl ⟨update_small step ev (i + 1) st js i (by omega), rfl⟩⟩
    | succ k =>
      simp only [List.getElem?_cons_succ] at h
      have e : i + (k + 1) = i + 1 + k := by omega
      have n1 : ¬ (i == i + 1 + k) = true := by simp; omega
      rw [e]
      split
      · split
        · refine ⟨j, by simpa using h, rfl, rfl, rfl, rfl, rfl, .inl ⟨?_, rfl⟩⟩
          simp [of, Call.job]; omega
        · obtain ⟨j', h1, h2⟩ := ih (i + 1) (a.onCleanup ‹σ›) k h
          refine ⟨j', by simpa using h1, ?_⟩
          unfold of at h2 ⊢
          simp only [List.filter_cons, Call.job]
          rw [if_neg n1, if_neg n1]
          exact h2
        · obtain ⟨j', h1, h2⟩ := ih (i + 1) ‹σ› k h
          refine ⟨j', by simpa using h1, ?_⟩
          unfold of at h2 ⊢
          simp only [List.filter_cons, Call.job]
          rw [if_neg n1]
          exact h2
      · obtain ⟨j', h1, h2⟩ := ih (i + 1) st k h
        exact ⟨j', by simpa using h1, h2⟩

/-- Without an exception every active job of the event is run. -/
theorem update_runs (step : T) (ev : Event) (i : Nat) (st : σ) (js : List (Job σ T)) (k : Nat)
    (j : Job σ T) (h : js[k]? = some j) (ha : j.active = true) (he : j.event = ev)
    (ht : (updateLoop step ev i st js).2.2.2 = false) :
    of (i + k) (updateLoop step ev i st js).2.2.1 ≠ [] := by
  induction js generalizing i st k with
  | nil => simp at h
  | cons a js ih =>
    revert ht
    unfold updateLoop
    cases k with
    | zero =>
      simp only [List.getElem?_cons_zero, Option.some.injEq] at h
      subst h
      rw [if_pos ⟨he, ha⟩]
      split <;> simp [of_ran]
    | succ k =>
      simp only [List.getElem?_cons_succ] at h
      have e : i + (k + 1) = i + 1 + k := by omega
      have n1 : ¬ i = i + 1 + k := by omega
      rw [e]
      split
      · split
        · intro ht; simp at ht
        · intro ht
          simp only [of_ran, of_cleaned, if_neg n1]
          exact ih (i + 1) _ k h ht
        · intro ht
          simp only [of_ran, of_cleaned, if_neg n1]
          exact ih (i + 1) _ k h ht
      · exact ih (i + 1) _ k h

omit [Add T] in
theorem of_append (k : Nat) (a b : List Call) : of k (a ++ b) = of k a ++ of k b := by
  simp [of]

theorem replicate_snoc (n : Nat) (c : Call) (l : List Call) :
    List.replicate n c ++ c :: l = List.replicate (n + 1) c ++ l := by
  induction n with
  | zero => rfl
  | succ n ih => simp only [List.replicate_succ, List.cons_append, ih]

/-- The calls of a job so far. -/
def Fine (s : S σ T) : Prop :=
  (∀ (k : Nat) (j : Job σ T), s.jobs[k]? = some j → ∃ n, of k s.log =
    List.replicate n (.ran k) ++ if j.active then [] else [.cleaned k]) ∧
  (∀ k, s.jobs.length ≤ k → of k s.log = []) ∧
  (∀ (k k' : Nat) (j j' : Job σ T), k < k' → s.jobs[k]? = some j → s.jobs[k']? = some j' → j.active = true →
    j'.active = true → ¬ (j.type = j'.type ∧ j.exclusive = j'.exclusive))

theorem fine_update (step : T) (ev : Event) {s : S σ T} (h : Fine s) : Fine (update step ev s).1 := by
  obtain ⟨h1, h2, h3⟩ := h
  have pre : ∀ k j', (update step ev s).1.jobs[k]? = some j' → ∃ j, s.jobs[k]? = some j ∧
      Upd ev k j j' (of k (updateLoop step ev 0 s.st s.jobs).2.2.1) := by
    intro k j' hk
    have hl : k < s.jobs.length := by
      have := (List.getElem?_eq_some_iff.mp hk).1
      simpa only [update, update_length] using this
    obtain ⟨j'', e1, e2⟩ := update_calls step ev 0 s.st s.jobs k _ (List.getElem?_eq_getElem hl)
    rw [Nat.zero_add] at e2
    have : j'' = j' := Option.some.inj (e1.symm.trans hk)
    exact ⟨_, List.getElem?_eq_getElem hl, this ▸ e2⟩
  refine ⟨?_, ?_, ?_⟩
  · intro k j' hk
    obtain ⟨j, hj, hu⟩ := pre k j' hk
    obtain ⟨n, hn⟩ := h1 k j hj
    show ∃ n, of k (s.log ++ _) = _
    rw [of_append, hn]
    obtain ⟨_, _, _, _, _, (⟨e, rfl⟩ | ⟨ea, _, eb, e⟩ | ⟨ea, _, eb, e⟩)⟩ := hu
    · exact ⟨n, by rw [e, List.append_nil]⟩
    · refine ⟨n + 1, ?_⟩
      rw [e, ea, eb]; simp only [if_true, List.append_nil]
      rw [replicate_snoc, List.append_nil]
    · refine ⟨n + 1, ?_⟩
      rw [e, ea, eb]; simp only [if_true, List.append_nil]
      rw [replicate_snoc]; rfl
  · intro k hk
    have hk' : s.jobs.length ≤ k := by simpa only [update, update_length] using hk
    show of k (s.log ++ _) = _
    rw [of_append, h2 k hk', update_small step ev 0 s.st s.jobs k (by omega)]; rfl
  · intro k k' j1' j2' hlt e1 e2 a1 a2
    obtain ⟨j1, f1, u1⟩ := pre k j1' e1
    obtain ⟨j2, f2, u2⟩ := pre k' j2' e2
    have act : ∀ {k} {j j' : Job σ T} {c}, Upd ev k j j' c → j'.active = true → j.active = true := by
      intro k j j' c hu ha
      obtain ⟨_, _, _, _, _, (⟨e, rfl⟩ | ⟨ea, _⟩ | ⟨ea, _⟩)⟩ := hu <;> assumption
    have := h3 k k' j1 j2 hlt f1 f2 (act u1 a1) (act u2 a2)
    rw [u1.1, u1.2.1, u2.1, u2.2.1]
    exact this

theorem fine_append [Zero T] (u : T → σ → σ × Outcome) (c : σ → σ) (t : JType) (x : Bool) (e : Event)
    {s : S σ T} (h : Fine s) : Fine (append u c t x e s) := by
  obtain ⟨h1, h2, h3⟩ := h
  generalize hm : (fun j : Job σ T => j.type == t && j.exclusive == x) = m
  have hj : (append u c t x e s).jobs =
      s.jobs.map (fun j => if m j && j.active then { j with active := false } else j) ++
        [{ onUpdate := u, onCleanup := c, type := t, exclusive := x, event := e, active := true, duration := 0 }] := by
    unfold append; simp only [hm, inactivate_jobs]
  have hlog : (append u c t x e s).log = s.log ++ (inactivateLoop m 0 s.st s.jobs).2.2 := by
    unfold append; simp only [hm]
  have pre : ∀ k j', (append u c t x e s).jobs[k]? = some j' →
      (∃ j, s.jobs[k]? = some j ∧ j' = if m j && j.active then { j with active := false } else j) ∨
      (k = s.jobs.length ∧ j' = { onUpdate := u, onCleanup := c, type := t, exclusive := x, event := e, active := true, duration := 0 }) := by
    intro k j' hk
    rw [hj] at hk
    by_cases hl : k < s.jobs.length
    · left
      rw [List.getElem?_append_left (by simpa using hl)] at hk
      rw [List.getElem?_map, List.getElem?_eq_getElem hl] at hk
      simp only [Option.map_some, Option.some.injEq] at hk
      exact ⟨_, List.getElem?_eq_getElem hl, hk.symm⟩
    · right
      rw [List.getElem?_append_right (by simpa using hl)] at hk
      simp only [List.length_map] at hk
      have : k - s.jobs.length = 0 := by
        have := (List.getElem?_eq_some_iff.mp hk).1
        simpa using this
      rw [this] at hk
      simp only [List.getElem?_cons_zero, Option.some.injEq] at hk
      exact ⟨by omega, hk.symm⟩
  refine ⟨?_, ?_, ?_⟩
  · intro k j' hk
    rw [hlog, of_append]
    rcases pre k j' hk with ⟨j, hj1, rfl⟩ | ⟨rfl, rfl⟩
    · obtain ⟨n, hn⟩ := h1 k j hj1
      have := inactivate_calls m 0 s.st s.jobs k j hj1
      rw [Nat.zero_add] at this
      rw [hn, this]
      refine ⟨n, ?_⟩
      cases hmj : m j <;> cases ha : j.active <;> simp [ha]
    · rw [h2 _ (Nat.le_refl _), inactivate_small m 0 s.st s.jobs _ (by omega)]
      exact ⟨0, rfl⟩
  · intro k hk
    rw [hj] at hk
    simp only [List.length_append, List.length_map, List.length_cons, List.length_nil] at hk
    rw [hlog, of_append, h2 k (by omega), inactivate_small m 0 s.st s.jobs k (by omega)]; rfl
  · intro k k' j1' j2' hlt e1 e2 a1 a2
    rcases pre k j1' e1 with ⟨j1, f1, rfl⟩ | ⟨rfl, rfl⟩
    · have n1 : (m j1 && j1.active) = false := by
        cases hh : (m j1 && j1.active) with
        | false => rfl
        | true => rw [hh] at a1; simp at a1
      rw [n1] at a1 ⊢
      simp only [Bool.false_eq_true, if_false] at a1 ⊢
      rcases pre k' j2' e2 with ⟨j2, f2, rfl⟩ | ⟨rfl, rfl⟩
      · have n2 : (m j2 && j2.active) = false := by
          cases hh : (m j2 && j2.active) with
          | false => rfl
          | true => rw [hh] at a2; simp at a2
        rw [n2] at a2 ⊢
        exact h3 k k' j1 j2 hlt f1 f2 a1 a2
      · rw [a1, Bool.and_true] at n1
        rw [← hm] at n1
        simp only [Bool.and_eq_false_iff, beq_eq_false_iff_ne] at n1
        intro hh
        rcases n1 with n | n
        · exact n hh.1
        · exact n hh.2
    · rcases pre k' j2' e2 with ⟨j2, f2, rfl⟩ | ⟨rfl, rfl⟩
      · have := (List.getElem?_eq_some_iff.mp f2).1; omega
      · omega

theorem fine_run [Zero T] (st : σ) (ops : List (Op σ T)) : Fine (run st ops) := by
  unfold run
  have base : Fine ({ st, jobs := [], log := [] } : S σ T) :=
    ⟨fun k j h => by simp at h, fun k _ => rfl, fun k k' j j' _ h => by simp at h⟩
  revert base
  generalize ({ st, jobs := [], log := [] } : S σ T) = s0
  induction ops generalizing s0 with
  | nil => exact fun h => h
  | cons o ops ih =>
    intro h
    refine ih _ ?_
    cases o with
    | append u c t x e => exact fine_append u c t x e h
    | update d e => exact fine_update d e h
    | other f => exact h

omit [Add T] in
theorem inactivate_replay (all : List (Job σ T)) (m : Job σ T → Bool) (i : Nat) (st : σ) (js : List (Job σ T))
    (h : all.drop i = js) : (inactivateLoop m i st js).1 = replay all st (inactivateLoop m i st js).2.2 := by
  induction js generalizing i st with
  | nil => rfl
  | cons j js ih =>
    have hi : all[i]? = some j := by rw [← List.head?_drop, h]; rfl
    have hd : all.drop (i + 1) = js := by rw [← List.tail_drop, h]; rfl
    unfold inactivateLoop
    by_cases c : (m j && j.active) = true
    · simp only [c, if_true, replay, hi]
      exact ih _ _ hd
    · simp only [c]
      exact ih _ _ hd

theorem update_replay (all : List (Job σ T)) (step : T) (ev : Event) (i : Nat) (st : σ) (js : List (Job σ T))
    (h : all.drop i = js) : (updateLoop step ev i st js).1 = replay all st (updateLoop step ev i st js).2.2.1 := by
  induction js generalizing i st with
  | nil => rfl
  | cons j js ih =>
    have hi : all[i]? = some j := by rw [← List.head?_drop, h]; rfl
    have hd : all.drop (i + 1) = js := by rw [← List.tail_drop, h]; rfl
    unfold updateLoop
    split
    · rcases hj : j.onUpdate j.duration st with ⟨st', out⟩
      cases out with
      | throws => simp only [replay, hi, hj]
      | returns b =>
        cases b with
        | true => simp only [replay, hi, hj]; exact ih _ _ hd
        | false => simp only [replay, hi, hj]; exact ih _ _ hd
    · exact ih _ _ hd

theorem update_duration (step : T) (ev : Event) (i : Nat) (st : σ) (js : List (Job σ T)) (k : Nat)
    (j : Job σ T) (h : js[k]? = some j) (ht : (updateLoop step ev i st js).2.2.2 = false) :
    ((updateLoop step ev i st js).2.1[k]?).map (·.duration) =
      some (if j.active = true ∧ j.event = ev then j.duration + step else j.duration) := by
  induction js generalizing i st k with
  | nil => simp at h
  | cons a js ih =>
    revert ht
    unfold updateLoop
    cases k with
    | zero =>
      simp only [List.getElem?_cons_zero, Option.some.injEq] at h
      subst h
      by_cases c : a.event = ev ∧ a.active = true
      · rw [if_pos c, if_pos ⟨c.2, c.1⟩]
        split <;> simp
      · rw [if_neg c, if_neg (fun q => c ⟨q.2, q.1⟩)]
        simp
    | succ k =>
      simp only [List.getElem?_cons_succ] at h
      split
      · split
        · intro ht; simp at ht
        · intro ht
          simpa using ih (i + 1) _ k h ht
        · intro ht
          simpa using ih (i + 1) _ k h ht
      · intro ht
        simpa using ih (i + 1) _ k h ht

end Verif.Job
