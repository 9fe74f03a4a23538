import Verif.Behavior.Actions
/-
The tree of vehicles as a chain of actions, for the proofs: which events happen in one tick of the tree, in which order.
-/
namespace Verif.Behavior

variable {E : Type}

/-- What the rest of the program sees of a tree. -/
structure Core (E : Type) where
  entity : E
  request : Request
  current : Option Node
  deriving DecidableEq

def World.core (w : World E) : Core E := ⟨w.entity, w.request, w.current⟩

/-- A composite begins or fails, or an action is tried. -/
inductive Item where
  | mark (n : Node)
  | leaf (n : Node)
  deriving DecidableEq

def Core.fail (n : Node) (c : Core E) (e : E) : Core E := ⟨e, if c.request.node = some n then .none else c.request, some n⟩

def Core.run (n : Node) (started : Bool) (c : Core E) (e : E) : Core E := ⟨e, c.request, if started then c.current else some n⟩

def Core.succeed (c : Core E) (e : E) : Core E := ⟨e, if c.request.node = c.current then .none else c.request, c.current⟩

/-- `started`: the first action was running already. -/
def chain (act : Node → Act E) : List Item → Bool → Core E → Except Fault (Option (Node × Bool) × Core E)
  | [], _, c => .ok (none, c)
  | .mark n :: is, _, c => chain act is false { c with current := some n }
  | .leaf n :: is, started, c => match act n c.request c.entity with
    | .error f => .error f
    | .ok (.running, e) => .ok (some (n, true), c.run n started e)
    | .ok (.success, e) => .ok (some (n, false), c.succeed e)
    | .ok (.failure, e) => chain act is false (c.fail n e)
    | .ok (.idle, _) => .error .thrown

def selectorNames : List Node := [.front, .light, .stopLine, .crossing, .yield, .backward]

/-- Nothing but the given nodes has changed. -/
def Same (mine : List Node) (w w' : World E) : Prop := ∀ k, k ∉ mine → w'.status k = w.status k ∧ w'.index k = w.index k

theorem Same.trans {m : List Node} {a b c : World E} (h : Same m a b) (h' : Same m b c) : Same m a c := fun k hk =>
  ⟨(h' k hk).1.trans (h k hk).1, (h' k hk).2.trans (h k hk).2⟩

theorem Same.mono {m m' : List Node} {a b : World E} (h : Same m a b) (hm : ∀ k ∈ m, k ∈ m') : Same m' a b := fun k hk => h k (fun hh => hk (hm k hh))

@[simp] theorem set_self {α : Type} (f : Node → α) (n : Node) (a : α) : set f n a n = a := by simp [set]

theorem set_ne {α : Type} (f : Node → α) {n k : Node} (a : α) (h : k ≠ n) : set f n a k = f k := by simp [set, h]

theorem leaf_error (act : Node → Act E) (n : Node) (w : World E) (f : Fault) (h : act n w.request w.entity = .error f) : leaf n (act n) w = .error f := by
  simp [leaf, h]

theorem leaf_ok (act : Node → Act E) (n : Node) (w : World E) (s : Status) (e : E) (h : act n w.request w.entity = .ok (s, e)) :
    leaf n (act n) w = .ok (s, { w with entity := e }.setStatus n s) := by
  simp [leaf, h]

theorem setStatus_status (n : Node) (s : Status) (w : World E) : (w.setStatus n s).status = set w.status n s := by
  simp only [World.setStatus]
  split
  · simp only [World.event]
    split <;> split <;> rfl
  · rfl

theorem setStatus_index (n : Node) (s : Status) (w : World E) : (w.setStatus n s).index = w.index := by
  simp only [World.setStatus]
  split
  · simp only [World.event]
    split <;> split <;> rfl
  · rfl

theorem setStatus_same (n : Node) (s : Status) (w : World E) : Same [n] w (w.setStatus n s) := by
  intro k hk
  rw [setStatus_status, setStatus_index]
  exact ⟨set_ne _ _ (by simpa using hk), rfl⟩

theorem setStatus_running (n : Node) (w : World E) :
    (w.setStatus n .running).core = ⟨w.entity, w.request, if w.status n = .running then w.current else some n⟩ := by
  by_cases h : w.status n = .running <;> simp [World.setStatus, World.event, World.core, h]

theorem setStatus_failure (n : Node) (w : World E) (h : w.status n ≠ .failure) :
    (w.setStatus n .failure).core = w.core.fail n w.entity := by
  by_cases hr : w.request.node = some n <;> simp [World.setStatus, World.event, World.core, Core.fail, h, hr]

theorem setStatus_success (n : Node) (w : World E) (h : w.status n ≠ .success) :
    (w.setStatus n .success).core = w.core.succeed w.entity := by
  by_cases hr : w.request.node = w.current <;> simp [World.setStatus, World.event, World.core, Core.succeed, h, hr]

/-- Events of composites never reset a request. -/
theorem Request.node_leaf (r : Request) (n : Node) (h : n ∈ [Node.root, .trajectorySequence, .laneSequence, .selector]) : r.node ≠ some n := by
  cases r <;> simp only [Request.node, ne_eq, reduceCtorEq, not_false_eq_true, Option.some.injEq] <;> rintro rfl <;> simp at h

theorem fail_composite (n : Node) (h : n ∈ [Node.root, .trajectorySequence, .laneSequence, .selector]) (c : Core E) :
    c.fail n c.entity = { c with current := some n } := by
  simp [Core.fail, Request.node_leaf c.request n h]

/-- A second success event at the same current action changes nothing. -/
theorem succeed_twice (c : Core E) (e : E) : (c.succeed e).succeed e = c.succeed e := by
  simp only [Core.succeed]
  split
  · split <;> simp
  · simp

/-- How the ticking of some children from the given position ends. -/
def Ends (n : Node) (names : List Node) (w : World E) (t : Except Fault (Status × World E)) :
    Except Fault (Option (Node × Bool) × Core E) → Prop
  | .error f => t = .error f
  | .ok (none, c) => ∃ w', t = .ok (.failure, w') ∧ w'.core = c ∧ Same (n :: names) w w' ∧ w'.index n = 0 ∧ w'.status n = w.status n ∧ ∀ k ∈ names, w'.status k = .idle
  | .ok (some (q, true), c) => ∃ w', t = .ok (.running, w') ∧ w'.core = c ∧ Same (n :: names) w w' ∧ w'.status n = w.status n ∧ q ∈ names ∧
      w'.index n = names.idxOf q ∧ w'.status q = .running ∧ w'.current = some q ∧ ∀ k ∈ names, names.idxOf q < names.idxOf k → w'.status k = .idle
  | .ok (some (_, false), c) => ∃ w', t = .ok (.success, w') ∧ w'.core = c ∧ Same (n :: names) w w' ∧ w'.index n = 0 ∧ w'.status n = w.status n ∧ ∀ k ∈ names, w'.status k = .idle

theorem halt_ends (n : Node) (names : List Node) (hn : n ∉ names) (w : World E) :
    (w.halt n names).core = w.core ∧ Same (n :: names) w (w.halt n names) ∧ (w.halt n names).index n = 0 ∧ (w.halt n names).status n = w.status n ∧
      ∀ k ∈ names, (w.halt n names).status k = .idle := by
  refine ⟨rfl, ?_, by simp [World.halt], by simp [World.halt, hn], fun k hk => by simp [World.halt, hk]⟩
  intro k hk
  simp only [List.mem_cons, not_or] at hk
  exact ⟨by simp [World.halt, hk.2], by simp [World.halt, set_ne _ _ hk.1]⟩

theorem Ends.base {n : Node} {names : List Node} {w w' : World E} {t : Except Fault (Status × World E)} {o : Except Fault (Option (Node × Bool) × Core E)}
    (h : Ends n names w' t o) (hs : Same (n :: names) w w') (hn : w'.status n = w.status n) : Ends n names w t o := by
  rcases o with f | ⟨_ | ⟨q, _ | _⟩, c⟩
  · exact h
  · obtain ⟨v, h1, h2, h3, h4, h5, h6⟩ := h
    exact ⟨v, h1, h2, hs.trans h3, h4, h5.trans hn, h6⟩
  · obtain ⟨v, h1, h2, h3, h4, h5, h6⟩ := h
    exact ⟨v, h1, h2, hs.trans h3, h4, h5.trans hn, h6⟩
  · obtain ⟨v, h1, h2, h3, h4, h6⟩ := h
    exact ⟨v, h1, h2, hs.trans h3, h4.trans hn, h6⟩

/-- The children of a composite that are actions. -/
theorem leaves_end (act : Node → Act E) (n : Node) (names : List Node) (hn : n ∉ names) (hd : names.Nodup) :
    ∀ (ks pre : List Node), names = pre ++ ks → ∀ (started : Bool) (w : World E), w.index n = pre.length →
      (∀ k ∈ ks, w.status k = .idle ∨ w.status k = .running) → (∀ k ∈ ks.tail, w.status k = .idle) →
      (∀ k, ks.head? = some k → (started = true → w.current = some k) ∧ (w.status k = .running ↔ started = true)) →
      Ends n names w (tryKids n names (ks.map fun k => leaf k (act k)) w) (chain act (ks.map Item.leaf) started w.core) := by
  intro ks
  induction ks with
  | nil =>
    intro pre _ started w _ _ _ _
    obtain ⟨h1, h2, h3, h4, h5⟩ := halt_ends n names hn w
    exact ⟨_, rfl, h1, h2, h3, h4, h5⟩
  | cons k ks ih =>
    intro pre hpre started w hidx hst htl hhd
    have hk : k ∈ names := by rw [hpre]; simp
    have hnk : n ≠ k := fun h => hn (h ▸ hk)
    have hkst := hst k (by simp)
    have hkhd := hhd k rfl
    have hpos : names.idxOf k = pre.length := by
      rw [hpre, List.idxOf_append]
      have : k ∉ pre := by
        intro hp
        rw [hpre] at hd
        exact (List.nodup_append.1 hd).2.2 k hp k (by simp) rfl
      simp [this]
    simp only [List.map_cons, tryKids, chain]
    have hcore : w.core.request = w.request ∧ w.core.entity = w.entity := ⟨rfl, rfl⟩
    rw [hcore.1, hcore.2]
    rcases hact : act k w.request w.entity with f | ⟨s, e⟩
    · rw [leaf_error act k w f hact]
      rfl
    · rw [leaf_ok act k w s e hact]
      have hst0 : ({ w with entity := e } : World E).status = w.status := rfl
      have hsame : Same (n :: names) w (({ w with entity := e } : World E).setStatus k s) := by
        refine Same.mono (m := [k]) ?_ (by simpa using Or.inr hk)
        have := setStatus_same k s ({ w with entity := e } : World E)
        exact this
      have hstn : (({ w with entity := e } : World E).setStatus k s).status n = w.status n := by
        rw [setStatus_status]; exact set_ne _ _ hnk
      have hin : (({ w with entity := e } : World E).setStatus k s).index n = w.index n := by rw [setStatus_index]
      cases s with
      | idle => rfl
      | running =>
        refine ⟨_, rfl, ?_, hsame, hstn, hk, by rw [hin, hidx, hpos], by rw [setStatus_status]; simp, ?_, ?_⟩
        · rw [setStatus_running]
          by_cases hs : started = true
          · simp [Core.run, World.core, hs, hkhd.2.2 hs]
          · have : w.status k ≠ .running := fun h => hs (hkhd.2.1 h)
            simp [Core.run, World.core, hs, this]
        · have := congrArg Core.current (setStatus_running k ({ w with entity := e } : World E))
          simp only [World.core] at this
          rw [this]
          by_cases hs : started = true
          · simp [hkhd.2.2 hs, hkhd.1 hs]
          · have : w.status k ≠ .running := fun h => hs (hkhd.2.1 h)
            simp [this]
        · intro j hj hlt
          have hjk : j ≠ k := by rintro rfl; exact lt_irrefl _ hlt
          rw [setStatus_status, set_ne _ _ hjk]
          have hjks : j ∈ ks := by
            rw [hpre] at hj
            rcases List.mem_append.1 hj with h | h
            · exfalso
              have : names.idxOf j < pre.length := by
                rw [hpre, List.idxOf_append]
                simp only [h, if_true]
                exact List.idxOf_lt_length_of_mem h
              omega
            · simpa [hjk] using h
          exact htl j (by simpa using hjks)
      | success =>
        obtain ⟨h1, h2, h3, h4, h5⟩ := halt_ends n names hn (({ w with entity := e } : World E).setStatus k .success)
        refine ⟨_, rfl, ?_, hsame.trans h2, h3, h4.trans hstn, h5⟩
        rw [h1, setStatus_success k _ (by simp only; rcases hkst with h | h <;> simp [h])]
        rfl
      | failure =>
        have hfail : (({ w with entity := e } : World E).setStatus k .failure).core = w.core.fail k e := by
          rw [setStatus_failure k _ (by simp only; rcases hkst with h | h <;> simp [h])]
          rfl
        set_option linter.unusedVariables false in
        generalize hv : (({ w with entity := e } : World E).setStatus k .failure) = v at *
        have hvst : v.status = set w.status k .failure := by rw [← hv, setStatus_status]
        have hkks : k ∉ ks := by
          rw [hpre] at hd
          have := (List.nodup_append.1 hd).2.1
          exact (List.nodup_cons.1 this).1
        have hnext := ih (pre ++ [k]) (by rw [hpre]; simp) false { v with index := set v.index n (v.index n + 1) }
          (by simp [hin, hidx])
          (fun j hj => by
            have : j ≠ k := fun h => hkks (h ▸ hj)
            left
            rw [hvst, set_ne _ _ this]
            exact htl j (by simpa using hj))
          (fun j hj => by
            have hj' := List.mem_of_mem_tail hj
            have : j ≠ k := fun h => hkks (h ▸ hj')
            rw [hvst, set_ne _ _ this]
            exact htl j (by simpa using hj'))
          (fun j hj => by
            have hj' : j ∈ ks := List.mem_of_mem_head? hj
            have : j ≠ k := fun h => hkks (h ▸ hj')
            have hji : v.status j = .idle := by
              rw [hvst, set_ne _ _ this]
              exact htl j (by simpa using hj')
            simp [hji])
        have hc : ({ v with index := set v.index n (v.index n + 1) } : World E).core = w.core.fail k e := hfail
        rw [hc] at hnext
        refine hnext.base ?_ hstn
        intro j hj
        have hjn : j ≠ n := by
          intro h; apply hj; simp [h]
        refine ⟨(hsame j hj).1, ?_⟩
        show set v.index n (v.index n + 1) j = w.index j
        rw [set_ne _ _ hjn]
        exact (hsame j hj).2

theorem chain_success (act : Node → Act E) : ∀ (is : List Item) (b : Bool) (c : Core E) (q : Node) (d : Core E),
    chain act is b c = .ok (some (q, false), d) → d.succeed d.entity = d
  | [], _, _, _, _, h => by simp [chain] at h
  | .mark n :: is, b, c, q, d, h => by
    simp only [chain] at h
    exact chain_success act is _ _ q d h
  | .leaf n :: is, b, c, q, d, h => by
    simp only [chain] at h
    split at h
    · cases h
    · cases h
    · simp only [Except.ok.injEq, Prod.mk.injEq] at h
      obtain ⟨_, rfl⟩ := h
      exact succeed_twice _ _
    · exact chain_success act is _ _ q d h
    · cases h

theorem chain_append (act : Node → Act E) : ∀ (is js : List Item) (b : Bool) (c : Core E), is ≠ [] →
    chain act (is ++ js) b c = match chain act is b c with
      | .error f => .error f
      | .ok (none, c) => chain act js false c
      | .ok (some q, c) => .ok (some q, c)
  | [], _, _, _, h => absurd rfl h
  | [.mark n], js, b, c, _ => by simp [chain]
  | [.leaf n], js, b, c, _ => by
    simp only [List.singleton_append, chain]
    rcases act n c.request c.entity with f | ⟨s, e⟩
    · rfl
    · cases s <;> rfl
  | .mark n :: i :: is, js, b, c, _ => by
    simp only [List.cons_append, chain]
    exact chain_append act (i :: is) js false _ (by simp)
  | .leaf n :: i :: is, js, b, c, _ => by
    simp only [List.cons_append, chain]
    rcases act n c.request c.entity with f | ⟨s, e⟩
    · rfl
    · cases s
      · rfl
      · rfl
      · rfl
      · exact chain_append act (i :: is) js false _ (by simp)

/-- How a tick of a composite of actions ends, given how its actions end. -/
def EndsF (n : Node) (names : List Node) (w : World E) (t : Except Fault (Status × World E)) :
    Except Fault (Option (Node × Bool) × Core E) → Prop
  | .error f => t = .error f
  | .ok (none, c) => ∃ w', t = .ok (.failure, w') ∧ w'.core = { c with current := some n } ∧ Same (n :: names) w w' ∧ w'.index n = 0 ∧ w'.status n = .failure ∧
      ∀ k ∈ names, w'.status k = .idle
  | .ok (some (q, true), c) => ∃ w', t = .ok (.running, w') ∧ w'.core = c ∧ Same (n :: names) w w' ∧ w'.status n = .running ∧ q ∈ names ∧
      w'.index n = names.idxOf q ∧ w'.status q = .running ∧ w'.current = some q ∧ ∀ k ∈ names, names.idxOf q < names.idxOf k → w'.status k = .idle
  | .ok (some (_, false), c) => ∃ w', t = .ok (.success, w') ∧ w'.core = c ∧ Same (n :: names) w w' ∧ w'.index n = 0 ∧ w'.status n = .success ∧
      ∀ k ∈ names, w'.status k = .idle

/-- The end of a tick of a composite, from how its children end. -/
theorem Ends.finish {n : Node} {names : List Node} (hn : n ∈ [Node.root, .trajectorySequence, .laneSequence, .selector]) (hnn : n ∉ names) {w w' : World E}
    {t : Except Fault (Status × World E)} {o : Except Fault (Option (Node × Bool) × Core E)} (h : Ends n names w' t o) (hs : Same (n :: names) w w')
    (hr : w'.status n = .running) (ho : ∀ q d, o = .ok (some (q, false), d) → d.succeed d.entity = d) :
    EndsF n names w (match (generalizing := false) t with
      | .error f => .error f
      | .ok (s, w) => .ok (s, w.setStatus n s)) o := by
  have key : ∀ (v : World E) (s : Status), Same (n :: names) w' v → Same (n :: names) w (v.setStatus n s) := fun v s hv =>
    hs.trans (hv.trans ((setStatus_same n s v).mono (by simp)))
  have kn : ∀ (v : World E) (s : Status) k, k ∈ names → (v.setStatus n s).status k = v.status k := fun v s k hk => by
    rw [setStatus_status, set_ne]
    rintro rfl
    exact hnn hk
  rcases o with f | ⟨_ | ⟨q, _ | _⟩, c⟩
  · cases (show t = .error f from h); rfl
  · obtain ⟨v, rfl, h2, h3, h4, h5, h6⟩ := h
    refine ⟨_, rfl, ?_, key v _ h3, by rw [setStatus_index]; exact h4, by rw [setStatus_status]; simp, fun k hk => (kn v _ k hk).trans (h6 k hk)⟩
    rw [setStatus_failure n v (by rw [h5, hr]; simp), ← h2]
    exact fail_composite n hn v.core
  · obtain ⟨v, rfl, h2, h3, h4, h5, h6⟩ := h
    refine ⟨_, rfl, ?_, key v _ h3, by rw [setStatus_index]; exact h4, by rw [setStatus_status]; simp, fun k hk => (kn v _ k hk).trans (h6 k hk)⟩
    rw [setStatus_success n v (by rw [h5, hr]; simp), ← h2]
    have := ho q c rfl
    rw [← h2] at this
    exact this
  · obtain ⟨v, rfl, h2, h3, h4, h5, h6, h7, h8, h9⟩ := h
    have hv : v.status n = .running := h4.trans hr
    have hcore : (v.setStatus n .running).core = v.core := by rw [setStatus_running, hv]; rfl
    refine ⟨_, rfl, hcore.trans h2, key v _ h3, by rw [setStatus_status]; simp, h5, by rw [setStatus_index]; exact h6, by rw [kn v _ q h5]; exact h7, ?_,
      fun k hk hl => (kn v _ k hk).trans (h9 k hk hl)⟩
    have := congrArg Core.current hcore
    exact this.trans h8

/-- A composite of actions that begins. -/
theorem fresh_leaves (act : Node → Act E) (n : Node) (names : List Node) (hc : n ∈ [Node.root, .trajectorySequence, .laneSequence, .selector]) (hn : n ∉ names)
    (hd : names.Nodup) (w : World E) (hi : w.index n = 0) (hs : w.status n ≠ .running) (hk : ∀ k ∈ names, w.status k = .idle) :
    EndsF n names w (fallback n (names.map fun k => (k, leaf k (act k))) w) (chain act (names.map Item.leaf) false { w.core with current := some n }) := by
  have hne : ∀ k ∈ names, (w.setStatus n .running).status k = .idle := fun k hkn => by
    rw [setStatus_status, set_ne]
    · exact hk k hkn
    · rintro rfl; exact hn hkn
  have := leaves_end act n names hn hd names [] rfl false (w.setStatus n .running) (by rw [setStatus_index]; exact hi)
    (fun k hkn => Or.inl (hne k hkn)) (fun k hkn => hne k (List.mem_of_mem_tail hkn))
    (fun k hkn => by simp [hne k (List.mem_of_mem_head? hkn)])
  have hcore : (w.setStatus n .running).core = { w.core with current := some n } := by rw [setStatus_running]; simp [hs, World.core]
  rw [hcore] at this
  have h := this.finish hc hn ((setStatus_same n .running w).mono (by simp)) (by rw [setStatus_status]; simp)
    (fun q d => chain_success act _ _ _ q d)
  have hix : (w.setStatus n .running).index n = 0 := by rw [setStatus_index]; exact hi
  simp only [fallback, hix, List.drop_zero, List.map_map, Function.comp_def, List.map_id'] at h ⊢
  exact h

/-- A composite of actions that is resumed. -/
theorem resumed_leaves (act : Node → Act E) (n : Node) (names : List Node) (hc : n ∈ [Node.root, .trajectorySequence, .laneSequence, .selector]) (hn : n ∉ names)
    (hd : names.Nodup) (w : World E) (k : Node) (ks pre : List Node) (hpre : names = pre ++ k :: ks) (hi : w.index n = pre.length) (hs : w.status n = .running)
    (hk : w.status k = .running) (hcur : w.current = some k) (hks : ∀ j ∈ ks, w.status j = .idle) :
    EndsF n names w (fallback n (names.map fun k => (k, leaf k (act k))) w) (chain act ((k :: ks).map Item.leaf) true w.core) := by
  have hne : ∀ j ∈ names, (w.setStatus n .running).status j = w.status j := fun j hj => by
    rw [setStatus_status, set_ne]
    rintro rfl; exact hn hj
  have hkn : k ∈ names := by rw [hpre]; simp
  have hksn : ∀ j ∈ ks, j ∈ names := fun j hj => by rw [hpre]; simp [hj]
  have hcore : (w.setStatus n .running).core = w.core := by rw [setStatus_running]; simp [hs, World.core]
  have := leaves_end act n names hn hd (k :: ks) pre hpre true (w.setStatus n .running) (by rw [setStatus_index]; exact hi)
    (fun j hj => by
      rcases List.mem_cons.1 hj with rfl | h
      · right; rw [hne _ hkn]; exact hk
      · left; rw [hne _ (hksn j h)]; exact hks j h)
    (fun j hj => by rw [hne _ (hksn j (by simpa using hj))]; exact hks j (by simpa using hj))
    (fun j hj => by
      simp only [List.head?_cons, Option.some.injEq] at hj
      subst hj
      have hcc : (w.setStatus n .running).current = w.current := congrArg Core.current hcore
      simp [hcc, hcur, hne _ hkn, hk])
  rw [hcore] at this
  have h := this.finish hc hn ((setStatus_same n .running w).mono (by simp)) (by rw [setStatus_status]; simp)
    (fun q d => chain_success act _ _ _ q d)
  have hix : (w.setStatus n .running).index n = pre.length := by rw [setStatus_index]; exact hi
  have hmap : (names.map fun k => leaf k (act k)).drop pre.length = (k :: ks).map fun k => leaf k (act k) := by
    rw [hpre, List.map_append, List.drop_left' (by simp)]
  simp only [fallback, hix, List.map_map, Function.comp_def, List.map_id'] at h ⊢
  rw [hmap]
  exact h

end Verif.Behavior
