import Verif.Behavior.Chain
/-
The sequence of following the lane, as a chain.
-/
namespace Verif.Behavior

variable {E : Type}

def selectorTree (act : Node → Act E) : Tick E := fallback .selector (selectorNames.map fun k => (k, leaf k (act k)))

def laneTree (act : Node → Act E) : Tick E := fallback .laneSequence [(.followLane, leaf .followLane (act .followLane)), (.selector, selectorTree act)]

def laneNodes : List Node := .laneSequence :: .followLane :: .selector :: selectorNames

/-- The selector runs the action. -/
def AtSelector (w : World E) (q : Node) : Prop :=
  q ∈ selectorNames ∧ w.index .selector = selectorNames.idxOf q ∧ w.status .selector = .running ∧ w.status q = .running ∧ w.current = some q ∧
    ∀ k ∈ selectorNames, selectorNames.idxOf q < selectorNames.idxOf k → w.status k = .idle

/-- The sequence runs the action. -/
def AtLane (w : World E) (q : Node) : Prop :=
  w.status .laneSequence = .running ∧
    ((q = .followLane ∧ w.index .laneSequence = 0 ∧ w.index .selector = 0 ∧ w.status .followLane = .running ∧ w.current = some .followLane ∧
        w.status .selector = .idle ∧ ∀ k ∈ selectorNames, w.status k = .idle)
      ∨ (w.index .laneSequence = 1 ∧ AtSelector w q))

/-- The sequence runs nothing. -/
def QuietLane (w : World E) : Prop :=
  w.index .laneSequence = 0 ∧ w.index .selector = 0 ∧ w.status .followLane = .idle ∧ w.status .selector = .idle ∧ ∀ k ∈ selectorNames, w.status k = .idle

def EndsL (w : World E) (t : Except Fault (Status × World E)) : Except Fault (Option (Node × Bool) × Core E) → Prop
  | .error f => t = .error f
  | .ok (none, c) => ∃ w', t = .ok (.failure, w') ∧ w'.core = { c with current := some .laneSequence } ∧ Same laneNodes w w' ∧ QuietLane w' ∧
      w'.status .laneSequence = .failure
  | .ok (some (q, true), c) => ∃ w', t = .ok (.running, w') ∧ w'.core = c ∧ Same laneNodes w w' ∧ AtLane w' q
  | .ok (some (_, false), c) => ∃ w', t = .ok (.success, w') ∧ w'.core = c ∧ Same laneNodes w w' ∧ QuietLane w' ∧ w'.status .laneSequence = .success

theorem selectorNames_nodup : selectorNames.Nodup := by decide

theorem notMem_selectorNames : Node.selector ∉ selectorNames ∧ Node.laneSequence ∉ selectorNames ∧ Node.followLane ∉ selectorNames ∧
    Node.root ∉ selectorNames ∧ Node.trajectorySequence ∉ selectorNames ∧ Node.followTrajectory ∉ selectorNames ∧ Node.laneChange ∉ selectorNames := by decide

/-- The wrapping of a tick of a composite: its own status is set at the end. -/
def wrap (n : Node) (t : Except Fault (Status × World E)) : Except Fault (Status × World E) := match t with
  | .error f => .error f
  | .ok (s, w) => .ok (s, w.setStatus n s)

theorem Core.succeed_core {w : World E} {c : Core E} (h : w.core = c) (hc : c.succeed c.entity = c) : w.core.succeed w.entity = c := by
  subst h; exact hc

theorem outcome_mark (act : Node → Act E) (is : List Item) (n : Node) (b : Bool) (c : Core E) (h : is ≠ []) :
    chain act (is ++ [.mark n]) b c = match chain act is b c with
      | .error f => .error f
      | .ok (none, c) => .ok (none, { c with current := some n })
      | .ok (some q, c) => .ok (some q, c) := by
  rw [chain_append act is _ b c h]
  rcases chain act is b c with f | ⟨_ | q, c⟩ <;> rfl

theorem setStatus_fail_composite (n : Node) (h : n ∈ [Node.root, .trajectorySequence, .laneSequence, .selector]) (w : World E) (hs : w.status n ≠ .failure) :
    (w.setStatus n .failure).core = { w.core with current := some n } := by
  rw [setStatus_failure n w hs]
  exact fail_composite n h w.core

/-- The selector ticked within the sequence. -/
theorem lane_tail (act : Node → Act E) (w : World E) (hr : w.status .laneSequence = .running) (hi : w.index .laneSequence = 1)
    (is : List Item) (b : Bool) (c : Core E) (his : is ≠ []) (h : EndsF .selector selectorNames w (selectorTree act w) (chain act is b c)) :
    EndsL w (wrap .laneSequence (tryKids .laneSequence [.followLane, .selector] [selectorTree act] w)) (chain act (is ++ [.mark .selector]) b c) := by
  have hsuc := fun q d => chain_success act is b c q d
  rw [outcome_mark act is _ b c his]
  have hnm := notMem_selectorNames
  have hsub : ∀ k ∈ Node.selector :: selectorNames, k ∈ laneNodes := fun k hk => by simp [laneNodes]; simpa using Or.inr (Or.inr hk)
  generalize chain act is b c = o at *
  rcases o with f | ⟨_ | ⟨q, _ | _⟩, c⟩
  · simp only [EndsF] at h
    simp only [tryKids, h, wrap]
    rfl
  · obtain ⟨v, h1, h2, h3, h4, h5, h6⟩ := h
    simp only [tryKids, h1, wrap]
    have hv : v.status .laneSequence = .running := (h3 .laneSequence (by simp [hnm])).1.trans hr
    refine ⟨_, rfl, ?_, ?_, ?_, by rw [setStatus_status]; simp⟩
    · rw [setStatus_fail_composite _ (by simp) _ (by simp [World.halt, hv])]
      show ({ v.core with current := _ } : Core E) = _
      rw [h2]
    · intro k hk
      have hk' : k ∉ Node.selector :: selectorNames := fun h => hk (hsub k h)
      have hk2 : k ≠ .laneSequence ∧ k ≠ .followLane ∧ k ≠ .selector := by
        refine ⟨?_, ?_, ?_⟩ <;> rintro rfl <;> simp [laneNodes] at hk
      rw [setStatus_status, setStatus_index, set_ne _ _ hk2.1]
      simp only [World.halt, List.mem_cons, List.not_mem_nil, or_false, hk2, if_false, set_ne _ _ hk2.1]
      exact h3 k hk'
    · refine ⟨?_, ?_, ?_, ?_, ?_⟩
      · rw [setStatus_index]; simp [World.halt]
      · rw [setStatus_index]; simp [World.halt, set, h4]
      · rw [setStatus_status]; simp [World.halt, set]
      · rw [setStatus_status]; simp [World.halt, set]
      · intro k hk
        have hk2 : k ≠ .laneSequence ∧ k ≠ .followLane ∧ k ≠ .selector := by
          refine ⟨?_, ?_, ?_⟩ <;> rintro rfl <;> revert hk <;> decide
        rw [setStatus_status, set_ne _ _ hk2.1]
        simp [World.halt, hk2, h6 k hk]
  · obtain ⟨v, h1, h2, h3, h4, h5, h6⟩ := h
    simp only [tryKids, h1, wrap]
    have hv : v.status .laneSequence = .running := (h3 .laneSequence (by simp [hnm])).1.trans hr
    refine ⟨_, rfl, ?_, ?_, ?_, by rw [setStatus_status]; simp⟩
    · rw [setStatus_success _ _ (by simp [World.halt, hv])]
      exact Core.succeed_core (w := v.halt _ _) h2 (hsuc q c rfl)
    · intro k hk
      have hk' : k ∉ Node.selector :: selectorNames := fun h => hk (hsub k h)
      have hk2 : k ≠ .laneSequence ∧ k ≠ .followLane ∧ k ≠ .selector := by
        refine ⟨?_, ?_, ?_⟩ <;> rintro rfl <;> simp [laneNodes] at hk
      rw [setStatus_status, setStatus_index, set_ne _ _ hk2.1]
      simp only [World.halt, List.mem_cons, List.not_mem_nil, or_false, hk2, if_false, set_ne _ _ hk2.1]
      exact h3 k hk'
    · refine ⟨?_, ?_, ?_, ?_, ?_⟩
      · rw [setStatus_index]; simp [World.halt]
      · rw [setStatus_index]; simp [World.halt, set, h4]
      · rw [setStatus_status]; simp [World.halt, set]
      · rw [setStatus_status]; simp [World.halt, set]
      · intro k hk
        have hk2 : k ≠ .laneSequence ∧ k ≠ .followLane ∧ k ≠ .selector := by
          refine ⟨?_, ?_, ?_⟩ <;> rintro rfl <;> revert hk <;> decide
        rw [setStatus_status, set_ne _ _ hk2.1]
        simp [World.halt, hk2, h6 k hk]
  · obtain ⟨v, h1, h2, h3, h4, h5, h6, h7, h8, h9⟩ := h
    simp only [tryKids, h1, wrap]
    have hv := h3 .laneSequence (by simp [hnm])
    have hcore : (v.setStatus .laneSequence .running).core = v.core := by rw [setStatus_running, hv.1, hr]; rfl
    have hne : ∀ k, k ≠ .laneSequence → (v.setStatus .laneSequence .running).status k = v.status k := fun k hk => by rw [setStatus_status, set_ne _ _ hk]
    have hnl : ∀ k ∈ selectorNames, k ≠ .laneSequence := fun k hk => by rintro rfl; exact hnm.2.1 hk
    refine ⟨_, rfl, hcore.trans h2, ?_, by rw [setStatus_status]; simp, Or.inr ⟨?_, h5, ?_, ?_, ?_, ?_, ?_⟩⟩
    · exact (h3.mono hsub).trans ((setStatus_same _ _ v).mono (by simp [laneNodes]))
    · rw [setStatus_index, hv.2]; exact hi
    · rw [setStatus_index]; exact h6
    · rw [hne _ (by simp)]; exact h4
    · rw [hne _ (hnl q h5)]; exact h7
    · exact (congrArg Core.current hcore).trans h8
    · intro k hk hl
      rw [hne _ (hnl k hk)]; exact h9 k hk hl

theorem laneTree_eq (act : Node → Act E) (w : World E) :
    laneTree act w = wrap .laneSequence (tryKids .laneSequence [.followLane, .selector]
      ([leaf .followLane (act .followLane), selectorTree act].drop (w.index .laneSequence)) (w.setStatus .laneSequence .running)) := by
  simp only [laneTree, fallback, setStatus_index, wrap, List.map_cons, List.map_nil]
  first | done | rfl

theorem EndsL.base {w w' : World E} {t : Except Fault (Status × World E)} {o : Except Fault (Option (Node × Bool) × Core E)}
    (h : EndsL w' t o) (hs : Same laneNodes w w') : EndsL w t o := by
  rcases o with f | ⟨_ | ⟨q, _ | _⟩, c⟩
  · exact h
  · obtain ⟨v, h1, h2, h3, h4⟩ := h
    exact ⟨v, h1, h2, hs.trans h3, h4⟩
  · obtain ⟨v, h1, h2, h3, h4⟩ := h
    exact ⟨v, h1, h2, hs.trans h3, h4⟩
  · obtain ⟨v, h1, h2, h3, h4⟩ := h
    exact ⟨v, h1, h2, hs.trans h3, h4⟩

/-- The sequence is resumed within the selector. -/
theorem lane_resumed (act : Node → Act E) (w : World E) (k : Node) (ks pre : List Node) (hpre : selectorNames = pre ++ k :: ks)
    (hr : w.status .laneSequence = .running) (hi : w.index .laneSequence = 1) (hs : AtSelector w k) :
    EndsL w (laneTree act w) (chain act ((k :: ks).map Item.leaf ++ [.mark .selector]) true w.core) := by
  obtain ⟨h1, h2, h3, h4, h5, h6⟩ := hs
  rw [laneTree_eq, hi]
  have hcore : (w.setStatus .laneSequence .running).core = w.core := by rw [setStatus_running, hr]; rfl
  have hne : ∀ k, k ≠ .laneSequence → (w.setStatus .laneSequence .running).status k = w.status k := fun k hk => by rw [setStatus_status, set_ne _ _ hk]
  have hnl : ∀ k ∈ selectorNames, k ≠ .laneSequence := fun k hk => by rintro rfl; exact notMem_selectorNames.2.1 hk
  have hkp : k ∉ pre := by
    have := selectorNames_nodup
    rw [hpre] at this
    intro hp
    exact (List.nodup_append.1 this).2.2 k hp k (by simp) rfl
  have hidx : selectorNames.idxOf k = pre.length := by rw [hpre, List.idxOf_append]; simp [hkp]
  have hE := resumed_leaves act .selector selectorNames (by simp) notMem_selectorNames.1 selectorNames_nodup (w.setStatus .laneSequence .running) k ks pre hpre
    (by rw [setStatus_index, h2, hidx]) (by rw [hne _ (by simp)]; exact h3) (by rw [hne _ (hnl k h1)]; exact h4)
    ((congrArg Core.current hcore).trans h5)
    (fun j hj => by
      have hjn : j ∈ selectorNames := by rw [hpre]; simp [hj]
      rw [hne _ (hnl j hjn)]
      refine h6 j hjn ?_
      have hnd := selectorNames_nodup
      rw [hpre] at hnd
      have hjp : j ∉ pre := fun hp => (List.nodup_append.1 hnd).2.2 j hp j (by simp [hj]) rfl
      have hjk : j ≠ k := by
        rintro rfl
        exact (List.nodup_cons.1 (List.nodup_append.1 hnd).2.1).1 hj
      rw [hidx, hpre, List.idxOf_append]
      simp only [hjp, if_false]
      have hb : (k == j) = false := by simpa using Ne.symm hjk
      rw [List.idxOf_cons, hb]
      simp only [cond_false]
      omega)
  rw [hcore] at hE
  have := lane_tail act (w.setStatus .laneSequence .running) (by rw [setStatus_status]; simp) (by rw [setStatus_index]; exact hi) _ true w.core (by simp) hE
  exact this.base ((setStatus_same _ _ w).mono (by simp [laneNodes]))

/-- The sequence tries to follow the lane: it has just begun, or is resumed there. -/
theorem lane_first (act : Node → Act E) (w : World E) (started : Bool) (hr : w.status .laneSequence = .running) (hi : w.index .laneSequence = 0)
    (hs0 : w.index .selector = 0) (hf : w.status .followLane = .idle ∨ w.status .followLane = .running) (hfs : w.status .followLane = .running ↔ started = true)
    (hcur : started = true → w.current = some .followLane) (hsel : w.status .selector = .idle) (hk : ∀ k ∈ selectorNames, w.status k = .idle) :
    EndsL w (wrap .laneSequence (tryKids .laneSequence [.followLane, .selector] [leaf .followLane (act .followLane), selectorTree act] w))
      (chain act (.leaf .followLane :: .mark .selector :: (selectorNames.map Item.leaf ++ [.mark .selector])) started w.core) := by
  have hnl : ∀ k ∈ selectorNames, k ≠ .laneSequence ∧ k ≠ .followLane := fun k hk => by
    constructor <;> rintro rfl
    · exact notMem_selectorNames.2.1 hk
    · exact notMem_selectorNames.2.2.1 hk
  simp only [chain]
  have hcore : w.core.request = w.request ∧ w.core.entity = w.entity := ⟨rfl, rfl⟩
  rw [hcore.1, hcore.2, tryKids]
  rcases hact : act .followLane w.request w.entity with f | ⟨s, e⟩
  · rw [leaf_error act _ w f hact]; rfl
  · rw [leaf_ok act _ w s e hact]
    cases s with
    | idle => rfl
    | running =>
      have h1 := setStatus_running .followLane ({ w with entity := e } : World E)
      have hst := setStatus_status .followLane .running ({ w with entity := e } : World E)
      have hix := setStatus_index .followLane .running ({ w with entity := e } : World E)
      generalize ({ w with entity := e } : World E).setStatus .followLane .running = v at *
      simp only at hst hix h1
      have hc : v.core = w.core.run .followLane started e := by
        rw [h1]
        by_cases hs : started = true
        · simp [Core.run, World.core, hs, hfs.2 hs]
        · have : w.status .followLane ≠ .running := fun h => hs (hfs.1 h)
          simp [Core.run, World.core, hs, this]
      have hvl : v.status .laneSequence = .running := by rw [hst, set_ne _ _ (by simp)]; exact hr
      have hcore : (v.setStatus .laneSequence .running).core = v.core := by rw [setStatus_running, hvl]; rfl
      refine ⟨_, rfl, hcore.trans hc, ?_, by rw [setStatus_status]; simp, Or.inl ⟨rfl, ?_, ?_, ?_, ?_, ?_, ?_⟩⟩
      · intro k hk
        have hk2 : k ≠ .laneSequence ∧ k ≠ .followLane := by
          refine ⟨?_, ?_⟩ <;> rintro rfl <;> simp [laneNodes] at hk
        rw [setStatus_status, setStatus_index, set_ne _ _ hk2.1, hst, hix, set_ne _ _ hk2.2]
        exact ⟨rfl, rfl⟩
      · rw [setStatus_index, hix]; exact hi
      · rw [setStatus_index, hix]; exact hs0
      · rw [setStatus_status, set_ne _ _ (by simp), hst]; simp
      · refine (congrArg Core.current (hcore.trans hc)).trans ?_
        by_cases hs : started = true
        · simp [Core.run, World.core, hs, hcur hs]
        · simp [Core.run, hs]
      · rw [setStatus_status, set_ne _ _ (by simp), hst, set_ne _ _ (by simp)]; exact hsel
      · intro k hk'
        rw [setStatus_status, set_ne _ _ (hnl k hk').1, hst, set_ne _ _ (hnl k hk').2]; exact hk k hk'
    | success =>
      have h1 := setStatus_success .followLane ({ w with entity := e } : World E) (by simp only; rcases hf with h | h <;> simp [h])
      have hst := setStatus_status .followLane .success ({ w with entity := e } : World E)
      have hix := setStatus_index .followLane .success ({ w with entity := e } : World E)
      generalize ({ w with entity := e } : World E).setStatus .followLane .success = v at *
      simp only at hst hix h1
      have hvl : v.status .laneSequence = .running := by rw [hst, set_ne _ _ (by simp)]; exact hr
      refine ⟨_, rfl, ?_, ?_, ?_, by rw [setStatus_status]; simp⟩
      · rw [setStatus_success _ _ (by simp [World.halt, hvl])]
        exact Core.succeed_core (w := v.halt _ _) h1 (succeed_twice _ _)
      · intro k hk
        have hk2 : k ≠ .laneSequence ∧ k ≠ .followLane ∧ k ≠ .selector := by
          refine ⟨?_, ?_, ?_⟩ <;> rintro rfl <;> simp [laneNodes] at hk
        rw [setStatus_status, setStatus_index, set_ne _ _ hk2.1]
        simp only [World.halt, List.mem_cons, List.not_mem_nil, or_false, hk2, if_false, set_ne _ _ hk2.1, hst, hix, set_ne _ _ hk2.2.1]
        exact ⟨trivial, trivial⟩
      · refine ⟨?_, ?_, ?_, ?_, ?_⟩
        · rw [setStatus_index]; simp [World.halt]
        · rw [setStatus_index]; simp [World.halt, set, hix, hs0]
        · rw [setStatus_status]; simp [World.halt, set]
        · rw [setStatus_status]; simp [World.halt, set]
        · intro k hk'
          have hk2 : k ≠ .selector := by rintro rfl; exact notMem_selectorNames.1 hk'
          rw [setStatus_status, set_ne _ _ (hnl k hk').1]
          simp [World.halt, hk2, hnl k hk', hst, set, hk k hk']
    | failure =>
      have h1 := setStatus_failure .followLane ({ w with entity := e } : World E) (by simp only; rcases hf with h | h <;> simp [h])
      have hst := setStatus_status .followLane .failure ({ w with entity := e } : World E)
      have hix := setStatus_index .followLane .failure ({ w with entity := e } : World E)
      have hsm : Same laneNodes w (({ w with entity := e } : World E).setStatus .followLane .failure) :=
        fun k hk => (setStatus_same .followLane .failure ({ w with entity := e } : World E)).mono (by simp [laneNodes]) k hk
      generalize ({ w with entity := e } : World E).setStatus .followLane .failure = v at *
      simp only at hst hix h1
      simp only
      have hcv : ({ v with index := set v.index .laneSequence (v.index .laneSequence + 1) } : World E).core = w.core.fail .followLane e := h1
      have hE := fresh_leaves act .selector selectorNames (by simp) notMem_selectorNames.1 selectorNames_nodup
        { v with index := set v.index .laneSequence (v.index .laneSequence + 1) } (by simp [set, hix, hs0]) (by simp [hst, set, hsel])
        (fun k hk' => by simp only [hst, set_ne _ _ (hnl k hk').2]; exact hk k hk')
      have := lane_tail act { v with index := set v.index .laneSequence (v.index .laneSequence + 1) } (by simp [hst, set, hr]) (by simp [hix, hi]) _ false _
        (by simp [selectorNames]) hE
      rw [hcv] at this
      refine this.base ?_
      intro k hk
      have hk2 : k ≠ .laneSequence := by rintro rfl; simp [laneNodes] at hk
      refine ⟨(hsm k hk).1, ?_⟩
      show set v.index .laneSequence _ k = _
      rw [set_ne _ _ hk2]
      exact (hsm k hk).2

end Verif.Behavior
