import Verif.Behavior.Lane
/-
The tree of vehicles as a chain of actions.
-/
namespace Verif.Behavior

variable {E : Type}

def trajectoryTree (act : Node → Act E) : Tick E := fallback .trajectorySequence ([Node.followTrajectory].map fun k => (k, leaf k (act k)))

theorem vehicleTree_eq (act : Node → Act E) : vehicleTree act =
    fallback .root [(.laneChange, leaf .laneChange (act .laneChange)), (.trajectorySequence, trajectoryTree act), (.laneSequence, laneTree act)] := rfl

/-- The sequences run nothing. -/
def QuietTrajectory (w : World E) : Prop := w.index .trajectorySequence = 0 ∧ w.status .followTrajectory = .idle

/-- Nothing is running. -/
def Quiet (w : World E) : Prop :=
  w.status .root ≠ .running ∧ w.index .root = 0 ∧ w.status .laneChange = .idle ∧ QuietTrajectory w ∧ w.status .trajectorySequence = .idle ∧ QuietLane w ∧
    w.status .laneSequence = .idle

/-- The action is running. -/
def At (w : World E) (q : Node) : Prop :=
  w.status .root = .running ∧
    ((q = .laneChange ∧ w.index .root = 0 ∧ w.status .laneChange = .running ∧ w.current = some .laneChange ∧ QuietTrajectory w ∧
        w.status .trajectorySequence = .idle ∧ QuietLane w ∧ w.status .laneSequence = .idle)
      ∨ (q = .followTrajectory ∧ w.index .root = 1 ∧ w.status .trajectorySequence = .running ∧ w.status .followTrajectory = .running ∧
        w.index .trajectorySequence = 0 ∧ w.current = some .followTrajectory ∧ QuietLane w ∧ w.status .laneSequence = .idle)
      ∨ (w.index .root = 2 ∧ QuietTrajectory w ∧ AtLane w q))

/-- What is tried from the selector on. -/
def laneItems (ks : List Node) : List Item := ks.map Item.leaf ++ [.mark .selector]

def lanePart : List Item := .leaf .followLane :: .mark .selector :: laneItems selectorNames

def EndsR (t : Except Fault (Status × World E)) : Except Fault (Option (Node × Bool) × Core E) → Prop
  | .error f => t = .error f
  | .ok (none, c) => ∃ w', t = .ok (.failure, w') ∧ w'.core = { c with current := some .root } ∧ Quiet w'
  | .ok (some (q, true), c) => ∃ w', t = .ok (.running, w') ∧ w'.core = c ∧ At w' q
  | .ok (some (_, false), c) => ∃ w', t = .ok (.success, w') ∧ w'.core = c ∧ Quiet w'

def rootNames : List Node := [.laneChange, .trajectorySequence, .laneSequence]

theorem ne_rootNames (k : Node) (hk : k ∈ selectorNames) : k ≠ .root ∧ k ∉ rootNames ∧ k ≠ .laneChange ∧ k ≠ .trajectorySequence ∧ k ≠ .laneSequence ∧ k ≠ .followTrajectory := by
  revert k; decide

/-- A quiet tree after everything is halted. -/
theorem halt_quiet (w : World E) (s : Status) (hs : s ≠ .running) (ht : QuietTrajectory w) (hl : QuietLane w) : Quiet ((w.halt .root rootNames).setStatus .root s) := by
  obtain ⟨ht1, ht2⟩ := ht
  obtain ⟨hl1, hl2, hl3, hl4, hl5⟩ := hl
  refine ⟨?_, ?_, ?_, ⟨?_, ?_⟩, ?_, ⟨?_, ?_, ?_, ?_, ?_⟩, ?_⟩ <;> (try rw [setStatus_status]) <;> (try rw [setStatus_index])
  · simpa using hs
  · simp [World.halt]
  · simp [World.halt, set, rootNames]
  · simp [World.halt, set, ht1]
  · simp [World.halt, set, rootNames, ht2]
  · simp [World.halt, set, rootNames]
  · simp [World.halt, set, hl1]
  · simp [World.halt, set, hl2]
  · simp [World.halt, set, rootNames, hl3]
  · simp [World.halt, set, rootNames, hl4]
  · intro k hk
    obtain ⟨h1, h2, _⟩ := ne_rootNames k hk
    rw [set_ne _ _ h1]
    simp [World.halt, h2, hl5 k hk]
  · simp [World.halt, set, rootNames]

/-- The lane sequence is ticked within the tree. -/
theorem root_tail (act : Node → Act E) (w : World E) (hr : w.status .root = .running) (hi : w.index .root = 2) (ht : QuietTrajectory w)
    (is : List Item) (b : Bool) (c : Core E) (his : is ≠ []) (h : EndsL w (laneTree act w) (chain act is b c)) :
    EndsR (wrap .root (tryKids .root rootNames [laneTree act] w)) (chain act (is ++ [.mark .laneSequence]) b c) := by
  have hsuc := fun q d => chain_success act is b c q d
  rw [outcome_mark act is _ b c his]
  have hnr : Node.root ∉ laneNodes ∧ Node.trajectorySequence ∉ laneNodes ∧ Node.followTrajectory ∉ laneNodes := by decide
  have hqt : ∀ v : World E, Same laneNodes w v → QuietTrajectory v := fun v hv =>
    ⟨(hv _ hnr.2.1).2.trans ht.1, (hv _ hnr.2.2).1.trans ht.2⟩
  generalize chain act is b c = o at *
  rcases o with f | ⟨_ | ⟨q, _ | _⟩, c⟩
  · simp only [EndsL] at h
    simp only [tryKids, h, wrap]
    rfl
  · obtain ⟨v, h1, h2, h3, h4, h5⟩ := h
    simp only [tryKids, h1, wrap]
    have hv : v.status .root = .running := (h3 .root hnr.1).1.trans hr
    refine ⟨_, rfl, ?_, ?_⟩
    · rw [setStatus_fail_composite _ (by simp) _ (by simp [World.halt, rootNames, hv])]
      show ({ v.core with current := _ } : Core E) = _
      rw [h2]
    · refine halt_quiet _ _ (by simp) ?_ ?_
      · have := hqt v h3
        exact ⟨by simpa [set] using this.1, this.2⟩
      · obtain ⟨a1, a2, a3, a4, a5⟩ := h4
        exact ⟨by simpa [set] using a1, by simpa [set] using a2, a3, a4, a5⟩
  · obtain ⟨v, h1, h2, h3, h4, h5⟩ := h
    simp only [tryKids, h1, wrap]
    have hv : v.status .root = .running := (h3 .root hnr.1).1.trans hr
    refine ⟨_, rfl, ?_, ?_⟩
    · rw [setStatus_success _ _ (by simp [World.halt, rootNames, hv])]
      exact Core.succeed_core (w := v.halt _ _) h2 (hsuc q c rfl)
    · exact halt_quiet _ _ (by simp) (hqt v h3) h4
  · obtain ⟨v, h1, h2, h3, h4⟩ := h
    simp only [tryKids, h1, wrap]
    have hv : v.status .root = .running := (h3 .root hnr.1).1.trans hr
    have hcore : (v.setStatus .root .running).core = v.core := by rw [setStatus_running, hv]; rfl
    have hne : ∀ k, k ≠ .root → (v.setStatus .root .running).status k = v.status k := fun k hk => by rw [setStatus_status, set_ne _ _ hk]
    have hcc := congrArg Core.current hcore
    simp only [World.core] at hcc
    refine ⟨_, rfl, hcore.trans h2, by rw [setStatus_status]; simp, Or.inr (Or.inr ⟨?_, ?_, ?_⟩)⟩
    · rw [setStatus_index, (h3 .root hnr.1).2]; exact hi
    · have := hqt v h3
      exact ⟨by rw [setStatus_index]; exact this.1, by rw [hne _ (by simp)]; exact this.2⟩
    · obtain ⟨a1, a2⟩ := h4
      refine ⟨by rw [hne _ (by simp)]; exact a1, ?_⟩
      rcases a2 with ⟨b1, b2, b3, b4, b5, b6, b7⟩ | ⟨b1, b2, b3, b4, b5, b6, b7⟩
      · refine Or.inl ⟨b1, by rw [setStatus_index]; exact b2, by rw [setStatus_index]; exact b3, by rw [hne _ (by simp)]; exact b4, hcc.trans b5,
          by rw [hne _ (by simp)]; exact b6, fun k hk => by rw [hne _ (ne_rootNames k hk).1]; exact b7 k hk⟩
      · refine Or.inr ⟨by rw [setStatus_index]; exact b1, b2, by rw [setStatus_index]; exact b3, by rw [hne _ (by simp)]; exact b4,
          by rw [hne _ (ne_rootNames q b2).1]; exact b5, hcc.trans b6, fun k hk hl => by rw [hne _ (ne_rootNames k hk).1]; exact b7 k hk hl⟩

/-- The lane sequence begins within the tree. -/
theorem root_lane (act : Node → Act E) (w : World E) (hr : w.status .root = .running) (hi : w.index .root = 2) (ht : QuietTrajectory w) (hl : QuietLane w)
    (hls : w.status .laneSequence ≠ .running) :
    EndsR (wrap .root (tryKids .root rootNames [laneTree act] w))
      (chain act (lanePart ++ [.mark .laneSequence]) false { w.core with current := some .laneSequence }) := by
  obtain ⟨h1, h2, h3, h4, h5⟩ := hl
  refine root_tail act w hr hi ht lanePart _ _ (by simp [lanePart]) ?_
  rw [laneTree_eq, h1]
  have hcore : (w.setStatus .laneSequence .running).core = { w.core with current := some .laneSequence } := by
    rw [setStatus_running]; simp [hls, World.core]
  have hne : ∀ k, k ≠ .laneSequence → (w.setStatus .laneSequence .running).status k = w.status k := fun k hk => by rw [setStatus_status, set_ne _ _ hk]
  have := lane_first act (w.setStatus .laneSequence .running) false (by rw [setStatus_status]; simp) (by rw [setStatus_index]; exact h1)
    (by rw [setStatus_index]; exact h2) (Or.inl (by rw [hne _ (by simp)]; exact h3)) (by rw [hne _ (by simp), h3]; simp) (by simp)
    (by rw [hne _ (by simp)]; exact h4) (fun k hk => by rw [hne _ (ne_rootNames k hk).2.2.2.2.1]; exact h5 k hk)
  rw [hcore] at this
  exact this.base ((setStatus_same _ _ w).mono (by simp [laneNodes]))

/-- The trajectory sequence is ticked within the tree. -/
theorem root_trajectory (act : Node → Act E) (w : World E) (hr : w.status .root = .running) (hi : w.index .root = 1) (hl : QuietLane w)
    (hls : w.status .laneSequence = .idle) (b : Bool) (c : Core E)
    (h : EndsF .trajectorySequence [.followTrajectory] w (trajectoryTree act w) (chain act [.leaf .followTrajectory] b c)) :
    EndsR (wrap .root (tryKids .root rootNames [trajectoryTree act, laneTree act] w))
      (chain act ([.leaf .followTrajectory] ++ .mark .trajectorySequence :: .mark .laneSequence :: (lanePart ++ [.mark .laneSequence])) b c) := by
  have hsuc := fun q d => chain_success act [.leaf .followTrajectory] b c q d
  rw [chain_append act _ _ b c (by simp)]
  have hnr : Node.root ∉ [Node.trajectorySequence, .followTrajectory] ∧ Node.laneSequence ∉ [Node.trajectorySequence, .followTrajectory] ∧
    Node.selector ∉ [Node.trajectorySequence, .followTrajectory] ∧ Node.followLane ∉ [Node.trajectorySequence, .followTrajectory] := by decide
  have hsel : ∀ k ∈ selectorNames, k ∉ [Node.trajectorySequence, .followTrajectory] := by decide
  have hql : ∀ v : World E, Same [Node.trajectorySequence, .followTrajectory] w v → QuietLane v := fun v hv =>
    ⟨(hv _ hnr.2.1).2.trans hl.1, (hv _ hnr.2.2.1).2.trans hl.2.1, (hv _ hnr.2.2.2).1.trans hl.2.2.1, (hv _ hnr.2.2.1).1.trans hl.2.2.2.1,
      fun k hk => (hv _ (hsel k hk)).1.trans (hl.2.2.2.2 k hk)⟩
  generalize chain act [.leaf .followTrajectory] b c = o at *
  rcases o with f | ⟨_ | ⟨q, _ | _⟩, c⟩
  · simp only [EndsF] at h
    simp only [tryKids, h, wrap]
    rfl
  · obtain ⟨v, h1, h2, h3, h4, h5, h6⟩ := h
    rw [tryKids, h1]
    simp only
    have hv := h3 .root hnr.1
    have hl' := hql v h3
    have := root_lane act { v with index := set v.index .root (v.index .root + 1) } (hv.1.trans hr) (by simp [hv.2, hi])
      ⟨by simp [set, h4], by simpa using h6⟩
      ⟨by simp [set, hl'.1], by simp [set, hl'.2.1], hl'.2.2.1, hl'.2.2.2.1, hl'.2.2.2.2⟩
      (by show v.status _ ≠ _; rw [(h3 _ hnr.2.1).1, hls]; simp)
    have hcv : ({ v with index := set v.index .root (v.index .root + 1) } : World E).core = { c with current := some .trajectorySequence } := h2
    rw [hcv] at this
    simp only [chain]
    exact this
  · obtain ⟨v, h1, h2, h3, h4, h5, h6⟩ := h
    simp only [tryKids, h1, wrap]
    have hv : v.status .root = .running := (h3 .root hnr.1).1.trans hr
    refine ⟨_, rfl, ?_, halt_quiet _ _ (by simp) ⟨h4, by simpa using h6⟩ (hql v h3)⟩
    rw [setStatus_success _ _ (by simp [World.halt, rootNames, hv])]
    exact Core.succeed_core (w := v.halt _ _) h2 (hsuc q c rfl)
  · obtain ⟨v, h1, h2, h3, h4, h5, h6, h7, h8, h9⟩ := h
    simp only [tryKids, h1, wrap]
    have hv : v.status .root = .running := (h3 .root hnr.1).1.trans hr
    have hcore : (v.setStatus .root .running).core = v.core := by rw [setStatus_running, hv]; rfl
    have hne : ∀ k, k ≠ .root → (v.setStatus .root .running).status k = v.status k := fun k hk => by rw [setStatus_status, set_ne _ _ hk]
    have hcc := congrArg Core.current hcore
    simp only [World.core] at hcc
    have hq : q = .followTrajectory := by simpa using h5
    subst hq
    have hl' := hql v h3
    refine ⟨_, rfl, hcore.trans h2, by rw [setStatus_status]; simp, Or.inr (Or.inl ⟨rfl, ?_, ?_, ?_, ?_, ?_, ⟨?_, ?_, ?_, ?_, ?_⟩, ?_⟩)⟩
    · rw [setStatus_index, (h3 .root hnr.1).2]; exact hi
    · rw [hne _ (by simp)]; exact h4
    · rw [hne _ (by simp)]; exact h7
    · rw [setStatus_index, h6]; rfl
    · exact hcc.trans h8
    · rw [setStatus_index]; exact hl'.1
    · rw [setStatus_index]; exact hl'.2.1
    · rw [hne _ (by simp)]; exact hl'.2.2.1
    · rw [hne _ (by simp)]; exact hl'.2.2.2.1
    · intro k hk; rw [hne _ (ne_rootNames k hk).1]; exact hl'.2.2.2.2 k hk
    · rw [hne _ (by simp), (h3 _ hnr.2.1).1]; exact hls

def trajectoryPart : List Item := .leaf .followTrajectory :: .mark .trajectorySequence :: .mark .laneSequence :: (lanePart ++ [.mark .laneSequence])

/-- The tree tries to change lanes: it has just begun, or is resumed there. -/
theorem root_first (act : Node → Act E) (w : World E) (started : Bool) (hr : w.status .root = .running) (hi : w.index .root = 0)
    (hf : w.status .laneChange = .idle ∨ w.status .laneChange = .running) (hfs : w.status .laneChange = .running ↔ started = true)
    (hcur : started = true → w.current = some .laneChange) (ht : QuietTrajectory w) (hts : w.status .trajectorySequence = .idle) (hl : QuietLane w)
    (hls : w.status .laneSequence = .idle) :
    EndsR (wrap .root (tryKids .root rootNames [leaf .laneChange (act .laneChange), trajectoryTree act, laneTree act] w))
      (chain act (.leaf .laneChange :: .mark .trajectorySequence :: trajectoryPart) started w.core) := by
  simp only [chain]
  have hcore : w.core.request = w.request ∧ w.core.entity = w.entity := ⟨rfl, rfl⟩
  rw [hcore.1, hcore.2, tryKids]
  have hsl : ∀ k ∈ selectorNames, k ≠ .laneChange := fun k hk => (ne_rootNames k hk).2.2.1
  rcases hact : act .laneChange w.request w.entity with f | ⟨s, e⟩
  · rw [leaf_error act _ w f hact]; rfl
  · rw [leaf_ok act _ w s e hact]
    have hst := setStatus_status .laneChange s ({ w with entity := e } : World E)
    have hix := setStatus_index .laneChange s ({ w with entity := e } : World E)
    have hrun := setStatus_running .laneChange ({ w with entity := e } : World E)
    have hsuc := setStatus_success .laneChange ({ w with entity := e } : World E) (by simp only; rcases hf with h | h <;> simp [h])
    have hfai := setStatus_failure .laneChange ({ w with entity := e } : World E) (by simp only; rcases hf with h | h <;> simp [h])
    cases s with
    | idle => rfl
    | running =>
      generalize ({ w with entity := e } : World E).setStatus .laneChange .running = v at *
      simp only at hst hix hrun
      have hc : v.core = w.core.run .laneChange started e := by
        rw [hrun]
        by_cases hs : started = true
        · simp [Core.run, World.core, hs, hfs.2 hs]
        · have : w.status .laneChange ≠ .running := fun h => hs (hfs.1 h)
          simp [Core.run, World.core, hs, this]
      have hvr : v.status .root = .running := by rw [hst, set_ne _ _ (by simp)]; exact hr
      have hcore : (v.setStatus .root .running).core = v.core := by rw [setStatus_running, hvr]; rfl
      have hne : ∀ k, k ≠ .root → k ≠ .laneChange → (v.setStatus .root .running).status k = w.status k := fun k hk hk' => by
        rw [setStatus_status, set_ne _ _ hk, hst, set_ne _ _ hk']
      have hni : (v.setStatus .root .running).index = w.index := by rw [setStatus_index, hix]
      refine ⟨_, rfl, hcore.trans hc, by rw [setStatus_status]; simp, Or.inl ⟨rfl, ?_, ?_, ?_, ⟨?_, ?_⟩, ?_, ⟨?_, ?_, ?_, ?_, ?_⟩, ?_⟩⟩
      · rw [hni]; exact hi
      · rw [setStatus_status, set_ne _ _ (by simp), hst]; simp
      · refine (congrArg Core.current (hcore.trans hc)).trans ?_
        by_cases hs : started = true
        · simp [Core.run, World.core, hs, hcur hs]
        · simp [Core.run, hs]
      · rw [hni]; exact ht.1
      · rw [hne _ (by simp) (by simp)]; exact ht.2
      · rw [hne _ (by simp) (by simp)]; exact hts
      · rw [hni]; exact hl.1
      · rw [hni]; exact hl.2.1
      · rw [hne _ (by simp) (by simp)]; exact hl.2.2.1
      · rw [hne _ (by simp) (by simp)]; exact hl.2.2.2.1
      · intro k hk; rw [hne _ (ne_rootNames k hk).1 (hsl k hk)]; exact hl.2.2.2.2 k hk
      · rw [hne _ (by simp) (by simp)]; exact hls
    | success =>
      generalize ({ w with entity := e } : World E).setStatus .laneChange .success = v at *
      simp only at hst hix hsuc
      have hvr : v.status .root = .running := by rw [hst, set_ne _ _ (by simp)]; exact hr
      have hne : ∀ k, k ≠ .laneChange → v.status k = w.status k := fun k hk' => by rw [hst, set_ne _ _ hk']
      refine ⟨_, rfl, ?_, halt_quiet _ _ (by simp) ?_ ?_⟩
      · rw [setStatus_success _ _ (by simp [World.halt, rootNames, hvr])]
        exact Core.succeed_core (w := v.halt _ _) hsuc (succeed_twice _ _)
      · exact ⟨by rw [hix]; exact ht.1, by rw [hne _ (by simp)]; exact ht.2⟩
      · exact ⟨by rw [hix]; exact hl.1, by rw [hix]; exact hl.2.1, by rw [hne _ (by simp)]; exact hl.2.2.1, by rw [hne _ (by simp)]; exact hl.2.2.2.1,
          fun k hk => by rw [hne _ (hsl k hk)]; exact hl.2.2.2.2 k hk⟩
    | failure =>
      generalize ({ w with entity := e } : World E).setStatus .laneChange .failure = v at *
      simp only at hst hix hfai
      simp only
      have hvr : v.status .root = .running := by rw [hst, set_ne _ _ (by simp)]; exact hr
      have hne : ∀ k, k ≠ .laneChange → v.status k = w.status k := fun k hk' => by rw [hst, set_ne _ _ hk']
      have hcv : ({ v with index := set v.index .root (v.index .root + 1) } : World E).core = w.core.fail .laneChange e := hfai
      have hE := fresh_leaves act .trajectorySequence [.followTrajectory] (by simp) (by decide) (by decide)
        { v with index := set v.index .root (v.index .root + 1) } (by simp [set, hix, ht.1])
        (by show v.status _ ≠ _; rw [hne _ (by simp), hts]; simp)
        (fun k hk => by
          obtain rfl : k = .followTrajectory := by simpa using hk
          show v.status _ = _
          rw [hne _ (by simp)]; exact ht.2)
      have := root_trajectory act { v with index := set v.index .root (v.index .root + 1) } hvr (by simp [hix, hi])
        ⟨by simp [set, hix, hl.1], by simp [set, hix, hl.2.1], (hne _ (by simp)).trans hl.2.2.1, (hne _ (by simp)).trans hl.2.2.2.1,
          fun k hk => (hne _ (hsl k hk)).trans (hl.2.2.2.2 k hk)⟩
        ((hne _ (by simp)).trans hls) false _ hE
      rw [hcv] at this
      exact this

/-- What is tried in one tick of the tree: `none` if nothing is running. -/
def items : Option Node → List Item
  | none => .mark .root :: .leaf .laneChange :: .mark .trajectorySequence :: trajectoryPart
  | some .laneChange => .leaf .laneChange :: .mark .trajectorySequence :: trajectoryPart
  | some .followTrajectory => trajectoryPart
  | some .followLane => lanePart ++ [.mark .laneSequence]
  | some q => laneItems (selectorNames.drop (selectorNames.idxOf q)) ++ [.mark .laneSequence]

theorem items_selector (q : Node) (hq : q ∈ selectorNames) : items (some q) = laneItems (selectorNames.drop (selectorNames.idxOf q)) ++ [.mark .laneSequence] := by
  simp only [selectorNames, List.mem_cons, List.not_mem_nil, or_false] at hq
  rcases hq with rfl | rfl | rfl | rfl | rfl | rfl <;> rfl

theorem selector_split (q : Node) (hq : q ∈ selectorNames) :
    ∃ pre ks, selectorNames = pre ++ q :: ks ∧ selectorNames.drop (selectorNames.idxOf q) = q :: ks := by
  simp only [selectorNames, List.mem_cons, List.not_mem_nil, or_false] at hq
  rcases hq with rfl | rfl | rfl | rfl | rfl | rfl
  · exact ⟨[], _, rfl, rfl⟩
  · exact ⟨[_], _, rfl, rfl⟩
  · exact ⟨[_, _], _, rfl, rfl⟩
  · exact ⟨[_, _, _], _, rfl, rfl⟩
  · exact ⟨[_, _, _, _], _, rfl, rfl⟩
  · exact ⟨[_, _, _, _, _], _, rfl, rfl⟩

/-- The state of a tree between ticks. -/
def Holds (w : World E) : Option Node → Prop
  | none => Quiet w
  | some q => At w q

theorem tree_eq (act : Node → Act E) (w : World E) : vehicleTree act w =
    wrap .root (tryKids .root rootNames ([leaf .laneChange (act .laneChange), trajectoryTree act, laneTree act].drop (w.index .root)) (w.setStatus .root .running)) := by
  simp only [vehicleTree_eq, fallback, setStatus_index, wrap, List.map_cons, List.map_nil, rootNames]
  first | done | rfl

theorem tick_ends (act : Node → Act E) (w : World E) (p : Option Node) (h : Holds w p) :
    EndsR (vehicleTree act w) (chain act (items p) p.isSome w.core) := by
  rw [tree_eq]
  have hrr : (w.setStatus .root .running).status .root = .running := by rw [setStatus_status]; simp
  have hne : ∀ k, k ≠ .root → (w.setStatus .root .running).status k = w.status k := fun k hk => by rw [setStatus_status, set_ne _ _ hk]
  have hni : (w.setStatus .root .running).index = w.index := setStatus_index _ _ _
  have hqt : QuietTrajectory w → QuietTrajectory (w.setStatus .root .running) := fun h => ⟨by rw [hni]; exact h.1, by rw [hne _ (by simp)]; exact h.2⟩
  have hql : QuietLane w → QuietLane (w.setStatus .root .running) := fun hl =>
    ⟨by rw [hni]; exact hl.1, by rw [hni]; exact hl.2.1, by rw [hne _ (by simp)]; exact hl.2.2.1, by rw [hne _ (by simp)]; exact hl.2.2.2.1,
      fun k hk => by rw [hne _ (ne_rootNames k hk).1]; exact hl.2.2.2.2 k hk⟩
  cases p with
  | none =>
    obtain ⟨h1, h2, h3, h4, h5, h6, h7⟩ := h
    have hc := setStatus_running .root w
    have := root_first act (w.setStatus .root .running) false hrr (by rw [hni]; exact h2) (Or.inl (by rw [hne _ (by simp)]; exact h3))
      (by rw [hne _ (by simp), h3]; simp) (by simp) (hqt h4) (by rw [hne _ (by simp)]; exact h5) (hql h6) (by rw [hne _ (by simp)]; exact h7)
    rw [h2]
    rw [hc] at this
    simp only [h1, if_false] at this
    exact this
  | some q =>
    obtain ⟨h0, h⟩ := h
    have hc : (w.setStatus .root .running).core = w.core := by rw [setStatus_running, h0]; rfl
    have hcc := congrArg Core.current hc
    simp only [World.core] at hcc
    rcases h with ⟨rfl, h2, h3, h4, h5, h6, h7, h8⟩ | ⟨rfl, h2, h3, h4, h5, h6, h7, h8⟩ | ⟨h1, h2, h3⟩
    · have := root_first act (w.setStatus .root .running) true hrr (by rw [hni]; exact h2) (Or.inr (by rw [hne _ (by simp)]; exact h3))
        (by rw [hne _ (by simp), h3]; simp) (fun _ => hcc.trans h4) (hqt h5) (by rw [hne _ (by simp)]; exact h6) (hql h7) (by rw [hne _ (by simp)]; exact h8)
      rw [h2]
      rw [hc] at this
      exact this
    · have hE := resumed_leaves act .trajectorySequence [.followTrajectory] (by simp) (by decide) (by decide) (w.setStatus .root .running) .followTrajectory [] []
        rfl (by rw [hni]; exact h5) (by rw [hne _ (by simp)]; exact h3) (by rw [hne _ (by simp)]; exact h4) (hcc.trans h6) (by simp)
      have := root_trajectory act (w.setStatus .root .running) hrr (by rw [hni]; exact h2) (hql h7) (by rw [hne _ (by simp)]; exact h8) true _ hE
      rw [h2]
      rw [hc] at this
      exact this
    · rw [h1]
      obtain ⟨a1, a2⟩ := h3
      rcases a2 with ⟨rfl, b2, b3, b4, b5, b6, b7⟩ | ⟨b1, b2⟩
      · have hl := laneTree_eq act (w.setStatus .root .running)
        rw [hni, b2] at hl
        have hls : (w.setStatus .root .running).status .laneSequence = .running := by rw [hne _ (by simp)]; exact a1
        have hcl : ((w.setStatus .root .running).setStatus .laneSequence .running).core = w.core := by
          rw [setStatus_running, hls]; exact hc
        have hclc := congrArg Core.current hcl
        simp only [World.core] at hclc
        have hne2 : ∀ k, k ≠ .root → k ≠ .laneSequence → ((w.setStatus .root .running).setStatus .laneSequence .running).status k = w.status k := fun k hk hk' => by
          rw [setStatus_status, set_ne _ _ hk', hne _ hk]
        have hni2 : ((w.setStatus .root .running).setStatus .laneSequence .running).index = w.index := by rw [setStatus_index, hni]
        have := lane_first act ((w.setStatus .root .running).setStatus .laneSequence .running) true (by rw [setStatus_status]; simp) (by rw [hni2]; exact b2)
          (by rw [hni2]; exact b3) (Or.inr (by rw [hne2 _ (by simp) (by simp)]; exact b4)) (by rw [hne2 _ (by simp) (by simp), b4]; simp) (fun _ => hclc.trans b5)
          (by rw [hne2 _ (by simp) (by simp)]; exact b6) (fun k hk => by rw [hne2 _ (ne_rootNames k hk).1 (ne_rootNames k hk).2.2.2.2.1]; exact b7 k hk)
        rw [hcl] at this
        have hb := this.base ((setStatus_same .laneSequence .running (w.setStatus .root .running)).mono (by simp [laneNodes]))
        have hd : ([leaf .followLane (act .followLane), selectorTree act] : List (Tick E)) = [leaf .followLane (act .followLane), selectorTree act].drop 0 := rfl
        rw [hd, ← hl] at hb
        exact root_tail act (w.setStatus .root .running) hrr (by rw [hni]; exact h1) (hqt h2) lanePart true w.core (by simp [lanePart]) hb
      · have hq := b2.1
        have hs : AtSelector (w.setStatus .root .running) q := by
          obtain ⟨c1, c2, c3, c4, c5, c6⟩ := b2
          exact ⟨c1, by rw [hni]; exact c2, by rw [hne _ (by simp)]; exact c3, by rw [hne _ (ne_rootNames q c1).1]; exact c4, hcc.trans c5,
            fun k hk hl => by rw [hne _ (ne_rootNames k hk).1]; exact c6 k hk hl⟩
        obtain ⟨pre, ks, hpre, hdrop⟩ := selector_split q hq
        have hE := lane_resumed act (w.setStatus .root .running) q ks pre hpre (by rw [hne _ (by simp)]; exact a1) (by rw [hni]; exact b1) hs
        rw [hc] at hE
        have := root_tail act (w.setStatus .root .running) hrr (by rw [hni]; exact h1) (hqt h2) _ true w.core (by simp) hE
        rw [items_selector q hq, hdrop]
        exact this

end Verif.Behavior
