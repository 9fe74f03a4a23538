import Verif.Autoware.Model
/-
C39: classification of the state. C40: service calls. C51: tasks wait for the right state.
-/
namespace Verif.Autoware

/-- C39: driving is reported exactly if localisation is initialised, a route is set (or changing), the mode is
one of the driving modes and Autoware controls the vehicle. -/
theorem C39_driving (sec : Int) (m : Messages) :
    classify sec m = .driving ↔ m.localization = .initialized ∧ (m.route = .set ∨ m.route = .changing) ∧
      (m.mode = .autonomous ∨ m.mode = .local ∨ m.mode = .remote) ∧ m.controlEnabled = true := by
  obtain ⟨l, r, o, c, a, t⟩ := m
  cases l <;> cases r <;> cases o <;> cases c <;> cases a <;> simp [classify, classify.byMode] <;> split <;> simp

/-- C39: a missing message, like localisation not being initialised, is reported as initialising, and nothing
else is. -/
theorem C39_initializing (sec : Int) (m : Messages) :
    classify sec m = .initializing ↔ m.localization = .unknown ∨ m.route = .unknown ∨ m.mode = .unknown ∨
      m.localization = .uninitialized ∨ m.localization = .initializing := by
  obtain ⟨l, r, o, c, a, t⟩ := m
  cases l <;> cases r <;> cases o <;> cases c <;> cases a <;> simp [classify, classify.byMode] <;> split <;> simp

/-- C39: the other states, each exactly in one situation. -/
theorem C39_others (sec : Int) (m : Messages) (h : m.localization = .initialized) (hr : m.route ≠ .unknown)
    (hm : m.mode ≠ .unknown) :
    (classify sec m = .arrivedGoal ↔ m.route = .arrived ∧ m.sinceArrival < 2 * sec) ∧
    (classify sec m = .waitingForRoute ↔ m.route = .unset ∨ m.route = .arrived ∧ 2 * sec ≤ m.sinceArrival) ∧
    (classify sec m = .waitingForEngage ↔ (m.route = .set ∨ m.route = .changing) ∧ m.autonomousAvailable = true ∧
      (m.mode = .stop ∨ (m.mode = .autonomous ∨ m.mode = .local ∨ m.mode = .remote) ∧ m.controlEnabled = false)) ∧
    (classify sec m = .planning ↔ (m.route = .set ∨ m.route = .changing) ∧ m.autonomousAvailable = false ∧
      (m.mode = .stop ∨ (m.mode = .autonomous ∨ m.mode = .local ∨ m.mode = .remote) ∧ m.controlEnabled = false)) ∧
    classify sec m ≠ .finalizing ∧
    (classify sec m = .undefined ↔ (∃ n, m.route = .other n) ∨ (m.route = .set ∨ m.route = .changing) ∧ ∃ n, m.mode = .other n) := by
  obtain ⟨l, r, o, c, a, t⟩ := m
  simp only at h hr hm
  subst h
  cases r <;> cases o <;> cases c <;> cases a <;> simp [classify, classify.byMode] at hr hm ⊢ <;> split <;> simp <;> omega

example : classify 1 ⟨.initialized, .set, .autonomous, true, true, 0⟩ = .driving ∧ classify 1 (Messages.initial 5) = .initializing := by
  decide

theorem attempts_spec (outcome : Nat → Bool) (k n : Nat) :
    ((∃ j, k ≤ j ∧ j < k + n ∧ outcome j = true ∧ (∀ i, k ≤ i → i < j → outcome i = false) ∧
      attempts outcome k n = ⟨j + 1, true⟩)) ∨
    (∀ j, k ≤ j → j < k + n → outcome j = false) ∧ attempts outcome k n = ⟨k + n, false⟩ := by
  induction n generalizing k with
  | zero => exact .inr ⟨fun j a b => by omega, rfl⟩
  | succ n ih =>
    rw [attempts]
    cases h : outcome k with
    | true => exact .inl ⟨k, by omega, by omega, h, fun i a b => by omega, by simp⟩
    | false =>
      simp only [Bool.false_eq_true, if_false]
      rcases ih (k + 1) with ⟨j, a, b, c, d, e⟩ | ⟨a, b⟩
      · refine .inl ⟨j, by omega, by omega, c, ?_, e⟩
        intro i h1 h2
        by_cases hi : i = k
        · rw [hi]; exact h
        · exact d i (by omega) h2
      · refine .inr ⟨?_, by rw [b]; congr 1; omega⟩
        intro j h1 h2
        by_cases hj : j = k
        · rw [hj]; exact h
        · exact a j (by omega) (by omega)

/-- C40: a call that gets past the wait for the service sends at most `n` requests; it returns exactly if one
of the first `n` attempts succeeds and then the first success was the last request; it throws exactly if
all `n` attempts fail, having sent all of them. -/
theorem C40_retries (rosOk ready late outcome : Nat → Bool) (n : Nat) (c : Call)
    (h : call rosOk ready late outcome n = some c) :
    c.sent ≤ n ∧
    (c.ok = true ↔ available rosOk ready late 0 = some true ∧ ∃ j, j < n ∧ outcome j = true) ∧
    (c.ok = true → 1 ≤ c.sent ∧ outcome (c.sent - 1) = true ∧ ∀ i, i < c.sent - 1 → outcome i = false) ∧
    (c.ok = false → c.sent = 0 ∧ available rosOk ready late 0 = some false ∨ c.sent = n) := by
  obtain ⟨a, ha, hc⟩ := Option.map_eq_some_iff.mp h
  cases a with
  | false => subst hc; simp [ha]
  | true =>
    simp only [if_true] at hc
    subst hc
    rcases attempts_spec outcome 0 n with ⟨j, _, b, c, d, e⟩ | ⟨a, b⟩
    · rw [e]
      refine ⟨by simp; omega, by simp [ha]; exact ⟨j, by omega, c⟩, ?_, by simp⟩
      intro _
      exact ⟨by simp, by simpa using c, fun i hi => d i (by omega) (by simpa using hi)⟩
    · rw [b]
      refine ⟨by simp, ?_, by simp, by simp⟩
      simp only [Bool.false_eq_true, false_iff, not_and, not_exists, Bool.not_eq_true]
      intro _ j hj
      exact a j (by omega) (by omega)

/-- C40: the call gets past the wait exactly if ROS shuts down or the service is ready at some look before
which (that look excluded) the deadline had not passed. -/
theorem C40_available (rosOk ready late : Nat → Bool) (b : Bool) (h : available rosOk ready late 0 = some b) :
    b = true ↔ ∃ k, (rosOk k = false ∨ ready k = true) ∧ ∀ i, i < k → late i = false := by
  have key := available.partial_correctness rosOk ready late
    (motive := fun i b => b = true ↔ ∃ k, i ≤ k ∧ (rosOk k = false ∨ ready k = true) ∧ ∀ j, i ≤ j → j < k → late j = false)
    (by
      intro self ih i b hb
      split at hb
      · rename_i c
        simp only [Bool.and_eq_true, Bool.not_eq_true'] at c
        split at hb
        · rename_i hl
          cases hb
          simp only [Bool.false_eq_true, false_iff, not_exists, not_and]
          intro k hk hr hj
          have hik : i ≠ k := by rintro rfl; simp [c] at hr
          simp [hj i (Nat.le_refl i) (by omega)] at hl
        · rename_i hl
          rw [ih _ _ hb]
          constructor
          · rintro ⟨k, hk, hr, hj⟩
            refine ⟨k, by omega, hr, fun j h1 h2 => ?_⟩
            by_cases e : j = i
            · subst e; simpa using hl
            · exact hj j (by omega) h2
          · rintro ⟨k, hk, hr, hj⟩
            have hik : i ≠ k := by rintro rfl; simp [c] at hr
            exact ⟨k, by omega, hr, fun j h1 h2 => hj j (by omega) h2⟩
      · rename_i c
        cases hb
        simp only [true_iff]
        refine ⟨i, Nat.le_refl i, ?_, fun j h1 h2 => by omega⟩
        cases h1 : rosOk i <;> cases h2 : ready i <;> simp_all) 0 b h
  simpa using key

/-- C40: an answer with several results is a success exactly if every one of them is. -/
theorem C40_all_results (results : List Bool) : receiveAll results = true ↔ false ∉ results := by
  induction results with
  | nil => simp [receiveAll]
  | cons r l ih => cases r <;> simp_all [receiveAll]

example : receiveAll [true, false, true] = false ∧ receiveAll [true, true] = true := by decide

/-- C40: a call always ends, since the deadline passes. -/
theorem C40_terminates (rosOk ready late outcome : Nat → Bool) (n k : Nat) (h : late k = true) :
    (call rosOk ready late outcome n).isSome = true := by
  unfold call
  rw [Option.isSome_map]
  have key : ∀ d i, i + d = k → (available rosOk ready late i).isSome = true := by
    intro d
    induction d with
    | zero =>
      intro i hi
      have : i = k := by omega
      subst this
      rw [available.eq_def, h]
      split <;> simp
    | succ d ih =>
      intro i hi
      rw [available.eq_def]
      split
      · split
        · simp
        · exact ih (i + 1) (by omega)
      · simp
  exact key k 0 (by omega)

example : call (fun _ => true) (fun i => i == 2) (fun i => i == 9) (fun k => k == 3) 30 = some ⟨4, true⟩ ∧
    call (fun _ => true) (fun i => i == 2) (fun i => i == 9) (fun k => k == 3) 3 = some ⟨3, false⟩ := by
  constructor <;> simp [call, available.eq_def _ _ _ 0, available.eq_def _ _ _ 1, available.eq_def _ _ _ 2, attempts]

/-- Autoware never falls back. -/
def Forward (w : World) : Prop := ∀ i, (w.state i).rank ≤ (w.state (i + 1)).rank

theorem wait_spec (w : World) (a b : AState) (hf : Forward w) (hn : ∀ i, w.finalized i = false) :
    ∀ i r, wait w a b i = some r → ∀ j, r = .ok j → i ≤ j ∧ (a.rank ≤ (w.state i).rank → b.rank ≤ (w.state j).rank) ∧
      (w.state i).rank ≤ (w.state j).rank := by
  apply wait.partial_correctness
  intro wait' ih i r h j hj
  subst hj
  split at h
  · next c =>
    split at h
    · cases h
    · obtain ⟨h1, h2, h3⟩ := ih (i + 1) _ h j rfl
      have := hf i
      exact ⟨by omega, fun ha => h2 (by omega), by omega⟩
  · next c =>
    cases h
    refine ⟨Nat.le_refl _, fun ha => ?_, Nat.le_refl _⟩
    rw [hn i] at c
    simp only [Bool.not_false, Bool.true_and, Bool.and_eq_true, decide_eq_true_eq] at c
    omega

/-- The waits lead from `a` to `b`. -/
def Chain (b : AState) : AState → List (AState × AState) → Prop
  | a, [] => a = b
  | a, (x, y) :: l => x = a ∧ Chain b y l

theorem waits_spec (w : World) (hf : Forward w) (hn : ∀ i, w.finalized i = false) (b : AState)
    (l : List (AState × AState)) : ∀ (a : AState) (i j : Nat), waits w l i = some (.ok j) → Chain b a l →
    a.rank ≤ (w.state i).rank → b.rank ≤ (w.state j).rank ∧ i ≤ j := by
  induction l with
  | nil => intro a i j h hc ha; cases h; cases hc; exact ⟨ha, Nat.le_refl _⟩
  | cons p l ih =>
    obtain ⟨x, y⟩ := p
    intro a i j h hc ha
    obtain ⟨rfl, hc⟩ := hc
    unfold waits at h
    obtain ⟨r, h1, h2⟩ := Option.bind_eq_some_iff.mp h
    cases r with
    | error e => cases h2
    | ok k =>
      obtain ⟨q1, q2, q3⟩ := wait_spec w x y hf hn i _ h1 k rfl
      have := ih y k j h2 hc (q2 ha)
      exact ⟨this.1, by omega⟩

theorem request_spec (w : World) (hf : Forward w) (hn : ∀ i, w.finalized i = false) (a b c : AState)
    (before after : List (AState × AState)) (t : Task) (h : request w before after = some t)
    (hb : Chain b a before) (hc : Chain c b after) (ha : a.rank ≤ (w.state 0).rank) :
    (∀ i, t.sent = some i → b.rank ≤ (w.state i).rank) ∧ (t.ok = true → c.rank ≤ (w.state t.last).rank) := by
  unfold request at h
  obtain ⟨r, h1, h2⟩ := Option.bind_eq_some_iff.mp h
  cases r with
  | error e => cases h2; simp
  | ok i =>
    have hi := waits_spec w hf hn b before a 0 i h1 hb ha
    dsimp only at h2
    split at h2
    · obtain ⟨r, h3, h4⟩ := Option.bind_eq_some_iff.mp h2
      cases r with
      | error e => cases h4; simpa using hi.1
      | ok j =>
        cases h4
        exact ⟨by simpa using hi.1, fun _ => (waits_spec w hf hn c after b i j h3 hc hi.1).1⟩
    · cases h2; simpa using hi.1

/-- C51, in part: as long as Autoware's state does not fall back, the engage request is sent only when Autoware is
at least waiting for it, and the task ends without an error only if Autoware is driving (or beyond). -/
theorem C51_engage_partial (w : World) (hf : Forward w) (hn : ∀ i, w.finalized i = false) (t : Task)
    (h : engage w = some t) :
    (∀ i, t.sent = some i → AState.waitingForEngage.rank ≤ (w.state i).rank) ∧
    (t.ok = true → AState.driving.rank ≤ (w.state t.last).rank) := by
  unfold engage at h
  cases h0 : w.state 0 <;> rw [h0] at h <;> dsimp only at h
  case initializing => exact request_spec w hf hn .initializing .waitingForEngage .driving _ _ t h (by simp [Chain]) (by simp [Chain]) (by rw [h0]; decide)
  case waitingForRoute => exact request_spec w hf hn .waitingForRoute .waitingForEngage .driving _ _ t h (by simp [Chain]) (by simp [Chain]) (by rw [h0]; decide)
  case planning => exact request_spec w hf hn .planning .waitingForEngage .driving _ _ t h (by simp [Chain]) (by simp [Chain]) (by rw [h0]; decide)
  case waitingForEngage => exact request_spec w hf hn .waitingForEngage .waitingForEngage .driving _ _ t h (by simp [Chain]) (by simp [Chain]) (by rw [h0]; decide)
  case driving => cases h; simp [h0]
  all_goals cases h; simp

/-- C51, in part: likewise for a route, unless Autoware has just arrived. -/
theorem C51_plan_partial (w : World) (hf : Forward w) (hn : ∀ i, w.finalized i = false) (t : Task)
    (ha : w.state 0 ≠ .arrivedGoal) (h : plan w = some t) :
    (∀ i, t.sent = some i → AState.waitingForRoute.rank ≤ (w.state i).rank) ∧
    (t.ok = true → AState.waitingForEngage.rank ≤ (w.state t.last).rank) := by
  unfold plan at h
  cases h0 : w.state 0 <;> rw [h0] at h <;> dsimp only at h
  case initializing => exact request_spec w hf hn .initializing .waitingForRoute .waitingForEngage _ _ t h (by simp [Chain]) (by simp [Chain]) (by rw [h0]; decide)
  case waitingForRoute => exact request_spec w hf hn .waitingForRoute .waitingForRoute .waitingForEngage _ _ t h (by simp [Chain]) (by simp [Chain]) (by rw [h0]; decide)
  case arrivedGoal => exact absurd h0 ha
  all_goals cases h; simp

/-- C51, in part: and for the initial pose. -/
theorem C51_initialize_partial (w : World) (hf : Forward w) (hn : ∀ i, w.finalized i = false) (t : Task)
    (h : initializeTask w = some t) :
    (∀ i, t.sent = some i → AState.initializing.rank ≤ (w.state i).rank) ∧
    (t.ok = true → AState.waitingForRoute.rank ≤ (w.state t.last).rank) := by
  unfold initializeTask at h
  cases h0 : w.state 0 <;> rw [h0] at h <;> dsimp only at h
  case undefined => exact request_spec w hf hn .undefined .initializing .waitingForRoute _ _ t h (by simp [Chain]) (by simp [Chain]) (by rw [h0]; decide)
  case initializing => exact request_spec w hf hn .initializing .initializing .waitingForRoute _ _ t h (by simp [Chain]) (by simp [Chain]) (by rw [h0]; decide)
  case waitingForRoute => exact request_spec w hf hn .initializing .initializing .waitingForRoute _ _ t h (by simp [Chain]) (by simp [Chain]) (by rw [h0]; decide)
  all_goals cases h; simp

theorem wait_completes (w : World) (a b : AState) (k : Nat) (hk : b.rank ≤ (w.state k).rank)
    (hl : ∀ i, i ≤ k → w.late i = false) (i : Nat) (hi : i ≤ k) :
    ∃ j, i ≤ j ∧ j ≤ k ∧ wait w a b i = some (.ok j) := by
  have key : ∀ d i, i + d = k → ∃ j, i ≤ j ∧ j ≤ k ∧ wait w a b i = some (.ok j) := by
    intro d
    induction d with
    | zero =>
      intro i e
      have : i = k := by omega
      subst this
      refine ⟨i, Nat.le_refl i, Nat.le_refl i, ?_⟩
      rw [wait.eq_def, if_neg]
      simp only [Bool.and_eq_true, decide_eq_true_eq]
      omega
    | succ d ih =>
      intro i e
      by_cases c : (!w.finalized i && (decide (a.rank ≤ (w.state i).rank) && decide ((w.state i).rank < b.rank))) = true
      · obtain ⟨j, h1, h2, h3⟩ := ih (i + 1) (by omega)
        refine ⟨j, by omega, h2, ?_⟩
        rw [wait.eq_def, if_pos c, if_neg (by simp [hl i (by omega)]), h3]
      · exact ⟨i, Nat.le_refl i, by omega, by rw [wait.eq_def, if_neg c]⟩
  exact key (k - i) i (by omega)

theorem waits_complete (w : World) (k : Nat) (hl : ∀ i, i ≤ k → w.late i = false) :
    ∀ (l : List (AState × AState)) (i : Nat), i ≤ k → (∀ p ∈ l, p.2.rank ≤ (w.state k).rank) →
      ∃ j, i ≤ j ∧ j ≤ k ∧ waits w l i = some (.ok j) := by
  intro l
  induction l with
  | nil => intro i hi _; exact ⟨i, Nat.le_refl i, hi, rfl⟩
  | cons p l ih =>
    intro i hi hp
    obtain ⟨j, h1, h2, h3⟩ := wait_completes w p.1 p.2 k (hp p (by simp)) hl i hi
    obtain ⟨j', h4, h5, h6⟩ := ih j h2 (fun q hq => hp q (by simp [hq]))
    refine ⟨j', by omega, h5, ?_⟩
    obtain ⟨a, b⟩ := p
    simp only [waits, h3, Option.bind_eq_bind, Option.bind_some, h6]

theorem request_complete (w : World) (k : Nat) (hl : ∀ i, i ≤ k → w.late i = false) (ha : w.accepts = true)
    (before after : List (AState × AState)) (hp : ∀ p ∈ before ++ after, p.2.rank ≤ (w.state k).rank) :
    ∃ t, request w before after = some t ∧ t.ok = true ∧ t.last ≤ k := by
  obtain ⟨i, _, h2, h3⟩ := waits_complete w k hl before 0 (Nat.zero_le k) (fun p h => hp p (by simp [h]))
  obtain ⟨j, _, h5, h6⟩ := waits_complete w k hl after i h2 (fun p h => hp p (by simp [h]))
  exact ⟨⟨true, j, some i⟩, by simp [request, h3, h6, ha], rfl, h5⟩

/-- C51: an engage task started while Autoware is on its way ends without an error, at the latest when Autoware is
driving, if that happens within the time limit and the request is accepted. -/
theorem C51_engage_completes (w : World) (k : Nat) (hl : ∀ i, i ≤ k → w.late i = false) (ha : w.accepts = true)
    (hk : AState.driving.rank ≤ (w.state k).rank)
    (h0 : w.state 0 = .initializing ∨ w.state 0 = .waitingForRoute ∨ w.state 0 = .planning ∨
      w.state 0 = .waitingForEngage ∨ w.state 0 = .driving) :
    ∃ t, engage w = some t ∧ t.ok = true ∧ t.last ≤ k := by
  rcases h0 with h | h | h | h | h <;> simp only [engage, h]
  case inr.inr.inr.inr => exact ⟨_, rfl, rfl, Nat.zero_le k⟩
  all_goals
    apply request_complete w k hl ha
    intro p hp
    simp only [List.cons_append, List.nil_append, List.mem_cons, List.not_mem_nil, or_false] at hp
    rcases hp with rfl | rfl | rfl | rfl <;> simp only [AState.rank] at hk ⊢ <;> omega

/-- C51: likewise for a route, which ends when Autoware waits for being engaged. -/
theorem C51_plan_completes (w : World) (k : Nat) (hl : ∀ i, i ≤ k → w.late i = false) (ha : w.accepts = true)
    (hk : AState.waitingForEngage.rank ≤ (w.state k).rank)
    (h0 : w.state 0 = .initializing ∨ w.state 0 = .waitingForRoute ∨ w.state 0 = .arrivedGoal) :
    ∃ t, plan w = some t ∧ t.ok = true ∧ t.last ≤ k := by
  rcases h0 with h | h | h <;> simp only [plan, h]
  all_goals
    apply request_complete w k hl ha
    intro p hp
    simp only [List.cons_append, List.nil_append, List.mem_cons, List.not_mem_nil, or_false] at hp
    rcases hp with rfl | rfl | rfl <;> simp only [AState.rank] at hk ⊢ <;> omega

/-- C51: and for an initial pose, which ends when Autoware waits for a route. -/
theorem C51_initialize_completes (w : World) (k : Nat) (hl : ∀ i, i ≤ k → w.late i = false) (ha : w.accepts = true)
    (hk : AState.waitingForRoute.rank ≤ (w.state k).rank)
    (h0 : w.state 0 = .undefined ∨ w.state 0 = .initializing ∨ w.state 0 = .waitingForRoute) :
    ∃ t, initializeTask w = some t ∧ t.ok = true ∧ t.last ≤ k := by
  rcases h0 with h | h | h <;> simp only [initializeTask, h]
  all_goals
    apply request_complete w k hl ha
    intro p hp
    simp only [List.cons_append, List.nil_append, List.mem_cons, List.not_mem_nil, or_false] at hp
    rcases hp with rfl | rfl <;> simp only [AState.rank] at hk ⊢ <;> omega

/-- C51: no task ends without an error if its request is refused. -/
theorem C51_refused (w : World) (ha : w.accepts = false) (t : Task)
    (h : engage w = some t ∧ w.state 0 ≠ .driving ∨ plan w = some t ∨ initializeTask w = some t) : t.ok = false := by
  have key : ∀ before after t, request w before after = some t → t.ok = false := by
    intro before after t h
    unfold request at h
    obtain ⟨x, _, h⟩ := Option.bind_eq_some_iff.mp h
    cases x with
    | error _ => cases h; rfl
    | ok i => simp only [ha, Bool.false_eq_true, if_false] at h; cases h; rfl
  rcases h with ⟨h, hd⟩ | h | h
  · unfold engage at h
    cases h0 : w.state 0 <;> rw [h0] at h <;> dsimp only at h
    case driving => exact absurd h0 hd
    all_goals first | exact key _ _ _ h | (cases h; rfl)
  · unfold plan at h
    cases h0 : w.state 0 <;> rw [h0] at h <;> dsimp only at h
    all_goals first | exact key _ _ _ h | (cases h; rfl)
  · unfold initializeTask at h
    cases h0 : w.state 0 <;> rw [h0] at h <;> dsimp only at h
    all_goals first | exact key _ _ _ h | (cases h; rfl)

/-- C51: an engage task that is started in a state in which Autoware cannot be engaged fails without
sending anything. -/
theorem C51_wrong_state (w : World) (h : w.state 0 = .undefined ∨ w.state 0 = .arrivedGoal ∨ w.state 0 = .finalizing) :
    engage w = some ⟨false, 0, none⟩ := by
  rcases h with h | h | h <;> simp [engage, h]

/-- C51: a wait ends if the time limit passes; so no task waits for ever. -/
theorem C51_wait_terminates (w : World) (a b : AState) (i k : Nat) (hik : i ≤ k) (h : w.late k = true) :
    (wait w a b i).isSome = true := by
  have key : ∀ d i, i + d = k → (wait w a b i).isSome = true := by
    intro d
    induction d with
    | zero =>
      intro i hi
      have : i = k := by omega
      subst this
      rw [wait.eq_def, h]
      split <;> simp
    | succ d ih =>
      intro i hi
      rw [wait.eq_def]
      split
      · split
        · simp
        · exact ih (i + 1) (by omega)
      · simp
  exact key (k - i) i (by omega)

/-- C51 is violated: if Autoware falls back to planning after the engage request, the task ends without an
error although Autoware is not driving. -/
theorem C51_engage_violated : ∃ w : World, (∀ i, w.finalized i = false) ∧ w.accepts = true ∧ (w.state 0 = .waitingForEngage) ∧
    ∃ t, engage w = some t ∧ t.ok = true ∧ w.state t.last = .planning := by
  refine ⟨{ state := fun i => if i = 0 then .waitingForEngage else .planning, finalized := fun _ => false,
            late := fun _ => false, accepts := true }, by simp, rfl, rfl, ⟨true, 1, some 0⟩, ?_, rfl, rfl⟩
  simp [engage, request, waits, wait.eq_def _ _ _ 0, wait.eq_def _ _ _ 1, AState.rank]

/-- C51 is violated: a route sent after arrival does not wait until Autoware is waiting for a route, since the
wait from `arrived_goal` to the smaller `waiting_for_route` never waits. -/
theorem C51_plan_violated (w : World) (h : w.state 0 = .arrivedGoal) (ha : w.accepts = true) :
    wait w .arrivedGoal .waitingForRoute 0 = some (.ok 0) ∧ plan w = some ⟨true, 0, some 0⟩ := by
  have h1 : wait w .arrivedGoal .waitingForRoute 0 = some (.ok 0) := by
    rw [wait.eq_def]; simp [h, AState.rank]
  have h2 : wait w .waitingForRoute .planning 0 = some (.ok 0) := by
    rw [wait.eq_def]; simp [h, AState.rank]
  have h3 : wait w .planning .waitingForEngage 0 = some (.ok 0) := by
    rw [wait.eq_def]; simp [h, AState.rank]
  refine ⟨h1, ?_⟩
  simp [plan, request, waits, h, h1, h2, h3, ha]

/-- A world that meets the hypotheses: planning, waiting for engage, then driving. -/
example : let w : World := ⟨fun i => if i < 2 then .planning else if i < 4 then .waitingForEngage else .driving,
      fun _ => false, fun i => decide (100 < i), true⟩
    Forward w ∧ engage w = some ⟨true, 4, some 2⟩ := by
  refine ⟨?_, ?_⟩
  · intro i
    dsimp only
    split <;> split <;> (try split) <;> (try split) <;> simp [AState.rank] <;> omega
  · simp [engage, request, waits, wait.eq_def _ _ _ 0, wait.eq_def _ _ _ 1, wait.eq_def _ _ _ 2, wait.eq_def _ _ _ 3,
      wait.eq_def _ _ _ 4, AState.rank]

end Verif.Autoware
