import Verif.Orca.PluginSpec
import Mathlib.Data.List.TakeWhile
import Mathlib.Tactic.Linarith
import Mathlib.Tactic.NormNum
import Mathlib.Tactic.Positivity
/-
**C173**: a pedestrian who follows lanes. **C174**: a pedestrian who follows a trajectory.
-/
namespace Verif.Orca
open Geometry Classical

theorem near_iff {d : ℝ} (hd : 0 < d) (a b : Pt) : hypot2 a b < d ↔ Near d a b := by
  unfold hypot2 Near
  rw [Real.sqrt_lt' hd]

theorem reached_iff {d : ℝ} (hd : 0 ≤ d) (own : Pt) (yaw : ℝ) (g : Pt) : reached d own yaw g = true ↔ Reached d own yaw g := by
  unfold reached notBehind Reached hypot2
  rw [Bool.and_eq_true, decide_eq_true_eq, decide_eq_true_eq, Real.sqrt_le_left hd]

theorem dropNear_spec {d : ℝ} (hd : 0 < d) (own : Pt) : ∀ (rest : List Pt) (front : Pt), ∃ near after,
    front :: rest = near ++ (dropNear d own front rest).1 :: after ∧ (∀ p ∈ near, Near d own p) ∧
      (near = [] → (dropNear d own front rest).1 = front) ∧
      (¬ Near d own (dropNear d own front rest).1 ∨ after = [])
  | [], front => ⟨[], [], rfl, by simp, fun _ => rfl, .inr rfl⟩
  | next :: rest, front => by
    unfold dropNear
    by_cases h : hypot2 own front < d
    · rw [if_pos h]
      obtain ⟨near, after, h1, h2, -, h4⟩ := dropNear_spec hd own rest next
      refine ⟨front :: near, after, by rw [h1]; rfl, ?_, by simp, h4⟩
      intro p hp
      rcases List.mem_cons.mp hp with rfl | hp
      · exact (near_iff hd _ _).mp h
      · exact h2 p hp
    · rw [if_neg h]
      exact ⟨[], next :: rest, rfl, by simp, fun _ => rfl, .inl (fun hn => h ((near_iff hd _ _).mpr hn))⟩

/-- **C173** There is no goal exactly if no point of the route is near; and the goal is one further on from a point that is near. -/
theorem C173_goal (d : ℝ) (hd : 0 < d) (own : Pt) (route : List Pt) :
    (laneGoal d own route = none ↔ ∀ p ∈ route, ¬ Near d own p) ∧ ∀ g, laneGoal d own route = some g → GoalOn d own route g := by
  have hfar : ∀ p, decide (d ≤ hypot2 own p) = true ↔ ¬ Near d own p := by
    intro p; rw [decide_eq_true_eq, ← near_iff hd, not_lt]
  unfold laneGoal
  constructor
  · cases h : route.dropWhile (fun g => decide (d ≤ hypot2 own g)) with
    | nil =>
      rw [List.dropWhile_eq_nil_iff] at h
      simp only [true_iff]
      exact fun p hp => (hfar p).mp (h p hp)
    | cons front rest =>
      simp only [reduceCtorEq, false_iff, not_forall]
      have h1 : ¬ decide (d ≤ hypot2 own front) = true := by
        have := List.head_dropWhile_not (fun g => decide (d ≤ hypot2 own g)) (l := route) (by rw [h]; simp)
        simp only [h, List.head_cons] at this
        simp [this]
      have h2 : front ∈ route := (List.dropWhile_suffix _).subset (by rw [h]; simp)
      exact ⟨front, h2, fun hn => h1 ((hfar front).mpr hn)⟩
  · intro g
    cases h : route.dropWhile (fun g => decide (d ≤ hypot2 own g)) with
    | nil => simp
    | cons front rest =>
      intro hg
      simp only [Option.some.injEq] at hg
      have h1 : ¬ decide (d ≤ hypot2 own front) = true := by
        have := List.head_dropWhile_not (fun g => decide (d ≤ hypot2 own g)) (l := route) (by rw [h]; simp)
        simp only [h, List.head_cons] at this
        simp [this]
      have hn : Near d own front := by by_contra hc; exact h1 ((hfar front).mpr hc)
      obtain ⟨near, after, e1, e2, e3, e4⟩ := dropNear_spec hd own rest front
      rw [hg] at e1 e3 e4
      refine ⟨route.takeWhile (fun g => decide (d ≤ hypot2 own g)), near, after, ?_, ?_, e2, ?_⟩
      · rw [List.append_assoc, ← e1, ← h, List.takeWhile_append_dropWhile]
      · intro p hp; exact (hfar p).mp (List.mem_takeWhile_imp (p := fun g => decide (d ≤ hypot2 own g)) hp)
      · by_cases hg' : Near d own g
        · exact .inr ⟨hg', e4.resolve_left (fun hx => hx hg')⟩
        · refine .inl ⟨fun h0 => ?_, hg'⟩
          rw [e3 h0] at hg'; exact hg' hn

/-- Between frames. -/
structure Sound (b : Brain) : Prop where
  lane : b.lane = .running → b.action = some .followLane ∧ b.second = false
  second : b.second = true → b.polyline = .running ∧ b.action = some .followTrajectory ∧ b.goals ≠ [] ∧ b.known ≠ none ∧
    (∃ t, b.given = some t ∧ t.vertices ≠ []) ∧ b.lane ≠ .running
  first : b.second = false → b.polyline = .idle ∧ (b.lane = .idle ∨ b.lane = .running)
  goals : b.goals ≠ [] → b.known ≠ none
  root : b.root = .running ↔ b.lane = .running ∨ b.second = true

theorem laneTick_ok {e : Env} {b b' : Brain} {s : Status} (h : laneTick e b = .ok (s, b')) :
    s = .failure ∧ b' = b ∧ b.request ≠ .nothing ∧ b.request ≠ .followLane ∨
    (b.request = .nothing ∨ b.request = .followLane) ∧
      ((s = .success ∧ laneGoal 3 e.position e.center = none ∧ b' = { b with goal := e.position, speed := some (some 0) }) ∨
       (s = .running ∧ ∃ g, laneGoal 3 e.position e.center = some g ∧ b' = { b with goal := g, speed := e.targetSpeed.map some })) := by
  unfold laneTick at h
  split at h
  · rename_i hr
    cases h; exact .inl ⟨rfl, rfl, hr.1, hr.2⟩
  · rename_i hr
    have hr' : b.request = .nothing ∨ b.request = .followLane := by
      by_cases h1 : b.request = .nothing
      · exact .inl h1
      · by_cases h2 : b.request = .followLane
        · exact .inr h2
        · exact absurd ⟨h1, h2⟩ hr
    right
    refine ⟨hr', ?_⟩
    split at h
    · cases h
    · split at h
      · rename_i hg; cases h; exact .inl ⟨rfl, hg, rfl⟩
      · rename_i g hg; cases h; exact .inr ⟨rfl, g, hg, rfl⟩

/-- What the second action leaves. -/
theorem polylineTick_ok {e : Env} {b b' : Brain} {s : Status} (h : polylineTick e b = .ok (s, b')) :
    b'.request = b.request ∧ b'.root = b.root ∧ b'.lane = b.lane ∧ b'.polyline = b.polyline ∧ b'.second = b.second ∧ b'.action = b.action ∧
      (s = .failure ∧ b'.goals = [] ∨ s = .running ∧ b'.goals ≠ [] ∧ b'.known ≠ none ∧ ∃ t, b'.given = some t ∧ t.vertices ≠ []) := by
  unfold polylineTick at h
  split at h
  · cases h
  · simp only at h
    split at h
    · cases h; exact ⟨rfl, rfl, rfl, rfl, rfl, rfl, .inl ⟨rfl, rfl⟩⟩
    · split at h
      · cases h
      · rename_i t ht
        generalize (if b.goals = [] then waypoints e.sampled t else b.goals) = gs at h
        generalize (if b.goals = [] then some t else b.known) = kn at h
        split at h
        · cases h
        · rename_i hv
          split at h
          · cases h
          · rename_i k
            split at h
            · cases h
            · split at h
              · cases h
              · cases h; exact ⟨rfl, rfl, rfl, rfl, rfl, rfl, .inl ⟨rfl, rfl⟩⟩
              · cases h
                refine ⟨rfl, rfl, rfl, rfl, rfl, rfl, .inr ⟨rfl, by simp, by simp, t, ht, hv⟩⟩

theorem announce_fields (n : Node) (s : Status) (b : Brain) : (announce n s b).root = b.root ∧ (announce n s b).lane = b.lane ∧
    (announce n s b).polyline = b.polyline ∧ (announce n s b).second = b.second ∧ (announce n s b).goals = b.goals ∧
    (announce n s b).known = b.known ∧ (announce n s b).given = b.given ∧ (announce n s b).goal = b.goal ∧ (announce n s b).speed = b.speed ∧
    (announce n s b).maxSpeed = b.maxSpeed := by
  unfold announce
  split <;> exact ⟨rfl, rfl, rfl, rfl, rfl, rfl, rfl, rfl, rfl, rfl⟩

theorem tickSecond_ok {e : Env} {b b' : Brain} (h : tickSecond e b = .ok b') (hroot : b.root = .running) (hlane : b.lane ≠ .running)
    (hsec : b.second = true) (hp : b.polyline = .running → b.action = some .followTrajectory) :
    (b'.action = some .root ∧ b'.second = false ∧ b'.polyline = .idle ∧ b'.lane = .idle ∧ b'.goals = [] ∧ b'.root = .failure) ∨
      (b'.action = some .followTrajectory ∧ b'.second = true ∧ b'.polyline = .running ∧ b'.lane ≠ .running ∧ b'.goals ≠ [] ∧ b'.known ≠ none ∧
        (∃ t, b'.given = some t ∧ t.vertices ≠ []) ∧ b'.root = .running) := by
  unfold tickSecond at h
  cases hq : polylineTick e b with
  | error f => rw [hq] at h; cases h
  | ok r =>
    obtain ⟨s, c⟩ := r
    rw [hq] at h
    obtain ⟨c1, c2, c3, c4, c5, c6, hs⟩ := polylineTick_ok hq
    simp only [bind, Except.bind, pure, Except.pure] at h
    rcases hs with ⟨rfl, hgs⟩ | ⟨rfl, hgs, hk, hgi⟩
    · left
      cases h
      simp only [setStatus, resetChildren, announce]
      by_cases h1 : c.polyline = .failure <;> by_cases h2 : c.lane = .idle <;> simp [h1, h2, c2, hroot, hgs]
    · right
      cases h
      simp only [setStatus, announce]
      by_cases h1 : c.polyline = .running
      · simp [h1, c2, hroot, c3, c5, c6, hsec, hlane, hgs, hk, hgi]
        rw [c4] at h1; exact hp h1
      · simp [h1, c2, hroot, c3, c5, hsec, hlane, hgs, hk, hgi]

theorem tick_sound {e : Env} {b b' : Brain} (hb : Sound b) (h : tick e b = .ok b') : Sound b' := by
  unfold tick at h
  have hroot : (setStatus .root .running b).root = .running := by
    unfold setStatus
    simp only
    split
    · assumption
    · rw [(announce_fields _ _ _).1]
  have hf : (setStatus .root .running b).lane = b.lane ∧ (setStatus .root .running b).polyline = b.polyline ∧
      (setStatus .root .running b).second = b.second ∧ (setStatus .root .running b).goals = b.goals ∧
      (setStatus .root .running b).known = b.known ∧ (setStatus .root .running b).given = b.given := by
    unfold setStatus
    simp only
    split
    · exact ⟨rfl, rfl, rfl, rfl, rfl, rfl⟩
    · obtain ⟨-, h2, h3, h4, h5, h6, h7, -⟩ := announce_fields .root .running { b with root := .running }
      exact ⟨h2, h3, h4, h5, h6, h7⟩
  have hact : b.root = .running → (setStatus .root .running b).action = b.action := by
    intro hr; unfold setStatus; simp [hr]
  have hact' : b.root ≠ .running → (setStatus .root .running b).action = some .root := by
    intro hr; unfold setStatus announce; simp [hr]
  generalize setStatus .root .running b = c at *
  obtain ⟨f1, f2, f3, f4, f5, f6⟩ := hf
  simp only at h
  have second : ∀ {d d' : Brain}, tickSecond e d = .ok d' → d.root = .running → d.lane ≠ .running → d.second = true →
      (d.polyline = .running → d.action = some .followTrajectory) → Sound d' := by
    intro d d' h0 h1 h2 h3 h5
    rcases tickSecond_ok h0 h1 h2 h3 h5 with ⟨g1, g2, g3, g4, g5, g6⟩ | ⟨g1, g2, g3, g4, g5, g6, g7, g8⟩
    · exact ⟨by rw [g4]; simp, by rw [g2]; simp, fun _ => ⟨g3, .inl g4⟩, fun hx => absurd g5 hx, by rw [g6, g4, g2]; simp⟩
    · exact ⟨fun hx => absurd hx g4, fun _ => ⟨g3, g1, g5, g6, g7, g4⟩, by rw [g2]; simp, fun _ => g6, by rw [g8, g2]; simp⟩
  by_cases hs : c.second = true
  · rw [if_pos hs] at h
    rw [f3] at hs
    obtain ⟨q1, q2, q3, q4, q5, q6⟩ := hb.second hs
    refine second h hroot (by rw [f1]; exact q6) (by rw [f3]; exact hs) (fun _ => ?_)
    rw [hact (hb.root.mpr (.inr hs))]; exact q2
  · rw [if_neg hs] at h
    have hs' : c.second = false := by simpa using hs
    obtain ⟨q1, q2⟩ := hb.first (by rw [← f3]; exact hs')
    rw [← f2] at q1
    rw [← f1] at q2
    cases hl : laneTick e c with
    | error x => rw [hl] at h; cases h
    | ok r =>
      obtain ⟨s, c'⟩ := r
      rw [hl] at h
      simp only [bind, Except.bind, pure, Except.pure] at h
      rcases laneTick_ok hl with ⟨rfl, rfl, -, -⟩ | ⟨hreq, ⟨rfl, -, rfl⟩ | ⟨rfl, g, -, rfl⟩⟩
      · simp only at h
        refine second h ?_ ?_ rfl ?_
        · simp only [setStatus, announce]; split <;> simpa using hroot
        · simp only [setStatus, announce]; split
          · rename_i hx; simp [hx]
          · simp
        · simp only [setStatus, announce]; split <;> simp [q1]
      · cases h
        simp only [setStatus, announce, resetChildren]
        rcases q2 with q2 | q2
        · refine ⟨?_, ?_, ?_, ?_, ?_⟩ <;> simp [q2, q1, hroot]
          rw [f4, f5]; exact hb.goals
        · refine ⟨?_, ?_, ?_, ?_, ?_⟩ <;> simp [q2, q1, hroot]
          rw [f4, f5]; exact hb.goals
      · cases h
        simp only [setStatus, announce]
        rcases q2 with q2 | q2
        · refine ⟨?_, ?_, ?_, ?_, ?_⟩ <;> simp [q2, q1, hroot, hs']
          rw [f4, f5]; exact hb.goals
        · have hl' : b.lane = .running := by rw [← f1]; exact q2
          refine ⟨?_, ?_, ?_, ?_, ?_⟩ <;> simp [q2, q1, hroot, hs']
          · rw [hact (hb.root.mpr (.inl hl'))]; exact (hb.lane hl').1
          · rw [f4, f5]; exact hb.goals

theorem frame_sound {e : Env} {b b' : Brain} (hf : Frame e b b') : Sound b → Sound b' := by
  induction hf with
  | done h _ => exact fun hb => tick_sound hb h
  | again h _ _ ih => exact fun hb => ih (tick_sound hb h)

theorem reach_sound {b : Brain} (h : Reach b) : Sound b := by
  induction h with
  | start h =>
    obtain ⟨h1, h2, h3, h4, h5, h6, h7, h8, h9⟩ := h
    exact ⟨by simp [h3], by simp [h5], fun _ => ⟨h4, .inl h3⟩, by simp [h7], by simp [h2, h3, h5]⟩
  | ask r _ ih => exact ⟨ih.1, ih.2, ih.3, ih.4, ih.5⟩
  | frame _ hf ih => exact frame_sound hf ih

/-- A tick of the first action that finds a goal. -/
theorem tick_lane {e : Env} {b : Brain} {g : Pt} (hb : Sound b) (hr : b.request = .nothing ∨ b.request = .followLane) (hs : b.second = false)
    (hg : laneGoal 3 e.position e.center = some g) : ∃ b', tick e b = .ok b' ∧ b'.action = some .followLane ∧ b'.request = b.request ∧
      b'.goal = g ∧ b'.speed = e.targetSpeed.map some ∧ b'.goals = b.goals ∧ b'.second = false := by
  have hc : e.center ≠ [] := by intro hx; rw [hx] at hg; simp [laneGoal] at hg
  obtain ⟨q1, q2⟩ := hb.first hs
  have key : ∀ c : Brain, c.request = b.request → laneTick e c = .ok (.running, { c with goal := g, speed := e.targetSpeed.map some }) := by
    intro c hc'
    unfold laneTick
    rw [if_neg, if_neg hc, hg]
    rw [hc']
    rintro ⟨h1, h2⟩
    exact hr.elim h1 h2
  unfold tick
  rcases q2 with q2 | q2
  · have hnr : b.root ≠ .running := by
      intro hx; rcases hb.root.mp hx with hx | hx
      · rw [q2] at hx; cases hx
      · rw [hs] at hx; cases hx
    simp only [setStatus, announce, if_neg hnr]
    rw [if_neg (by simp [hs]), key _ (by simp)]
    simp [bind, Except.bind, pure, Except.pure, q2, hs]
  · have hnr := hb.root.mpr (.inl q2)
    simp only [setStatus, announce, if_pos hnr]
    rw [if_neg (by simp [hs]), key _ rfl]
    simp [bind, Except.bind, pure, Except.pure, q2, hs, hnr, (hb.lane q2).1]

/-- A tick of the second action that fails. -/
theorem tickSecond_fails {e : Env} {b c : Brain} (hroot : b.root = .running) (hl : b.polyline = .idle ∨ b.polyline = .running)
    (h : polylineTick e b = .ok (.failure, c)) :
    ∃ b', tickSecond e b = .ok b' ∧ b'.action = some .root ∧ b'.root = .failure ∧ b'.lane = .idle ∧ b'.polyline = .idle ∧ b'.second = false ∧
      b'.goals = c.goals ∧ b'.known = c.known ∧ b'.given = c.given ∧ b'.maxSpeed = c.maxSpeed ∧
      b'.request = (if b.request = .followTrajectory then .nothing else b.request) := by
  obtain ⟨c1, c2, c3, c4, c5, c6, -⟩ := polylineTick_ok h
  unfold tickSecond
  rw [h]
  simp only [bind, Except.bind, pure, Except.pure]
  refine ⟨_, rfl, ?_⟩
  have hp : c.polyline ≠ .failure := by rw [c4]; rcases hl with hl | hl <;> rw [hl] <;> simp
  simp only [setStatus, resetChildren, announce, if_neg hp]
  by_cases h2 : c.lane = .idle <;> (simp [h2, c2, hroot, c1]; cases hq : b.request <;> simp [names])

/-- The second action takes over after the first, or goes on. -/
theorem tick_to_second {e : Env} {b : Brain} (hb : Sound b) (hr : b.request = .followTrajectory ∨ b.request = .other ∨ b.second = true) :
    ∃ c, tick e b = tickSecond e c ∧ c.root = .running ∧ (c.polyline = .idle ∨ c.polyline = .running) ∧ c.second = true ∧
      c.request = b.request ∧ c.goals = b.goals ∧ c.known = b.known ∧ c.given = b.given ∧ c.maxSpeed = b.maxSpeed ∧ c.lane ≠ .running ∧
      (c.polyline = .running → c.action = some .followTrajectory) := by
  unfold tick
  by_cases hs : b.second = true
  · have hroot := hb.root.mpr (.inr hs)
    obtain ⟨q1, q2, -, -, -, q6⟩ := hb.second hs
    refine ⟨b, ?_, hroot, .inr q1, hs, rfl, rfl, rfl, rfl, rfl, q6, fun _ => q2⟩
    simp only [setStatus, if_pos hroot]
    rw [if_pos hs]
  · have hs' : b.second = false := by simpa using hs
    have hr' : b.request ≠ .nothing ∧ b.request ≠ .followLane := by
      rcases hr with hr | hr | hr
      · rw [hr]; simp
      · rw [hr]; simp
      · exact absurd hr hs
    obtain ⟨q1, q2⟩ := hb.first hs'
    have key : ∀ c : Brain, c.request = b.request → laneTick e c = .ok (.failure, c) := by
      intro c hc
      unfold laneTick
      rw [if_pos (by rw [hc]; exact hr')]
    have hnames : names b.request (some .followLane) = false := by
      cases hq : b.request <;> simp [names]
      exact hr'.2 hq
    by_cases hroot : b.root = .running
    · simp only [setStatus, announce, if_pos hroot]
      rw [if_neg hs, key _ rfl]
      simp only [bind, Except.bind]
      rw [if_neg (by rcases q2 with q2 | q2 <;> simp [q2])]
      refine ⟨_, rfl, ?_⟩
      simp [hroot, q1, hnames]
    · simp only [setStatus, announce, if_neg hroot]
      rw [if_neg (by simp [hs']), key _ (by simp)]
      simp only [bind, Except.bind]
      rw [if_neg (by rcases q2 with q2 | q2 <;> simp [q2])]
      refine ⟨_, rfl, ?_⟩
      simp [q1, hnames]

theorem polylineTick_other {e : Env} {b : Brain} (h : b.request = .followLane ∨ b.request = .other) :
    ∃ c, polylineTick e b = .ok (.failure, c) ∧ c.goals = [] := by
  unfold polylineTick
  rw [if_neg (by rcases h with h | h <;> simp [h])]
  simp only
  rw [if_pos (by rcases h with h | h <;> simp [h])]
  exact ⟨_, rfl, rfl⟩

/-- **C173** A pedestrian who is to follow the lanes, or who has no request and is not on a trajectory, and who is near a point of its route, is sent
to a goal on the route, at the speed asked for. -/
theorem C173_follow_lane (e : Env) (b : Brain) (hb : Reach b) (hr : b.request = .followLane ∨ b.request = .nothing ∧ b.second = false)
    (hn : ∃ p ∈ e.center, Near 3 e.position p) :
    ∃ b', Frame e b b' ∧ b'.action = some .followLane ∧ b'.request = b.request ∧ GoalOn 3 e.position e.center b'.goal ∧
      b'.speed = e.targetSpeed.map some := by
  have hb := reach_sound hb
  obtain ⟨h1, h2⟩ := C173_goal 3 (by norm_num) e.position e.center
  obtain ⟨g, hg⟩ : ∃ g, laneGoal 3 e.position e.center = some g := by
    cases hl : laneGoal 3 e.position e.center with
    | some g => exact ⟨g, rfl⟩
    | none => obtain ⟨p, hp, hp'⟩ := hn; exact absurd hp' (h1.mp hl p hp)
  by_cases hs : b.second = true
  · have hr' : b.request = .followLane := hr.resolve_right (fun hx => by rw [hs] at hx; exact absurd hx.2 (by simp))
    obtain ⟨c, k1, k2, k3, k4, k5, k6, k7, k8, -, -, -⟩ := tick_to_second (e := e) hb (.inr (.inr hs))
    obtain ⟨d, hd, -⟩ := polylineTick_other (e := e) (b := c) (.inl (k5.trans hr'))
    obtain ⟨b1, t1, t2, t3, t4, t5, t6, -, -, -, -, t7⟩ := tickSecond_fails k2 k3 hd
    have t7' : b1.request = .followLane := by rw [t7, k5, hr']; rfl
    obtain ⟨b2, u1, u2, u3, u4, u5, -, -⟩ := tick_lane (e := e) (tick_sound hb (k1.trans t1)) (.inr t7') t6 hg
    exact ⟨b2, .again (k1.trans t1) t2 (.done u1 (by rw [u2]; simp)), u2, by rw [u3, t7', hr'], by rw [u4]; exact h2 g hg, u5⟩
  · obtain ⟨b2, u1, u2, u3, u4, u5, -, -⟩ := tick_lane (e := e) hb (hr.symm.imp_left (·.1)) (by simpa using hs) hg
    exact ⟨b2, .done u1 (by rw [u2]; simp), u2, u3, by rw [u4]; exact h2 g hg, u5⟩

theorem no_frame {e : Env} {P : Brain → Prop} (h : ∀ b, P b → ∃ b', tick e b = .ok b' ∧ b'.action = some .root ∧ P b') (b : Brain) (hb : P b) :
    (∀ n, ∃ b', ticks e (n + 1) b = .ok b' ∧ b'.action = some .root) ∧ ¬ ∃ b', Frame e b b' := by
  constructor
  · intro n
    induction n generalizing b with
    | zero =>
      obtain ⟨b', h1, h2, -⟩ := h b hb
      exact ⟨b', by simp [ticks, bind, Except.bind, h1], h2⟩
    | succ n ih =>
      obtain ⟨b', h1, h2, h3⟩ := h b hb
      obtain ⟨b'', h4, h5⟩ := ih b' h3
      exact ⟨b'', by rw [ticks, h1]; exact h4, h5⟩
  · rintro ⟨b', hf⟩
    induction hf with
    | done h1 h2 =>
      obtain ⟨c, h3, h4, -⟩ := h _ hb
      rw [h1] at h3; cases h3; exact h2 h4
    | again h1 h2 _ ih =>
      obtain ⟨c, h3, -, h4⟩ := h _ hb
      rw [h1] at h3; cases h3; exact ih h4

/-- **C173 is violated** for a pedestrian who is not near any point of its route, and whose tree of actions is not running, as at the start: the
frame never ends, the action is ticked again and again. -/
theorem C173_lost_violated (e : Env) (b : Brain) (hb : Reach b) (hr : b.request = .followLane ∨ b.request = .nothing) (hroot : b.root ≠ .running)
    (hc : e.center ≠ []) (hn : ∀ p ∈ e.center, ¬ Near 3 e.position p) :
    (∀ n, ∃ b', ticks e (n + 1) b = .ok b' ∧ b'.action = some .root) ∧ ¬ ∃ b', Frame e b b' := by
  have hg := (C173_goal 3 (by norm_num) e.position e.center).1.mpr hn
  refine no_frame (P := fun b => (b.request = .followLane ∨ b.request = .nothing) ∧ b.root ≠ .running ∧ Sound b) ?_ b
    ⟨hr, hroot, reach_sound hb⟩
  rintro b ⟨hr, hroot, hb⟩
  have hs : b.second = false := by
    cases hs : b.second with
    | false => rfl
    | true => exact absurd (hb.root.mpr (.inr hs)) hroot
  have hl : b.lane ≠ .running := fun hx => hroot (hb.root.mpr (.inl hx))
  obtain ⟨q1, q2⟩ := hb.first hs
  have q2' := q2.resolve_right hl
  have key : ∀ c : Brain, c.request = b.request → laneTick e c = .ok (.success, { c with goal := e.position, speed := some (some 0) }) := by
    intro c hc'
    unfold laneTick
    rw [if_neg, if_neg hc, hg]
    rw [hc']
    rintro ⟨h1, h2⟩
    exact hr.elim h2 h1
  have : ∃ b', tick e b = .ok b' ∧ b'.action = some .root ∧ b'.request = b.request ∧ b'.root = .success := by
    unfold tick
    simp only [setStatus, announce, if_neg hroot]
    rw [if_neg (by simp [hs]), key _ (by simp)]
    simp only [bind, Except.bind, pure, Except.pure]
    refine ⟨_, rfl, ?_⟩
    have hnames : names b.request (some .root) = false := by cases b.request <;> rfl
    simp [q2', q1, resetChildren, setStatus, hnames, announce]
  obtain ⟨b', h1, h2, h3, h4⟩ := this
  exact ⟨b', h1, h2, by rw [h3]; exact hr, by rw [h4]; simp, tick_sound hb h1⟩

/-- **C173 is violated** for a request that no action knows, as to walk straight on: the frame never ends. -/
theorem C173_other_violated (e : Env) (b : Brain) (hb : Reach b) (hr : b.request = .other) :
    (∀ n, ∃ b', ticks e (n + 1) b = .ok b' ∧ b'.action = some .root) ∧ ¬ ∃ b', Frame e b b' := by
  refine no_frame (P := fun b => b.request = .other ∧ Sound b) ?_ b ⟨hr, reach_sound hb⟩
  rintro b ⟨hr, hb⟩
  obtain ⟨c, k1, k2, k3, k4, k5, k6, k7, k8, -, -, -⟩ := tick_to_second (e := e) hb (.inr (.inl hr))
  obtain ⟨d, hd, -⟩ := polylineTick_other (e := e) (b := c) (.inr (k5.trans hr))
  obtain ⟨b1, t1, t2, t3, t4, t5, t6, -, -, -, -, t7⟩ := tickSecond_fails k2 k3 hd
  exact ⟨b1, k1.trans t1, t2, by rw [t7, k5, hr]; rfl, tick_sound hb (k1.trans t1)⟩

/-! ### Examples -/

/-- A pedestrian at the origin who looks to the east. -/
noncomputable def walkerAt (center : List Pt) : Env := ⟨⟨0, 0, 0⟩, 0, some 1, center, none, id, 0⟩

def fresh : Brain := ⟨.nothing, .idle, .idle, .idle, false, none, [], none, none, 0, ⟨0, 0, 0⟩, none⟩

theorem fresh_reach : Reach fresh := .start ⟨rfl, rfl, rfl, rfl, rfl, rfl, rfl, rfl, rfl⟩

/-- The hypotheses of `C173_follow_lane` hold at the start on a route that passes near. -/
example : ∃ b', Frame (walkerAt [⟨-10, 0, 0⟩, ⟨1, 0, 0⟩, ⟨5, 0, 0⟩, ⟨9, 0, 0⟩]) fresh b' ∧ b'.action = some .followLane ∧ b'.speed = some (some 1) := by
  obtain ⟨b', h1, h2, -, -, h3⟩ := C173_follow_lane (walkerAt [⟨-10, 0, 0⟩, ⟨1, 0, 0⟩, ⟨5, 0, 0⟩, ⟨9, 0, 0⟩]) fresh fresh_reach (.inr ⟨rfl, rfl⟩)
    ⟨⟨1, 0, 0⟩, by simp [walkerAt], by unfold Near walkerAt; norm_num⟩
  exact ⟨b', h1, h2, h3⟩

/-- The hypotheses of `C173_lost_violated` hold at the start, four metres from the route. -/
example : ¬ ∃ b', Frame (walkerAt [⟨-10, 4, 0⟩, ⟨0, 4, 0⟩, ⟨10, 4, 0⟩]) fresh b' := by
  refine (C173_lost_violated _ fresh fresh_reach (.inr rfl) (by simp [fresh]) (by simp [walkerAt]) ?_).2
  intro p hp
  simp only [walkerAt, List.mem_cons, List.not_mem_nil, or_false] at hp
  rcases hp with rfl | rfl | rfl <;> unfold Near walkerAt <;> norm_num

/-- The hypotheses of `C173_other_violated` hold after the first request to walk straight on. -/
example : ¬ ∃ b', Frame (walkerAt [⟨1, 0, 0⟩, ⟨5, 0, 0⟩]) { fresh with request := .other } b' :=
  (C173_other_violated _ _ (.ask .other fresh_reach) rfl).2

/-- **C173 is violated** on a route that comes back within three metres of itself: near its end the pedestrian is sent back to its beginning. -/
theorem C173_back_violated : ∃ (own : Pt) (before after : List Pt) (g : Pt), laneGoal 3 own (before ++ own :: after) = some g ∧ g ∈ before ∧
    after ≠ [] := by
  refine ⟨⟨0, 2, 0⟩, [⟨0, 0, 0⟩, ⟨20, 0, 0⟩, ⟨20, 2, 0⟩], [⟨-20, 2, 0⟩], ⟨20, 0, 0⟩, ?_, by simp, by simp⟩
  have h1 : hypot2 ⟨0, 2, 0⟩ ⟨0, 0, 0⟩ < 3 := (near_iff (by norm_num) _ _).mpr (by unfold Near; norm_num)
  have h2 : ¬ hypot2 ⟨0, 2, 0⟩ ⟨20, 0, 0⟩ < 3 := fun h => by
    have := (near_iff (by norm_num) _ _).mp h
    unfold Near at this; norm_num at this
  unfold laneGoal
  rw [List.cons_append, List.dropWhile_cons, if_neg (by simpa using h1)]
  simp only [List.cons_append, List.nil_append]
  rw [dropNear, if_pos h1, dropNear, if_neg h2]

/-! ### Trajectories -/

theorem advance_reached {yaw : ℝ} {own g : Pt} {rest : List Pt} {closed : Bool} (h : Reached 1 own yaw g) :
    advance 1 own yaw closed (g :: rest) = some (if closed then rest ++ [g] else rest) := by
  unfold advance; simp only; rw [if_pos ((reached_iff (by norm_num) _ _ _).mpr h)]

theorem advance_left {yaw : ℝ} {own g : Pt} {rest : List Pt} {closed : Bool} (h : ¬ Reached 1 own yaw g) :
    advance 1 own yaw closed (g :: rest) = none := by
  unfold advance; simp only; rw [if_neg (fun hx => h ((reached_iff (by norm_num) _ _ _).mp hx))]

theorem advances_left {yaw : ℝ} {own g : Pt} {closed : Bool} (h : ¬ Reached 1 own yaw g) : ∀ {before after : List Pt} {n : Nat},
    (∀ p ∈ before, Reached 1 own yaw p) → before.length < n →
    advances 1 own yaw closed n (before ++ g :: after) = some (g :: after ++ if closed then before else [])
  | _, _, 0, _, hn => absurd hn (by simp)
  | [], after, n + 1, _, _ => by
    rw [List.nil_append, advances, advance_left h]; simp
  | x :: before, after, n + 1, hb, hn => by
    rw [List.cons_append, advances, advance_reached (hb x (by simp))]
    simp only [List.length_cons, Nat.add_lt_add_iff_right] at hn
    cases closed with
    | false =>
      simp only [Bool.false_eq_true, if_false]
      rw [advances_left h (fun p hp => hb p (by simp [hp])) hn]; simp
    | true =>
      simp only [if_true]
      rw [List.append_assoc, List.cons_append, advances_left h (fun p hp => hb p (by simp [hp])) hn]; simp

theorem advances_done {yaw : ℝ} {own : Pt} : ∀ {goals : List Pt} {n : Nat}, (∀ p ∈ goals, Reached 1 own yaw p) → goals.length < n →
    advances 1 own yaw false n goals = some []
  | _, 0, _, hn => absurd hn (by simp)
  | [], n + 1, _, _ => by rw [advances]; rfl
  | x :: goals, n + 1, hb, hn => by
    rw [advances, advance_reached (hb x (by simp))]
    simp only [Bool.false_eq_true, if_false]
    exact advances_done (fun p hp => hb p (by simp [hp])) (by simpa using hn)

theorem advances_endless {yaw : ℝ} {own : Pt} : ∀ {n : Nat} {goals : List Pt}, goals ≠ [] → (∀ p ∈ goals, Reached 1 own yaw p) →
    advances 1 own yaw true n goals = none
  | 0, _, _, _ => rfl
  | n + 1, [], h, _ => absurd rfl h
  | n + 1, x :: goals, _, hb => by
    rw [advances, advance_reached (hb x (by simp))]
    simp only [if_true]
    exact advances_endless (by simp) (fun p hp => hb p (by simp at hp ⊢; tauto))

/-- The trajectory that the action has: the one of the request, or the one that it got before. -/
def Has (e : Env) (b : Brain) (t : Trajectory) : Prop :=
  b.request = .followTrajectory ∧ e.trajectory = some t ∨ b.request = .nothing ∧ b.given = some t

theorem polylineTick_eq {e : Env} {b : Brain} {t k : Trajectory} {goals : List Pt} (ht : Has e b t) (hv : t.vertices ≠ [])
    (hk : b.goals = [] ∧ k = t ∧ goals = waypoints e.sampled t ∨ b.goals ≠ [] ∧ b.known = some k ∧ goals = b.goals) (hg : goals ≠ []) :
    polylineTick e b = match advances 1 e.position e.yaw k.closed (goals.length + 1) goals with
      | none => .error .endless
      | some [] => .ok (.failure, { b with given := some t, maxSpeed := e.targetSpeed.getD b.maxSpeed, known := some k, goals := [] })
      | some (g :: rest) => .ok (.running, { b with given := some t, maxSpeed := e.targetSpeed.getD b.maxSpeed, known := some k, goals := g :: rest, goal := g, speed := some (timedSpeed e.position e.yaw k g (e.targetSpeed.getD b.maxSpeed) e.now) }) := by
  unfold polylineTick
  rw [if_neg (by rcases ht with ⟨_, h⟩ | ⟨h, _⟩ <;> simp [h])]
  simp only
  rw [if_neg (by rcases ht with ⟨h, _⟩ | ⟨h, _⟩ <;> simp [h])]
  have h1 : (if b.request = .followTrajectory then e.trajectory else b.given) = some t := by
    rcases ht with ⟨h, h'⟩ | ⟨h, h'⟩ <;> simp [h, h']
  have h2 : (if b.goals = [] then some t else b.known) = some k := by
    rcases hk with ⟨h, h', -⟩ | ⟨h, h', -⟩ <;> simp [h, h']
  have h3 : (if b.goals = [] then waypoints e.sampled t else b.goals) = goals := by
    rcases hk with ⟨h, -, h'⟩ | ⟨h, -, h'⟩
    · rw [if_pos h, h']
    · rw [if_neg h, h']
  rw [h1]
  simp only
  rw [if_neg hv, h2]
  simp only
  rw [h3, if_neg hg]
  generalize advances 1 e.position e.yaw k.closed (goals.length + 1) goals = r
  match r with
  | none => rfl
  | some [] => rfl
  | some (g :: rest) => rfl

/-- A frame in which the second action finds a goal. -/
theorem follow {e : Env} {b : Brain} {t k : Trajectory} {goals before after : List Pt} {g : Pt} (hb : Sound b) (ht : Has e b t)
    (hs : b.request = .followTrajectory ∨ b.second = true) (hv : t.vertices ≠ [])
    (hk : b.goals = [] ∧ k = t ∧ goals = waypoints e.sampled t ∨ b.goals ≠ [] ∧ b.known = some k ∧ goals = b.goals)
    (hg : FirstLeft 1 e.position e.yaw goals g before after) :
    ∃ b', Frame e b b' ∧ b'.action = some .followTrajectory ∧ b'.request = b.request ∧ b'.goal = g ∧
      b'.goals = g :: after ++ (if k.closed then before else []) ∧ b'.known = some k ∧ b'.given = some t ∧
      b'.speed = some (timedSpeed e.position e.yaw k g (e.targetSpeed.getD b.maxSpeed) e.now) ∧ b'.second = true := by
  obtain ⟨g1, g2, g3⟩ := hg
  obtain ⟨c, k1, k2, k3, k4, k5, k6, k7, k8, k9, k10, k11⟩ := tick_to_second (e := e) hb (hs.imp_right .inr)
  have hp := polylineTick_eq (e := e) (b := c) (t := t) (k := k) (goals := goals) (by unfold Has at *; rw [k5, k8]; exact ht) hv
    (by rw [k6, k7]; exact hk) (by rw [g1]; simp)
  rw [show advances 1 e.position e.yaw k.closed (goals.length + 1) goals = some (g :: after ++ if k.closed then before else []) by
    rw [g1]; exact advances_left g3 g2 (by simp only [List.length_append, List.length_cons]; omega)] at hp
  simp only [List.cons_append] at hp
  have : ∃ b', tickSecond e c = .ok b' ∧ b'.action = some .followTrajectory ∧ b'.request = b.request ∧ b'.goal = g ∧
      b'.goals = g :: after ++ (if k.closed then before else []) ∧ b'.known = some k ∧ b'.given = some t ∧
      b'.speed = some (timedSpeed e.position e.yaw k g (e.targetSpeed.getD b.maxSpeed) e.now) ∧ b'.second = true := by
    unfold tickSecond
    rw [hp]
    simp only [bind, Except.bind, pure, Except.pure]
    refine ⟨_, rfl, ?_⟩
    simp only [setStatus, announce]
    rcases k3 with k3 | k3
    · simp [k3, k2, k5, k9, k4]
    · simp [k3, k2, k5, k9, k4, k11 k3]
  obtain ⟨b', h1, h2⟩ := this
  exact ⟨b', .done (k1.trans h1) (by rw [h2.1]; simp), h2⟩

/-- **C174** A pedestrian who is to follow a trajectory, and is not on the way along another, is sent to the first of its points that is not reached
yet. On a closed trajectory the points that were reached come again at the end. -/
theorem C174_follow (e : Env) (b : Brain) (t : Trajectory) (before after : List Pt) (g : Pt) (hb : Reach b) (hr : b.request = .followTrajectory)
    (ht : e.trajectory = some t) (hv : t.vertices ≠ []) (hg : b.goals = [])
    (hl : FirstLeft 1 e.position e.yaw (if t.ignorable then t.vertices.map (·.1) else e.sampled (t.vertices.map (·.1))) g before after) :
    ∃ b', Frame e b b' ∧ b'.action = some .followTrajectory ∧ b'.request = .followTrajectory ∧ b'.goal = g ∧
      b'.goals = g :: after ++ (if t.closed then before else []) ∧ b'.known = some t ∧
      b'.speed = some (timedSpeed e.position e.yaw t g (e.targetSpeed.getD b.maxSpeed) e.now) := by
  obtain ⟨b', h1, h2, h3, h4, h5, h6, -, h7, -⟩ := follow (reach_sound hb) (.inl ⟨hr, ht⟩) (.inl hr) hv (.inl ⟨hg, rfl, rfl⟩) hl
  exact ⟨b', h1, h2, h3.trans hr, h4, h5, h6, h7⟩

/-- **C174** On the way along a trajectory, the pedestrian is sent to the first of the points left that is not reached yet; without a request too. -/
theorem C174_goes_on (e : Env) (b : Brain) (k : Trajectory) (before after : List Pt) (g : Pt) (hb : Reach b) (hr : b.request = .nothing)
    (hs : b.second = true) (hk : b.known = some k) (hl : FirstLeft 1 e.position e.yaw b.goals g before after) :
    ∃ b', Frame e b b' ∧ b'.action = some .followTrajectory ∧ b'.goal = g ∧ b'.goals = g :: after ++ (if k.closed then before else []) ∧
      b'.speed = some (timedSpeed e.position e.yaw k g (e.targetSpeed.getD b.maxSpeed) e.now) := by
  have hb := reach_sound hb
  obtain ⟨-, -, h1, -, ⟨t, h2, h3⟩, -⟩ := hb.second hs
  obtain ⟨b', g1, g2, -, g4, g5, -, -, g7, -⟩ := follow hb (.inr ⟨hr, h2⟩) (.inr hs) h3 (.inr ⟨h1, hk, rfl⟩) hl
  exact ⟨b', g1, g2, g4, g5, g7⟩

/-- **C174** When the last point of an open trajectory is reached, the request is over, and the pedestrian follows the lanes again. -/
theorem C174_done (e : Env) (b : Brain) (k : Trajectory) (hb : Reach b) (hr : b.request = .nothing ∨ b.request = .followTrajectory ∧
      ∃ t, e.trajectory = some t ∧ t.vertices ≠ []) (hs : b.second = true) (hk : b.known = some k) (hc : k.closed = false)
    (hl : ∀ p ∈ b.goals, Reached 1 e.position e.yaw p) (hn : ∃ p ∈ e.center, Near 3 e.position p) :
    ∃ b', Frame e b b' ∧ b'.action = some .followLane ∧ b'.request = .nothing ∧ b'.goals = [] ∧ GoalOn 3 e.position e.center b'.goal ∧
      b'.speed = e.targetSpeed.map some := by
  have hb := reach_sound hb
  obtain ⟨h1, h2⟩ := C173_goal 3 (by norm_num) e.position e.center
  obtain ⟨g, hg⟩ : ∃ g, laneGoal 3 e.position e.center = some g := by
    cases hl : laneGoal 3 e.position e.center with
    | some g => exact ⟨g, rfl⟩
    | none => obtain ⟨p, hp, hp'⟩ := hn; exact absurd hp' (h1.mp hl p hp)
  obtain ⟨-, -, hg0, -, ⟨t0, q1, q2⟩, -⟩ := hb.second hs
  obtain ⟨t, ht, hv⟩ : ∃ t, Has e b t ∧ t.vertices ≠ [] := by
    rcases hr with hr | ⟨hr, t, ht, hv⟩
    · exact ⟨t0, .inr ⟨hr, q1⟩, q2⟩
    · exact ⟨t, .inl ⟨hr, ht⟩, hv⟩
  obtain ⟨c, k1, k2, k3, k4, k5, k6, k7, k8, k9, k10, k11⟩ := tick_to_second (e := e) hb (.inr (.inr hs))
  have hp := polylineTick_eq (e := e) (b := c) (t := t) (k := k) (goals := b.goals) (by unfold Has at *; rw [k5, k8]; exact ht) hv
    (.inr ⟨by rw [k6]; exact hg0, by rw [k7]; exact hk, k6.symm⟩) hg0
  rw [hc, advances_done hl (by omega)] at hp
  simp only at hp
  obtain ⟨b1, t1, t2, t3, t4, t5, t6, t8, -, -, -, t7⟩ := tickSecond_fails k2 k3 hp
  have t7' : b1.request = .nothing := by
    rw [t7, k5]
    rcases hr with hr | ⟨hr, -⟩ <;> simp [hr]
  obtain ⟨b2, u1, u2, u3, u4, u5, u6, -⟩ := tick_lane (e := e) (tick_sound hb (k1.trans t1)) (.inl t7') t6 hg
  exact ⟨b2, .again (k1.trans t1) t2 (.done u1 (by rw [u2]; simp)), u2, by rw [u3, t7'], by rw [u6, t8], by rw [u4]; exact h2 g hg, u5⟩

/-- **C174 is violated** on a closed trajectory all of whose points are reached at once: the search for the next never ends. -/
theorem C174_endless_violated (e : Env) (b : Brain) (t : Trajectory) (hb : Reach b) (hr : b.request = .followTrajectory)
    (ht : e.trajectory = some t) (hv : t.vertices ≠ []) (hg : b.goals = []) (hc : t.closed = true) (hi : t.ignorable = true)
    (hl : ∀ v ∈ t.vertices, Reached 1 e.position e.yaw v.1) :
    (∀ n, advances 1 e.position e.yaw true n (t.vertices.map (·.1)) = none) ∧ ¬ ∃ b', Frame e b b' := by
  have hne : t.vertices.map (·.1) ≠ [] := by simpa using hv
  have hl' : ∀ p ∈ t.vertices.map (·.1), Reached 1 e.position e.yaw p := by
    intro p hp; obtain ⟨v, hv, rfl⟩ := List.mem_map.mp hp; exact hl v hv
  have hall := fun n => advances_endless (n := n) hne hl'
  refine ⟨hall, ?_⟩
  obtain ⟨c, k1, k2, k3, k4, k5, k6, k7, k8, k9, k10, k11⟩ := tick_to_second (e := e) (reach_sound hb) (.inl hr)
  have hp := polylineTick_eq (e := e) (b := c) (t := t) (k := t) (goals := t.vertices.map (·.1)) (.inl ⟨k5.trans hr, ht⟩) hv
    (.inl ⟨k6.trans hg, rfl, by unfold waypoints; rw [if_pos hi]⟩) hne
  rw [hc, hall] at hp
  simp only at hp
  have : tick e b = .error .endless := by
    rw [k1]; unfold tickSecond; rw [hp]; rfl
  rintro ⟨b', hf⟩
  cases hf with
  | done h _ => rw [this] at h; cases h
  | again h _ _ => rw [this] at h; cases h

/-- An open trajectory through points, without times. -/
def through (points : List Pt) : Trajectory := ⟨points.map (·, none), false, true, none⟩

noncomputable def walkerTo (points : List Pt) : Env := { walkerAt [] with trajectory := some (through points) }

theorem far_left {x y : ℝ} (h : 1 < x ^ 2 + y ^ 2) : ¬ Reached 1 ⟨0, 0, 0⟩ 0 ⟨x, y, 0⟩ := by
  rintro ⟨-, hx⟩
  simp only at hx
  linarith

/-- **C174 is violated** for a new trajectory on the way along another: the pedestrian goes on along the old one. -/
theorem C174_replace_violated : ∃ (e : Env) (b b' : Brain) (t : Trajectory), Reach b ∧ b.request = .followTrajectory ∧ e.trajectory = some t ∧
    Frame e b b' ∧ b'.goal ∉ t.vertices.map (·.1) := by
  have hl : FirstLeft 1 (walkerTo [⟨10, 0, 0⟩]).position (walkerTo [⟨10, 0, 0⟩]).yaw [⟨10, 0, 0⟩] ⟨10, 0, 0⟩ [] [] :=
    ⟨rfl, by simp, far_left (by norm_num)⟩
  obtain ⟨b1, h1, -, h2, -, h3, h4, -⟩ := C174_follow (walkerTo [⟨10, 0, 0⟩]) { fresh with request := .followTrajectory } (through [⟨10, 0, 0⟩]) [] [] ⟨10, 0, 0⟩
    (.ask _ fresh_reach) rfl rfl (by simp [through]) rfl (by simpa [through] using hl)
  have hr : Reach b1 := .frame (.ask .followTrajectory fresh_reach) h1
  have h3' : b1.goals = [⟨10, 0, 0⟩] := by rw [h3]; rfl
  obtain ⟨b2, g1, -, -, g2, -⟩ := follow (e := walkerTo [⟨0, 10, 0⟩]) (t := through [⟨0, 10, 0⟩]) (k := through [⟨10, 0, 0⟩]) (goals := b1.goals) (before := []) (after := []) (g := ⟨10, 0, 0⟩)
    (reach_sound hr) (.inl ⟨h2, rfl⟩) (.inl h2) (by simp [through]) (.inr ⟨by rw [h3']; simp, h4, rfl⟩)
    (by rw [h3']; exact ⟨rfl, by simp, far_left (by norm_num)⟩)
  refine ⟨_, b1, b2, through [⟨0, 10, 0⟩], hr, h2, rfl, g1, ?_⟩
  rw [g2]
  simp [through]

/-! ### Speed on a trajectory -/

theorem fmod_small {a b : ℝ} (ha : 0 ≤ a) (hb : a < b) : fmod a b = some a := by
  have hb0 : 0 < b := lt_of_le_of_lt ha hb
  have h1 : 0 ≤ a / b := by positivity
  have h2 : ⌊a / b⌋ = 0 := by rw [Int.floor_eq_zero_iff]; exact ⟨h1, (div_lt_one hb0).mpr hb⟩
  unfold fmod
  rw [if_neg hb0.ne', if_pos h1, h2]
  simp

theorem fmod_over {a b : ℝ} (ha : 0 ≤ a) (hb : a < b) : fmod (a + b) b = some a := by
  have hb0 : 0 < b := lt_of_le_of_lt ha hb
  have h0 : (a + b) / b = a / b + 1 := by field_simp
  have h1 : 0 ≤ a / b := by positivity
  have h2 : ⌊a / b⌋ = 0 := by rw [Int.floor_eq_zero_iff]; exact ⟨h1, (div_lt_one hb0).mpr hb⟩
  unfold fmod
  rw [if_neg hb0.ne', h0, if_pos (by positivity), Int.floor_add_one, h2]
  simp

theorem currentVertex_eq {own : Pt} {yaw : ℝ} {t : Trajectory} {v : Pt × Option ℝ} (h : InFront own yaw t v) :
    currentVertex own yaw t.vertices = some v := by
  have hb : ∀ w : Pt × Option ℝ, (w.1.x - own.x) * Real.cos yaw + (w.1.y - own.y) * Real.sin yaw < 0 → notBehind own yaw w.1 = false := by
    intro w hw; unfold notBehind; simpa using hw
  unfold currentVertex
  rcases h with ⟨before, after, e, h1, h2⟩ | ⟨before, e, h2⟩
  · have : t.vertices.find? (fun v => notBehind own yaw v.1) = some v := by
      rw [e, List.find?_append, List.find?_eq_none.mpr (fun w hw => by rw [hb w (h2 w hw)]; simp), List.find?_cons_of_pos]
      · rfl
      · unfold notBehind; simpa using h1
    rw [this]
  · rw [List.find?_eq_none.mpr (fun w hw => by rw [hb w (h2 w hw)]; simp), e]
    simp

/-- **C174** Before the time at which the trajectory begins, the pedestrian waits. -/
theorem C174_wait (own : Pt) (yaw : ℝ) (t : Trajectory) (front : Pt) (maxSpeed now base : ℝ) (hb : t.base = some base) (h : now < base) :
    timedSpeed own yaw t front maxSpeed now = some 0 := by
  unfold timedSpeed; rw [hb]; simp [h]

/-- **C174** The pedestrian goes so fast that it is at its goal when the vertex in front is due. Partial: the time is before that of the last
vertex. -/
theorem C174_speed_partial (own : Pt) (yaw : ℝ) (t : Trajectory) (front : Pt) (maxSpeed now base due last : ℝ) (v w : Pt × Option ℝ)
    (hb : t.base = some base) (hv : InFront own yaw t v) (hd : v.2 = some due) (hw : t.vertices.getLast? = some w) (hl : w.2 = some last)
    (h0 : base ≤ now) (h1 : 0 ≤ base + due) (h2 : base + due < last) (h3 : now < base + due) :
    ∃ s, timedSpeed own yaw t front maxSpeed now = some s ∧ 0 ≤ s ∧
      (s * (base + due - now)) ^ 2 = (own.x - front.x) ^ 2 + (own.y - front.y) ^ 2 := by
  have hpos : 0 < base + due - now := by linarith
  refine ⟨hypot2 own front / (base + due - now), ?_, by unfold hypot2; positivity, ?_⟩
  · unfold timedSpeed
    rw [hb, if_neg (by simpa using h0)]
    simp only [Option.bind_eq_bind, Option.bind_some]
    rw [currentVertex_eq hv, hw]
    simp only [Option.bind_some]
    rw [hd, hl]
    simp only [Option.bind_some]
    rw [fmod_small h1 h2]
    simp only
    rw [if_neg (not_le.mpr h3)]
  · rw [div_mul_cancel₀ _ hpos.ne']
    unfold hypot2
    exact Real.sq_sqrt (by positivity)

/-- **C174 is violated** for the last vertex: with it in front the pedestrian always goes at its highest speed, however much time is left. -/
theorem C174_last_violated (own : Pt) (yaw : ℝ) (t : Trajectory) (front : Pt) (maxSpeed now base last : ℝ) (w : Pt × Option ℝ)
    (hb : t.base = some base) (hv : InFront own yaw t w) (hw : t.vertices.getLast? = some w) (hl : w.2 = some last)
    (h0 : base ≤ now) (h1 : 0 ≤ base) (h2 : base < last) : timedSpeed own yaw t front maxSpeed now = some maxSpeed := by
  unfold timedSpeed
  rw [hb, if_neg (by simpa using h0)]
  simp only [Option.bind_eq_bind, Option.bind_some]
  rw [currentVertex_eq hv, hw]
  simp only [Option.bind_some]
  rw [hl]
  simp only [Option.bind_some]
  rw [fmod_over h1 h2]
  simp only
  rw [if_pos h0]

/-- **C174 is violated** without times: the speed is not a number. -/
theorem C174_untimed_violated (own : Pt) (yaw : ℝ) (t : Trajectory) (front : Pt) (maxSpeed now : ℝ) (v : Pt × Option ℝ)
    (hv : InFront own yaw t v) (hb : t.base = none ∨ (∃ base, t.base = some base ∧ base ≤ now) ∧ v.2 = none) :
    timedSpeed own yaw t front maxSpeed now = none := by
  unfold timedSpeed
  rcases hb with hb | ⟨⟨base, hb, h0⟩, hn⟩
  · rw [hb]; simp
  · rw [hb, if_neg (by simpa using h0)]
    simp only [Option.bind_eq_bind, Option.bind_some]
    rw [currentVertex_eq hv]
    simp only [Option.bind_some, hn, Option.bind_none]
    cases t.vertices.getLast? <;> rfl

/-- The hypotheses of `C174_speed_partial` hold 8 m from a vertex that is due in 4 s: the speed is 2 m/s. -/
example : ∃ s, timedSpeed ⟨0, 0, 0⟩ 0 ⟨[(⟨8, 0, 0⟩, some 4), (⟨20, 0, 0⟩, some 10)], false, true, some 0⟩ ⟨8, 0, 0⟩ 3 0 = some s ∧ s = 2 := by
  obtain ⟨s, h1, h2, h3⟩ := C174_speed_partial ⟨0, 0, 0⟩ 0 ⟨[(⟨8, 0, 0⟩, some 4), (⟨20, 0, 0⟩, some 10)], false, true, some 0⟩ ⟨8, 0, 0⟩ 3 0 0 4 10
    (⟨8, 0, 0⟩, some 4) (⟨20, 0, 0⟩, some 10) rfl (.inl ⟨[], _, rfl, by simp, by simp⟩) rfl rfl rfl (by norm_num) (by norm_num) (by norm_num) (by norm_num)
  refine ⟨s, h1, ?_⟩
  norm_num at h3
  nlinarith

/-- The hypotheses of `C174_last_violated` hold 8 m from the last vertex, due in 4 s: the speed is 3 m/s, not 2 m/s. -/
example : timedSpeed ⟨0, 0, 0⟩ 0 ⟨[(⟨8, 0, 0⟩, some 4)], false, true, some 0⟩ ⟨8, 0, 0⟩ 3 0 = some 3 :=
  C174_last_violated _ _ _ _ _ _ 0 4 (⟨8, 0, 0⟩, some 4) rfl (.inl ⟨[], _, rfl, by simp, by simp⟩) rfl rfl (by norm_num) (by norm_num) (by norm_num)

/-- The hypotheses of `C174_endless_violated` hold for two points close together. -/
example : ¬ ∃ b', Frame { walkerAt [] with trajectory := some ⟨[(⟨1 / 2, 0, 0⟩, none), (⟨1 / 4, 0, 0⟩, none)], true, true, none⟩ }
    { fresh with request := .followTrajectory } b' := by
  refine (C174_endless_violated _ _ _ (.ask _ fresh_reach) rfl rfl (by simp) rfl rfl rfl ?_).2
  intro v hv
  simp only [List.mem_cons, List.not_mem_nil, or_false] at hv
  rcases hv with rfl | rfl <;> unfold Reached walkerAt <;> norm_num

end Verif.Orca
