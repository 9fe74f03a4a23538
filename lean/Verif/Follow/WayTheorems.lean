import Verif.Follow.Way
import Verif.Follow.ControlTheorems
import Verif.Geometry.TurnTheorems
import Verif.Geometry.PoseTheorems
/-
C113: waypoints are followed in order.
-/
namespace Verif.Follow
open Classical Verif.Geometry Spec

theorem angle_norm (p y m : ℝ) : (Pt.mk (Real.cos p * Real.cos y * m) (Real.cos p * Real.sin y * m) (Real.sin p * m)).norm = |m| := by
  have h1 := Real.cos_sq_add_sin_sq p
  have h2 := Real.cos_sq_add_sin_sq y
  rw [Pt.norm, ← Real.sqrt_sq_eq_abs]
  congr 1
  have : (Real.cos p * Real.cos y * m) ^ 2 + (Real.cos p * Real.sin y * m) ^ 2 + (Real.sin p * m) ^ 2 =
      ((Real.cos p ^ 2) * (Real.cos y ^ 2 + Real.sin y ^ 2) + Real.sin p ^ 2) * m ^ 2 := by ring
  rw [this, h2, mul_one, h1, one_mul]

theorem direct_norm (w : World) (m : ℝ) (q : Quat) : (direct w m q).norm = |m| := angle_norm _ _ _

theorem towards_norm (w : World) (s : Status) (p : Pt) (m : ℝ) : (towards w s p m).norm = |m| := angle_norm _ _ _

theorem norm_nonneg' (v : Pt) : 0 ≤ v.norm := Real.sqrt_nonneg _

theorem displacement_unit (w : World) (dt : ℝ) (s : Status) (v : Pt) :
    ∃ u : Pt, u.norm = 1 ∧ displacement w dt s v = u.smul ((s.vel.norm + v.norm) * (1 / 2) * dt) := by
  refine ⟨_, ?_, rfl⟩
  have he : 0 < eps := by rw [eps]; positivity
  split
  · rename_i h
    have h0 : 0 < v.norm := lt_trans he h
    rw [smul_norm v (by positivity)]
    field_simp
  · rw [direct_norm, abs_one]

theorem displacement_norm (w : World) (dt : ℝ) (s : Status) (v : Pt) (hdt : 0 ≤ dt) : (displacement w dt s v).norm = (s.vel.norm + v.norm) / 2 * dt := by
  obtain ⟨u, hu, h⟩ := displacement_unit w dt s v
  have h1 := norm_nonneg' s.vel
  have h2 := norm_nonneg' v
  rw [h, smul_norm _ (by positivity), hu]
  ring

theorem less_lt {a b : ℝ} (h : less a b) : a < b := by
  rw [less] at h
  have : 0 ≤ eps * max |a| |b| := mul_nonneg (by rw [eps]; positivity) (le_trans (abs_nonneg a) (le_max_left _ _))
  linarith

theorem remaining_due {t : Traj} {now r due dt : ℝ} {v : Vertex} (h : remaining t.base now v.time = some r) (hd : Due t v due) (hr : r < dt) : due < now + dt := by
  obtain ⟨x, hx, rfl⟩ := hd
  have he : 0 < eps := by rw [eps]; positivity
  rw [hx] at h
  simp only [remaining, Option.map_some, Option.some.injEq] at h
  split at h
  · linarith
  · rename_i h0
    push Not at h0
    linarith

theorem remaining_none {t : Traj} {now : ℝ} {v : Vertex} (h : remaining t.base now v.time = none) : v.time = none := by
  simpa [remaining] using h

theorem leave_discard (now : ℝ) (t : Traj) (v₀ v₁ : Vertex) (l : List Vertex) (h : t.vertices = v₀ :: v₁ :: l) : Leave now t (discard now t v₀ v₁ l) := by
  obtain ⟨b, g, c, vs⟩ := t
  obtain ⟨p, x⟩ := v₁
  subst h
  cases b <;> cases x <;> cases c <;> simp only [discard, Option.isSome, Bool.and_false, Bool.and_true, Bool.false_eq_true, if_false, if_true]
  · exact .untimed ..
  · exact .untimedClosed ..
  · exact .absolute ..
  · exact .absoluteClosed ..
  · exact .untimed ..
  · exact .untimedClosed ..
  · exact .relative ..
  · exact .relativeClosed ..

theorem pathTo_way (w : World) (p : Pt) (l : List Vertex) (n : ℕ) (d : ℝ) (h : pathTo w p l n = some d) :
    n < l.length ∧ d = wayLength w.dist (p :: (l.take (n + 1)).map Vertex.pos) := by
  induction l generalizing p n d with
  | nil => simp [pathTo] at h
  | cons v l ih =>
    cases n with
    | zero =>
      simp only [pathTo, Option.some.injEq] at h
      subst h
      simp [wayLength]
    | succ n =>
      simp only [pathTo, Option.map_eq_some_iff] at h
      obtain ⟨e, h, rfl⟩ := h
      obtain ⟨h1, rfl⟩ := ih v.pos n e h
      refine ⟨by simpa using h1, ?_⟩
      rw [List.take_succ_cons, List.map_cons, wayLength]

theorem nearestTimed_some (l : List Vertex) (n : ℕ) (x : ℝ) (h : nearestTimed l = some (n, x)) :
    (∃ v, l[n]? = some v ∧ v.time = some x) ∧ ∀ k < n, ∀ u, l[k]? = some u → u.time = none := by
  induction l generalizing n x with
  | nil => simp [nearestTimed] at h
  | cons v l ih =>
    simp only [nearestTimed] at h
    split at h
    · rename_i y hy
      simp only [Option.some.injEq, Prod.mk.injEq] at h
      obtain ⟨rfl, rfl⟩ := h
      exact ⟨⟨v, by simp, hy⟩, by intro k hk; omega⟩
    · rename_i hy
      simp only [Option.map_eq_some_iff, Prod.mk.injEq, Prod.exists] at h
      obtain ⟨m, y, h, rfl, rfl⟩ := h
      obtain ⟨⟨u, hu, hx⟩, h2⟩ := ih m y h
      refine ⟨⟨u, by simpa using hu, hx⟩, ?_⟩
      intro k hk u hu
      cases k with
      | zero => simp at hu; subst hu; exact hy
      | succ k => exact h2 k (by omega) u (by simpa using hu)

theorem nearestTimed_none (l : List Vertex) (h : nearestTimed l = none) : ∀ v ∈ l, v.time = none := by
  induction l with
  | nil => simp
  | cons v l ih =>
    simp only [nearestTimed] at h
    split at h
    · simp at h
    · rename_i hy
      simp only [Option.map_eq_none_iff] at h
      intro u hu
      rcases List.mem_cons.1 hu with rfl | hu
      · exact hy
      · exact ih h u hu

/-- How the speed is chosen: the controller is asked for the waypoint that decides, with the way along all waypoints up to it and with the time left, if it has a time. It
takes braking into account exactly if this is the last waypoint, and the target speed exactly if it has no time. -/
def Asked (w : World) (b : Param) (dt : ℝ) (target : Option ℝ) (s : Status) (t : Traj) (left : List Vertex) (a : ℝ) : Prop :=
  ∃ (n : ℕ) (v : Vertex) (time : Option ℝ), Decisive left n v ∧
    (v.time = none → time = none) ∧
    (∀ due, Due t v due → ∃ r, time = some r ∧ (due ≠ s.time → r = due - s.time) ∧ (due = s.time → 0 < r ∧ r ≤ 1 / 10 ^ 15)) ∧
    acceleration ⟨dt, decide (n + 1 = left.length), b.maxAcc, b.maxAccRate, b.maxDec, b.maxDecRate, (if v.time = none then target else none).getD b.maxSpeed⟩ time
      (wayLength w.dist (s.pos :: (left.take (n + 1)).map Vertex.pos)) s.acc.x s.vel.x = some a

theorem desired_asked (w : World) (b : Param) (dt : ℝ) (target : Option ℝ) (s : Status) (t : Traj) (v₁ : Vertex) (v : Pt)
    (h : desired w b dt target s t v₁ = .ok v) : ∃ a, Asked w b dt target s t (t.vertices.drop 1) a ∧ v = towards w s v₁.pos (s.vel.x + a * dt) := by
  simp only [desired] at h
  split at h
  · cases h
  rename_i hg
  generalize t.vertices.drop 1 = l at *
  split at h
  · cases h
  rename_i d hd
  split at h
  · cases h
  rename_i a ha
  injection h with h
  subst h
  refine ⟨a, ?_, rfl⟩
  simp only [distanceTimed] at hd
  cases hn : nearestTimed l with
  | some r =>
    obtain ⟨n, x⟩ := r
    rw [hn] at hd
    obtain ⟨⟨u, hu, hx⟩, h2⟩ := nearestTimed_some l n x hn
    obtain ⟨h3, rfl⟩ := pathTo_way w _ _ _ _ hd
    refine ⟨n, u, remainingTimed t.base s.time l, ⟨hu, h2, fun h => (by rw [hx] at h; cases h)⟩, fun h => (by rw [hx] at h; cases h), ?_, ?_⟩
    · rintro due ⟨x', hx', rfl⟩
      rw [hx] at hx'
      cases hx'
      simp only [remainingTimed, remaining, hn, Option.map_some]
      refine ⟨_, rfl, ?_, ?_⟩
      · intro h
        rw [if_pos (sub_ne_zero.2 h)]
      · intro h
        rw [if_neg (by rw [h]; simp), eps]
        norm_num
    · have e1 : timedFinal l = decide (n + 1 = l.length) := by simp only [timedFinal, hn]; rfl
      have e2 : remainingTimed t.base s.time l ≠ none := by simp [remainingTimed, remaining, hn]
      rw [if_neg e2, e1] at ha
      rw [if_neg (fun h => by rw [hx] at h; cases h)]
      exact ha
  | none =>
    rw [hn] at hd
    have h2 := nearestTimed_none l hn
    obtain ⟨h3, rfl⟩ := pathTo_way w _ _ _ _ hd
    have h4 : l.length - 1 + 1 = l.length := by omega
    have e0 : remainingTimed t.base s.time l = none := by simp [remainingTimed, remaining, hn]
    refine ⟨l.length - 1, l[l.length - 1], none, ⟨List.getElem?_eq_getElem h3, ?_, fun _ => h4⟩, fun _ => rfl, ?_, ?_⟩
    · intro k _ u hu
      exact h2 u (List.mem_of_getElem? hu)
    · rintro due ⟨x, hx, -⟩
      rw [h2 _ (List.getElem_mem h3)] at hx
      cases hx
    · have e1 : timedFinal l = decide (l.length - 1 + 1 = l.length) := by simp only [timedFinal, hn, h4, decide_true]
      rw [if_pos e0, e1, e0] at ha
      rw [if_pos (h2 _ (List.getElem_mem h3))]
      exact ha

/-- When a waypoint may be left behind: another one follows, it is within the distance of this step, or less than 1e-12 away, and if it has a time, then the time has
come, up to half a step. -/
def MayLeave (w : World) (b : Param) (dt : ℝ) (target : Option ℝ) (s : Status) (t : Traj) : Prop :=
  ∃ v₀ v₁ v₂ l, t.vertices = v₀ :: v₁ :: v₂ :: l ∧ (∀ due, Due t v₁ due → due < s.time + dt / 2) ∧
    (w.dist s.pos v₁.pos < 1 / 10 ^ 12 ∨
      ∃ a, Asked w b dt target s t (v₁ :: v₂ :: l) a ∧ w.dist s.pos v₁.pos ≤ (s.vel.norm + |s.vel.x + a * dt|) / 2 * dt)

theorem intermediate_next (w : World) (b : Param) (dt : ℝ) (target : Option ℝ) (s : Status) (t : Traj) (v₀ v₁ : Vertex) (l : List Vertex) (hdt : 0 ≤ dt)
    (hv : t.vertices = v₀ :: v₁ :: l) (hl : l ≠ []) (h : intermediate w b dt target s t v₁ = .ok .next) : MayLeave w b dt target s t := by
  obtain ⟨v₂, l, rfl⟩ := List.exists_cons_of_ne_nil hl
  simp only [intermediate] at h
  split at h
  · cases h
  rename_i v hd
  obtain ⟨a, ha, rfl⟩ := desired_asked _ _ _ _ _ _ _ _ hd
  rw [hv, List.drop_succ_cons, List.drop_zero] at ha
  rw [displacement_norm _ _ _ _ hdt, towards_norm] at h
  have key : (s.vel.norm + |s.vel.x + a * dt|) / 2 * dt ≥ w.dist s.pos v₁.pos ∨ w.dist s.pos v₁.pos < ε →
      w.dist s.pos v₁.pos < 1 / 10 ^ 12 ∨ ∃ a, Asked w b dt target s t (v₁ :: v₂ :: l) a ∧ w.dist s.pos v₁.pos ≤ (s.vel.norm + |s.vel.x + a * dt|) / 2 * dt := by
    rintro (h | h)
    · exact .inr ⟨a, ha, h⟩
    · exact .inl h
  split at h
  · rename_i hr
    split at h
    · rename_i hc
      refine ⟨v₀, v₁, v₂, l, hv, ?_, key hc⟩
      rintro due ⟨x, hx, -⟩
      rw [remaining_none hr] at hx
      cases hx
    · cases h
  · rename_i r hr
    split at h
    · rename_i hless
      split at h
      · rename_i hc
        exact ⟨v₀, v₁, v₂, l, hv, fun due hd => remaining_due hr hd (less_lt hless), key hc⟩
      · cases h
    · cases h

/-- What a call of the function does, without the recursion. -/
theorem follow_cases (w : World) (b : Param) (dt : ℝ) (target : Option ℝ) (s : Status) (hdt : 0 ≤ dt) (r : Option Status) (t t' : Traj)
    (h : follow w b dt target s t = some (.ok (r, t'))) :
    Leaves s.time (MayLeave w b dt target s) t t' ∧ ∃ v₀ v₁ l, t'.vertices = v₀ :: v₁ :: l ∧
      ((r = none ∧ l = [] ∧ final w b dt target s t' v₀ v₁ = .ok .done) ∨
        ∃ v s', r = some s' ∧ move w dt s t' v₀ v₁ v = .ok s' ∧
          ((l = [] ∧ final w b dt target s t' v₀ v₁ = .ok (.go v)) ∨ (l ≠ [] ∧ intermediate w b dt target s t' v₁ = .ok (.go v)))) := by
  refine follow.partial_correctness w b dt target s (fun t r => ∀ o t', r = .ok (o, t') → Leaves s.time (MayLeave w b dt target s) t t' ∧ ∃ v₀ v₁ l, t'.vertices = v₀ :: v₁ :: l ∧
      ((o = none ∧ l = [] ∧ final w b dt target s t' v₀ v₁ = .ok .done) ∨
        ∃ v s', o = some s' ∧ move w dt s t' v₀ v₁ v = .ok s' ∧
          ((l = [] ∧ final w b dt target s t' v₀ v₁ = .ok (.go v)) ∨ (l ≠ [] ∧ intermediate w b dt target s t' v₁ = .ok (.go v))))) ?_ t _ h r t' rfl
  clear h t t' r
  intro rec ih t r h o t' hr
  subst hr
  split at h
  · rename_i v₀ v₁ l hv
    split at h
    · cases h
    · rename_i hc
      simp only [Option.some.injEq, Except.ok.injEq, Prod.mk.injEq] at h
      obtain ⟨rfl, rfl⟩ := h
      refine ⟨.none _, v₀, v₁, l, hv, .inl ⟨rfl, ?_⟩⟩
      cases l with
      | nil => exact ⟨rfl, by simpa using hc⟩
      | cons v₂ l =>
        exfalso
        simp only [List.isEmpty_cons, Bool.false_eq_true, if_false, intermediate] at hc
        repeat' split at hc
        all_goals cases hc
    · rename_i v hc
      split at h
      · cases h
      · rename_i s' hm
        simp only [Option.some.injEq, Except.ok.injEq, Prod.mk.injEq] at h
        obtain ⟨rfl, rfl⟩ := h
        refine ⟨.none _, v₀, v₁, l, hv, .inr ⟨v, s', rfl, hm, ?_⟩⟩
        cases l with
        | nil => exact .inl ⟨rfl, by simpa using hc⟩
        | cons v₂ l => exact .inr ⟨by simp, by simpa using hc⟩
    · rename_i hc
      obtain ⟨h1, h2⟩ := ih _ _ h o t' rfl
      refine ⟨.one ?_ (leave_discard s.time t v₀ v₁ l hv) h1, h2⟩
      cases l with
      | nil =>
        exfalso
        simp only [List.isEmpty_nil, if_true, final] at hc
        repeat' split at hc
        all_goals first | cases hc | skip
        cases hd : desired w b dt target s t v₁ <;> rw [hd] at hc <;> cases hc
      | cons v₂ l => exact intermediate_next w b dt target s t v₀ v₁ _ hdt hv (by simp) (by simpa using hc)
  · cases h

/-- C113: waypoints are left behind in order, one after the other, each only when it is reached in this step and its time has come. Relative times count from the last
timed waypoint that was reached. -/
theorem C113_order (w : World) (b : Param) (dt : ℝ) (target : Option ℝ) (s : Status) (hdt : 0 ≤ dt) (r : Option Status) (t t' : Traj)
    (h : follow w b dt target s t = some (.ok (r, t'))) : Leaves s.time (MayLeave w b dt target s) t t' :=
  (follow_cases w b dt target s hdt r t t' h).1

/-- C113: a timed waypoint, other than the last, that is not left behind at its time is an error: after a call without an error the next waypoint is not overdue. -/
theorem C113_missed (w : World) (b : Param) (dt : ℝ) (target : Option ℝ) (s : Status) (hdt : 0 < dt) (r : Option Status) (t t' : Traj)
    (h : follow w b dt target s t = some (.ok (r, t'))) (v₀ v₁ v₂ : Vertex) (l : List Vertex) (hv : t'.vertices = v₀ :: v₁ :: v₂ :: l) (due : ℝ) (hd : Due t' v₁ due) : s.time ≤ due := by
  obtain ⟨-, u₀, u₁, m, hm, hc⟩ := follow_cases w b dt target s hdt.le r t t' h
  rw [hv] at hm
  simp only [List.cons.injEq] at hm
  obtain ⟨rfl, rfl, rfl⟩ := hm
  rcases hc with ⟨-, h1, -⟩ | ⟨v, s', -, -, ⟨h1, -⟩ | ⟨-, hi⟩⟩
  · cases h1
  · cases h1
  obtain ⟨x, hx, rfl⟩ := hd
  simp only [intermediate] at hi
  split at hi
  · cases hi
  simp only [hx, remaining, Option.map_some] at hi
  by_contra hcon
  rw [not_le] at hcon
  have he : eps < 1 := by rw [eps]; norm_num
  have he0 : 0 < eps := by rw [eps]; positivity
  rw [if_pos (show t'.base.getD 0 + x - s.time ≠ 0 by intro h0; linarith), if_pos] at hi
  · split at hi <;> cases hi
  · rw [less]
    have h1 : max |t'.base.getD 0 + x - s.time| |dt / 2| ≤ dt / 2 - (t'.base.getD 0 + x - s.time) := by
      rw [abs_of_neg (by linarith), abs_of_pos (by linarith)]
      exact max_le (by linarith) (by linarith)
    have h2 : 0 < dt / 2 - (t'.base.getD 0 + x - s.time) := by linarith
    nlinarith

/-- Trajectories that a trajectory can become over any number of frames, with any vehicles, speeds and positions. -/
inductive After (w : World) (dt : ℝ) (t : Traj) : Traj → Prop where
  | start : After w dt t t
  | frame {t₁ t₂ : Traj} (b : Param) (target : Option ℝ) (s : Status) (r : Option Status) :
      After w dt t t₁ → follow w b dt target s t₁ = some (.ok (r, t₂)) → After w dt t t₂

theorem leaves_open {now : ℝ} {may : Traj → Prop} {t t' : Traj} (h : Leaves now may t t') (hc : t.closed = false) :
    t'.vertices <:+ t.vertices ∧ t'.closed = false ∧ t'.ignorable = t.ignorable ∧ (t'.base.isSome = t.base.isSome) := by
  induction h with
  | none t => exact ⟨List.suffix_refl _, hc, rfl, rfl⟩
  | one hm hl _ ih =>
    cases hl with
    | relative | untimed | absolute =>
      obtain ⟨h1, h2, h3, h4⟩ := ih rfl
      exact ⟨h1.trans (List.suffix_cons _ _), h2, h3, h4⟩
    | relativeClosed | untimedClosed | absoluteClosed => cases hc

/-- C113: over any number of frames no waypoint of a trajectory that is not closed is taken out of order or invented, and the last two are never left behind. -/
theorem C113_history (w : World) (dt : ℝ) (hdt : 0 ≤ dt) (t t' : Traj) (hc : t.closed = false) (h : After w dt t t') :
    t'.vertices <:+ t.vertices ∧ t'.closed = false ∧ (t' ≠ t → 2 ≤ t'.vertices.length) := by
  induction h with
  | start => exact ⟨List.suffix_refl _, hc, fun h => absurd rfl h⟩
  | frame b target s r _ hf ih =>
    obtain ⟨h1, h2, h3⟩ := ih
    obtain ⟨h4, v₀, v₁, l, hv, -⟩ := follow_cases w b dt target s hdt r _ _ hf
    obtain ⟨h5, h6, -⟩ := leaves_open h4 h2
    exact ⟨h5.trans h1, h6, fun _ => by rw [hv]; simp⟩

/-- C113: a trajectory is done only when its last waypoint is the target, the entity stands still (below 1e-12) at most 0.1 away from it, and its time, if it has one, has come
up to half a step. -/
theorem C113_done (w : World) (b : Param) (dt : ℝ) (target : Option ℝ) (s : Status) (hdt : 0 ≤ dt) (t t' : Traj)
    (h : follow w b dt target s t = some (.ok (none, t'))) :
    ∃ v₀ v₁, t'.vertices = [v₀, v₁] ∧ |s.vel.x| < 1 / 10 ^ 12 ∧ |s.acc.x| < 1 / 10 ^ 12 ∧ w.dist s.pos v₁.pos ≤ 1 / 10 ∧
      ∀ due, Due t' v₁ due → due < s.time + dt / 2 := by
  obtain ⟨-, v₀, v₁, l, hv, ⟨-, rfl, hf⟩ | ⟨v, s', hr, -⟩⟩ := follow_cases w b dt target s hdt _ t t' h
  · refine ⟨v₀, v₁, hv, ?_⟩
    simp only [final] at hf
    split at hf
    · rename_i hs
      refine ⟨hs.1.1, hs.1.2, hs.2, ?_⟩
      split at hf
      · rename_i hr
        rintro due ⟨x, hx, -⟩
        rw [remaining_none hr] at hx
        cases hx
      · rename_i r hr
        split at hf
        · rename_i hl
          exact fun due hd => remaining_due hr hd (less_lt hl)
        · cases hf
    · split at hf
      · cases hf
      · split at hf
        · cases hf
        · cases hd : desired w b dt target s t' v₁ <;> rw [hd] at hf <;> cases hf
  · cases hr

/-- C113: a trajectory is done at once when the last waypoint is the target, the entity stands still at most 0.1 away from it and its time, if it has one, has come. -/
theorem C113_done_now (w : World) (b : Param) (dt : ℝ) (target : Option ℝ) (s : Status) (hdt : 1 / 10 ^ 9 ≤ dt) (t : Traj) (v₀ v₁ : Vertex) (hv : t.vertices = [v₀, v₁])
    (h1 : |s.vel.x| < 1 / 10 ^ 12) (h2 : |s.acc.x| < 1 / 10 ^ 12) (h3 : w.dist s.pos v₁.pos ≤ 1 / 10) (h4 : ∀ due, Due t v₁ due → due ≤ s.time) :
    follow w b dt target s t = some (.ok (none, t)) := by
  have hf : final w b dt target s t v₀ v₁ = .ok .done := by
    have hs : still s ∧ w.dist s.pos v₁.pos ≤ arrivalTol := ⟨⟨h1, h2⟩, h3⟩
    simp only [final]
    rw [if_pos hs]
    cases hx : v₁.time with
    | none => rfl
    | some x =>
      have h5 := h4 _ ⟨x, hx, rfl⟩
      simp only [remaining, Option.map_some]
      rw [if_pos]
      have he : eps = 1 / 2 ^ 52 := rfl
      generalize t.base.getD 0 + x = due at *
      rw [less]
      split
      · have h6 : max |due - s.time| |dt / 2| ≤ (s.time - due) + dt / 2 := by
          rw [abs_of_nonpos (by linarith), abs_of_nonneg (by linarith)]
          exact max_le (by linarith) (by linarith)
        have h7 : eps * max |due - s.time| |dt / 2| ≤ eps * ((s.time - due) + dt / 2) := mul_le_mul_of_nonneg_left h6 (by rw [he]; positivity)
        have h8 : eps * ((s.time - due) + dt / 2) < 1 * ((s.time - due) + dt / 2) := mul_lt_mul_of_pos_right (by rw [he]; norm_num) (by linarith)
        linarith
      · have h6 : max |eps| |dt / 2| ≤ dt := by
          rw [abs_of_nonneg (by rw [he]; positivity), abs_of_nonneg (by linarith), he]
          exact max_le (by linarith) (by linarith)
        have h7 : eps * max |eps| |dt / 2| ≤ eps * dt := mul_le_mul_of_nonneg_left h6 (by rw [he]; positivity)
        have h8 : eps * dt ≤ 1 / 4 * dt := mul_le_mul_of_nonneg_right (by rw [he]; norm_num) (by linarith)
        have h9 : eps < 1 / 4 * dt := by rw [he]; linarith
        linarith
  rw [follow.eq_1, hv]
  simp only [List.isEmpty_nil, if_true, hf]

/-- C113: a frame that is not the last advances the time by the step, reports the speed along the heading and the acceleration as change of the velocity, and moves an
entity that is not on a lane on a straight line by the mean of the old and the new speed. No timed waypoint is missed by more than a step. -/
theorem C113_move (w : World) (b : Param) (dt : ℝ) (target : Option ℝ) (s s' : Status) (hdt : 0 ≤ dt) (t t' : Traj)
    (h : follow w b dt target s t = some (.ok (some s', t'))) :
    s'.time = s.time + dt ∧ 0 ≤ s'.vel.x ∧ s'.vel.y = 0 ∧ s'.vel.z = 0 ∧ s'.acc = (s'.vel.sub s.vel).smul (1 / dt) ∧
      (s.onLane = false → (s'.pos.sub s.pos).norm = (s.vel.norm + s'.vel.x) / 2 * dt) ∧
      (∀ n v due, Decisive (t'.vertices.drop 1) n v → Due t' v due → s.time - dt ≤ due) := by
  obtain ⟨-, v₀, v₁, l, hv, ⟨hr, -⟩ | ⟨v, s', hr, hm, -⟩⟩ := follow_cases w b dt target s hdt _ t t' h
  · cases hr
  · cases hr
    simp only [move] at hm
    split at hm
    · cases hm
    rename_i hlate
    injection hm with hm
    subst hm
    refine ⟨rfl, norm_nonneg' v, rfl, rfl, rfl, ?_, ?_⟩
    · intro hl
      simp only [hl, Bool.false_eq_true, if_false]
      rw [← displacement_norm w dt s v hdt]
      simp only [Pt.sub, Pt.add, Pt.norm]
      congr 1
      ring
    · intro n u due ⟨hn, hfirst, hlast⟩ ⟨x, hx, hdue⟩
      by_contra hc
      push Not at hc
      refine hlate ?_
      cases hnt : nearestTimed (t'.vertices.drop 1) with
      | none =>
        have := nearestTimed_none _ hnt u (List.mem_of_getElem? hn)
        rw [this] at hx
        cases hx
      | some q =>
        obtain ⟨m, y⟩ := q
        obtain ⟨⟨u', hu', hy⟩, h2⟩ := nearestTimed_some _ m y hnt
        have hmn : m = n := by
          rcases Nat.lt_trichotomy m n with h | h | h
          · rw [hfirst m h u' hu'] at hy; cases hy
          · exact h
          · rw [h2 n h u hn] at hx; cases hx
        subst hmn
        rw [hn] at hu'
        cases hu'
        rw [hx] at hy
        cases hy
        refine ⟨due - s.time, ?_, by linarith⟩
        simp only [remainingTimed, remaining, hnt, Option.map_some, Option.some.injEq, ← hdue]
        rw [if_pos (by intro h0; linarith)]

end Verif.Follow
