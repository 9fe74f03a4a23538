import Verif.Follow.DoNothing
import Mathlib.Tactic.Linarith
import Mathlib.Tactic.NormNum
import Mathlib.Tactic.Ring
import Mathlib.Tactic.FieldSimp
/-
C114: entities without behaviour are on their trajectory at every time.
-/
namespace Verif.Follow.Idle
open Classical Verif.Geometry

theorem atMost_some (x y : ℝ) : atMost (some x) (some y) ↔ x ≤ y := by simp [atMost]
theorem atMost_none_left (y : Option ℝ) : ¬ atMost none y := by simp [atMost]
theorem atMost_none_right (y : Option ℝ) : ¬ atMost y none := by simp [atMost]

theorem onRoad_keeps (w : World) (s : Status) :
    (onRoad w s).time = s.time ∧ (onRoad w s).pos.x = s.pos.x ∧ (onRoad w s).pos.y = s.pos.y ∧ (onRoad w s).speed = s.speed ∧ (onRoad w s).acc = s.acc ∧
      (onRoad w s).turn = s.turn ∧ (w.lane s.pos s.orient = none → (onRoad w s).pos.z = s.pos.z ∧ (onRoad w s).orient = s.orient) := by
  unfold onRoad
  split
  · rename_i h
    simp [h]
  · simp

theorem getLast_append (pre : List Vertex) (a c : Vertex) (post : List Vertex) : (pre ++ a :: c :: post).getLast? = some ((c :: post).getLast (by simp)) := by
  rw [List.getLast?_append, List.getLast?_cons_cons, List.getLast?_eq_some_getLast (List.cons_ne_nil c post)]
  rfl

theorem findPair_skip (b now : ℝ) (a c : Vertex) (post : List Vertex) (ha : atMost (plus (some b) a.time) (some now)) (hc : atMost (some now) (plus (some b) c.time))
    (pre : List Vertex) (hpre : ∀ v ∈ pre, ∀ x, v.time = some x → b + x < now) (ha' : ∀ x, a.time = some x → b + x < now) :
    findPair (some b) (some now) (pre ++ a :: c :: post) = some (a, c) := by
  induction pre with
  | nil => rw [List.nil_append, findPair, if_pos ⟨ha, hc⟩]
  | cons v pre ih =>
    have key : ∀ u : Vertex, (∀ x, u.time = some x → b + x < now) → ¬ atMost (some now) (plus (some b) u.time) := by
      intro u hu
      cases hx : u.time with
      | none => exact atMost_none_right _
      | some x =>
        simp only [plus, Option.bind_some, Option.map_some, atMost_some]
        linarith [hu x hx]
    have ih := ih (fun v hv => hpre v (List.mem_cons_of_mem _ hv))
    cases pre with
    | nil =>
      rw [List.cons_append, List.nil_append, findPair, if_neg (fun h => key a ha' h.2)]
      exact ih
    | cons u pre =>
      rw [List.cons_append, List.cons_append, findPair, if_neg (fun h => key u (hpre u (by simp)) h.2)]
      exact ih

/-- A trajectory that can be followed by an entity without behaviour: open, in the mode that ignores the dynamics, without offset, with two vertices or more. -/
def Valid (t : Traj) : Prop := t.closed = false ∧ t.ignorable = true ∧ t.offset = 0 ∧ 2 ≤ t.vertices.length

theorem valid_check {t : Traj} (h : Valid t) : check t := by
  refine ⟨h.1, h.2.1, ?_, h.2.2.2⟩
  rw [h.2.2.1, abs_zero, eps]
  positivity

theorem interpolate_between (w : World) (t : Traj) (s : Status) (now b ta tc : ℝ) (pre post : List Vertex) (a c : Vertex) (hb : t.base = some b)
    (hv : t.vertices = pre ++ a :: c :: post) (ha : a.time = some ta) (hc : c.time = some tc) (hpre : ∀ v ∈ pre, ∀ x, v.time = some x → x ≤ ta)
    (hpost : ∀ v ∈ post, ∀ x, v.time = some x → tc < x) (h1 : b + ta < now) (h2 : now ≤ b + tc) :
    interpolate w t s now = .status (between w s ((now - b - ta) / (tc - ta)) a c) := by
  have hlt : ta < tc := by linarith
  have hhead : ∃ f, t.vertices.head? = some f ∧ ∀ x, f.time = some x → b + x < now := by
    rw [hv]
    cases pre with
    | nil => exact ⟨a, rfl, fun x hx => by rw [ha] at hx; cases hx; exact h1⟩
    | cons u pre => exact ⟨u, rfl, fun x hx => by linarith [hpre u (by simp) x hx]⟩
  obtain ⟨f, hf, hf'⟩ := hhead
  have hlast : ∃ e, t.vertices.getLast? = some e ∧ (post = [] → e = c) ∧ (post ≠ [] → e ∈ post) := by
    refine ⟨(c :: post).getLast (by simp), by rw [hv, getLast_append], ?_, ?_⟩
    · rintro rfl
      rfl
    · intro h
      rw [List.getLast_cons h]
      exact List.getLast_mem _
  obtain ⟨e, hlast, he, he'⟩ := hlast
  have hbefore : ∃ u, t.vertices.dropLast.getLast? = some u ∧ (post = [] → u = a) := by
    rw [hv, List.dropLast_append_of_ne_nil (by simp), List.dropLast_cons_cons, List.getLast?_append]
    rw [List.getLast?_eq_some_getLast (List.cons_ne_nil _ _)]
    refine ⟨_, rfl, ?_⟩
    rintro rfl
    rfl
  obtain ⟨u, hu, hu'⟩ := hbefore
  simp only [interpolate, hf, hlast, hu, hb]
  rw [if_neg]
  swap
  · cases hx : f.time with
    | none => exact atMost_none_right _
    | some x =>
      simp only [plus, Option.bind_some, Option.map_some, atMost_some]
      linarith [hf' x hx]
  have hfind : findPair (some b) (some now) t.vertices = some (a, c) := by
    rw [hv]
    apply findPair_skip
    · rw [ha]
      simp only [plus, Option.bind_some, Option.map_some, atMost_some]
      linarith
    · rw [hc]
      simp only [plus, Option.bind_some, Option.map_some, atMost_some]
      linarith
    · exact fun v hv x hx => by linarith [hpre v hv x hx]
    · intro x hx
      rw [ha] at hx
      cases hx
      exact h1
  have hratio : over (minus (minus (some now) (some b)) a.time) (minus c.time a.time) = some ((now - b - ta) / (tc - ta)) := by
    rw [ha, hc]
    simp only [over, minus, Option.bind_some, Option.map_some]
    rw [if_neg (by linarith)]
  cases post with
  | nil =>
    have hu' := hu' rfl
    have he := he rfl
    subst hu'
    subst he
    by_cases hl : atMost (plus (some b) e.time) (some now)
    · rw [if_pos hl]
      rw [hc] at hl
      simp only [plus, Option.bind_some, Option.map_some, atMost_some] at hl
      rw [show now - b - ta = tc - ta by linarith, div_self (by linarith)]
    · rw [if_neg hl, hfind]
      simp only [hratio]
  | cons q post =>
    rw [if_neg, hfind]
    · simp only [hratio]
    · have hm := he' (by simp)
      cases hx : e.time with
      | none => exact atMost_none_left _
      | some x =>
        simp only [plus, Option.bind_some, Option.map_some, atMost_some]
        linarith [hpost _ hm x hx]

/-- C114: between the times of two vertices, the entity is on the line between them, at the place that divides it as the time divides the interval, and has the constant
speed that this takes. On a lane only its height and orientation are those of the lane. -/
theorem C114_place (w : World) (now dt : ℝ) (p : State) (t : Traj) (b ta tc : ℝ) (pre post : List Vertex) (a c : Vertex) (hp : p.following = true) (ht : p.traj = some t)
    (hval : Valid t) (hb : t.base = some b) (hv : t.vertices = pre ++ a :: c :: post) (ha : a.time = some ta) (hc : c.time = some tc)
    (hpre : ∀ v ∈ pre, ∀ x, v.time = some x → x ≤ ta) (hpost : ∀ v ∈ post, ∀ x, v.time = some x → tc < x) (h1 : b + ta < now + dt) (h2 : now + dt ≤ b + tc) :
    ∃ p' r, update w now dt p = some p' ∧ r = (now + dt - b - ta) / (tc - ta) ∧ p'.traj = some t ∧ p'.status.time = now ∧
      p'.status.pos.x = a.pos.x + r * (c.pos.x - a.pos.x) ∧ p'.status.pos.y = a.pos.y + r * (c.pos.y - a.pos.y) ∧
      p'.status.speed = some (distance c.pos a.pos / (tc - ta)) ∧ p'.status.turn = some (w.yaw (getRotation a.orient c.orient) / (tc - ta)) ∧
      ((∀ q o, w.lane q o = none) → p'.status.pos.z = a.pos.z + r * (c.pos.z - a.pos.z) ∧ p'.status.orient = slerp a.orient c.orient r) := by
  have hi := interpolate_between w t { p.status with time := now } (now + dt) b ta tc pre post a c hb hv ha hc hpre hpost h1 h2
  generalize hr : (now + dt - b - ta) / (tc - ta) = r at hi
  have hne : ¬ tc - ta = 0 := by linarith
  obtain ⟨k1, k2, k3, k4, -, k6, k5⟩ := onRoad_keeps w (between w { p.status with time := now } r a c)
  simp only [update, hp, if_true, ht]
  rw [if_pos (valid_check hval)]
  simp only [hi, Option.map_some, Option.some.injEq]
  refine ⟨_, r, rfl, rfl, rfl, ?_, ?_, ?_, ?_, ?_, ?_⟩
  · exact k1
  · refine k2.trans ?_
    simp only [between, Pt.add, Pt.smul]; ring
  · refine k3.trans ?_
    simp only [between, Pt.add, Pt.smul]; ring
  · refine k4.trans ?_
    simp only [between, ha, hc, over, minus, Option.bind_some, Option.map_some]
    rw [if_neg hne]
  · refine k6.trans ?_
    simp only [between, ha, hc, over, minus, Option.bind_some, Option.map_some]
    rw [if_neg hne]
  · intro hl
    obtain ⟨e1, e2⟩ := k5 (hl _ _)
    refine ⟨?_, ?_⟩
    · refine e1.trans ?_
      simp only [between, Pt.add, Pt.smul]; ring
    · exact e2

/-- C114: from the time of the last vertex on, the entity is there, and no longer follows the trajectory. -/
theorem C114_end (w : World) (now dt : ℝ) (p : State) (t : Traj) (b te : ℝ) (pre : List Vertex) (u e : Vertex) (hp : p.following = true) (ht : p.traj = some t) (hval : Valid t)
    (hb : t.base = some b) (hv : t.vertices = pre ++ [u, e]) (he : e.time = some te) (hfirst : ∀ v ∈ pre ++ [u], ∀ x, v.time = some x → x ≤ te) (h1 : b + te < now + dt) :
    ∃ p', update w now dt p = some p' ∧ p'.following = false ∧ p'.status.pos.x = e.pos.x ∧ p'.status.pos.y = e.pos.y := by
  have hf : ∃ f, t.vertices.head? = some f ∧ ∀ x, f.time = some x → x ≤ te := by
    rw [hv]
    cases pre with
    | nil => exact ⟨u, rfl, fun x hx => hfirst u (by simp) x hx⟩
    | cons v pre => exact ⟨v, rfl, fun x hx => hfirst v (by simp) x hx⟩
  obtain ⟨f, hf, hf'⟩ := hf
  have hlast : t.vertices.getLast? = some e := by rw [hv, getLast_append]; rfl
  have hbefore : t.vertices.dropLast.getLast? = some u := by
    rw [hv, List.dropLast_append_of_ne_nil (by simp), List.getLast?_append]; rfl
  have hend : atMost (plus (some b) e.time) (some (now + dt)) := by
    rw [he]
    simp only [plus, Option.bind_some, Option.map_some, atMost_some]
    linarith
  have hi : interpolate w t { p.status with time := now } (now + dt) = .status (between w { p.status with time := now } 1 u e) := by
    simp only [interpolate, hf, hlast, hbefore, hb]
    rw [if_neg, if_pos hend]
    cases hx : f.time with
    | none => exact atMost_none_right _
    | some x =>
      simp only [plus, Option.bind_some, Option.map_some, atMost_some]
      linarith [hf' x hx]
  obtain ⟨k1, k2, k3, -⟩ := onRoad_keeps w (between w { p.status with time := now } 1 u e)
  simp only [update, hp, if_true, ht]
  rw [if_pos (valid_check hval)]
  simp only [hi, Option.map_some, Option.some.injEq]
  refine ⟨_, rfl, ?_, ?_, ?_⟩
  · simp only [hlast, hb, Option.bind_some, hend, decide_true, Bool.not_true]
  · refine k2.trans ?_
    simp only [between, Pt.add, Pt.smul]; ring
  · refine k3.trans ?_
    simp only [between, Pt.add, Pt.smul]; ring

/-- C114: before the time of the first vertex that has one, the entity stays where it is, and goes on following. -/
theorem C114_before (w : World) (now dt : ℝ) (p : State) (t : Traj) (b : ℝ) (hp : p.following = true) (ht : p.traj = some t) (hval : Valid t)
    (hb : t.base = some b) (hv : ∀ v ∈ t.vertices, ∀ x, v.time = some x → now + dt < b + x) :
    ∃ p', update w now dt p = some p' ∧ p'.following = true ∧ p'.traj = some t ∧ p'.status.pos.x = p.status.pos.x ∧ p'.status.pos.y = p.status.pos.y := by
  have key : ∀ u ∈ t.vertices, ¬ atMost (plus (some b) u.time) (some (now + dt)) := by
    intro u hu
    cases hx : u.time with
    | none => exact atMost_none_left _
    | some x =>
      simp only [plus, Option.bind_some, Option.map_some, atMost_some]
      linarith [hv u hu x hx]
  have hfind : ∀ l : List Vertex, (∀ v ∈ l, v ∈ t.vertices) → findPair (some b) (some (now + dt)) l = none := by
    intro l hl
    induction l with
    | nil => rfl
    | cons u l ih =>
      cases l with
      | nil => rfl
      | cons v l =>
        rw [findPair, if_neg (fun h => key u (hl u (by simp)) h.1)]
        exact ih (fun v hv => hl v (List.mem_cons_of_mem _ hv))
  have hi : interpolate w t { p.status with time := now } (now + dt) = .same := by
    simp only [interpolate, hb, hfind t.vertices (fun _ h => h)]
    split
    · rename_i f e u _ hl _
      split
      · rfl
      · rw [if_neg (key e (List.mem_of_getLast? hl))]
    · rfl
  obtain ⟨k1, k2, k3, -⟩ := onRoad_keeps w { p.status with time := now }
  simp only [update, hp, if_true, ht]
  rw [if_pos (valid_check hval)]
  simp only [hi, Option.map_some, Option.some.injEq]
  refine ⟨_, rfl, ?_, rfl, k2, k3⟩
  cases hl : t.vertices.getLast? with
  | none =>
    simp only [Option.bind_none, plus, Option.map_none, Option.bind_fun_none, atMost_none_left, decide_false, Bool.not_false]
  | some e =>
    simp only [Option.bind_some, hb, key e (List.mem_of_getLast? hl), decide_false, Bool.not_false]

/-- C114: an entity that follows a trajectory stops following it exactly in the frame that reaches the time of the last vertex. -/
theorem C114_done (w : World) (now dt : ℝ) (p p' : State) (t : Traj) (hp : p.following = true) (ht : p.traj = some t) (h : update w now dt p = some p') :
    p'.traj = some t ∧ (p'.following = false ↔ ∃ b e x, t.base = some b ∧ t.vertices.getLast? = some e ∧ e.time = some x ∧ b + x ≤ now + dt) := by
  simp only [update, hp, if_true, ht] at h
  split at h
  · simp only [Option.map_eq_some_iff] at h
    obtain ⟨s', -, rfl⟩ := h
    refine ⟨rfl, ?_⟩
    simp only [Bool.not_eq_false', decide_eq_true_eq]
    constructor
    · rintro ⟨x, y, h1, h2, h3⟩
      cases hb : t.base with
      | none => rw [hb] at h1; cases h1
      | some b =>
        cases hl : t.vertices.getLast? with
        | none => rw [hb, hl] at h1; cases h1
        | some e =>
          cases hx : e.time with
          | none => rw [hb, hl, Option.bind_some, hx] at h1; cases h1
          | some z =>
            rw [hb, hl, Option.bind_some, hx] at h1
            simp only [plus, Option.bind_some, Option.map_some, Option.some.injEq] at h1 h2
            exact ⟨b, e, z, rfl, rfl, hx, by linarith⟩
    · rintro ⟨b, e, x, hb, hl, hx, h⟩
      rw [hb, hl, Option.bind_some, hx]
      simp only [plus, Option.bind_some, Option.map_some, atMost_some]
      exact h
  · cases h

/-- C114: trajectories that are missing, closed, to be followed with the dynamics, or of fewer than two vertices are refused. -/
theorem C114_refused (w : World) (now dt : ℝ) (p : State) (hp : p.following = true)
    (h : ∀ t, p.traj = some t → t.closed = true ∨ t.ignorable = false ∨ 1 / 10 ^ 15 ≤ |t.offset| ∨ t.vertices.length ≤ 1) : update w now dt p = none := by
  simp only [update, hp, if_true]
  split
  · rfl
  · rename_i t ht
    rw [if_neg]
    rintro ⟨h1, h2, h3, h4⟩
    rcases h t ht with h | h | h | h
    · rw [h1] at h; cases h
    · rw [h2] at h; cases h
    · rw [eps] at h3
      norm_num at h h3
      linarith
    · omega

/-- C114: an entity that does not follow a trajectory stays where it is and is reported at rest. -/
theorem C114_idle (w : World) (now dt : ℝ) (p : State) (hp : p.following = false) :
    ∃ p', update w now dt p = some p' ∧ p'.following = false ∧ p'.status.time = now ∧ p'.status.pos.x = p.status.pos.x ∧ p'.status.pos.y = p.status.pos.y ∧
      p'.status.speed = some 0 ∧ p'.status.acc = some 0 ∧ p'.status.turn = some 0 := by
  obtain ⟨k1, k2, k3, k4, k5, k6, -⟩ := onRoad_keeps w { p.status with time := now, speed := some 0, acc := some 0, turn := some 0 }
  simp only [update, hp, Bool.false_eq_true, if_false]
  exact ⟨_, rfl, rfl, k1, k2, k3, k4, k5, k6⟩

/-- A trajectory that goes along x, from 0 at time 10 on with speed 2, as the interpreter makes it: in front of it, without a time, is the pose of the entity. -/
noncomputable def along : Traj :=
  ⟨some 5, true, false, 0, [⟨none, ⟨-100, 0, 0⟩, ⟨0, 0, 0, 1⟩⟩, ⟨some 10, ⟨0, 0, 0⟩, ⟨0, 0, 0, 1⟩⟩, ⟨some 20, ⟨20, 0, 0⟩, ⟨0, 0, 0, 1⟩⟩]⟩
noncomputable def atStart : State := ⟨⟨0, ⟨-100, 0, 0⟩, ⟨0, 0, 0, 1⟩, some 0, some 0, some 0, some 0⟩, true, some along⟩
def plain : World := ⟨fun _ _ => none, fun _ => 0⟩

/-- The theorems speak about this trajectory: before its time, in its course, and at its end. -/
example : (∃ p', update plain 13 1 atStart = some p' ∧ p'.following = true ∧ p'.status.pos.x = -100) ∧
    (∃ p', update plain 19 1 atStart = some p' ∧ p'.status.pos.x = 10 ∧ p'.status.speed = some 2) ∧
    (∃ p', update plain 30 1 atStart = some p' ∧ p'.following = false ∧ p'.status.pos.x = 20) := by
  have hval : Valid along := ⟨rfl, rfl, rfl, by simp [along]⟩
  have hd : distance ⟨20, 0, 0⟩ ⟨0, 0, 0⟩ = 20 := by
    simp only [distance]; norm_num
    rw [show (400 : ℝ) = 20 ^ 2 by norm_num, Real.sqrt_sq (by norm_num)]
  refine ⟨?_, ?_, ?_⟩
  · obtain ⟨p', h1, h2, -, h3, -⟩ := C114_before plain 13 1 atStart along 5 rfl rfl hval rfl (by
      intro v hv x hx
      simp only [along, List.mem_cons, List.not_mem_nil, or_false] at hv
      rcases hv with rfl | rfl | rfl <;> cases hx <;> norm_num)
    exact ⟨p', h1, h2, by rw [h3]; rfl⟩
  · obtain ⟨p', r, h1, h2, -, -, h3, -, h4, -⟩ := C114_place plain 19 1 atStart along 5 10 20 [⟨none, ⟨-100, 0, 0⟩, ⟨0, 0, 0, 1⟩⟩] []
      ⟨some 10, ⟨0, 0, 0⟩, ⟨0, 0, 0, 1⟩⟩ ⟨some 20, ⟨20, 0, 0⟩, ⟨0, 0, 0, 1⟩⟩ rfl rfl hval rfl rfl rfl rfl (by
        intro v hv x hx
        simp only [List.mem_cons, List.not_mem_nil, or_false] at hv
        rw [hv] at hx
        cases hx) (by simp) (by norm_num) (by norm_num)
    refine ⟨p', h1, by rw [h3, h2]; norm_num, by rw [h4, hd]; norm_num⟩
  · obtain ⟨p', h1, h2, h3, -⟩ := C114_end plain 30 1 atStart along 5 20 [⟨none, ⟨-100, 0, 0⟩, ⟨0, 0, 0, 1⟩⟩]
      ⟨some 10, ⟨0, 0, 0⟩, ⟨0, 0, 0, 1⟩⟩ ⟨some 20, ⟨20, 0, 0⟩, ⟨0, 0, 0, 1⟩⟩ rfl rfl hval rfl rfl rfl (by
        intro v hv x hx
        simp only [List.cons_append, List.nil_append, List.mem_cons, List.not_mem_nil, or_false] at hv
        rcases hv with rfl | rfl
        · cases hx
        · cases hx; norm_num) (by norm_num)
    exact ⟨p', h1, h2, h3⟩

/-- C114 is violated for absolute times: the entity never moves and never ends following, however many updates there are. -/
theorem C114_absolute_violated (w : World) (p : State) (t : Traj) (hp : p.following = true) (ht : p.traj = some t) (hval : Valid t) (hb : t.base = none) (frames : List (ℝ × ℝ)) :
    ∃ p', frames.foldlM (fun q f => update w f.1 f.2 q) p = some p' ∧ p'.following = true ∧ p'.status.pos.x = p.status.pos.x ∧ p'.status.pos.y = p.status.pos.y := by
  have hn : ∀ x : Option ℝ, plus none x = none := fun x => rfl
  have one : ∀ (q : State) (now dt : ℝ), q.following = true → q.traj = some t → ∃ q', update w now dt q = some q' ∧ q'.following = true ∧ q'.traj = some t ∧
      q'.status.pos.x = q.status.pos.x ∧ q'.status.pos.y = q.status.pos.y := by
    intro q now dt hq hqt
    have hfind : ∀ (l : List Vertex) (x : Option ℝ), findPair none x l = none := by
      intro l x
      induction l with
      | nil => rfl
      | cons u l ih =>
        cases l with
        | nil => rfl
        | cons v l =>
          rw [findPair, if_neg (fun h => atMost_none_left _ h.1)]
          exact ih
    have hi : interpolate w t { q.status with time := now } (now + dt) = .same := by
      simp only [interpolate, hb, hfind, hn]
      split
      · rw [if_neg (atMost_none_right _), if_neg (atMost_none_left _)]
      · rfl
    obtain ⟨k1, k2, k3, -⟩ := onRoad_keeps w { q.status with time := now }
    simp only [update, hq, if_true, hqt]
    rw [if_pos (valid_check hval)]
    simp only [hi, Option.map_some, Option.some.injEq]
    exact ⟨_, rfl, by simp [hb, hn, atMost_none_left], rfl, k2, k3⟩
  induction frames generalizing p with
  | nil => exact ⟨p, rfl, hp, rfl, rfl⟩
  | cons f frames ih =>
    obtain ⟨q, h1, h2, h3, h4, h5⟩ := one p f.1 f.2 hp ht
    obtain ⟨p', h6, h7, h8, h9⟩ := ih q h2 h3
    refine ⟨p', ?_, h7, h8.trans h4, h9.trans h5⟩
    rw [List.foldlM_cons, h1]
    exact h6

/-- C114 is violated by the acceleration: an entity that gets faster is reported with a negative acceleration. -/
theorem C114_acceleration_violated : ∃ p p' : State, p.status.speed = some 0 ∧ update plain 19 1 p = some p' ∧ p'.status.speed = some 2 ∧ ∃ a, p'.status.acc = some a ∧ a < 0 := by
  have hval : Valid along := ⟨rfl, rfl, rfl, by simp [along]⟩
  have hd : distance ⟨20, 0, 0⟩ ⟨0, 0, 0⟩ = 20 := by
    simp only [distance]; norm_num
    rw [show (400 : ℝ) = 20 ^ 2 by norm_num, Real.sqrt_sq (by norm_num)]
  have hi := interpolate_between plain along { atStart.status with time := 19 } (19 + 1) 5 10 20 [⟨none, ⟨-100, 0, 0⟩, ⟨0, 0, 0, 1⟩⟩] []
      ⟨some 10, ⟨0, 0, 0⟩, ⟨0, 0, 0, 1⟩⟩ ⟨some 20, ⟨20, 0, 0⟩, ⟨0, 0, 0, 1⟩⟩ rfl rfl rfl rfl (by
        intro v hv x hx
        simp only [List.mem_cons, List.not_mem_nil, or_false] at hv
        rw [hv] at hx
        cases hx) (by simp) (by norm_num) (by norm_num)
  refine ⟨atStart, ⟨onRoad plain (between plain { atStart.status with time := 19 } ((19 + 1 - 5 - 10) / (20 - 10)) ⟨some 10, ⟨0, 0, 0⟩, ⟨0, 0, 0, 1⟩⟩ ⟨some 20, ⟨20, 0, 0⟩, ⟨0, 0, 0, 1⟩⟩), true, some along⟩, rfl, ?_, ?_, ?_⟩
  · simp only [update, atStart, if_true]
    rw [if_pos (valid_check hval)]
    simp only [atStart] at hi
    simp only [hi, Option.map_some, Option.some.injEq, State.mk.injEq, true_and, and_true]
    simp only [along, List.getLast?_cons_cons, List.getLast?_singleton, Option.bind_some, plus, Option.map_some, atMost_some]
    norm_num
  · simp only [onRoad, plain, between, over, minus, Option.bind_some, Option.map_some, hd]
    norm_num
  · refine ⟨-(1 / 5), ?_, by norm_num⟩
    simp only [onRoad, plain, between, over, minus, Option.bind_some, Option.map_some, hd, atStart]
    norm_num

/-- C114 is violated at the start: an entity that follows a trajectory as the interpreter makes it, with its own pose in front, waits for the time of the first vertex and then
jumps there, however far away it is. -/
theorem C114_jump_violated (d : ℝ) : ∃ (p p₁ p₂ : State), update plain 0 1 p = some p₁ ∧ update plain 1 1 p₁ = some p₂ ∧ p₁.status.pos.x + d ≤ p₂.status.pos.x := by
  set t : Traj := ⟨some 0, true, false, 0, [⟨none, ⟨0, 0, 0⟩, ⟨0, 0, 0, 1⟩⟩, ⟨some (3 / 2), ⟨|d|, 0, 0⟩, ⟨0, 0, 0, 1⟩⟩, ⟨some 2, ⟨|d|, 0, 0⟩, ⟨0, 0, 0, 1⟩⟩]⟩ with ht
  have hval : Valid t := ⟨rfl, rfl, rfl, by simp [ht]⟩
  set p : State := ⟨⟨0, ⟨0, 0, 0⟩, ⟨0, 0, 0, 1⟩, some 0, some 0, some 0, some 0⟩, true, some t⟩ with hp
  obtain ⟨p₁, h1, h2, h3, h4, -⟩ := C114_before plain 0 1 p t 0 rfl rfl hval rfl (by
    intro v hv x hx
    simp only [ht, List.mem_cons, List.not_mem_nil, or_false] at hv
    rcases hv with rfl | rfl | rfl <;> cases hx <;> norm_num)
  obtain ⟨p₂, r, h5, -, -, -, h6, -⟩ := C114_place plain 1 1 p₁ t 0 (3 / 2) 2 [⟨none, ⟨0, 0, 0⟩, ⟨0, 0, 0, 1⟩⟩] []
      ⟨some (3 / 2), ⟨|d|, 0, 0⟩, ⟨0, 0, 0, 1⟩⟩ ⟨some 2, ⟨|d|, 0, 0⟩, ⟨0, 0, 0, 1⟩⟩ h2 h3 hval rfl rfl rfl rfl (by
        intro v hv x hx
        simp only [List.mem_cons, List.not_mem_nil, or_false] at hv
        rw [hv] at hx
        cases hx) (by simp) (by norm_num) (by norm_num)
  refine ⟨p, p₁, p₂, h1, h5, ?_⟩
  rw [h4, h6]
  simp only [hp]
  linarith [le_abs_self d]

/-- C114 is violated by a trajectory of one vertex, as the interpreter makes it: at its end the entity has a speed that is not a number. -/
theorem C114_single_violated : ∃ p p' : State, update plain 0 1 p = some p' ∧ p.status.speed = some 0 ∧ p'.status.speed = none := by
  refine ⟨⟨⟨0, ⟨0, 0, 0⟩, ⟨0, 0, 0, 1⟩, some 0, some 0, some 0, some 0⟩, true, some ⟨some 0, true, false, 0, [⟨none, ⟨0, 0, 0⟩, ⟨0, 0, 0, 1⟩⟩, ⟨some 1, ⟨1, 0, 0⟩, ⟨0, 0, 0, 1⟩⟩]⟩⟩, ?_⟩
  have hval : check ⟨some 0, true, false, 0, [⟨none, ⟨0, 0, 0⟩, ⟨0, 0, 0, 1⟩⟩, ⟨some 1, ⟨1, 0, 0⟩, ⟨0, 0, 0, 1⟩⟩]⟩ := valid_check ⟨rfl, rfl, rfl, by simp⟩
  simp only [update, if_true]
  rw [if_pos hval]
  simp only [interpolate, List.head?_cons, List.getLast?_cons_cons, List.getLast?_singleton, List.dropLast_cons_cons, List.dropLast_singleton]
  rw [if_neg (show ¬ atMost _ (plus (some 0) none) from atMost_none_right _), if_pos (by simp only [plus, Option.bind_some, Option.map_some, atMost_some]; norm_num)]
  exact ⟨_, rfl, trivial, rfl⟩

end Verif.Follow.Idle
