import Verif.Operator.Model
import Verif.Operator.Spec
/-
C146: routes of the ego.
-/
namespace Verif.Operator

open Spec

variable {P L I M U T S K : Type}

/-- C146 (points): a route of poses is sent as it is given: the last pose is the goal, the ones before are the points on the way, in order. The old route is cleared before; Autoware is told
where it is before its first route, and only then; and for every other route it is told to drive. -/
theorem C146_points [DecidableEq I] (road : Road P L I) (e : Ego P L I M U T S K) (before : List P) (goal : P) (modification : Bool) :
    ∃ e', assignPoses road e (before ++ [goal]) false modification = .ok e' ∧ e'.initialized = true ∧
      e'.tasks = e.tasks ++ [.clearRoute] ++ (if e.initialized then [.planPoints goal before modification, .engage]
        else [.initialize e.pose, .planPoints goal before modification]) ∧
      e'.pose = e.pose ∧ e'.controlled = e.controlled ∧ e'.time = e.time := by
  cases h : e.initialized <;>
    simp [assignPoses, assignPoints, Ego.submit, Ego.initialize, Ego.delay, h]

example : ∃ e', assignPoses (⟨id, some, id, fun a b => [a, b]⟩ : Road Nat Nat Nat) (Ego.spawn 0 5 (some 5) () : Ego Nat Nat Nat Unit Unit Unit Unit Nat) ([1, 2] ++ [3]) false true = .ok e' ∧
    e'.tasks = [.changeToStop, .clearRoute, .initialize 5, .planPoints 3 [1, 2] true] :=
  (C146_points _ _ [1, 2] 3 true).imp fun _ h => ⟨h.1, h.2.2.1⟩

/-- C146 (points on lanes): the same for a route of positions on lanes. -/
theorem C146_lane_points [DecidableEq I] (road : Road P L I) (e : Ego P L I M U T S K) (before : List L) (goal : L) (modification : Bool) :
    assignLanes road e (before ++ [goal]) false modification = assignPoses road e (before.map road.pose ++ [road.pose goal]) false modification := by
  simp [assignLanes, assignPoses]

theorem unique_head [DecidableEq I] : ∀ (a : I) (l : List I), ∃ l', unique (a :: l) = a :: l'
  | a, [] => ⟨[], rfl⟩
  | a, b :: l => by
    rw [unique]
    split
    · next h => subst h; exact unique_head a l
    · exact ⟨_, rfl⟩

theorem unique_last [DecidableEq I] : ∀ (l : List I), (unique l).getLast? = l.getLast?
  | [] => rfl
  | [_] => rfl
  | a :: b :: l => by
    rw [unique]
    split
    · rw [unique_last (b :: l)]
      simp [List.getLast?_cons_cons]
    · obtain ⟨l', hl⟩ := unique_head b l
      have := unique_last (b :: l)
      rw [hl] at this ⊢
      simp only [List.getLast?_cons_cons] at this ⊢
      exact this

/-- A way on which one may also stay. -/
inductive Slow (next : I → I → Prop) : I → I → List I → Prop
  | here (a : I) : Slow next a a [a]
  | stay {a c : I} {l : List I} : Slow next a c l → Slow next a c (a :: l)
  | step {a b c : I} {l : List I} : next a b → Slow next b c l → Slow next a c (a :: l)

theorem Slow.head {next : I → I → Prop} {a c : I} {l : List I} (h : Slow next a c l) : ∃ l', l = a :: l' := by
  cases h <;> exact ⟨_, rfl⟩

theorem way_slow {next : I → I → Prop} {a c : I} {l : List I} (h : Way next a c l) : Slow next a c l := by
  induction h with
  | here a => exact .here a
  | step h _ ih => exact .step h ih

theorem slow_append {next : I → I → Prop} {a b c : I} {l m : List I} (h : Slow next a b l) (h' : Slow next b c m) : Slow next a c (l ++ m) := by
  induction h with
  | here a => exact .stay h'
  | stay _ ih => exact .stay (ih h')
  | step h _ ih => exact .step h (ih h')

theorem slow_last {next : I → I → Prop} {a c : I} {l : List I} (h : Slow next a c l) : l.getLast? = some c := by
  induction h with
  | here a => rfl
  | stay h ih =>
    obtain ⟨l', rfl⟩ := h.head
    rw [List.getLast?_cons_cons]; exact ih
  | step _ h ih =>
    obtain ⟨l', rfl⟩ := h.head
    rw [List.getLast?_cons_cons]; exact ih

/-- Staying is what is removed, if no lanelet leads to itself. -/
theorem slow_unique [DecidableEq I] {next : I → I → Prop} (hn : ∀ a, ¬ next a a) {a c : I} {l : List I} (h : Slow next a c l) : Way next a c (unique l) := by
  induction h with
  | here a => exact .here a
  | stay h ih =>
    obtain ⟨l', rfl⟩ := h.head
    rw [unique, if_pos rfl]; exact ih
  | @step a b c l hab h ih =>
    obtain ⟨l', rfl⟩ := h.head
    rw [unique, if_neg (fun (hab' : a = b) => hn a (by rw [← hab'] at hab; exact hab))]
    exact .step hab ih

theorem visits_mem {way : List I} {i : I} {is : List I} (h : Visits way (i :: is)) : i ∈ way := by
  obtain ⟨b, a, rfl, _⟩ := h
  simp

/-- Visits in a longer way. -/
theorem visits_left {is : List I} : ∀ (m way : List I), Visits way is → Visits (m ++ way) is := by
  cases is with
  | nil => intros; trivial
  | cons i is =>
    rintro m way ⟨b, a, rfl, h⟩
    exact ⟨m ++ b, a, by simp, h⟩

theorem visits_right : ∀ (is : List I) (m way : List I), Visits way is → Visits (way ++ m) is
  | [], _, _, _ => trivial
  | i :: is, m, way, ⟨b, a, hw, h⟩ => ⟨b, a ++ m, by simp [hw], by simpa using visits_right is m (i :: a) h⟩

/-- What was visited is still visited when a further lanelet is reached. -/
theorem visits_snoc : ∀ (is : List I) (way m : List I) (j : I), Visits way is → m.getLast? = some j → Visits (way ++ m) (is ++ [j])
  | [], way, m, j, _, hm => by
    obtain ⟨b, rfl⟩ := List.getLast?_eq_some_iff.1 hm
    exact ⟨way ++ b, [], by simp, trivial⟩
  | i :: is, way, m, j, ⟨b, a, hw, h⟩, hm => ⟨b, a ++ m, by simp [hw], by simpa using visits_snoc is (i :: a) m j h hm⟩

/-- Removing what is doubled changes no visits. -/
theorem visits_drop [DecidableEq I] (a : I) (way is : List I) (h : Visits (a :: a :: way) is) : Visits (a :: way) is := by
  cases is with
  | nil => trivial
  | cons i is =>
    obtain ⟨b, c, hw, h⟩ := h
    cases b with
    | nil =>
      simp only [List.nil_append, List.cons.injEq] at hw
      obtain ⟨rfl, rfl⟩ := hw
      exact ⟨[], way, rfl, visits_drop a way is h⟩
    | cons x b =>
      simp only [List.cons_append, List.cons.injEq] at hw
      exact ⟨b, c, hw.2, h⟩
termination_by is.length

theorem visits_cons [DecidableEq I] (a : I) : ∀ (is way way' : List I), way.head? = way'.head? → way ≠ [] → (∀ js, Visits way js → Visits way' js) → Visits (a :: way) is → Visits (a :: way') is
  | [], _, _, _, _, _, _ => trivial
  | i :: is, way, way', hh, hn, hv, ⟨b, c, hw, h⟩ => by
    cases b with
    | nil =>
      simp only [List.nil_append, List.cons.injEq] at hw
      obtain ⟨rfl, rfl⟩ := hw
      exact ⟨[], way', rfl, visits_cons a is way way' hh hn hv h⟩
    | cons x b =>
      simp only [List.cons_append, List.cons.injEq] at hw
      obtain ⟨b', c', hw', h'⟩ := hv (i :: is) ⟨b, c, hw.2, h⟩
      exact ⟨a :: b', c', by simp [hw'], h'⟩

theorem visits_unique [DecidableEq I] : ∀ (way is : List I), Visits way is → Visits (unique way) is
  | [], _, h => h
  | [_], _, h => h
  | a :: b :: l, is, h => by
    rw [unique]
    split
    · next hab => subst hab; exact visits_unique _ _ (visits_drop a l is h)
    · obtain ⟨l', hl⟩ := unique_head b l
      exact visits_cons a is (b :: l) (unique (b :: l)) (by rw [hl]; rfl) (by simp) (fun js hj => visits_unique _ js hj) h

/-- What the loop makes. -/
theorem segments_slow (road : Road P L I) {next : I → I → Prop} (hr : ∀ a b, road.route a b = [] ∨ Way next a b (road.route a b)) (a : I) :
    ∀ (ps : List L) (ids : List I) (is : List I) (b : I), Slow next a b ids → Visits ids is →
      (∀ (i j : I) (p : L) (pre post : List L), ps = pre ++ p :: post → (pre.getLast?.map road.lanelet).getD b = i → road.lanelet p = j → road.route i j ≠ []) →
      Slow next a ((ps.getLast?.map road.lanelet).getD b) (segments road ps ids) ∧ Visits (segments road ps ids) (is ++ ps.map road.lanelet)
  | [], ids, is, b, h, hv, _ => by simpa [segments] using ⟨h, hv⟩
  | p :: ps, ids, is, b, h, hv, hc => by
    have hw : Way next b (road.lanelet p) (road.route b (road.lanelet p)) :=
      (hr b (road.lanelet p)).resolve_left (hc b _ p [] ps rfl rfl rfl)
    rw [segments, slow_last h]
    have := segments_slow road hr a ps (ids ++ road.route b (road.lanelet p)) (is ++ [road.lanelet p]) (road.lanelet p) (slow_append h (way_slow hw))
      (visits_snoc is ids _ _ hv (slow_last (way_slow hw))) (fun i j q pre post hp hi hj => by
        refine hc i j q (p :: pre) post (by rw [hp]; rfl) ?_ hj
        cases pre with
        | nil => simpa using hi
        | cons x pre => rw [List.getLast?_cons_cons]; cases hx : (x :: pre).getLast? with
          | none => simp at hx
          | some y => rw [hx] at hi; simpa using hi)
    obtain ⟨h1, h2⟩ := this
    refine ⟨?_, by simpa using h2⟩
    cases ps with
    | nil => simpa using h1
    | cons x ps => rw [List.getLast?_cons_cons]; cases hx : (x :: ps).getLast? with
      | none => simp at hx
      | some y => rw [hx] at h1; simpa using h1

/-- C146 (lanelets, partial): a route of positions on lanes, by the identifiers of lanelets, each of which can be reached from the one before, and the first one from where the ego is. What is
sent is a way from the lanelet of the ego to that of the goal, from lanelet to lanelet, that visits the lanelets of all points in order.
Missing: points that cannot be reached, see `C146_unreachable_violated`; points off the lanes, see `C146_off_lane_violated`; and that no lanelet comes twice, see `C146_loop_violated`. -/
theorem C146_lanelets_partial [DecidableEq I] (road : Road P L I) (next : I → I → Prop) (hn : ∀ a, ¬ next a a) (hr : ∀ a b, road.route a b = [] ∨ Way next a b (road.route a b))
    (e : Ego P L I M U T S K) (here : L) (he : e.place = some here) (before : List L) (goal : L) (modification : Bool)
    (hc : ∀ (p q : L) (pre post : List L), here :: before ++ [goal] = pre ++ p :: q :: post → road.route (road.lanelet p) (road.lanelet q) ≠ []) :
    ∃ e' way, assignLanes road e (before ++ [goal]) true modification = .ok e' ∧
      e'.tasks = e.tasks ++ [.clearRoute] ++ (if e.initialized then [.planSegments (road.pose goal) way modification, .engage]
        else [.initialize e.pose, .planSegments (road.pose goal) way modification]) ∧
      Way next (road.lanelet here) (road.lanelet goal) way ∧ Visits way ((before ++ [goal]).map road.lanelet) := by
  obtain ⟨h1, h2⟩ := segments_slow road hr (road.lanelet here) (before ++ [goal]) [road.lanelet here] [] (road.lanelet here) (.here _) trivial
    (fun i j p pre post hp hi hj => by
      subst hj hi
      cases hl : pre.getLast? with
      | none =>
        have : pre = [] := List.getLast?_eq_none_iff.1 hl
        subst this
        simpa using hc here p [] post (by rw [List.cons_append, hp]; rfl)
      | some y =>
        obtain ⟨ys, rfl⟩ := List.getLast?_eq_some_iff.1 hl
        simpa using hc y p (here :: ys) post (by rw [List.cons_append, hp]; simp))
  refine ⟨_, unique (segments road (before ++ [goal]) [road.lanelet here]), by
    simp only [assignLanes, he, if_true, List.getLast?_append, List.getLast?_singleton, Option.some_or]; rfl, ?_, ?_, ?_⟩
  · cases hi : e.initialized <;> simp [Ego.submit, Ego.initialize, Ego.delay, hi]
  · simpa using slow_unique hn h1
  · exact visits_unique _ _ (by simpa using h2)

/-- A straight road of lanelets 0, 1, 2, …, with positions given by lanelet and distance. -/
def straight : Road (Nat × Nat) (Nat × Nat) Nat where
  pose p := p
  lane p := if p.2 < 100 then some p else none
  lanelet p := p.1
  route a b := if a ≤ b then (List.range (b + 1)).drop a else []

/-- An ego on the lanelet 2. -/
def ego2 : Ego (Nat × Nat) (Nat × Nat) Nat Unit Unit Unit Unit Nat := Ego.spawn 0 (2, 7) (some (2, 7)) ()

theorem range_way : ∀ (n a : Nat), Way (fun i j => j = i + 1) a (a + n) ((List.range (a + n + 1)).drop a)
  | 0, a => by
    rw [List.range_succ, List.drop_append_of_le_length (by simp)]
    simp only [Nat.add_zero, List.drop_eq_nil_of_le (show (List.range a).length ≤ a by simp), List.nil_append]
    exact .here a
  | n + 1, a => by
    have h := range_way n (a + 1)
    rw [show a + 1 + n = a + (n + 1) by omega] at h
    have : (List.range (a + (n + 1) + 1)).drop a = a :: (List.range (a + (n + 1) + 1)).drop (a + 1) := by
      rw [List.drop_eq_getElem_cons (by simp; omega)]
      simp
    rw [this]
    exact .step rfl h

example : ∃ e' way, assignLanes straight ego2 ([(4, 1)] ++ [(6, 3)]) true false = .ok e' ∧
    e'.tasks = [.changeToStop, .clearRoute, .initialize (2, 7), .planSegments (6, 3) way false] ∧ Way (fun i j => j = i + 1) 2 6 way ∧ Visits way [4, 6] := by
  have := C146_lanelets_partial straight (fun i j => j = i + 1) (fun a => by omega) (fun a b => by
    by_cases h : a ≤ b
    · refine Or.inr ?_
      have := range_way (b - a) a
      rw [show a + (b - a) = b by omega] at this
      simpa [straight, h] using this
    · exact Or.inl (by simp [straight, h])) ego2 (2, 7) rfl [(4, 1)] (6, 3) false (by
      intro p q pre post h
      match pre, h with
      | [], h =>
        simp only [List.cons_append, List.nil_append, List.cons.injEq] at h
        obtain ⟨rfl, rfl, _⟩ := h
        decide
      | [_], h =>
        simp only [List.cons_append, List.nil_append, List.cons.injEq] at h
        obtain ⟨_, rfl, rfl, _⟩ := h
        decide
      | _ :: _ :: pre, h => exact absurd (congrArg List.length h) (by simp; omega))
  exact this

/-- C146 does not hold if a point cannot be reached: it is silently left out, and the lanelets that are sent do not lead to the goal that is sent. -/
theorem C146_unreachable_violated : ∃ e', assignLanes straight ego2 [(1, 3)] true false = .ok e' ∧
    e'.tasks = [.changeToStop, .clearRoute, .initialize (2, 7), .planSegments (1, 3) [2] false] := ⟨_, rfl, by decide⟩

/-- C146 does not hold if a pose is off the lanes and lanelets are used: it is silently left out, and if it was the goal, the point before becomes the goal. -/
theorem C146_off_lane_violated : ∃ e', assignPoses straight ego2 [(3, 1), (5, 200)] true false = .ok e' ∧
    e'.tasks = [.changeToStop, .clearRoute, .initialize (2, 7), .planSegments (3, 1) [2, 3] false] := ⟨_, rfl, by decide⟩

/-- If the only pose is off the lanes, it is even undefined what happens. -/
theorem C146_off_lane_undefined_violated : acquirePose straight ego2 (5, 200) true false = .error .undefined := rfl

/-- C146: to be sent to one place is to be sent along the route that consists of it, with the same options. -/
theorem C146_one [DecidableEq I] (road : Road P L I) (e : Ego P L I M U T S K) (goal : L) (pose : P) (useIds modification : Bool) :
    acquireLane road e goal useIds modification = assignLanes road e [goal] useIds modification ∧
    acquirePose road e pose useIds modification = assignPoses road e [pose] useIds modification := ⟨rfl, rfl⟩

/-- C146: without lanelets the place is planned as a point. -/
theorem C146_one_point [DecidableEq I] (road : Road P L I) (e : Ego P L I M U T S K) (goal : L) (pose : P) (modification : Bool) :
    (∃ e', acquireLane road e goal false modification = .ok e' ∧ .planPoints (road.pose goal) [] modification ∈ e'.tasks) ∧
    (∃ e', acquirePose road e pose false modification = .ok e' ∧ .planPoints pose [] modification ∈ e'.tasks) := by
  obtain ⟨e', h, -, h', -⟩ := C146_points road e [] pose modification
  obtain ⟨e'', g, -, g', -⟩ := C146_points road e [] (road.pose goal) modification
  refine ⟨⟨e'', ?_, ?_⟩, ⟨e', h, ?_⟩⟩
  · exact (C146_lane_points road e [] goal modification).trans g
  · rw [g']; split <;> simp
  · rw [h']; split <;> simp

/-- A round course of three lanelets. -/
def ring : Road Nat Nat Nat where
  pose p := p
  lane p := some p
  lanelet p := p
  route a b := match a, b with
    | 0, 1 => [0, 1]
    | 1, 2 => [1, 2]
    | 2, 0 => [2, 0]
    | _, _ => []

/-- C146 does not hold on round courses: the lanelet 0 comes twice, which Autoware does not accept according to the comment in the code. -/
theorem C146_loop_violated : ∃ e', assignLanes ring (Ego.spawn 0 0 (some 0) () : Ego Nat Nat Nat Unit Unit Unit Unit Nat) [1, 2, 0] true false = .ok e' ∧
    e'.tasks = [.changeToStop, .clearRoute, .initialize 0, .planSegments 0 [0, 1, 2, 0] false] := ⟨_, rfl, by decide⟩

/-- C146: whoever is told a route twice is initialized once: over any history of routes there is exactly one `initialize`, with the pose at the first one. -/
theorem C146_initialized_once [DecidableEq I] [DecidableEq P] [DecidableEq M] [DecidableEq U] [DecidableEq K] (road : Road P L I) (time : K) (pose : P) (place : Option L) (rest : S) :
    ∀ (routes : List (List P × Bool)), routes ≠ [] → (∀ r ∈ routes, r.1 ≠ []) →
      ∃ e' : Ego P L I M U T S K, routes.foldlM (fun e r => assignPoses road e r.1 false r.2) (Ego.spawn time pose place rest) = .ok e' ∧
        e'.tasks.count (.initialize pose) = 1 ∧ e'.tasks.count .clearRoute = routes.length ∧ e'.tasks.count .engage + 1 = routes.length ∧ e'.tasks.count .changeToStop = 1 := by
  have step : ∀ (e : Ego P L I M U T S K) (r : List P × Bool), r.1 ≠ [] → ∃ before goal, r.1 = before ++ [goal] := fun e r h =>
    ⟨_, _, (List.dropLast_concat_getLast h).symm⟩
  have later : ∀ (routes : List (List P × Bool)) (e : Ego P L I M U T S K), (∀ r ∈ routes, r.1 ≠ []) → e.initialized = true →
      ∃ e' : Ego P L I M U T S K, routes.foldlM (fun e r => assignPoses road e r.1 false r.2) e = .ok e' ∧
        e'.tasks.count (.initialize pose) = e.tasks.count (.initialize pose) ∧ e'.tasks.count .clearRoute = e.tasks.count .clearRoute + routes.length ∧
        e'.tasks.count .engage = e.tasks.count .engage + routes.length ∧ e'.tasks.count .changeToStop = e.tasks.count .changeToStop := by
    intro routes
    induction routes with
    | nil => exact fun e _ _ => ⟨e, rfl, rfl, rfl, rfl, rfl⟩
    | cons r routes ih =>
      intro e hr he
      obtain ⟨b, g, hbg⟩ := step e r (hr r (by simp))
      obtain ⟨e1, h1, h2, h3, _⟩ := C146_points road e b g r.2
      obtain ⟨e2, a1, a2, a3, a4, a5⟩ := ih e1 (fun r h => hr r (by simp [h])) h2
      refine ⟨e2, ?_, ?_, ?_, ?_, ?_⟩
      · rw [List.foldlM_cons, hbg, h1]; exact a1
      · rw [a2, h3]; simp [he]
      · rw [a3, h3]; simp [he]; omega
      · rw [a4, h3]; simp [he]; omega
      · rw [a5, h3]; simp [he]
  intro routes hne hr
  cases routes with
  | nil => exact absurd rfl hne
  | cons r routes =>
    obtain ⟨b, g, hbg⟩ := step (Ego.spawn time pose place rest) r (hr r (by simp))
    obtain ⟨e1, h1, h2, h3, _⟩ := C146_points (M := M) (U := U) (T := T) road (Ego.spawn time pose place rest) b g r.2
    obtain ⟨e2, a1, a2, a3, a4, a5⟩ := later routes e1 (fun r h => hr r (by simp [h])) h2
    refine ⟨e2, ?_, ?_, ?_, ?_, ?_⟩
    · rw [List.foldlM_cons, hbg, h1]; exact a1
    · rw [a2, h3]; simp [Ego.spawn]
    · rw [a3, h3]; simp [Ego.spawn]; omega
    · rw [a4, h3]; simp [Ego.spawn]
    · rw [a5, h3]; simp [Ego.spawn]

example : ∃ e' : Ego Nat Nat Nat Unit Unit Unit Unit Nat, [([1, 2], true), ([3], false)].foldlM (fun e r => assignPoses ring e r.1 false r.2) (Ego.spawn 0 5 (some 5) ()) = .ok e' ∧
    e'.tasks.count (.initialize 5) = 1 := (C146_initialized_once ring 0 5 (some 5) () [([1, 2], true), ([3], false)] (by simp) (by simp)).imp fun _ h => ⟨h.1, h.2.1⟩

/-- C146 (a new route while driving, partial): with one goal the old route is cleared, and Autoware is told the goal, to take over control and to drive.
Missing: routes of more than one pose, see `C146_replan_violated`. -/
theorem C146_replan_partial (e : Ego P L I M U T S K) (goal : P) (modification : Bool) :
    ∃ e', replan e [goal] modification = .ok e' ∧ e'.tasks = e.tasks ++ [.clearRoute, .planPoints goal [] modification, .enableControl, .engage] ∧ e'.controlled = e.controlled :=
  ⟨_, rfl, by simp [Ego.delay], rfl⟩

/-- C146 does not hold of new routes with points on the way: they are written behind the end of an empty vector. -/
theorem C146_replan_violated (e : Ego P L I M U T S K) (p q : P) (route : List P) (modification : Bool) : replan e (p :: q :: route) modification = .error .undefined := rfl

end Verif.Operator
