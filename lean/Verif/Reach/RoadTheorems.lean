import Verif.Reach.Spec
import Verif.Lanelet.Theorems
/-
C245: the end of the road; C246: where a lane change is measured.
-/
namespace Verif.Reach
open Verif.Lanelet

theorem atEnd_eq (r : Road) (hr : Positive r) (p : Lanelet.Pose) : ∃ b, atEnd r p = some b ∧ (b = true ↔ r.next p.id = [] ∧ r.length p.id ≤ p.s) := by
  obtain ⟨l, hl⟩ := (C62_terminates r hr p.id 100 true).1
  unfold atEnd
  rw [hl]
  refine ⟨_, rfl, ?_⟩
  obtain ⟨t, h1, h2, h3, _⟩ := C62_following r p.id 100 true l hl
  simp only [if_true, List.cons_append, List.nil_append] at h1
  have key : l.length = 1 ↔ r.next p.id = [] := by
    subst h1
    cases t with
    | nil =>
      simp only [List.length_singleton, true_iff]
      rcases h3 with h | h
      · exact absurd h (by simp [total])
      · simpa using h
    | cons i t =>
      constructor
      · simp
      · intro hn
        have := preferred_sub h2.1
        rw [hn] at this
        simp at this
  simp [key]

/-- C245. An entity is at the end of the road exactly if no lanelet follows its lanelet and it has covered its lanelet. -/
theorem C245_end (r : Road) (hr : Positive r) (p : Lanelet.Pose) : atEnd r p = some true ↔ r.next p.id = [] ∧ r.length p.id ≤ p.s := by
  obtain ⟨b, hb, h⟩ := atEnd_eq r hr p
  rw [hb, Option.some.injEq, h]

theorem frame_eq (r : Road) (hr : Positive r) {p : Lanelet.Pose} {route : List Id} {d : Rat} {m : Motion} {x : Lanelet.Pose × Motion} (h : frame r p route d m = some x) :
    alongRoute r route p d = some x.1 ∧ x.2 = if r.next x.1.id = [] ∧ r.length x.1.id ≤ x.1.s then ⟨0, 0, 0⟩ else m := by
  unfold frame at h
  cases ha : alongRoute r route p d with
  | none => rw [ha] at h; cases h
  | some q =>
    obtain ⟨b, hb, hi⟩ := atEnd_eq r hr q
    rw [ha] at h
    simp only [Option.bind_eq_bind, Option.bind_some, hb, Option.pure_def, Option.some.injEq] at h
    subst h
    refine ⟨rfl, ?_⟩
    simp only
    by_cases hc : r.next q.id = [] ∧ r.length q.id ≤ q.s
    · rw [if_pos hc, if_pos (hi.mpr hc)]
    · rw [if_neg hc, if_neg (fun e => hc (hi.mp e))]

/-- C245. After every frame an entity at the end of the road stands still, and any other moves as its behaviour wants. -/
theorem C245_stopped (r : Road) (hr : Positive r) (p : Lanelet.Pose) (l : List (List Id × Rat × Motion)) (xs : List (Lanelet.Pose × Motion))
    (h : frames r p l = some xs) : xs.length = l.length ∧ ∀ (n : Nat) x i, xs[n]? = some x → l[n]? = some i →
      (r.next x.1.id = [] ∧ r.length x.1.id ≤ x.1.s → x.2 = ⟨0, 0, 0⟩) ∧ (¬ (r.next x.1.id = [] ∧ r.length x.1.id ≤ x.1.s) → x.2 = i.2.2) := by
  induction l generalizing p xs with
  | nil =>
    simp only [frames, Option.some.injEq] at h
    subst h
    simp
  | cons a l ih =>
    obtain ⟨route, d, m⟩ := a
    simp only [frames, Option.bind_eq_bind, Option.pure_def] at h
    cases hf : frame r p route d m with
    | none => rw [hf] at h; cases h
    | some x =>
      rw [hf] at h
      simp only [Option.bind_some] at h
      cases hg : frames r x.1 l with
      | none => rw [hg] at h; cases h
      | some ys =>
        rw [hg] at h
        simp only [Option.bind_some, Option.some.injEq] at h
        subst h
        obtain ⟨h1, h2⟩ := ih x.1 ys hg
        refine ⟨by simp [h1], ?_⟩
        intro n y i hy hi
        cases n with
        | zero =>
          simp only [List.getElem?_cons_zero, Option.some.injEq] at hy hi
          subst hy; subst hi
          have := (frame_eq r hr hf).2
          exact ⟨fun hc => by rw [this, if_pos hc], fun hc => by rw [this, if_neg hc]⟩
        | succ n =>
          simp only [List.getElem?_cons_succ] at hy hi
          exact h2 n y i hy hi

theorem along_end (r : Road) (hr : Positive r) (route : List Id) (id : Id) (hn : r.next id = []) (d : Rat) (hd : 0 ≤ d) :
    alongRoute r route ⟨id, r.length id⟩ d = some ⟨id, r.length id⟩ := by
  have hp : 0 < r.length id := by
    obtain ⟨e, he, hl⟩ := hr
    exact he.trans_le (hl id)
  have h0 : ¬ r.length id + d < 0 := by linarith
  unfold alongRoute canonicalizeRoute
  simp only [if_neg h0]
  rw [forwardRoute.eq_def]
  rcases hd.lt_or_eq with h | h
  · rw [if_pos (by simpa using h)]
    simp only [hn, intoRoute]
    rw [if_neg (by linarith)]
  · subst h
    simp

/-- C245. An entity at the end of the road stays there and stands still, for ever, whatever its behaviour wants, as long as it is not to go backwards. -/
theorem C245_stays (r : Road) (hr : Positive r) (id : Id) (hn : r.next id = []) (l : List (List Id × Rat × Motion)) (hl : ∀ i ∈ l, 0 ≤ i.2.1) :
    frames r ⟨id, r.length id⟩ l = some (l.map fun _ => (⟨id, r.length id⟩, ⟨0, 0, 0⟩)) := by
  induction l with
  | nil => rfl
  | cons a l ih =>
    obtain ⟨route, d, m⟩ := a
    have ha := along_end r hr route id hn d (hl (route, d, m) (by simp))
    have he := (C245_end r hr ⟨id, r.length id⟩).mpr ⟨hn, le_refl _⟩
    have hf : frame r ⟨id, r.length id⟩ route d m = some (⟨id, r.length id⟩, ⟨0, 0, 0⟩) := by
      unfold frame
      rw [ha]
      simp [he]
    simp only [frames, hf, Option.bind_eq_bind, Option.bind_some, ih fun i hi => hl i (by simp [hi]), Option.pure_def, List.map_cons]

/-- C245. Every frame has a result, in which the entity is on a lanelet of the road, if no lanelet has two successors in a route. -/
theorem C245_on_road_partial (r : Road) (hr : Positive r) (p : Lanelet.Pose) (l : List (List Id × Rat × Motion)) (hu : ∀ i ∈ l, Unambiguous r i.1) :
    ∃ xs, frames r p l = some xs ∧ ∀ x ∈ xs, 0 ≤ x.1.s ∧ x.1.s ≤ r.length x.1.id := by
  induction l generalizing p with
  | nil => exact ⟨[], rfl, by simp⟩
  | cons a l ih =>
    obtain ⟨route, d, m⟩ := a
    obtain ⟨q, hq, ho, _⟩ := C61_route_partial r hr route (hu (route, d, m) (by simp)) p d
    obtain ⟨b, hb, _⟩ := atEnd_eq r hr q
    obtain ⟨xs, hx, hxs⟩ := ih q fun i hi => hu i (by simp [hi])
    refine ⟨(q, if b = true then ⟨0, 0, 0⟩ else m) :: xs, ?_, ?_⟩
    · simp [frames, frame, hq, hb, hx]
    · intro x hx'
      rcases List.mem_cons.mp hx' with e | e
      · subst e; exact ho
      · exact hxs x e

/-- C245. In a frame the entity gets to the place its behaviour wants to move it to, or to the end of the road or the start of it if that is before, if no
lanelet has two successors in the route. -/
theorem C245_moved_partial (r : Road) (hr : Positive r) (p : Lanelet.Pose) (route : List Id) (hu : Unambiguous r route) (d : Rat) (m : Motion) (x : Lanelet.Pose × Motion)
    (h : frame r p route d m = some x) : Same r ⟨p.id, p.s + d⟩ x.1 ∨
      ∃ s, Same r ⟨p.id, p.s + d⟩ ⟨x.1.id, s⟩ ∧ ((s < 0 ∧ x.1.s = 0 ∧ r.prev x.1.id = []) ∨
        (r.length x.1.id < s ∧ x.1.s = r.length x.1.id ∧ ∀ j ∈ r.next x.1.id, 0 ≤ p.s + d → j ∉ route)) := by
  obtain ⟨q, hq, _, hs⟩ := C61_route_partial r hr route hu p d
  have := (frame_eq r hr h).1
  rw [hq, Option.some.injEq] at this
  subst this
  exact hs

/-- Two lanelets of ten metres. -/
def two : Road := ⟨fun _ => 10, fun i => if i = 1 then [2] else [], fun i => if i = 2 then [1] else [], fun _ => true⟩

theorem two_positive : Positive two := ⟨10, by decide +kernel, fun _ => le_refl _⟩

example : atEnd two ⟨2, 10⟩ = some true := (C245_end two two_positive _).mpr ⟨rfl, le_refl _⟩
example : atEnd two ⟨1, 10⟩ ≠ some true := fun h => absurd ((C245_end two two_positive _).mp h).1 (by decide)
example : frames two ⟨2, 10⟩ [([1, 2], 3, ⟨5, 1, 0⟩), ([2], 0, ⟨6, 1, 1⟩)] = some [(⟨2, 10⟩, ⟨0, 0, 0⟩), (⟨2, 10⟩, ⟨0, 0, 0⟩)] :=
  C245_stays two two_positive 2 rfl _ (by decide +kernel)
example : ∃ xs, frames two ⟨1, 5⟩ [([1, 2], 3, ⟨5, 1, 0⟩), ([1, 2], 30, ⟨6, 1, 1⟩)] = some xs ∧ ∀ x ∈ xs, 0 ≤ x.1.s ∧ x.1.s ≤ two.length x.1.id :=
  C245_on_road_partial two two_positive _ _ (by
    have h : ∀ i, ((two.next i).filter (· ∈ [1, 2])).length ≤ 1 := by
      intro i
      simp only [two]
      split <;> decide
    intro i hi
    simp only [List.mem_cons, List.not_mem_nil, or_false] at hi
    rcases hi with rfl | rfl <;> exact h)

/-! ### C246 -/

theorem boundPath_reach {C : Type} (t : Lanes.Target Rat C) (type : Lanes.Constraint) (value offset : Rat) :
    reachOf t type value offset (if type = .longitudinalDistance then value else 20) := by
  intro across
  unfold Lanes.boundPath
  dsimp only
  cases across (if type = .longitudinalDistance then value else 20) with
  | none => rfl
  | some s =>
    dsimp only
    cases t.curve s offset <;> rfl

/-- C246, in part: with a lateral velocity or a distance, the place in the own lane the lane change is measured from is as far ahead as the curve goes.
Missing: lane changes in a given time. -/
theorem C246_measured_partial {C : Type} (r : Road) (p : Lanelet.Pose) (t : Lanes.Target Rat C) (type : Lanes.Constraint) (value offset : Rat)
    (h : type = .lateralVelocity ∨ type = .longitudinalDistance) : ∃ d, reachOf t type value offset d ∧ changeAlong r p type value = along r p d := by
  rcases h with rfl | rfl
  · exact ⟨20, boundPath_reach t .lateralVelocity value offset, rfl⟩
  · exact ⟨value, boundPath_reach t .longitudinalDistance value offset, rfl⟩

example : changeAlong two ⟨1, 0⟩ .longitudinalDistance 12 = along two ⟨1, 0⟩ 12 := rfl

/-- C246 does not hold for lane changes in a given time: the seconds are taken for metres. The curve ends on a road that goes on for it, but the place ahead is
sought beyond the end of the road, which is an error. -/
theorem C246_time_violated : ∃ (r : Road) (p : Lanelet.Pose) (seconds : Rat), (∃ q, along r p 20 = some (.pose q)) ∧
    (∀ (C : Type) (t : Lanes.Target Rat C) (offset : Rat), reachOf t .time seconds offset 20) ∧ changeAlong r p .time seconds = some .error := by
  refine ⟨⟨fun _ => 25, fun _ => [], fun _ => [], fun _ => true⟩, ⟨1, 0⟩, 30, ⟨⟨1, 20⟩, ?_⟩, fun C t offset => boundPath_reach t .time 30 offset, ?_⟩
  · unfold along
    rw [if_pos (by decide +kernel), alongForward.eq_def, if_neg (by decide +kernel)]
    have e : (0 : Rat) + 20 = 20 := by decide +kernel
    simp [e]
  · unfold changeAlong along
    simp only
    rw [if_pos (by decide +kernel), alongForward.eq_def, if_pos (by decide +kernel)]
    rfl

end Verif.Reach
