import Verif.Distance.Spec
import Mathlib.Tactic.Linarith
import Mathlib.Tactic.Abel
import Mathlib.Algebra.Field.Rat
import Mathlib.Algebra.Order.Ring.Rat
/-
C128: distances along and across lanes.
-/
namespace Verif.Distance

variable {K : Type} [Field K] [LinearOrder K]

section road
variable {G : Type} [AddCommGroup G] {φ : K →+ G} {m : Map K} {pos : Nat → G}

theorem step_at (h : Laid φ m pos) {a b : Nat} {x : K} (hs : step m a b = some x) : pos b = pos a + φ x := by
  simp only [step] at hs
  split at hs
  · rename_i hn
    cases hs; exact h.next hn
  · generalize (if m.length b < m.length a then m.length b else m.length a) * (1 / 2) = mid at hs
    split at hs
    · rename_i s he
      cases hs
      have := h.along he
      simpa using this.symm
    · split at hs
      · rename_i s he
        cases hs
        have := h.along he
        simp only [map_zero, add_zero, map_neg] at *
        rw [← this]; abel
      · split at hs
        · rename_i s he
          cases hs
          have := h.along he
          rw [map_sub, add_sub, this]; abel
        · split at hs
          · rename_i s he
            cases hs
            have := h.along he
            rw [map_neg, map_sub]
            have e : pos a = pos b + φ s - φ mid := by rw [this]; abel
            rw [e]; abel
          · cases hs

theorem steps_at (h : Laid φ m pos) : ∀ (l : List Nat) (a z : Nat) (d e : K), steps m (a :: l) d = some e → (a :: l).getLast? = some z →
    pos z = pos a + φ (e - d) := by
  intro l
  induction l with
  | nil =>
    intro a z d e hs hz
    simp only [steps, Option.some.injEq] at hs
    simp only [List.getLast?_singleton, Option.some.injEq] at hz
    subst hs; subst hz; simp
  | cons b l ih =>
    intro a z d e hs hz
    simp only [steps] at hs
    split at hs
    · rename_i x hx
      have := ih b z _ e hs (by rw [List.getLast?_cons_cons] at hz; exact hz)
      rw [this, step_at h hx]
      simp only [map_sub, map_add]; abel
    · cases hs

theorem ahead_at (h : Laid φ m pos) {c : Bool} {p q : Pose K} {d : K} (ha : ahead m c p q = some d) : φ d = at' φ pos q - at' φ pos p := by
  simp only [ahead] at ha
  split at ha
  · rename_i hr
    split at ha
    · rename_i x hx
      split at ha
      · cases ha
        have : pos q.id = pos p.id + φ x := by
          cases hl : m.route c p.id q.id with
          | nil =>
            rw [hl] at hr hx
            simp only [steps, Option.some.injEq] at hx
            simp only [ne_eq, not_true_eq_false, false_or] at hr
            rw [hr, ← hx]; simp
          | cons y l =>
            have hy := h.first hl
            obtain ⟨z, hz⟩ : ∃ z, (m.route c p.id q.id).getLast? = some z := by
              rw [hl]; exact ⟨_, List.getLast?_eq_some_getLast (by simp)⟩
            have hq := h.last hz
            rw [hl] at hx hz
            subst hy; subst hq
            simpa using steps_at h l _ _ 0 x hx hz
        simp only [at', this, map_add, map_sub]; abel
      · cases ha
    · cases ha
  · cases ha

omit [Field K] [LinearOrder K] in
theorem foldl_mem {α : Type} (f : α → α → α) (hf : ∀ a b, f a b = a ∨ f a b = b) (l : List α) (a : α) : l.foldl f a = a ∨ l.foldl f a ∈ l := by
  induction l generalizing a with
  | nil => simp
  | cons x l ih =>
    simp only [List.foldl_cons, List.mem_cons]
    rcases ih (f a x) with h | h
    · rcases hf a x with h' | h' <;> rw [h, h'] <;> simp
    · exact .inr (.inr h)

omit [Field K] [LinearOrder K] in
theorem seen_mem (m : Map K) (c : Bool) (p : Pose K) (t : Place K) : t.seen m c p = t.pose ∨ t.seen m c p ∈ t.poses := by
  simp only [Place.seen]
  split
  · simp only [Place.shortest]
    split
    · simp
    · rename_i q l hl
      simp only [Option.getD_some]
      right
      rcases foldl_mem (fun best x => if (m.route c p.id x.id).length < (m.route c p.id best.id).length then x else best)
        (by intro a b; split <;> simp) t.poses q with h | h
      · rw [h, hl]; simp
      · exact h
  · simp

/-- The longitudinal distance is the way from the one place to the other along the road, forwards if it is positive. On a ring it is one of the ways. -/
theorem C128_longitudinal (h : Laid φ m pos) {c : Bool} {p q : Place K} (hq : OnePoint φ pos q) {d : K}
    (hd : longitudinal m c p q = some d) : φ d = at' φ pos q.pose - at' φ pos p.pose := by
  simp only [longitudinal] at hd
  have hs : at' φ pos (q.seen m c p.pose) = at' φ pos q.pose := by
    rcases seen_mem m c p.pose q with e | e
    · rw [e]
    · exact hq _ e
  generalize q.seen m c p.pose = t at *
  rw [← hs]
  cases hf : ahead m c p.pose t <;> cases hb : ahead m c t p.pose <;> rw [hf, hb] at hd <;> simp only [nearer, Option.some.injEq, reduceCtorEq] at hd
  · rw [← hd, map_neg, ahead_at h hb]; abel
  · rw [← hd, ahead_at h hf]
  · split at hd <;> rw [← hd]
    · rw [map_neg, ahead_at h hb]; abel
    · rw [ahead_at h hf]

theorem steps_way (m : Map K) {a z : Nat} {l : List Nat} (h : Way m a z l) : ∀ d, ∃ e, steps m l d = some e := by
  induction h with
  | stay a => intro d; exact ⟨d, by simp [steps]⟩
  | @go a b c l hb hw ih =>
    intro d
    obtain ⟨e, he⟩ := ih (d + m.length a)
    refine ⟨e, ?_⟩
    cases hw <;> simp only [steps, step, hb, if_true] <;> exact he

omit [Field K] [LinearOrder K] in
theorem way_ne {m : Map K} {a z : Nat} {l : List Nat} (h : Way m a z l) : l ≠ [] := by cases h <;> simp

end road

section line
variable [IsStrictOrderedRing K] {m : Map K} {pos : Nat → K}

omit [IsStrictOrderedRing K] in
/-- On a line the distance from `p` to `q` and that from `q` to `p` are opposite, and distances add up. -/
theorem C128_antisymmetric (h : Laid (.id K) m pos) {c c' : Bool} {p q : Place K} (hp : OnePoint (.id K) pos p) (hq : OnePoint (.id K) pos q) {d e : K}
    (hd : longitudinal m c p q = some d) (he : longitudinal m c' q p = some e) : e = -d := by
  have h1 := C128_longitudinal h hq hd
  have h2 := C128_longitudinal h hp he
  simp only [AddMonoidHom.id_apply] at h1 h2
  rw [h1, h2]; abel

omit [IsStrictOrderedRing K] in
theorem C128_additive (h : Laid (.id K) m pos) {c c' c'' : Bool} {p q r : Place K} (hr : OnePoint (.id K) pos r) (hq : OnePoint (.id K) pos q) {d e f : K}
    (hd : longitudinal m c p q = some d) (he : longitudinal m c' q r = some e) (hf : longitudinal m c'' p r = some f) : f = d + e := by
  have h1 := C128_longitudinal h hq hd
  have h2 := C128_longitudinal h hr he
  have h3 := C128_longitudinal h hr hf
  simp only [AddMonoidHom.id_apply] at h1 h2 h3
  rw [h1, h2, h3]; abel

theorem ahead_way (h : Laid (.id K) m pos) {c : Bool} {p q : Pose K} (hw : Way m p.id q.id (m.route c p.id q.id)) (hle : pos p.id + p.s ≤ pos q.id + q.s) :
    ahead m c p q = some (pos q.id + q.s - (pos p.id + p.s)) := by
  obtain ⟨e, he⟩ := steps_way m hw 0
  have hne : m.route c p.id q.id ≠ [] := way_ne hw
  have hpos : pos q.id = pos p.id + e := by
    cases hl : m.route c p.id q.id with
    | nil => exact absurd hl hne
    | cons y l =>
      have hy := h.first hl
      obtain ⟨z, hz⟩ : ∃ z, (m.route c p.id q.id).getLast? = some z := by
        rw [hl]; exact ⟨_, List.getLast?_eq_some_getLast (by simp)⟩
      have hq := h.last hz
      rw [hl] at he hz
      subst hy; subst hq
      simpa using steps_at h l _ _ 0 e he hz
  have hnn : 0 ≤ e - p.s + q.s := by linarith
  simp only [ahead, ne_eq, hne, not_false_eq_true, true_or, if_true, he, hnn]
  congr 1
  linarith

/-- If the map finds a way from the lanelet of `p` to that of `q` on which each lanelet follows the one before, and `q` is not behind `p`, then the distance is
found, and it is that along the road. Likewise backwards. Both places have one name. -/
theorem C128_found_partial (h : Laid (.id K) m pos) {c : Bool} {p q : Place K} (hp : p.poses.length ≤ 1) (hq : q.poses.length ≤ 1) :
    (Way m p.pose.id q.pose.id (m.route c p.pose.id q.pose.id) → pos p.pose.id + p.pose.s ≤ pos q.pose.id + q.pose.s →
      longitudinal m c p q = some (pos q.pose.id + q.pose.s - (pos p.pose.id + p.pose.s)) ∧
      longitudinal m c q p = some (pos p.pose.id + p.pose.s - (pos q.pose.id + q.pose.s))) := by
  intro hw hle
  have hf := ahead_way h hw hle
  have s1 : q.seen m c p.pose = q.pose := by simp only [Place.seen]; rw [if_neg (by omega)]
  have s2 : p.seen m c q.pose = p.pose := by simp only [Place.seen]; rw [if_neg (by omega)]
  simp only [longitudinal, s1, s2, hf]
  have key : ∀ b, ahead m c q.pose p.pose = some b → b = pos p.pose.id + p.pose.s - (pos q.pose.id + q.pose.s) ∧ 0 ≤ b := by
    intro b hb
    refine ⟨by simpa [at'] using ahead_at h hb, ?_⟩
    simp only [ahead] at hb
    split at hb
    · split at hb
      · split at hb
        · cases hb; assumption
        · cases hb
      · cases hb
    · cases hb
  cases hb : ahead m c q.pose p.pose with
  | none => simp [nearer]
  | some b =>
    obtain ⟨h1, h2⟩ := key b hb
    have h3 : pos q.pose.id + q.pose.s - (pos p.pose.id + p.pose.s) = 0 := by linarith
    have h4 : b = 0 := by linarith
    have h5 : pos p.pose.id + p.pose.s - (pos q.pose.id + q.pose.s) = 0 := by linarith
    simp [nearer, h3, h4, h5]

end line

/-- In one lanelet the distance is the difference of the positions in it. The map must not answer with a detour. -/
theorem C128_same_lanelet [IsStrictOrderedRing K] (m : Map K) (c : Bool) (p q : Place K) (h : q.pose.id = p.pose.id) (hq : q.poses.length ≤ 1)
    (hr : (m.route c p.pose.id p.pose.id).length ≤ 1) : longitudinal m c p q = some (q.pose.s - p.pose.s) := by
  have s1 : q.seen m c p.pose = q.pose := by simp only [Place.seen]; rw [if_neg (by omega)]
  have hs : steps m (m.route c p.pose.id p.pose.id) 0 = some 0 := by
    cases hl : m.route c p.pose.id p.pose.id with
    | nil => simp [steps]
    | cons a l => cases l with
      | nil => simp [steps]
      | cons b l => rw [hl] at hr; simp at hr
  simp only [longitudinal, s1, ahead, h, or_true, if_true, hs]
  rcases lt_trichotomy q.pose.s p.pose.s with hlt | heq | hgt
  · rw [if_neg (by linarith), if_pos (by linarith)]
    simp only [nearer, Option.some.injEq]; linarith
  · rw [if_pos (by linarith), if_pos (by linarith)]
    simp only [nearer, heq, lt_self_iff_false, if_false, Option.some.injEq]; linarith
  · rw [if_pos (by linarith), if_neg (by linarith)]
    simp only [nearer, Option.some.injEq]; linarith

/-- If there is a way forwards of length `f` and one backwards of length `b`, as on a ring, the distance is the nearer one; it is backwards only if that is
strictly nearer. -/
theorem C128_nearest [IsStrictOrderedRing K] (m : Map K) (c : Bool) (p q : Place K) (hq : q.poses.length ≤ 1) {f b : K}
    (hf : ahead m c p.pose q.pose = some f) (hb : ahead m c q.pose p.pose = some b) :
    ∃ d, longitudinal m c p q = some d ∧ (d = f ∧ f ≤ b ∨ d = -b ∧ b < f) ∧ |d| ≤ f ∧ |d| ≤ b := by
  have s1 : q.seen m c p.pose = q.pose := by simp only [Place.seen]; rw [if_neg (by omega)]
  have nn : ∀ {x y : Pose K} {z : K}, ahead m c x y = some z → 0 ≤ z := by
    intro x y z hz
    simp only [ahead] at hz
    split at hz
    · split at hz
      · split at hz
        · cases hz; assumption
        · cases hz
      · cases hz
    · cases hz
  have nf := nn hf
  have nb := nn hb
  simp only [longitudinal, s1, hf, hb, nearer]
  by_cases hlt : b < f
  · refine ⟨-b, by simp [hlt], .inr ⟨rfl, hlt⟩, ?_, ?_⟩ <;> (rw [abs_neg, abs_of_nonneg nb]; try linarith)
  · refine ⟨f, by simp [hlt], .inl ⟨rfl, not_lt.mp hlt⟩, ?_, ?_⟩ <;> (rw [abs_of_nonneg nf]; try linarith)

section side
variable {m : Map K} {off : Nat → K}

omit [LinearOrder K] in
theorem shifts_at (h : Beside m off) : ∀ (l : List Nat) (a z : Nat) (d e : K), shifts m (a :: l) d = some e → (a :: l).getLast? = some z →
    off z = off a + (e - d) := by
  intro l
  induction l with
  | nil =>
    intro a z d e hs hz
    simp only [shifts, Option.some.injEq] at hs
    simp only [List.getLast?_singleton, Option.some.injEq] at hz
    subst hs; subst hz; simp
  | cons b l ih =>
    intro a z d e hs hz
    rw [List.getLast?_cons_cons] at hz
    simp only [shifts] at hs
    split at hs
    · rename_i hn
      rw [ih b z _ e hs hz, h.next hn]
    · split at hs
      · rename_i x hx
        rw [ih b z _ e hs hz, h.across hx]; abel
      · split at hs
        · rename_i x hx
          rw [ih b z _ e hs hz, h.across hx]; abel
        · cases hs

omit [LinearOrder K] in
theorem way_off (h : Beside m off) {a z : Nat} {l : List Nat} (hw : Way m a z l) : off z = off a := by
  induction hw with
  | stay => rfl
  | go hb _ ih => rw [ih, h.next hb]

/-- The lateral distance is the distance across the road, to the left if positive; without lane changes when the route goes from lanelet to following lanelet. -/
theorem C128_lateral (h : Beside m off) {c : Bool} {p q : Pose K} {d : K} (hc : c = true ∨ Way m p.id q.id (m.route c p.id q.id))
    (hd : lateral m c p q = some d) : d = (off q.id + q.offset) - (off p.id + p.offset) := by
  simp only [lateral] at hd
  split at hd
  · cases hd
  · rename_i hne
    split at hd
    · rename_i hcf
      cases hd
      rcases hc with rfl | hw
      · simp at hcf
      · rw [way_off h hw]; abel
    · cases hs : shifts m (m.route c p.id q.id) 0 with
      | none => rw [hs] at hd; cases hd
      | some x =>
        rw [hs] at hd
        simp only [Option.map_some, Option.some.injEq] at hd
        cases hl : m.route c p.id q.id with
        | nil => exact absurd hl hne
        | cons y l =>
          have hy := h.first hl
          obtain ⟨z, hz⟩ : ∃ z, (m.route c p.id q.id).getLast? = some z := by
            rw [hl]; exact ⟨_, List.getLast?_eq_some_getLast (by simp)⟩
          have hq := h.last hz
          rw [hl] at hs hz
          subst hy; subst hq
          have := shifts_at h l _ _ 0 x hs hz
          rw [← hd, this]; abel

omit [LinearOrder K] in
/-- There is a lateral distance without lane changes exactly if there is a route, and it is the difference of the offsets. -/
theorem C128_lateral_route (m : Map K) (p q : Pose K) :
    lateral m false p q = if m.route false p.id q.id = [] then none else some (q.offset - p.offset) := by
  simp [lateral]

/-- With a limit, there is none if an offset is farther from its lane than the limit, and otherwise it is the lateral distance. -/
theorem C128_lateral_within [IsStrictOrderedRing K] (m : Map K) (c : Bool) (limit : K) (p q : Pose K) :
    lateralWithin m c limit p q =
      if -limit ≤ p.offset ∧ p.offset ≤ limit ∧ -limit ≤ q.offset ∧ q.offset ≤ limit then lateral m c p q else none := by
  simp only [lateralWithin, abs_le, and_assoc]

end side

/- Three lanelets 1 → 2 → 3 of length 10, 20, 30 in a row, and 4 to the left of 1, which starts with it. -/
def roadLength : Nat → ℚ
  | 1 => 10 | 2 => 20 | 3 => 30 | _ => 10
def roadNext : Nat → List Nat
  | 1 => [2] | 2 => [3] | _ => []
def roadRoute (c : Bool) (a b : Nat) : List Nat :=
  if a = b then [a]
  else match a, b with
  | 1, 2 => [1, 2] | 1, 3 => [1, 2, 3] | 2, 3 => [2, 3]
  | 1, 4 => if c then [1, 4] else []
  | 4, 1 => if c then [4, 1] else []
  | 4, 2 => if c then [4, 1, 2] else []
  | _, _ => []
def road : Map ℚ :=
  { length := roadLength, next := roadNext, route := roadRoute
    along := fun a b s => if (a = 1 ∧ b = 4 ∨ a = 4 ∧ b = 1) ∧ 0 ≤ s ∧ s ≤ 10 then some s else none
    across := fun a b => if a = 1 ∧ b = 4 then some 3 else if a = 4 ∧ b = 1 then some (-3) else none }
def roadPos : Nat → ℚ
  | 2 => 10 | 3 => 30 | _ => 0
def roadOff : Nat → ℚ
  | 4 => 3 | _ => 0
def place (a : Nat) (s o : ℚ) : Place ℚ := ⟨⟨a, s, o⟩, [⟨a, s, o⟩]⟩

theorem road_first {c : Bool} {a b x : Nat} {l : List Nat} (h : roadRoute c a b = x :: l) : x = a := by
  simp only [roadRoute] at h
  split at h
  · simp_all
  · split at h <;> (try split at h) <;> simp_all

theorem road_last {c : Bool} {a b x : Nat} (h : (roadRoute c a b).getLast? = some x) : x = b := by
  simp only [roadRoute] at h
  split at h
  · simp_all
  · split at h <;> (try split at h) <;> simp_all

theorem road_laid : Laid (.id ℚ) road roadPos where
  next := by
    intro a b h
    simp only [road, roadNext] at h
    split at h <;> simp at h <;> subst h <;> simp [road, roadLength, roadPos] <;> norm_num
  along := by
    intro a b s t h
    simp only [road] at h
    split at h
    · rename_i hc
      cases h
      rcases hc.1 with ⟨rfl, rfl⟩ | ⟨rfl, rfl⟩ <;> rfl
    · cases h
  first := road_first
  last := road_last

theorem road_beside : Beside road roadOff where
  next := by
    intro a b h
    simp only [road, roadNext] at h
    split at h <;> simp at h <;> subst h <;> rfl
  across := by
    intro a b x h
    simp only [road] at h
    split at h
    · rename_i hc; cases h; obtain ⟨rfl, rfl⟩ := hc; simp [roadOff]
    · split at h
      · rename_i hc; cases h; obtain ⟨rfl, rfl⟩ := hc; simp [roadOff]
      · cases h
  first := road_first
  last := road_last

example : longitudinal road false (place 1 4 0) (place 3 5 1) = some 31 ∧ longitudinal road false (place 3 5 1) (place 1 4 0) = some (-31) ∧
    longitudinal road true (place 4 4 0) (place 2 5 0) = some 11 ∧ longitudinal road false (place 4 4 0) (place 2 5 0) = none := by decide +kernel
example : OnePoint (.id ℚ) roadPos (place 3 5 1) := by simp [OnePoint, place]
example : OnePoint (.id ℚ) roadPos (⟨⟨2, 0, 0⟩, [⟨2, 0, 0⟩, ⟨1, 10, 0⟩]⟩ : Place ℚ) := by simp [OnePoint, at', roadPos]
example : Way road 1 3 (road.route false 1 3) := .go (by decide) (.go (by decide) (.stay 3))
example : (place 3 5 1).poses.length ≤ 1 ∧ (road.route false 3 3).length ≤ 1 := by decide +kernel
example : lateral road true (place 1 4 (1/2)).pose (place 4 5 1).pose = some (7/2) ∧ lateral road false (place 1 4 (1/2)).pose (place 3 5 1).pose = some (1/2) ∧
    lateralWithin road false 3 (place 1 4 (1/2)).pose (place 3 5 4).pose = none := by decide +kernel

/-- There is a lateral distance from one lanelet to the next, but none back. -/
theorem C128_lateral_one_way_violated : ∃ (m : Map ℚ) (off : Nat → ℚ) (p q : Pose ℚ), Beside m off ∧ lateral m true p q = some 1 ∧ lateral m true q p = none :=
  ⟨road, roadOff, ⟨1, 4, 0⟩, ⟨3, 5, 1⟩, road_beside, by decide +kernel⟩

/- Two lanelets in a ring. -/
def ring : Map ℚ :=
  { length := fun _ => 10
    next := fun a => if a = 1 then [2] else if a = 2 then [1] else []
    route := fun _ a b => if a = b then [a] else if a = 1 ∧ b = 2 then [1, 2] else if a = 2 ∧ b = 1 then [2, 1] else []
    along := fun _ _ _ => none
    across := fun _ _ => none }

example : ahead ring false ⟨1, 5, 0⟩ ⟨2, 1, 0⟩ = some 6 ∧ ahead ring false ⟨2, 1, 0⟩ ⟨1, 5, 0⟩ = some 14 ∧ (place 2 1 0).poses.length ≤ 1 := by decide +kernel

/-- On a ring, two places opposite each other are both ahead of the other. -/
theorem C128_opposite_violated : ∃ (m : Map ℚ) (p q : Place ℚ), p.poses.length = 1 ∧ q.poses.length = 1 ∧
    longitudinal m false p q = some 10 ∧ longitudinal m false q p = some 10 :=
  ⟨ring, place 1 5 0, place 2 5 0, by decide +kernel⟩

/- Lanelets 1 and 2 both lead to 3, and 1 comes from 4: the place 5 m before lanelet 3 has two names. -/
def fork : Map ℚ :=
  { length := fun _ => 10
    next := fun a => if a = 1 ∨ a = 2 then [3] else if a = 4 then [1] else []
    route := fun _ a b =>
      if a = b then [a] else if (a = 1 ∨ a = 2) ∧ b = 3 then [a, 3] else if a = 4 ∧ b = 1 then [4, 1] else if a = 4 ∧ b = 3 then [4, 1, 3] else []
    along := fun _ _ _ => none
    across := fun _ _ => none }

theorem fork_laid : Laid (.id ℚ) fork (fun a => if a = 3 then 20 else if a = 4 then 0 else 10) where
  next := by
    intro a b h
    simp only [fork] at h
    split at h
    · rename_i hc; simp at h; subst h; rcases hc with rfl | rfl <;> (simp [fork]; norm_num)
    · split at h
      · rename_i hc; simp at h; subst h; subst hc; simp [fork]
      · simp at h
  along := by intro a b s t h; cases h
  first := by
    intro c a b x l h
    simp only [fork] at h
    (repeat' split at h) <;> simp_all
  last := by
    intro c a b x h
    simp only [fork] at h
    (repeat' split at h) <;> simp_all

/-- The distance to a place with two names may be found although the distance from it is not, and although no name of the place is missing: the nearest name is taken by
the number of lanelets in the route, and no route at all counts as the shortest. -/
theorem C128_two_names_violated : ∃ (m : Map ℚ) (pos : Nat → ℚ) (p q : Place ℚ), Laid (.id ℚ) m pos ∧ OnePoint (.id ℚ) pos p ∧ OnePoint (.id ℚ) pos q ∧
    p.poses.length = 1 ∧ q.poses.length = 2 ∧ longitudinal m false p q = none ∧ longitudinal m false q p = some (-15) ∧
    ∃ t ∈ q.poses, ahead m false p.pose t = some 15 :=
  ⟨fork, _, place 4 0 0, ⟨⟨1, 5, 0⟩, [⟨1, 5, 0⟩, ⟨2, 5, 0⟩]⟩, fork_laid, by simp [OnePoint, place], by simp [OnePoint, at'], rfl, rfl, by decide +kernel, by decide +kernel,
    ⟨1, 5, 0⟩, by simp, by decide +kernel⟩

end Verif.Distance
