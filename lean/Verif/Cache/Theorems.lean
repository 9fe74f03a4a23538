import Verif.Cache.Model
import Verif.Cache.Spec
/-
C149: caches of the map.
-/
namespace Verif.Cache

open Spec

variable {A E B C I R P Q L : Type}

/-- The states that any number of threads can bring about with any calls, in any order of their steps. -/
inductive Reachable [DecidableEq A] (f : A → Except E B) (make : B → C) : State A E B C → Prop
  | new : Reachable f make .new
  | call {s} (k : A) (w : Wish) (i : Nat) : Reachable f make s → Reachable f make (call k w i s)
  | step {s} (i : Nat) : Reachable f make s → Reachable f make (step f make i s)

/-- What holds of a place. -/
def Good (f : A → Except E B) (make : B → C) (s : State A E B C) : Place A E B C → Prop
  | .idle => True
  | .check _ _ => True
  | .compute _ w => w ≠ .known
  | .append k b w => f k = .ok b ∧ w ≠ .known
  | .read k _ => ∃ b, s.data k = some b
  | .done k w r => Right f make k w r

/-- What holds of the tables. -/
structure Inv (f : A → Except E B) (make : B → C) (s : State A E B C) : Prop where
  data : ∀ k b, s.data k = some b → f k = .ok b
  made : ∀ k, s.made k = (s.data k).map make
  place : ∀ i, Good f make s (s.place i)

theorem good_goto {f : A → Except E B} {make : B → C} {s : State A E B C} (h : Inv f make s) (i : Nat) (p : Place A E B C) (hp : Good f make s p) : Inv f make (s.goto i p) :=
  ⟨h.data, h.made, fun j => by
    show Good f make (s.goto i p) (if j = i then p else s.place j)
    have e : ∀ q, Good f make (s.goto i p) q ↔ Good f make s q := fun q => by cases q <;> rfl
    rw [e]
    split
    · exact hp
    · exact h.place j⟩

theorem read_right {f : A → Except E B} {make : B → C} {s : State A E B C} (h : Inv f make s) (k : A) (w : Wish) (hk : ∃ b, s.data k = some b) : Right f make k w (read k w s) := by
  obtain ⟨b, hb⟩ := hk
  have hf := h.data k b hb
  have hm := h.made k
  rw [hb] at hm
  cases w <;> simp [Right, read, hb, hf, hm]

theorem inv_append [DecidableEq A] {f : A → Except E B} {make : B → C} {s : State A E B C} (h : Inv f make s) (k : A) (b : B) (hf : f k = .ok b) : Inv f make (append make k b s) := by
  refine ⟨fun a c hc => ?_, fun a => ?_, fun i => ?_⟩
  · simp only [append] at hc
    split at hc
    · next hak => subst hak; cases hc; exact hf
    · exact h.data a c hc
  · simp only [append]
    split
    · rfl
    · exact h.made a
  · have := h.place i
    show Good f make (append make k b s) (s.place i)
    cases hp : s.place i with
    | read a w =>
      rw [hp] at this
      obtain ⟨c, hc⟩ := this
      simp only [Good, append]
      split
      · exact ⟨_, rfl⟩
      · exact ⟨c, hc⟩
    | _ => rw [hp] at this; exact this

theorem inv_step [DecidableEq A] {f : A → Except E B} {make : B → C} {s : State A E B C} (h : Inv f make s) (i : Nat) : Inv f make (step f make i s) := by
  have hi := h.place i
  unfold step
  split
  · exact h
  · next k w hp =>
    split
    · next b hb => exact good_goto h i _ ⟨b, hb⟩
    · split
      · next hw => subst hw; exact good_goto h i _ (.inl rfl)
      · next hw => exact good_goto h i _ hw
  · next k w hp =>
    rw [hp] at hi
    split
    · next b hb => exact good_goto h i _ ⟨hb, hi⟩
    · next e he =>
      refine good_goto h i _ ?_
      cases w with
      | known => exact absurd rfl hi
      | _ => simp [Good, Right, he]
  · next k b w hp =>
    rw [hp] at hi
    exact good_goto (inv_append h k b hi.1) i _ ⟨b, by simp [append]⟩
  · next k w hp =>
    rw [hp] at hi
    exact good_goto h i _ (read_right h k w hi)
  · exact h

theorem inv_call {f : A → Except E B} {make : B → C} {s : State A E B C} (h : Inv f make s) (k : A) (w : Wish) (i : Nat) : Inv f make (call k w i s) := by
  unfold call
  split
  · exact good_goto h i _ trivial
  · exact good_goto h i _ trivial
  · exact h

/-- C149 (threads): whatever threads ask, and however their steps are interleaved, each call is answered with what the computation gives for what was asked: nothing else was cached, and nothing is
out of range. -/
theorem C149_any_schedule [DecidableEq A] (f : A → Except E B) (make : B → C) {s : State A E B C} (h : Reachable f make s) (i : Nat) (k : A) (w : Wish) (r : Answer E (B ⊕ C)) (hd : s.place i = .done k w r) :
    Right f make k w r := by
  have inv : Inv f make s := by
    clear hd
    induction h with
    | new => exact ⟨fun _ _ h => (by cases h), fun _ => rfl, fun _ => trivial⟩
    | call k w i _ ih => exact inv_call ih k w i
    | step i _ ih => exact inv_step ih i
  have := inv.place i
  rw [hd] at this
  exact this

/-- Doubling numbers below 10. -/
def double (n : Nat) : Except Unit Nat := if n < 10 then .ok (2 * n) else .error ()

/-- Two threads that ask for the same thing, and both compute it. -/
def both : State Nat Unit Nat Nat :=
  step double (· + 1) 0 (step double (· + 1) 0 (step double (· + 1) 1 (step double (· + 1) 0 (step double (· + 1) 1 (step double (· + 1) 0 (call 3 .value 0 (call 3 .value 1 .new)))))))

theorem both_reachable : Reachable double (· + 1) both :=
  .step _ (.step _ (.step _ (.step _ (.step _ (.step _ (.call _ _ _ (.call _ _ _ .new)))))))

example : Right double (· + 1) 3 .value (.value (.inl 6)) := C149_any_schedule double (· + 1) both_reachable 0 3 .value _ rfl

/-- Steps of threads, one after the other. -/
def run [DecidableEq A] (f : A → Except E B) (make : B → C) : List Nat → State A E B C → State A E B C
  | [], s => s
  | i :: is, s => run f make is (step f make i s)

/-- How many steps are left. -/
def rank : Place A E B C → Nat
  | .check _ _ => 4
  | .compute _ _ => 3
  | .append _ _ _ => 2
  | .read _ _ => 1
  | _ => 0

/-- What is asked for at a place. -/
def asks : Place A E B C → Option (A × Wish)
  | .idle => none
  | .check k w => some (k, w)
  | .compute k w => some (k, w)
  | .append k _ w => some (k, w)
  | .read k w => some (k, w)
  | .done k w _ => some (k, w)

theorem step_other [DecidableEq A] (f : A → Except E B) (make : B → C) (i j : Nat) (h : i ≠ j) (s : State A E B C) : (step f make j s).place i = s.place i := by
  have g : ∀ (s : State A E B C) p, (s.goto j p).place i = s.place i := fun s p => if_neg h
  unfold step
  split
  · rfl
  · split
    · exact g _ _
    · split <;> exact g _ _
  · split <;> exact g _ _
  · exact g _ _
  · exact g _ _
  · rfl

theorem step_own [DecidableEq A] (f : A → Except E B) (make : B → C) (i : Nat) (s : State A E B C) :
    rank ((step f make i s).place i) ≤ rank (s.place i) - 1 ∧ asks ((step f make i s).place i) = asks (s.place i) := by
  have g : ∀ (s : State A E B C) p, (s.goto i p).place i = p := fun s p => if_pos rfl
  unfold step
  split
  · next h => rw [h]; exact ⟨Nat.le_refl _, rfl⟩
  · next h =>
    rw [h]
    split
    · rw [g]; exact ⟨by simp [rank], rfl⟩
    · split <;> rw [g] <;> exact ⟨by simp [rank], rfl⟩
  · next h =>
    rw [h]
    split <;> rw [g] <;> exact ⟨by simp [rank], rfl⟩
  · next h => rw [h, g]; exact ⟨by simp [rank], rfl⟩
  · next h => rw [h, g]; exact ⟨by simp [rank], rfl⟩
  · next h => rw [h]; exact ⟨Nat.le_refl _, rfl⟩

theorem run_rank [DecidableEq A] (f : A → Except E B) (make : B → C) (i : Nat) : ∀ (is : List Nat) (s : State A E B C),
    rank ((run f make is s).place i) ≤ rank (s.place i) - is.count i ∧ asks ((run f make is s).place i) = asks (s.place i)
  | [], s => ⟨by simp [run], rfl⟩
  | j :: is, s => by
    rw [run]
    have ih := run_rank f make i is (step f make j s)
    by_cases h : i = j
    · subst h
      have own := step_own f make i s
      rw [List.count_cons_self]
      exact ⟨by omega, by rw [ih.2, own.2]⟩
    · rw [step_other f make i j h] at ih
      rw [List.count_cons_of_ne (fun h' => h h'.symm)]
      exact ih

/-- C149 (calls end): a call ends after at most four steps of its thread, whatever others do meanwhile, with an answer to what was asked. -/
theorem C149_ends [DecidableEq A] (f : A → Except E B) (make : B → C) (k : A) (w : Wish) (i : Nat) (s : State A E B C) (hi : s.place i = .idle) (is : List Nat) (hn : 4 ≤ is.count i) :
    ∃ r, (run f make is (call k w i s)).place i = .done k w r := by
  have h0 : (call k w i s).place i = .check k w := by
    unfold call
    rw [hi]
    exact if_pos rfl
  have h := run_rank f make i is (call k w i s)
  rw [h0] at h
  have hr : rank ((run f make is (call k w i s)).place i) = 0 := by
    have : rank (Place.check k w : Place A E B C) = 4 := rfl
    omega
  have ha := h.2
  cases hp : (run f make is (call k w i s)).place i <;> rw [hp] at hr ha
  case done k' w' r =>
    cases ha
    exact ⟨r, rfl⟩
  all_goals cases hr <;> cases ha

example : ∃ r, (run double (· + 1) [0, 1, 1, 0, 0, 1, 0, 1] (call 3 .made 0 (call 3 .value 1 State.new))).place 0 = .done 3 .made r :=
  C149_ends double (· + 1) 3 .made 0 _ rfl _ (by decide)

/-- C149 does not hold without data races: center points are copied from the cache without its lock, and another thread that did not find them may assign them at the same time. -/
theorem C149_race_violated : ∃ s : State Nat Unit Nat Nat, Reachable double (· + 1) s ∧ ∃ i j k, i ≠ j ∧ copies s i k ∧ writes s j k :=
  ⟨both, both_reachable, 0, 1, 3, by decide, ⟨6, rfl⟩, ⟨6, .value, rfl⟩⟩

/-- What an instance knows is what its map says. -/
structure Sound (n : Instance I E R P Q L) : Prop where
  routes : ∀ g a b c r, routes n g (a, b, c) = some r → n.map.route g a b c = .ok r
  points : ∀ i p, n.points i = some p → n.map.points i = .ok p
  splines : ∀ i, n.splines i = (n.points i).map n.map.spline
  lengths : ∀ i l, n.lengths i = some l → n.map.length i = .ok l

theorem routes_set [DecidableEq I] (n : Instance I E R P Q L) (g g' : Graph) (k k' : I × I × Bool) (r : R) :
    routes (setRoute n g k r) g' k' = if g' = g ∧ k' = k then some r else routes n g' k' := by
  cases g <;> cases g' <;> simp [routes, setRoute]

theorem ask_sound [DecidableEq I] (n : Instance I E R P Q L) (h : Sound n) (q : Query I) : (ask n q).1 = fresh n.map q ∧ Sound (ask n q).2 ∧ (ask n q).2.map = n.map := by
  cases q with
  | route g a b c =>
    simp only [ask, fresh]
    split
    · next r hr => rw [h.routes g a b c r hr]; exact ⟨rfl, h, rfl⟩
    · split
      · next e he => rw [he]; exact ⟨rfl, h, rfl⟩
      · next r hr =>
        have hm : (setRoute n g (a, b, c) r).map = n.map := by cases g <;> rfl
        rw [hr]
        simp only [routes_set, and_self, if_true]
        refine ⟨trivial, ⟨fun g' a' b' c' r' h' => ?_, ?_, ?_, ?_⟩, hm⟩
        · rw [hm]
          rw [routes_set] at h'
          split at h'
          · next hk =>
            cases h'
            obtain ⟨rfl, hk⟩ := hk
            cases hk
            exact hr
          · exact h.routes _ _ _ _ _ h'
        · rw [hm]; cases g <;> exact h.points
        · rw [hm]; cases g <;> exact h.splines
        · rw [hm]; cases g <;> exact h.lengths
  | points i =>
    simp only [ask, fresh]
    split
    · next p hp => rw [h.points i p hp]; exact ⟨rfl, h, rfl⟩
    · split
      · next e he => rw [he]; exact ⟨rfl, h, rfl⟩
      · next p hp =>
        rw [hp]
        refine ⟨by simp [setPoints], ⟨fun g a b c r => ?_, fun j q hj => ?_, fun j => ?_, h.lengths⟩, rfl⟩
        · cases g
          · exact h.routes .vehicle a b c r
          · exact h.routes .vehicleWithRoadShoulder a b c r
          · exact h.routes .pedestrian a b c r
        · simp only [setPoints] at hj ⊢
          split at hj
          · next hji => subst hji; cases hj; exact hp
          · exact h.points j q hj
        · simp only [setPoints]
          split
          · rfl
          · exact h.splines j
  | spline i =>
    simp only [ask, fresh]
    split
    · next p hp => rw [h.points i p hp, h.splines i, hp]; exact ⟨rfl, h, rfl⟩
    · split
      · next e he => rw [he]; exact ⟨rfl, h, rfl⟩
      · next p hp =>
        rw [hp]
        refine ⟨by simp [setPoints], ⟨fun g a b c r => ?_, fun j q hj => ?_, fun j => ?_, h.lengths⟩, rfl⟩
        · cases g
          · exact h.routes .vehicle a b c r
          · exact h.routes .vehicleWithRoadShoulder a b c r
          · exact h.routes .pedestrian a b c r
        · simp only [setPoints] at hj ⊢
          split at hj
          · next hji => subst hji; cases hj; exact hp
          · exact h.points j q hj
        · simp only [setPoints]
          split
          · rfl
          · exact h.splines j
  | length i =>
    simp only [ask, fresh]
    split
    · next l hl => rw [h.lengths i l hl]; exact ⟨rfl, h, rfl⟩
    · split
      · next e he => rw [he]; exact ⟨rfl, h, rfl⟩
      · next l hl =>
        rw [hl]
        refine ⟨by simp [setLength], ⟨fun g a b c r => ?_, h.points, h.splines, fun j m hj => ?_⟩, rfl⟩
        · cases g
          · exact h.routes .vehicle a b c r
          · exact h.routes .vehicleWithRoadShoulder a b c r
          · exact h.routes .pedestrian a b c r
        · simp only [setLength] at hj ⊢
          split at hj
          · next hji => subst hji; cases hj; exact hl
          · exact h.lengths j m hj

/-- The answers of the code. -/
def serve [DecidableEq I] (load : String → Map I E R P Q L) : World I E R P Q L → List (Op I) → List (Reply E R P Q L)
  | _, [] => []
  | w, .activate p :: ops => serve load (activate p w) ops
  | w, .query q :: ops => (query load w q).1 :: serve load (query load w q).2 ops

/-- C149 (maps): with one thread, whatever was asked before, every query is answered with what the map says that was chosen last: nothing is left of the maps before. Without a map it is an error. -/
theorem C149_last_map [DecidableEq I] (load : String → Map I E R P Q L) (ops : List (Op I)) : serve load ⟨none, none⟩ ops = answers load none ops := by
  suffices H : ∀ (ops : List (Op I)) (w : World I E R P Q L), (∀ n, w.inst = some n → Sound n ∧ ∃ p, w.path = some p ∧ n.map = load p) → serve load w ops = answers load w.path ops from
    H ops ⟨none, none⟩ (fun n h => by cases h)
  intro ops
  induction ops with
  | nil => intro w _; simp [serve, answers]
  | cons op ops ih =>
    intro w hw
    cases op with
    | activate p => rw [serve, answers, ih _ (fun n h => by cases h)]; rfl
    | query q =>
      rw [serve]
      obtain ⟨path, inst⟩ := w
      cases inst with
      | some n =>
        obtain ⟨hs, p, hp, hm⟩ := hw n rfl
        simp only at hp
        subst hp
        obtain ⟨h1, h2, h3⟩ := ask_sound n hs q
        rw [answers, ih]
        · simp only [query, getInstance]
          rw [h1, hm]
        · intro m hm'
          simp only [query, getInstance, Option.some.injEq] at hm'
          subst hm'
          exact ⟨h2, p, rfl, by rw [h3, hm]⟩
      | none =>
        cases path with
        | none =>
          rw [answers, ih]
          · rfl
          · intro n h; cases h
        | some p =>
          have hs : Sound (⟨load p, fun _ => none, fun _ => none, fun _ => none, fun _ => none, fun _ => none, fun _ => none⟩ : Instance I E R P Q L) :=
            ⟨fun g _ _ _ _ h => (by cases g <;> cases h), fun _ _ h => (by cases h), fun _ => rfl, fun _ _ h => (by cases h)⟩
          obtain ⟨h1, h2, h3⟩ := ask_sound _ hs q
          rw [answers, ih]
          · simp only [query, getInstance, Option.map_some]
            rw [h1]
          · intro m hm'
            simp only [query, getInstance, Option.map_some, Option.some.injEq] at hm'
            subst hm'
            exact ⟨h2, p, rfl, h3⟩

/-- Maps in which everything has the length of the name of the map. -/
def named (path : String) : Map Nat Unit Nat Nat Nat Nat := ⟨fun _ a b _ => .ok (a + b), fun i => .ok i, id, fun i => if i < 5 then .ok (path.length + i) else .error ()⟩

example : serve named ⟨none, none⟩ [.query (.length 1), .activate "a.osm", .query (.length 1), .query (.length 7), .activate "long.osm", .query (.length 1)] =
    [.noMap, .length 6, .thrown (), .length 9] := by rw [C149_last_map]; rfl

/-- C149 does not hold if a map is chosen while another thread uses the one before: it is destroyed under its hands. -/
theorem C149_activate_violated : ([Act.get 0, .activate, .use 0].foldl act ⟨0, false, fun _ => none, false⟩).undefined = true := rfl

/-- Whatever the other threads do, also if they use the new map. -/
theorem C149_stale_violated (i : Nat) (before between after : List Act) (h : ∀ a ∈ between ++ after, a ≠ .get i) :
    ((before ++ Act.get i :: (between ++ Act.activate :: (after ++ [Act.use i]))).foldl act ⟨0, false, fun _ => none, false⟩).undefined = true := by
  have keep : ∀ (l : List Act) (s : Shared), (∀ a ∈ l, a ≠ .get i) → (l.foldl act s).held i = s.held i ∧ s.generation ≤ (l.foldl act s).generation ∧
      (s.alive = true → ((l.foldl act s).alive = true ∨ s.generation < (l.foldl act s).generation)) := by
    intro l
    induction l with
    | nil => exact fun s _ => ⟨rfl, Nat.le_refl _, fun h => .inl h⟩
    | cons a l ih =>
      intro s hl
      obtain ⟨h1, h2, h3⟩ := ih (act s a) (fun b hb => hl b (by simp [hb]))
      rw [List.foldl_cons]
      have hne := hl a (by simp)
      cases a with
      | get j =>
        have : j ≠ i := fun e => hne (by rw [e])
        refine ⟨by rw [h1]; simp [act, Ne.symm this], h2, fun _ => h3 rfl⟩
      | use j =>
        have e1 : (act s (.use j)).held = s.held := by simp only [act]; split <;> rfl
        have e2 : (act s (.use j)).generation = s.generation := by simp only [act]; split <;> rfl
        have e3 : (act s (.use j)).alive = s.alive := by simp only [act]; split <;> rfl
        rw [e2] at h2 h3
        exact ⟨by rw [h1, e1], h2, fun h => h3 (by rw [e3, h])⟩
      | activate =>
        cases ha : s.alive with
        | false =>
          have e : act s .activate = s := by simp [act, ha]
          rw [e] at h1 h2 h3 ⊢
          exact ⟨h1, h2, fun h => by simp at h⟩
        | true =>
          have e : act s .activate = { s with alive := false, generation := s.generation + 1 } := by simp [act, ha]
          rw [e] at h1 h2 ⊢
          simp only at h1 h2
          exact ⟨h1, by omega, fun _ => .inr (by omega)⟩
  rw [List.foldl_append, List.foldl_cons]
  generalize before.foldl act ⟨0, false, fun _ => none, false⟩ = s
  rw [List.foldl_append, List.foldl_cons, List.foldl_append, List.foldl_cons, List.foldl_nil]
  have h0 : (act s (.get i)).held i = some s.generation ∧ (act s (.get i)).generation = s.generation ∧ (act s (.get i)).alive = true := by simp [act]
  generalize act s (.get i) = s0 at h0
  obtain ⟨a1, a2, a3⟩ := keep between s0 (fun a ha => h a (by simp [ha]))
  generalize between.foldl act s0 = s1 at a1 a2 a3
  obtain ⟨b1, b2⟩ : (act s1 .activate).held i = some s.generation ∧ s.generation < (act s1 .activate).generation := by
    rw [h0.1] at a1
    rw [h0.2.1] at a2 a3
    cases ha : s1.alive with
    | false =>
      have e : act s1 .activate = s1 := by simp [act, ha]
      rw [e]
      rcases a3 h0.2.2 with h | h
      · rw [ha] at h; cases h
      · exact ⟨a1, h⟩
    | true =>
      have e : act s1 .activate = { s1 with alive := false, generation := s1.generation + 1 } := by simp [act, ha]
      rw [e]
      exact ⟨a1, by simp only; omega⟩
  generalize act s1 .activate = s2 at b1 b2
  obtain ⟨c1, c2, -⟩ := keep after s2 (fun a ha => h a (by simp [ha]))
  generalize after.foldl act s2 = s3 at c1 c2
  rw [b1] at c1
  have : s.generation ≠ s3.generation := by omega
  simp [act, c1, this]

example : ([Act.get 0, .activate, .get 1, .use 1, .use 0].foldl act ⟨0, false, fun _ => none, false⟩).undefined = true :=
  C149_stale_violated 0 [] [] [.get 1, .use 1] (by simp)

/-- As long as no map is chosen meanwhile, what threads hold is alive. -/
theorem C149_held_partial (acts : List Act) (h : ∀ a ∈ acts, a ≠ .activate) : (acts.foldl act ⟨0, false, fun _ => none, false⟩).undefined = false := by
  suffices H : ∀ (acts : List Act) (s : Shared), (∀ a ∈ acts, a ≠ .activate) → s.undefined = false → (∀ i g, s.held i = some g → g = s.generation ∧ s.alive = true) →
      (acts.foldl act s).undefined = false from H acts _ h rfl (fun _ _ h => by cases h)
  intro acts
  induction acts with
  | nil => exact fun s _ h _ => h
  | cons a acts ih =>
    intro s ha hu hh
    rw [List.foldl_cons]
    refine ih _ (fun b hb => ha b (by simp [hb])) ?_ ?_
    · cases a with
      | get i => exact hu
      | use i =>
        simp only [act]
        split
        · exact hu
        · next g hg => simp [hu, hh i g hg]
      | activate => exact absurd rfl (ha .activate (by simp))
    · cases a with
      | get i =>
        intro j g hg
        simp only [act] at hg ⊢
        split at hg
        · cases hg; exact ⟨rfl, trivial⟩
        · exact ⟨(hh j g hg).1, trivial⟩
      | use i =>
        simp only [act]
        split <;> exact hh
      | activate => exact absurd rfl (ha .activate (by simp))

example : ([Act.get 0, .get 1, .use 0, .use 1].foldl act ⟨0, false, fun _ => none, false⟩).undefined = false := C149_held_partial _ (by simp)

end Verif.Cache
