import Verif.Action.Entities
/-
Properties of actions on entities and of conditions that measure entities.
-/
namespace Verif.Action

open Verif.Parameter (Dbl Rule)

variable {P : Type}

/-- The object is in the simulation, somewhere. -/
def World.Has (w : World P) (o : Obj) : Prop := ∃ p, w.place o = some p

/-- The members of an entity are a set. -/
def Entity.IsSet (e : Entity) : Prop := e.objects.Nodup

/-- After `w'` the members of `e` are at `p`, and all else is as before. -/
def Placed (w w' : World P) (e : Entity) (p : P) : Prop :=
  ∀ o, w'.place o = if o ∈ e.objects then some p else w.place o

/-! ### Lemmas -/

theorem addAll (p : P) : ∀ (l : List Obj) (w : World P), l.Nodup → (∀ o, w.added o = true ↔ w.Has o) →
    (∀ w', l.foldlM (World.addOne p) w = some w' →
      (∀ o ∈ l, ¬ w.Has o) ∧ (∀ o, w'.place o = if o ∈ l then some p else w.place o) ∧
        ∀ o, w'.added o = if o ∈ l then true else w.added o) ∧
    ((∀ o ∈ l, ¬ w.Has o) → ∃ w', l.foldlM (World.addOne p) w = some w')
  | [], w, _, _ => by
    refine ⟨?_, fun _ => ⟨w, rfl⟩⟩
    intro w' h
    cases h
    simp
  | o :: l, w, hn, hi => by
    rw [List.nodup_cons] at hn
    by_cases ho : w.Has o
    · have ha : w.added o = true := (hi o).mpr ho
      rw [List.foldlM_cons]
      simp only [World.addOne, ha, if_true, bind, Option.bind]
      exact ⟨fun w' h => by simp at h, fun h => absurd ho (h o (by simp))⟩
    · have ha : w.added o = false := by
        cases h : w.added o with
        | false => rfl
        | true => exact absurd ((hi o).mp h) ho
      have hp : w.place o = none := by
        cases h : w.place o with
        | none => rfl
        | some q => exact absurd ⟨q, h⟩ ho
      rw [List.foldlM_cons]
      simp only [World.addOne, ha, hp, Bool.false_eq_true, if_false, bind, Option.bind]
      obtain ⟨h1, h2⟩ := addAll p l ⟨fun x => if x = o then true else w.added x, fun x => if x = o then some p else w.place x⟩ hn.2
        (by
          intro x
          by_cases hx : x = o
          · simp [World.Has, hx]
          · simpa [World.Has, hx] using hi x)
      constructor
      · intro w' h
        obtain ⟨a, b, c⟩ := h1 w' h
        refine ⟨?_, ?_, ?_⟩
        · intro x hx
          rw [List.mem_cons] at hx
          rcases hx with rfl | hx
          · exact ho
          · have := a x hx
            have hne : x ≠ o := fun e => hn.1 (e ▸ hx)
            simpa [World.Has, hne] using this
        · intro x
          rw [b x]
          by_cases hx : x = o
          · simp [hx]
          · simp [hx]
        · intro x
          rw [c x]
          by_cases hx : x = o
          · simp [hx]
          · simp [hx]
      · intro h
        refine h2 fun x hx => ?_
        have hne : x ≠ o := fun e => hn.1 (e ▸ hx)
        simpa [World.Has, hne] using h x (by simp [hx])

theorem moveAll (p : P) : ∀ (l : List Obj) (w : World P),
    (∀ w', l.foldlM (World.moveOne p) w = some w' →
      (∀ o ∈ l, w.Has o) ∧ (∀ o, w'.place o = if o ∈ l then some p else w.place o) ∧ w'.added = w.added) ∧
    ((∀ o ∈ l, w.Has o) → ∃ w', l.foldlM (World.moveOne p) w = some w')
  | [], w => by
    refine ⟨?_, fun _ => ⟨w, rfl⟩⟩
    intro w' h
    cases h
    simp
  | o :: l, w => by
    rw [List.foldlM_cons]
    cases hp : w.place o with
    | none =>
      simp only [World.moveOne, hp, bind, Option.bind]
      exact ⟨fun w' h => by simp at h, fun h => by obtain ⟨q, hq⟩ := h o (by simp); rw [hp] at hq; cases hq⟩
    | some q =>
      simp only [World.moveOne, hp, bind, Option.bind]
      obtain ⟨h1, h2⟩ := moveAll p l ⟨w.added, fun x => if x = o then some p else w.place x⟩
      have has : ∀ x, World.Has ⟨w.added, fun x => if x = o then some p else w.place x⟩ x ↔ w.Has x := by
        intro x
        by_cases hx : x = o
        · simp [World.Has, hx, hp]
        · simp [World.Has, hx]
      constructor
      · intro w' h
        obtain ⟨a, b, c⟩ := h1 w' h
        refine ⟨?_, ?_, c⟩
        · intro x hx
          rw [List.mem_cons] at hx
          rcases hx with rfl | hx
          · exact ⟨q, hp⟩
          · exact (has x).mp (a x hx)
        · intro x
          rw [b x]
          by_cases hx : x = o
          · simp [hx]
          · simp [hx]
      · intro h
        exact h2 fun x hx => (has x).mpr (h x (by simp [hx]))

/-! ### C74: adding, deleting and moving entities -/

/-- A change that deletes nothing, of an entity whose members are a set. -/
def Change.Keeps : Change P → Prop
  | .add e _ => e.IsSet
  | .delete _ => False
  | .teleport e _ => e.IsSet

theorem keeps_invariant (w w' : World P) (hi : ∀ o, w.added o = true ↔ w.Has o) (c : Change P) (hc : c.Keeps)
    (h : w.apply c = some w') : ∀ o, w'.added o = true ↔ w'.Has o := by
  have add : ∀ (e : Entity) (p : P), e.IsSet → e.objects.foldlM (World.addOne p) w = some w' →
      ∀ o, w'.added o = true ↔ w'.Has o := by
    intro e p hs h o
    obtain ⟨_, b, c⟩ := (addAll p e.objects w hs hi).1 w' h
    rw [World.Has, b o, c o]
    by_cases ho : o ∈ e.objects
    · simp [ho]
    · simpa [ho, World.Has] using hi o
  cases c with
  | add e p => exact add e p hc h
  | delete e => exact hc.elim
  | teleport e p =>
    rw [World.apply] at h
    by_cases ha : w.isAdded e = true
    · rw [if_pos ha] at h
      obtain ⟨a, b, c⟩ := (moveAll p e.objects w).1 w' h
      intro o
      rw [World.Has, b o, c]
      by_cases ho : o ∈ e.objects
      · simpa [ho] using (hi o).mpr (a o ho)
      · simpa [ho, World.Has] using hi o
    · rw [if_neg ha] at h
      exact add e p hc h

/-- In a scenario without DeleteEntityActions the interpreter knows which objects are in the simulation. -/
theorem C74_known (l : List (Change P)) (hl : ∀ c ∈ l, c.Keeps) (w : World P) (h : World.start.applyAll l = some w) :
    ∀ o, w.added o = true ↔ w.Has o := by
  have key : ∀ (l : List (Change P)) (v w : World P), (∀ o, v.added o = true ↔ v.Has o) → (∀ c ∈ l, c.Keeps) →
      v.applyAll l = some w → ∀ o, w.added o = true ↔ w.Has o := by
    intro l
    induction l with
    | nil => intro v w hi _ h; cases h; exact hi
    | cons c l ih =>
      intro v w hi hl h
      rw [World.applyAll, List.foldlM_cons] at h
      cases hv : v.apply c with
      | none => rw [hv] at h; cases h
      | some v' =>
        rw [hv] at h
        exact ih v' w (keeps_invariant v v' hi c (hl c (by simp)) hv) (fun x hx => hl x (by simp [hx])) h
  exact key l World.start w (fun o => by simp [World.start, World.Has]) hl h

/-- **C74, without DeleteEntityActions**: AddEntityAction is an error exactly if an object to be added is in the simulation already;
otherwise it puts all of them at the position and changes nothing else. Missing: scenarios that delete entities. -/
theorem C74_add_partial (l : List (Change P)) (hl : ∀ c ∈ l, c.Keeps) (w : World P) (h : World.start.applyAll l = some w)
    (e : Entity) (he : e.IsSet) (p : P) :
    ((∃ w', w.apply (.add e p) = some w') ↔ ∀ o ∈ e.objects, ¬ w.Has o) ∧
      ∀ w', w.apply (.add e p) = some w' → Placed w w' e p := by
  obtain ⟨h1, h2⟩ := addAll p e.objects w he (C74_known l hl w h)
  exact ⟨⟨fun ⟨w', hw⟩ => (h1 w' hw).1, h2⟩, fun w' hw => (h1 w' hw).2.1⟩

/-- **C74, without DeleteEntityActions**: TeleportAction puts the objects of an actor at the position, be they all in the simulation
or none of them, and changes nothing else. Missing: scenarios that delete entities, and actors partly in the simulation. -/
theorem C74_teleport_partial (l : List (Change P)) (hl : ∀ c ∈ l, c.Keeps) (w : World P)
    (h : World.start.applyAll l = some w) (e : Entity) (he : e.IsSet) (p : P)
    (ho : (∀ o ∈ e.objects, w.Has o) ∨ (∀ o ∈ e.objects, ¬ w.Has o)) :
    ∃ w', w.apply (.teleport e p) = some w' ∧ Placed w w' e p := by
  have hk := C74_known l hl w h
  rw [World.apply]
  by_cases ha : w.isAdded e = true
  · rw [if_pos ha]
    have hall : ∀ o ∈ e.objects, w.Has o := fun o hm => (hk o).mp (List.all_eq_true.mp ha o hm)
    obtain ⟨w', hw⟩ := (moveAll p e.objects w).2 hall
    exact ⟨w', hw, ((moveAll p e.objects w).1 w' hw).2.1⟩
  · rw [if_neg ha]
    have hnone : ∀ o ∈ e.objects, ¬ w.Has o := by
      rcases ho with ho | ho
      · exact absurd (List.all_eq_true.mpr fun o hm => (hk o).mpr (ho o hm)) ha
      · exact ho
    obtain ⟨w', hw⟩ := (addAll p e.objects w he hk).2 hnone
    exact ⟨w', hw, ((addAll p e.objects w he hk).1 w' hw).2.1⟩

/-- **C74**: DeleteEntityAction is never an error: it removes the objects from the simulation, those that are there, and no others. -/
theorem C74_delete (w : World P) (e : Entity) :
    ∃ w', w.apply (.delete e) = some w' ∧ ∀ o, w'.place o = if o ∈ e.objects then none else w.place o := by
  refine ⟨_, rfl, ?_⟩
  have key : ∀ (l : List Obj) (w : World P) (o : Obj),
      (l.foldl World.deleteOne w).place o = if o ∈ l then none else w.place o := by
    intro l
    induction l with
    | nil => intro w o; simp
    | cons x l ih =>
      intro w o
      rw [List.foldl_cons, ih, World.deleteOne]
      by_cases ho : o ∈ l
      · simp [ho]
      · by_cases hx : o = x
        · simp [hx]
        · simp [ho, hx]
  exact key e.objects w

/-- **C74 is false after a deletion**: an object that has been deleted cannot be added again, nor teleported: both are errors. -/
theorem C74_deleted_violated (o : Obj) (p q : P) :
    ∃ w, World.start.applyAll [.add ⟨o, [o]⟩ p, .delete ⟨o, [o]⟩] = some w ∧ ¬ w.Has o ∧
      w.apply (.add ⟨o, [o]⟩ q) = none ∧ w.apply (.teleport ⟨o, [o]⟩ q) = none := by
  refine ⟨_, by simp [World.applyAll, World.apply, World.addOne, World.start]; rfl, ?_, ?_, ?_⟩
  · simp [World.Has, World.deleteOne]
  · simp [World.apply, World.addOne, World.deleteOne]
  · simp [World.apply, World.isAdded, World.moveOne, World.deleteOne]

/-- **C74 is false for selections**: a TeleportAction of a selection of which one member is in the simulation and another one is not, is
an error. -/
theorem C74_mixed_violated (a b : Obj) (hab : a ≠ b) (s : Nat) (p q : P) :
    ∃ w, World.start.applyAll [.add ⟨a, [a]⟩ p] = some w ∧ w.Has a ∧ ¬ w.Has b ∧ w.apply (.teleport ⟨s, [a, b]⟩ q) = none := by
  refine ⟨_, by simp [World.applyAll, World.apply, World.addOne, World.start]; rfl, ?_, ?_, ?_⟩
  · simp [World.Has]
  · simp [World.Has, hab.symm]
  · simp [World.apply, World.isAdded, World.addOne, hab.symm]

/-- Non-vacuity: a selection is added by teleporting it, then one of its members is moved. -/
example : ∃ w, World.start.applyAll [.teleport ⟨9, [1, 2]⟩ (10 : Nat), .teleport ⟨2, [2]⟩ 20] = some w ∧
    w.place 1 = some 10 ∧ w.place 2 = some 20 ∧ w.place 3 = none := by
  refine ⟨_, rfl, ?_, ?_, ?_⟩ <;> decide +kernel

example : ∀ c ∈ [Change.teleport ⟨9, [1, 2]⟩ (10 : Nat), .teleport ⟨2, [2]⟩ 20], c.Keeps := by
  intro c hc
  simp only [List.mem_cons, List.not_mem_nil, or_false] at hc
  rcases hc with rfl | rfl <;> simp [Change.Keeps, Entity.IsSet]

/-! ### C75: conditions on entities that are not in the simulation -/

theorem mapM_some (f : Obj → Option Dbl) (g : Obj → Dbl) : ∀ l : List Obj, (∀ o ∈ l, f o = some (g o)) → l.mapM f = some (l.map g)
  | [], _ => rfl
  | o :: l, h => by
    rw [List.mapM_cons, h o (by simp), mapM_some f g l fun x hx => h x (by simp [hx])]
    rfl

/-- Comparisons with a value that is not a number are false, but for `notEqualTo`. -/
theorem measured_nan (r : Rule) (c : Dbl) : r.measured .nan c = decide (r = .notEqualTo) := by
  cases r <;> cases c <;> rfl

/-- The objects that have to be in the simulation for the measurement. -/
def Measure.needs : Measure → Obj → List Obj
  | .timeHeadway r, o => [r, o]
  | .relativeSpeed r, o => [r, o]
  | _, o => [o]

/-- **C75**: for objects in the simulation all conditions compare what is measured, and are met if all members of the entity fulfil
the comparison. -/
theorem C75_present (w : World P) (hk : ∀ o, w.added o = true ↔ w.Has o) (value : Obj → Dbl) (m : Measure) (r : Rule) (c : Dbl)
    (e : Entity) (he : ∀ o ∈ e.objects, ∀ x ∈ m.needs o, w.Has x) :
    ∃ b, w.met value m r c e = some b ∧ (b = true ↔ ∀ o ∈ e.objects, r.measured (value o) c = true) := by
  have hs : ∀ o, w.Has o → (w.place o).isSome = true := fun o ⟨p, hp⟩ => by rw [hp]; rfl
  have : e.objects.mapM (w.measure value m) = some (e.objects.map value) := by
    refine mapM_some _ _ _ fun o ho => ?_
    have h := he o ho
    cases m <;> simp only [Measure.needs, List.mem_cons, List.not_mem_nil, or_false, forall_eq_or_imp, forall_eq] at h
    case speed => simp [World.measure, (hk o).mpr h, hs o h]
    case acceleration => simp [World.measure, hs o h]
    case standStill => simp [World.measure, hs o h]
    case reachPosition => simp [World.measure, hs o h]
    case timeHeadway x => simp [World.measure, hs x h.1, hs o h.2]
    case relativeSpeed x => simp [World.measure, (hk o).mpr h.2, (hk x).mpr h.1, hs x h.1, hs o h.2]
  rw [World.met, this]
  exact ⟨_, rfl, by simp⟩

/-- **C75, for some conditions and rules**: a condition on speed, position, time headway or relative speed, with any rule but
`notEqualTo`, is not met while something it needs is not in the simulation, and it is no error to evaluate it. Missing: acceleration and
stand still, deleted entities, and the rule `notEqualTo`, for all of which it is false. -/
theorem C75_absent_partial (w : World P) (hk : ∀ o, w.added o = true ↔ w.Has o) (value : Obj → Dbl) (m : Measure)
    (hm : m ≠ .acceleration ∧ m ≠ .standStill) (r : Rule) (hr : r ≠ .notEqualTo) (c : Dbl) (e : Entity)
    (he : ∃ o ∈ e.objects, ∃ x ∈ m.needs o, ¬ w.Has x) : w.met value m r c e = some false := by
  have hs : ∀ o, (w.place o).isSome = true ↔ w.Has o := fun o => by rw [Option.isSome_iff_exists]; rfl
  have key : ∀ o, ∃ d, w.measure value m o = some d ∧ ((∃ x ∈ m.needs o, ¬ w.Has x) → d = .nan) := by
    intro o
    cases m <;> simp only [Measure.needs, List.mem_cons, List.not_mem_nil, or_false, exists_eq_or_imp, exists_eq_left]
    case acceleration => exact absurd rfl hm.1
    case standStill => exact absurd rfl hm.2
    case speed =>
      by_cases h : w.Has o
      · exact ⟨value o, by simp [World.measure, (hk o).mpr h, (hs o).mpr h], fun c => absurd h c⟩
      · refine ⟨.nan, ?_, fun _ => rfl⟩
        have : w.added o = false := by cases h' : w.added o with
          | false => rfl
          | true => exact absurd ((hk o).mp h') h
        simp [World.measure, this]
    case reachPosition =>
      by_cases h : w.Has o
      · exact ⟨value o, by simp [World.measure, (hs o).mpr h], fun c => absurd h c⟩
      · refine ⟨.nan, ?_, fun _ => rfl⟩
        rw [← hs] at h
        simp [World.measure, h]
    case timeHeadway x =>
      by_cases h : w.Has x ∧ w.Has o
      · exact ⟨value o, by simp [World.measure, (hs o).mpr h.2, (hs x).mpr h.1], fun c => by rcases c with c | c; exact absurd h.1 c; exact absurd h.2 c⟩
      · refine ⟨.nan, ?_, fun _ => rfl⟩
        rw [← hs, ← hs] at h
        simp only [World.measure, Bool.and_eq_true]
        rw [if_neg h]
    case relativeSpeed x =>
      by_cases h : w.Has x ∧ w.Has o
      · exact ⟨value o, by simp [World.measure, (hs o).mpr h.2, (hs x).mpr h.1, (hk o).mpr h.2, (hk x).mpr h.1],
          fun c => by rcases c with c | c; exact absurd h.1 c; exact absurd h.2 c⟩
      · refine ⟨.nan, ?_, fun _ => rfl⟩
        rw [← hs, ← hs] at h
        simp only [World.measure, Bool.and_eq_true]
        rw [if_neg h, ite_self]
  have hg : ∀ o ∈ e.objects, w.measure value m o = some ((w.measure value m o).getD .nan) := by
    intro o _
    obtain ⟨d, hd, _⟩ := key o
    rw [hd]; rfl
  rw [World.met, mapM_some _ (fun o => (w.measure value m o).getD .nan) _ hg]
  obtain ⟨o, ho, hx⟩ := he
  obtain ⟨d, hd, hn⟩ := key o
  rw [Option.map_some, Option.some_inj, List.all_eq_false]
  refine ⟨_, List.mem_map.mpr ⟨o, ho, rfl⟩, ?_⟩
  simp only [hd, Option.getD_some, hn hx]
  rw [measured_nan]
  simpa using hr

/-- **C75 is false for acceleration and stand still**: evaluating the condition for an object that is not in the simulation is an
error. -/
theorem C75_error_violated (w : World P) (o : Obj) (h : ¬ w.Has o) (value : Obj → Dbl) (r : Rule) (c : Dbl) :
    w.met value .acceleration r c ⟨o, [o]⟩ = none ∧ w.met value .standStill r c ⟨o, [o]⟩ = none := by
  have hp : w.place o = none := by
    cases hp : w.place o with
    | none => rfl
    | some q => exact absurd ⟨q, hp⟩ h
  constructor <;> simp [World.met, World.measure, List.mapM_cons, hp]

/-- **C75 is false for deleted objects**: evaluating a condition on the speed of an object that has been added and deleted is an error. -/
theorem C75_deleted_violated (o : Obj) (p : P) (value : Obj → Dbl) (r : Rule) (c : Dbl) :
    ∃ w, World.start.applyAll [.add ⟨o, [o]⟩ p, .delete ⟨o, [o]⟩] = some w ∧ ¬ w.Has o ∧
      w.met value .speed r c ⟨o, [o]⟩ = none := by
  refine ⟨_, by simp [World.applyAll, World.apply, World.addOne, World.start]; rfl, ?_, ?_⟩
  · simp [World.Has, World.deleteOne]
  · simp [World.met, World.measure, List.mapM_cons, World.deleteOne]

/-- **C75 is false for `notEqualTo`**: such a condition is met by an object that has never been in the simulation. -/
theorem C75_notEqualTo_violated (o : Obj) (value : Obj → Dbl) (c : Dbl) :
    (World.start (P := P)).met value .speed .notEqualTo c ⟨o, [o]⟩ = some true := by
  simp [World.met, World.measure, List.mapM_cons, World.start, measured_nan]

/-- Non-vacuity of `C75_absent_partial`: a selection, one member of which is there. -/
example : (World.mk (P := Nat) (fun o => o == 1) fun o => if o = 1 then some 0 else none).met (fun _ => .fin 5) .speed .greaterThan
    (.fin 3) ⟨9, [1, 2]⟩ = some false := by decide +kernel

example : (World.mk (P := Nat) (fun o => o == 1) fun o => if o = 1 then some 0 else none).met (fun _ => .fin 5) .speed .greaterThan
    (.fin 3) ⟨1, [1]⟩ = some true := by decide +kernel

/-! ### C76: time headway -/

/-- **C76, for entities that do not move backwards**: the time headway is less than `t` exactly if the entity is behind the
reference entity, or level with it, moves, and will be where the reference entity is now before `t` has passed, at its present speed. Missing: reversing
entities. -/
theorem C76_partial (x v t : Rat) (hv : 0 ≤ v) :
    Rule.lessThan.measured (timeHeadway x v) (.fin t) = true ↔ x ≤ 0 ∧ 0 < v ∧ 0 < x + v * t := by
  unfold timeHeadway
  by_cases hx : x ≤ 0
  · rw [if_pos hx]
    by_cases h0 : v = 0
    · subst h0
      simp [Rule.measured, Rule.exact, Dbl.lt]
    · have hv' : 0 < v := by grind
      rw [if_neg h0]
      simp only [Rule.measured, Rule.exact, Dbl.lt, decide_eq_true_eq]
      constructor
      · intro h
        refine ⟨hx, hv', ?_⟩
        have : -x / v * v < t * v := Rat.mul_lt_mul_of_pos_right h hv'
        rw [Rat.div_mul_cancel h0] at this
        grind
      · rintro ⟨_, _, h⟩
        rw [Rat.div_lt_iff hv']
        grind
  · rw [if_neg hx]
    simp [Rule.measured, Rule.exact, Dbl.lt, hx]

/-- **C76 is false for reversing entities**: 10 m behind the reference entity and moving away from it at 1 m/s the time headway is less
than 3 s. -/
theorem C76_violated : Rule.lessThan.measured (timeHeadway (-10) (-1)) (.fin 3) = true := by decide +kernel

/-- Non-vacuity. -/
example : Rule.lessThan.measured (timeHeadway (-10) 5) (.fin 3) = true ∧
    Rule.lessThan.measured (timeHeadway (-10) 2) (.fin 3) = false := by decide +kernel

end Verif.Action
