import Verif.Init.Spec
/-!
The actions of `Init` are carried out.
-/

namespace Verif.Init
open Verif.Init.Spec

/-- The lists that reading the document gives. -/
def globalsOf (l : List Node) : List Action := l.filterMap fun | .global a => some a | _ => none
def usersOf (l : List Node) : List Action := l.filterMap fun | .user a => some a | _ => none
def privatesOf (l : List Node) : List (List Action) := l.filterMap fun | .priv a => some a | _ => none

theorem read_eq (l : List Node) : read l = ⟨globalsOf l, usersOf l, privatesOf l⟩ := by
  have key : ∀ (l : List Node) (g u : List Action) (p : List (List Action)), l.foldl Actions.put ⟨g, u, p⟩ = ⟨g ++ globalsOf l, u ++ usersOf l, p ++ privatesOf l⟩ := by
    intro l
    induction l with
    | nil => intro g u p; simp [globalsOf, usersOf, privatesOf]
    | cons n l ih =>
      intro g u p
      rw [List.foldl_cons]
      cases n <;> simp [ih, Actions.put, globalsOf, usersOf, privatesOf]
  exact key l [] [] []

theorem immediately_iff (k : Kind) (h : k ≠ .environment) : k.endsImmediately = true ↔ ¬ Takes k := by
  cases k <;> simp_all [Kind.endsImmediately, Takes]

/-- The actions in the order in which they are treated. -/
def order (l : List Node) : List Action := globalsOf l ++ usersOf l ++ (privatesOf l).flatten

theorem count_order (l : List Node) (a : Action) : (order l).count a = (actions l).count a := by
  induction l with
  | nil => simp [order, globalsOf, usersOf, privatesOf, actions]
  | cons n l ih =>
    simp only [order, globalsOf, usersOf, privatesOf, List.count_append] at ih ⊢
    cases n <;> simp only [List.filterMap_cons, actions, List.count_cons, List.flatten_cons, List.count_append] <;> omega

theorem mem_order (l : List Node) (a : Action) : a ∈ order l ↔ a ∈ actions l := by
  rw [← List.count_pos_iff, count_order, List.count_pos_iff]

theorem mem_globals {l : List Node} {a : Action} (h : a ∈ globalsOf l) : Node.global a ∈ l := by
  simp only [globalsOf, List.mem_filterMap] at h
  obtain ⟨n, hn, h⟩ := h
  cases n <;> simp_all

/-- The actions that end immediately, in the order in which they are treated. -/
def soon (l : List Node) : List Action := (order l).filter fun a => ¬ Takes a.kind

/-- Those that take time. -/
def late (l : List Node) : List Action := (order l).filter fun a => Takes a.kind

theorem flat {p : List (List Action)} (c : Action → Bool) (f : Action → Op) : (p.flatMap fun l => (l.filter c).map f) = (p.flatten.filter c).map f := by
  induction p with
  | nil => rfl
  | cons l p ih => simp [ih]

theorem instant_filter {l : List Action} (h : ∀ a ∈ l, a.kind ≠ .environment) :
    l.filter (·.kind.endsImmediately) = l.filter (fun a => decide (¬ Takes a.kind)) ∧ l.filter (!·.kind.endsImmediately) = l.filter (fun a => decide (Takes a.kind)) := by
  constructor
  · refine List.filter_congr fun a ha => ?_
    have := immediately_iff a.kind (h a ha)
    rw [Bool.eq_iff_iff, this]
    simp
  · refine List.filter_congr fun a ha => ?_
    have := immediately_iff a.kind (h a ha)
    cases hk : a.kind.endsImmediately <;> simp_all

theorem ops (l : List Node) (ht : Typed l) (hc : Calm l) :
    before (read l) = (soon l).map (.start ·.id) ++ (soon l).map (.run ·.id) ∧ startLong (read l) = (late l).map (.start ·.id) ∧
      runLong (read l) = (late l).map (.run ·.id) := by
  have hall : ∀ a ∈ order l, a.kind ≠ .environment := fun a ha => hc a ((mem_order l a).1 ha)
  have hu : ∀ a ∈ usersOf l, a.kind ≠ .environment := fun a ha => hall a (by simp [order, ha])
  have hp : ∀ a ∈ (privatesOf l).flatten, a.kind ≠ .environment := fun a ha => hall a (by simp only [order, List.mem_append]; exact .inr ha)
  have hg : ∀ a ∈ globalsOf l, ¬ Takes a.kind := by
    intro a ha
    have h1 := ht.1 a (mem_globals ha)
    have h2 := hall a (by simp [order, ha])
    cases hk : a.kind <;> simp_all [Global, Takes]
  have hg1 : (globalsOf l).filter (fun a => decide (¬ Takes a.kind)) = globalsOf l := List.filter_eq_self.2 (by simpa using hg)
  have hg2 : (globalsOf l).filter (fun a => decide (Takes a.kind)) = [] := List.filter_eq_nil_iff.2 (by simpa using hg)
  refine ⟨?_, ?_, ?_⟩
  · simp only [before, startInstantaneous, runInstantaneous, read_eq, flat, (instant_filter hu).1, (instant_filter hp).1, soon, order, List.filter_append, hg1, List.map_append]
  · simp only [startLong, read_eq, flat, (instant_filter hu).2, (instant_filter hp).2, late, order, List.filter_append, hg2, List.map_append, List.nil_append]
  · simp only [runLong, read_eq, flat, (instant_filter hu).2, (instant_filter hp).2, late, order, List.filter_append, hg2, List.map_append, List.nil_append]

theorem order_schema (l : List Node) (h : Schema l) : order l = actions l := by
  obtain ⟨g, u, p, rfl⟩ := h
  have e1 : ∀ (g : List Action) (l : List Node), actions (g.map .global ++ l) = g ++ actions l := by
    intro g l
    induction g with
    | nil => rfl
    | cons a g ih => simp [actions, ih]
  have e2 : ∀ (g : List Action) (l : List Node), actions (g.map .user ++ l) = g ++ actions l := by
    intro g l
    induction g with
    | nil => rfl
    | cons a g ih => simp [actions, ih]
  have e3 : ∀ p : List (List Action), actions (p.map .priv) = p.flatten := by
    intro p
    induction p with
    | nil => rfl
    | cons a p ih => simp [actions, ih]
  rw [List.append_assoc, e1, e2, e3]
  have f1 : ∀ g : List Action, globalsOf (g.map .global) = g ∧ usersOf (g.map .global) = [] ∧ privatesOf (g.map .global) = [] := by
    intro g
    induction g with
    | nil => simp [globalsOf, usersOf, privatesOf]
    | cons a g ih => simp_all [globalsOf, usersOf, privatesOf]
  have f2 : ∀ g : List Action, globalsOf (g.map .user) = [] ∧ usersOf (g.map .user) = g ∧ privatesOf (g.map .user) = [] := by
    intro g
    induction g with
    | nil => simp [globalsOf, usersOf, privatesOf]
    | cons a g ih => simp_all [globalsOf, usersOf, privatesOf]
  have f3 : ∀ g : List (List Action), globalsOf (g.map .priv) = [] ∧ usersOf (g.map .priv) = [] ∧ privatesOf (g.map .priv) = g := by
    intro g
    induction g with
    | nil => simp [globalsOf, usersOf, privatesOf]
    | cons a g ih => simp_all [globalsOf, usersOf, privatesOf]
  have a1 : ∀ a b : List Node, globalsOf (a ++ b) = globalsOf a ++ globalsOf b ∧ usersOf (a ++ b) = usersOf a ++ usersOf b ∧ privatesOf (a ++ b) = privatesOf a ++ privatesOf b := by
    intro a b
    simp [globalsOf, usersOf, privatesOf]
  simp only [order, a1, f1, f2, f3, List.nil_append, List.append_nil, List.append_assoc]

/-- Before the first frame the actions that end immediately are started in the order of the document, and then run in this order. In the first frame the others are. Missing: actions that
change the environment, see `C159_environment_violated`, and documents in another order, see `C159_order_violated`. -/
theorem C159_order_partial (l : List Node) (hs : Schema l) (ht : Typed l) (hc : Calm l) (r : Nat → Bool) :
    before (read l) = ((actions l).filter fun a => ¬ Takes a.kind).map (.start ·.id) ++ ((actions l).filter fun a => ¬ Takes a.kind).map (.run ·.id) ∧
    (frames (read l) [r]).1 = ((actions l).filter fun a => Takes a.kind).map (.start ·.id) ++ ((actions l).filter fun a => Takes a.kind).map (.run ·.id) := by
  obtain ⟨h1, h2, h3⟩ := ops l ht hc
  have := order_schema l hs
  simp only [soon, late, this] at h1 h2 h3
  refine ⟨h1, ?_⟩
  simp only [frames, frame, h2, h3, List.nil_append]

theorem count_start (l : List Action) (hn : (l.map (·.id)).Nodup) (a : Action) (ha : a ∈ l) (c : Action → Bool) :
    ((l.filter c).map (Op.start ·.id)).count (.start a.id) = (if c a then 1 else 0) ∧ ((l.filter c).map (Op.run ·.id)).count (.run a.id) = (if c a then 1 else 0) ∧
    ((l.filter c).map (Op.start ·.id)).count (.run a.id) = 0 ∧ ((l.filter c).map (Op.run ·.id)).count (.start a.id) = 0 := by
  have other : ∀ (l : List Action), (∀ b ∈ l, b.id ≠ a.id) → (l.map (Op.start ·.id)).count (.start a.id) = 0 ∧ (l.map (Op.run ·.id)).count (.run a.id) = 0 := by
    intro l hl
    constructor <;> refine List.count_eq_zero.2 fun h => ?_ <;> obtain ⟨b, hb, e⟩ := List.mem_map.1 h <;> injection e with e <;> exact hl b hb e
  have ne : ∀ (l : List Action), (l.map (Op.start ·.id)).count (.run a.id) = 0 ∧ (l.map (Op.run ·.id)).count (.start a.id) = 0 := by
    intro l
    constructor <;> refine List.count_eq_zero.2 fun h => ?_ <;> obtain ⟨b, hb, e⟩ := List.mem_map.1 h <;> cases e
  refine ⟨?_, ?_, (ne _).1, (ne _).2⟩
  all_goals
    induction l with
    | nil => cases ha
    | cons b l ih =>
      simp only [List.map_cons, List.nodup_cons] at hn
      rcases List.mem_cons.1 ha with rfl | hm
      · have h0 : ∀ b ∈ l.filter c, b.id ≠ a.id := fun b hb e => hn.1 (e ▸ List.mem_map_of_mem (f := (·.id)) (List.mem_filter.1 hb).1)
        have := other _ h0
        cases hc : c a <;> simp [hc, this]
      · have hne : b.id ≠ a.id := fun e => hn.1 (e ▸ List.mem_map_of_mem (f := (·.id)) hm)
        have := ih hn.2 hm
        cases hc : c b <;> simp [hc, this, hne]

theorem nodup_order {l : List Node} (h : ((actions l).map (·.id)).Nodup) : ((order l).map (·.id)).Nodup := by
  have hp : (order l).Perm (actions l) := List.perm_iff_count.2 (count_order l)
  exact (hp.map _).nodup_iff.2 h

theorem complete_stays (s : Actions) (r : Nat → Bool) (l : List (Nat → Bool)) (h : (frames s l).2 = .complete) : frames s (r :: l) = frames s l := by
  simp only [frames]
  cases hf : frames s l with
  | mk o st =>
    rw [hf] at h
    simp only at h
    subst h
    simp [frame]

/-- An action that ends immediately is started and run exactly once, before the first frame; one that takes time is started exactly once, in the first frame. `f` are the frames, the
last one first. -/
theorem C159_once_partial (l : List Node) (ht : Typed l) (hc : Calm l) (hn : ((actions l).map (·.id)).Nodup) (a : Action) (ha : a ∈ actions l) (f : List (Nat → Bool)) :
    (¬ Takes a.kind → (before (read l)).count (.start a.id) = 1 ∧ (before (read l)).count (.run a.id) = 1 ∧ (frames (read l) f).1.count (.start a.id) = 0 ∧ (frames (read l) f).1.count (.run a.id) = 0) ∧
    (Takes a.kind → (before (read l)).count (.start a.id) = 0 ∧ (before (read l)).count (.run a.id) = 0 ∧ (f ≠ [] → (frames (read l) f).1.count (.start a.id) = 1)) := by
  obtain ⟨h1, h2, h3⟩ := ops l ht hc
  have ha' := (mem_order l a).2 ha
  have hn' := nodup_order hn
  have c1 := count_start (order l) hn' a ha' (fun a => decide (¬ Takes a.kind))
  have c2 := count_start (order l) hn' a ha' (fun a => decide (Takes a.kind))
  constructor
  · intro hk
    have e : (frames (read l) f).1.count (.start a.id) = 0 ∧ (frames (read l) f).1.count (.run a.id) = 0 := by
      induction f with
      | nil => simp [frames]
      | cons r f ih =>
        simp only [frames]
        cases hf : frames (read l) f with
        | mk o st =>
          rw [hf] at ih
          cases st <;> simp only [frame, List.count_append, h2, h3, late, c2, ih, hk, decide_false] <;> simp
    simp only [h1, soon, List.count_append, c1, hk, e]
    simp
  · intro hk
    refine ⟨?_, ?_, ?_⟩
    · simp only [h1, soon, List.count_append, c1, hk]
      simp
    · simp only [h1, soon, List.count_append, c1, hk]
      simp
    · intro hf
      induction f with
      | nil => exact absurd rfl hf
      | cons r f ih =>
        cases hst : (frames (read l) f).2 with
        | standby =>
          have : f = [] := by
            cases f with
            | nil => rfl
            | cons q f =>
              simp only [frames] at hst
              cases hq : (frames (read l) f).2 <;> rw [hq] at hst <;> simp only [frame] at hst <;> (try split at hst) <;> cases hst
          subst this
          simp only [frames, frame, h2, h3, late, List.count_append, c2, hk, List.nil_append]
          simp
        | running =>
          have hne : f ≠ [] := by rintro rfl; simp [frames] at hst
          simp only [frames, hst, frame, List.count_append, h3, late, c2, ih hne]
        | complete =>
          have hne : f ≠ [] := by rintro rfl; simp [frames] at hst
          rw [complete_stays _ _ _ hst]
          exact ih hne

/-- As long as not all are done, an action that takes time is run in each frame; afterwards nothing is done. -/
theorem C159_each_frame_partial (l : List Node) (ht : Typed l) (hc : Calm l) (hn : ((actions l).map (·.id)).Nodup) (a : Action) (ha : a ∈ actions l) (hk : Takes a.kind)
    (r : Nat → Bool) (f : List (Nat → Bool)) :
    ((frames (read l) f).2 ≠ .complete → (frames (read l) (r :: f)).1.count (.run a.id) = (frames (read l) f).1.count (.run a.id) + 1) ∧
    ((frames (read l) f).2 = .complete → frames (read l) (r :: f) = frames (read l) f) := by
  refine ⟨fun h => ?_, complete_stays _ r f⟩
  obtain ⟨-, h2, h3⟩ := ops l ht hc
  have ha' := (mem_order l a).2 ha
  have c2 := count_start (order l) (nodup_order hn) a ha' (fun a => decide (Takes a.kind))
  cases hst : (frames (read l) f).2 with
  | standby =>
    simp only [frames, hst, frame, List.count_append, h2, h3, late, c2, hk]
    simp
  | running =>
    simp only [frames, hst, frame, List.count_append, h3, late, c2, hk]
    simp
  | complete => exact absurd hst h

theorem accomplished_iff (l : List Node) (r : Nat → Bool) : accomplished (read l) r = true ↔ ∀ a ∈ actions l, a.kind.accomplished (r a.id) = true := by
  have e : accomplished (read l) r = (order l).all fun a => a.kind.accomplished (r a.id) := by
    simp only [accomplished, read_eq, order, List.all_append, List.all_flatten]
  rw [e, List.all_eq_true]
  exact ⟨fun h a ha => h a ((mem_order l a).2 ha), fun h a ha => h a ((mem_order l a).1 ha)⟩

theorem complete_iff (s : Actions) (f : List (Nat → Bool)) : (frames s f).2 = .complete ↔ ∃ r ∈ f, accomplished s r = true := by
  induction f with
  | nil => simp [frames]
  | cons r f ih =>
    simp only [frames, List.mem_cons, exists_eq_or_imp, ← ih]
    cases hst : (frames s f).2 <;> cases ha : accomplished s r <;> simp [frame, ha]

/-- The actions are complete as soon as in some frame all that take time have reached their goals. -/
theorem C159_complete_partial (l : List Node) (hc : Calm l) (f : List (Nat → Bool)) :
    (frames (read l) f).2 = .complete ↔ ∃ r ∈ f, ∀ a ∈ actions l, Takes a.kind → r a.id = true := by
  rw [complete_iff]
  refine exists_congr fun r => and_congr_right fun _ => ?_
  rw [accomplished_iff]
  refine forall_congr' fun a => forall_congr' fun ha => ?_
  have := hc a ha
  cases hk : a.kind <;> simp_all [Kind.accomplished, Takes]
  all_goals
    rename_i b
    cases b <;> simp

/-- With an action that changes the environment they are never complete, and so the storyboard is not. -/
theorem C159_environment_violated (l : List Node) (a : Action) (ha : a ∈ actions l) (hk : a.kind = .environment) (f : List (Nat → Bool)) :
    (frames (read l) f).2 ≠ .complete := by
  rw [Ne, complete_iff]
  rintro ⟨r, -, h⟩
  have := (accomplished_iff l r).1 h a ha
  rw [hk] at this
  cases this

/-- A document in another order is not refused, and its order is not kept. -/
theorem C159_order_violated : before (read [.priv [⟨0, .teleport⟩], .global ⟨1, .entity⟩]) = [.start 1, .start 0, .run 1, .run 0] := by decide

/-- Children with other names are ignored. -/
theorem C159_ignored_violated (k l : List Node) (name : String) : read (k ++ .other name :: l) = read (k ++ l) := by
  simp only [read, List.foldl_append, List.foldl_cons, Actions.put]

/-- A document. -/
def document : List Node := [.global ⟨0, .entity⟩, .user ⟨1, .custom false⟩, .user ⟨2, .custom true⟩, .priv [⟨3, .teleport⟩, ⟨4, .laneChange⟩], .priv [⟨5, .speed true⟩]]

example : Schema document ∧ Typed document ∧ Calm document ∧ ((actions document).map (·.id)).Nodup := by
  refine ⟨⟨[⟨0, .entity⟩], [⟨1, .custom false⟩, ⟨2, .custom true⟩], [[⟨3, .teleport⟩, ⟨4, .laneChange⟩], [⟨5, .speed true⟩]], rfl⟩, ⟨?_, ?_, ?_⟩, ?_, by decide⟩
  · simp [document, Global]
  · simp [document]
  · simp [document, Private]
  · simp [Calm, document, actions]
example : before (read document) = [.start 0, .start 2, .start 3, .start 5, .run 0, .run 2, .run 3, .run 5] := by decide
example : frames (read document) [fun _ => true, fun _ => true, fun i => decide (i = 1)] = ([.start 1, .start 4, .run 1, .run 4, .run 1, .run 4], .complete) := by decide

end Verif.Init
