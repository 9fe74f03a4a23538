import Verif.Select.Spec

namespace Verif.Select

/-! ### The table -/

theorem lookup_put (t : Table) (name : String) (e : Entity) (n : String) :
    (put t name e).lookup n =
      if (t.lookup n).isSome then t.lookup n else if n = name then some e else none := by
  unfold put
  by_cases h : (t.lookup name).isSome
  · rw [if_pos h]
    by_cases h2 : (t.lookup n).isSome
    · rw [if_pos h2]
    · rw [if_neg h2]
      by_cases h3 : n = name
      · subst h3; exact absurd h h2
      · rw [if_neg h3]; exact Option.not_isSome_iff_eq_none.1 h2
  · rw [if_neg h, List.lookup_append]
    by_cases h2 : (t.lookup n).isSome
    · rw [if_pos h2]
      obtain ⟨v, hv⟩ := Option.isSome_iff_exists.1 h2
      simp [hv]
    · rw [if_neg h2]
      have : t.lookup n = none := Option.not_isSome_iff_eq_none.1 h2
      rw [this]
      by_cases h3 : n = name
      · subst h3; simp [List.lookup]
      · simp [List.lookup, h3, beq_eq_false_iff_ne.2 h3]

theorem put_keeps (t : Table) (name : String) (e : Entity) {n : String} {x : Entity}
    (h : t.lookup n = some x) : (put t name e).lookup n = some x := by
  rw [lookup_put]; simp [h]

theorem put_isSome (t : Table) (name : String) (e : Entity) (n : String) :
    ((put t name e).lookup n).isSome ↔ (t.lookup n).isSome ∨ n = name := by
  rw [lookup_put]
  by_cases h2 : (t.lookup n).isSome
  · simp [h2]
  · rw [if_neg h2]
    by_cases h3 : n = name <;> simp [h3, h2]

theorem readObjects_cons (t : Table) (o : Obj) (os : List Obj) :
    readObjects t (o :: os) = readObjects (put t o.name (.object o.name o.kind)) os := rfl

theorem readObjects_keeps (os : List Obj) : ∀ (t : Table) {n : String} {x : Entity},
    t.lookup n = some x → (readObjects t os).lookup n = some x := by
  induction os with
  | nil => intro t n x h; exact h
  | cons o os ih => intro t n x h; rw [readObjects_cons]; exact ih _ (put_keeps _ _ _ h)

theorem readObjects_isSome (os : List Obj) : ∀ (t : Table) (n : String),
    ((readObjects t os).lookup n).isSome ↔ (t.lookup n).isSome ∨ n ∈ os.map Obj.name := by
  induction os with
  | nil => intro t n; simp [readObjects]
  | cons o os ih =>
    intro t n
    rw [readObjects_cons, ih, put_isSome]
    simp [or_assoc]

theorem refs_ok (t : Table) : ∀ (ns : List String) (xs : List Entity),
    refs t ns = .ok xs ↔ ns.map (fun n => t.lookup n) = xs.map some := by
  intro ns
  induction ns with
  | nil => intro xs; cases xs <;> simp [refs]
  | cons n ns ih =>
    intro xs
    unfold refs ref
    cases hl : t.lookup n with
    | none => cases xs <;> simp [hl]
    | some x =>
      cases hr : refs t ns with
      | error e =>
        constructor
        · intro h; simp at h
        · intro h
          cases xs with
          | nil => simp at h
          | cons y ys =>
            simp only [List.map_cons, List.cons.injEq] at h
            have := (ih ys).2 h.2
            rw [hr] at this; cases this
      | ok ys =>
        have hys := (ih ys).1 hr
        cases xs with
        | nil => simp
        | cons z zs =>
          simp only [Except.ok.injEq, List.cons.injEq, List.map_cons, hl, Option.some.injEq]
          constructor
          · rintro ⟨rfl, rfl⟩; exact ⟨rfl, hys⟩
          · rintro ⟨rfl, h⟩
            have := (ih zs).2 h
            rw [hr] at this
            exact ⟨rfl, by cases this; rfl⟩

theorem refs_good (t : Table) : ∀ ns : List String,
    (∃ xs, refs t ns = .ok xs) ↔ ∀ n ∈ ns, (t.lookup n).isSome := by
  intro ns
  induction ns with
  | nil => simp [refs]
  | cons n ns ih =>
    unfold refs ref
    cases hl : t.lookup n with
    | none => simp only [reduceCtorEq, exists_false, List.mem_cons, forall_eq_or_imp, hl]; simp
    | some x =>
      cases hr : refs t ns with
      | error e =>
        simp only [List.mem_cons, forall_eq_or_imp, hl, Option.isSome_some, true_and]
        rw [← ih, hr]
      | ok ys =>
        simp only [List.mem_cons, forall_eq_or_imp, hl, Option.isSome_some, true_and]
        rw [← ih, hr]
        simp

theorem readSelection_good (t : Table) (before : List String) (name : String) (ms : Members)
    (hb : ∀ n, (t.lookup n).isSome ↔ n ∈ before) :
    (∃ e, readSelection t name ms = .ok e) ↔ ms.Good before := by
  cases ms with
  | refs ns =>
    unfold readSelection Members.Good
    simp only
    have hg := refs_good t ns
    simp only [hb] at hg
    cases hr : refs t ns with
    | error e =>
      rw [hr] at hg
      simp only [reduceCtorEq, exists_false, false_iff] at hg ⊢
      exact fun h => hg (And.right h)
    | ok xs =>
      rw [hr] at hg
      have hg' := hg.1 ⟨xs, rfl⟩
      cases ns with
      | nil => simp
      | cons n ns =>
        simp only [List.isEmpty_cons, Bool.false_eq_true, if_false, ne_eq, reduceCtorEq, not_false_eq_true,
          true_and]
        exact ⟨fun _ => hg', fun _ => ⟨_, rfl⟩⟩
  | types ks => cases ks <;> simp [readSelection, Members.Good]
  | neither => simp [readSelection, Members.Good]
  | both => simp [readSelection, Members.Good]

theorem readSelections_good : ∀ (ss : List (String × Members)) (t : Table) (before : List String),
    (∀ n, (t.lookup n).isSome ↔ n ∈ before) →
    ((∃ t', readSelections t ss = .ok t') ↔ Ordered before ss) := by
  intro ss
  induction ss with
  | nil => intro t before _; simp [readSelections, Ordered]
  | cons a ss ih =>
    obtain ⟨name, ms⟩ := a
    intro t before hb
    unfold readSelections Ordered
    have h1 := readSelection_good t before name ms hb
    cases hr : readSelection t name ms with
    | error e =>
      rw [hr] at h1
      simp only [reduceCtorEq, exists_false, false_iff] at h1 ⊢
      exact fun h => h1 h.1
    | ok e =>
      rw [hr] at h1
      have h2 := ih (put t name e) (before ++ [name]) (by
        intro n; rw [put_isSome, hb]; simp)
      simp only [h2]
      exact ⟨fun h => ⟨h1.1 ⟨e, rfl⟩, h⟩, fun h => h.2⟩

theorem readSelections_keeps : ∀ (ss : List (String × Members)) (t t' : Table),
    readSelections t ss = .ok t' → ∀ {n : String} {x : Entity}, t.lookup n = some x → t'.lookup n = some x := by
  intro ss
  induction ss with
  | nil => intro t t' h n x hx; cases h; exact hx
  | cons a ss ih =>
    obtain ⟨name, ms⟩ := a
    intro t t' h n x hx
    unfold readSelections at h
    cases hr : readSelection t name ms with
    | error e => rw [hr] at h; cases h
    | ok e => rw [hr] at h; exact ih _ _ h (put_keeps _ _ _ hx)

theorem readSelections_isSome : ∀ (ss : List (String × Members)) (t t' : Table),
    readSelections t ss = .ok t' → ∀ n,
      ((t'.lookup n).isSome ↔ (t.lookup n).isSome ∨ n ∈ ss.map Prod.fst) := by
  intro ss
  induction ss with
  | nil => intro t t' h n; cases h; simp
  | cons a ss ih =>
    obtain ⟨name, ms⟩ := a
    intro t t' h n
    unfold readSelections at h
    cases hr : readSelection t name ms with
    | error e => rw [hr] at h; cases h
    | ok e =>
      rw [hr] at h
      rw [ih _ _ h n, put_isSome]
      simp [or_assoc]

/-! ### C184: a name stands for the entity declared with it -/

/-- **C184.** Which declarations are read: exactly those whose selections each have members, by name or by
type, and name only what is declared before them; anything else is refused. -/
theorem C184_read (os : List Obj) (ss : List (String × Members)) :
    (∃ t, readEntities os ss = .ok t) ↔ Ordered (os.map Obj.name) ss := by
  apply readSelections_good
  intro n
  rw [readObjects_isSome]
  simp

/-- **C184.** A name can be referred to exactly if it is declared; another is an error. -/
theorem C184_known (os : List Obj) (ss : List (String × Members)) (t : Table)
    (h : readEntities os ss = .ok t) (n : String) :
    (n ∈ names os ss → ∃ e, ref t n = .ok e) ∧ (n ∉ names os ss → ref t n = .error .undeclared) := by
  have h1 := readSelections_isSome ss _ t h n
  rw [readObjects_isSome] at h1
  have h2 : (t.lookup n).isSome ↔ n ∈ names os ss := by
    rw [h1]; simp [names]
  constructor
  · intro hn
    obtain ⟨e, he⟩ := Option.isSome_iff_exists.1 (h2.2 hn)
    exact ⟨e, by simp [ref, he]⟩
  · intro hn
    have : t.lookup n = none := by
      cases hl : t.lookup n with
      | none => rfl
      | some x => exact absurd (h2.1 (by simp [hl])) hn
    simp [ref, this]

theorem readObjects_get (os : List Obj) : ∀ (t : Table) (o : Obj), o ∈ os → (os.map Obj.name).Nodup →
    t.lookup o.name = none → (readObjects t os).lookup o.name = some (.object o.name o.kind) := by
  induction os with
  | nil => intro t o h; cases h
  | cons a os ih =>
    intro t o h hn ht
    rw [readObjects_cons]
    rw [List.map_cons, List.nodup_cons] at hn
    rcases List.mem_cons.1 h with rfl | h
    · apply readObjects_keeps
      rw [lookup_put]; simp [ht]
    · apply ih _ o h hn.2
      rw [lookup_put]
      have : o.name ≠ a.name := fun he => hn.1 (he ▸ List.mem_map_of_mem h)
      simp [ht, this]

/-- **C184.** With names all different, an object's name stands for that object, with its type. -/
theorem C184_object_partial (os : List Obj) (ss : List (String × Members)) (t : Table)
    (h : readEntities os ss = .ok t) (hn : (names os ss).Nodup) (o : Obj) (ho : o ∈ os) :
    ref t o.name = .ok (.object o.name o.kind) := by
  have hd : (os.map Obj.name).Nodup := (List.nodup_append.1 hn).1
  have := readSelections_keeps ss _ t h (readObjects_get os [] o ho hd rfl)
  simp [ref, this]

theorem readSelections_get : ∀ (ss : List (String × Members)) (t t' : Table),
    readSelections t ss = .ok t' → (ss.map Prod.fst).Nodup → (∀ n ∈ ss.map Prod.fst, t.lookup n = none) →
    ∀ name ms, (name, ms) ∈ ss → ∃ t0 e, readSelection t0 name ms = .ok e ∧ t'.lookup name = some e ∧
      ∀ n x, t0.lookup n = some x → t'.lookup n = some x := by
  intro ss
  induction ss with
  | nil => intro t t' _ _ _ name ms h; cases h
  | cons a ss ih =>
    obtain ⟨nm, m⟩ := a
    intro t t' h hn ht name ms hm
    unfold readSelections at h
    cases hr : readSelection t nm m with
    | error e => rw [hr] at h; cases h
    | ok e =>
      rw [hr] at h
      rw [List.map_cons, List.nodup_cons] at hn
      rcases List.mem_cons.1 hm with heq | hm
      · cases heq
        refine ⟨t, e, hr, ?_, ?_⟩
        · apply readSelections_keeps ss _ _ h
          rw [lookup_put, ht nm (by simp)]; simp
        · intro n x hx
          exact readSelections_keeps ss _ _ h (put_keeps _ _ _ hx)
      · refine ih _ _ h hn.2 ?_ name ms hm
        intro n hnm
        rw [lookup_put, ht n (by simp at hnm ⊢; exact Or.inr hnm)]
        have : n ≠ nm := fun he => hn.1 (he ▸ hnm)
        simp [this]

theorem selection_get {os : List Obj} {ss : List (String × Members)} {t : Table}
    (h : readEntities os ss = .ok t) (hn : (names os ss).Nodup) (name : String) (ms : Members)
    (hs : (name, ms) ∈ ss) : ∃ t0 e, readSelection t0 name ms = .ok e ∧ t.lookup name = some e ∧
      ∀ n x, t0.lookup n = some x → t.lookup n = some x := by
  obtain ⟨h1, h2, h3⟩ := List.nodup_append.1 hn
  refine readSelections_get ss _ t h h2 ?_ name ms hs
  intro n hm
  cases hl : (readObjects [] os).lookup n with
  | none => rfl
  | some x =>
    have := (readObjects_isSome os [] n).1 (by simp [hl])
    simp only [List.lookup_nil, Option.isSome_none, Bool.false_eq_true, false_or] at this
    exact absurd rfl (h3 n this n hm)

/-- **C184.** With names all different, the name of a selection by type stands for that selection. -/
theorem C184_bytype_partial (os : List Obj) (ss : List (String × Members)) (t : Table)
    (h : readEntities os ss = .ok t) (hn : (names os ss).Nodup) (name : String) (ks : List Kind)
    (hs : (name, .types ks) ∈ ss) : ref t name = .ok (.selection name [] ks) := by
  obtain ⟨t0, e, hr, hl, _⟩ := selection_get h hn name _ hs
  unfold readSelection at hr
  simp only at hr
  split at hr
  · cases hr
  · cases hr; simp [ref, hl]

/-- **C184.** With names all different, the name of a selection by name stands for that selection, of the
entities its references name, in their order. -/
theorem C184_selection_partial (os : List Obj) (ss : List (String × Members)) (t : Table)
    (h : readEntities os ss = .ok t) (hn : (names os ss).Nodup) (name : String) (ns : List String)
    (hs : (name, .refs ns) ∈ ss) :
    ∃ xs, ref t name = .ok (.selection name xs []) ∧ ns.map (fun n => ref t n) = xs.map .ok := by
  obtain ⟨t0, e, hr, hl, hk⟩ := selection_get h hn name _ hs
  have href : ref t name = .ok e := by simp [ref, hl]
  unfold readSelection at hr
  simp only at hr
  cases hx : refs t0 ns with
  | error e => rw [hx] at hr; cases hr
  | ok xs =>
    rw [hx] at hr
    simp only at hr
    split at hr
    · cases hr
    · rename_i hnil
      cases hr
      refine ⟨xs, href, ?_⟩
      have hxs := (refs_ok t0 ns xs).1 hx
      clear hs href hl hx hnil
      induction ns generalizing xs with
      | nil => cases xs <;> simp_all
      | cons n ns ih =>
        cases xs with
        | nil => simp at hxs
        | cons x xs =>
          simp only [List.map_cons, List.cons.injEq] at hxs ⊢
          refine ⟨by simp [ref, hk n x hxs.1], ?_⟩
          exact ih xs hxs.2

/-- Two cars, a walker, a selection by name, one by type, one of selections. -/
def osEx : List Obj := [⟨"ego", .vehicle⟩, ⟨"car", .vehicle⟩, ⟨"bob", .pedestrian⟩]

/-- Their selections. -/
def ssEx : List (String × Members) :=
  [("pair", .refs ["ego", "bob"]), ("cars", .types [.vehicle]), ("both", .refs ["pair", "car"])]

example : Ordered (osEx.map Obj.name) ssEx ∧ (names osEx ssEx).Nodup := by
  refine ⟨?_, by decide⟩
  simp [Ordered, Members.Good, ssEx, osEx]

/-- **C184, not so.** Two entities of one name are both read without complaint, and the name stands for the
first: the second can not be referred to, not even as one of a type. -/
theorem C184_twice_violated :
    ∃ t, readEntities [⟨"npc", .vehicle⟩, ⟨"npc", .pedestrian⟩] [("npc", .types [.pedestrian])] = .ok t ∧
      ref t "npc" = .ok (.object "npc" .vehicle) ∧ objectsOf t [.pedestrian] = [] :=
  ⟨_, rfl, rfl, rfl⟩

/-! ### C185: a selection stands for its members -/

theorem mem_objectsOf (t : Table) (ks : List Kind) (n : String) :
    n ∈ objectsOf t ks ↔ ∃ m k, (n, Entity.object m k) ∈ t ∧ k ∈ ks := by
  unfold objectsOf
  rw [List.mem_filterMap]
  constructor
  · rintro ⟨⟨a, e⟩, ha, hn⟩
    cases e with
    | object m k =>
      simp only [nameIf] at hn
      split at hn
      · cases hn; exact ⟨m, k, ha, by assumption⟩
      · cases hn
    | selection _ _ _ => simp [nameIf] at hn
  · rintro ⟨m, k, ha, hk⟩
    exact ⟨_, ha, by simp [nameIf, hk]⟩

theorem memberObjects_mem (t : Table) (n : String) : ∀ ms : List Entity,
    n ∈ memberObjects t ms ↔ ∃ m ∈ ms, n ∈ m.objects t := by
  intro ms
  induction ms with
  | nil => simp [memberObjects]
  | cons m ms ih => simp [memberObjects, ih]

theorem objects_selection (t : Table) (n name : String) (ms : List Entity) (ks : List Kind) :
    n ∈ (Entity.selection name ms ks).objects t ↔
      (∃ m ∈ ms, n ∈ m.objects t) ∨ (ms = [] ∧ n ∈ objectsOf t ks) := by
  cases ms with
  | nil => simp [Entity.objects]
  | cons m ms => simp [Entity.objects, memberObjects_mem]

theorem objects_belongs (t : Table) (n : String) : ∀ e : Entity, n ∈ e.objects t → Belongs t n e
  | .object m k, h => by
    simp only [Entity.objects, List.mem_singleton] at h
    subst h; exact .self _ _
  | .selection name ms ks, h => by
    rw [objects_selection] at h
    rcases h with ⟨m, hm, h⟩ | ⟨rfl, h⟩
    · exact .member _ _ _ _ m hm (objects_belongs t n m h)
    · obtain ⟨m, k, h1, h2⟩ := (mem_objectsOf t ks n).1 h
      exact .type _ m _ _ k h1 h2

/-- **C185.** The objects an entity stands for are exactly those that belong to it: itself if it is an object;
the objects of its members, however deep; or all objects declared of its types. -/
theorem C185_objects (t : Table) (n : String) (e : Entity) : n ∈ e.objects t ↔ Belongs t n e := by
  constructor
  · exact objects_belongs t n e
  · intro h
    induction h with
    | self k => simp [Entity.objects]
    | member name ms ks m hm _ ih => rw [objects_selection]; exact Or.inl ⟨m, hm, ih⟩
    | type m name ks k h1 h2 =>
      rw [objects_selection]; exact Or.inr ⟨rfl, (mem_objectsOf t ks _).2 ⟨m, k, h1, h2⟩⟩

/-! All that belongs to an entity that was read is an object declared. -/

/-- Every entity of the table, and the key of every object, comes from the declarations. -/
inductive Known (os : List Obj) : Entity → Prop
  | object (o : Obj) : o ∈ os → Known os (.object o.name o.kind)
  | selection (name : String) (ms : List Entity) (ks : List Kind) :
      (∀ m ∈ ms, Known os m) → Known os (.selection name ms ks)

/-- The same for a table. -/
def KnownTable (os : List Obj) (t : Table) : Prop :=
  ∀ n e, (n, e) ∈ t → Known os e ∧ ∀ m k, e = .object m k → n = m

theorem lookup_mem : ∀ (t : Table) {n : String} {e : Entity}, t.lookup n = some e → (n, e) ∈ t := by
  intro t
  induction t with
  | nil => intro n e h; simp at h
  | cons a t ih =>
    obtain ⟨m, x⟩ := a
    intro n e h
    by_cases hm : n = m
    · subst hm; simp [List.lookup] at h; simp [h]
    · simp [List.lookup, beq_eq_false_iff_ne.2 hm] at h
      exact List.mem_cons_of_mem _ (ih h)

theorem known_put {os : List Obj} {t : Table} (h : KnownTable os t) (name : String) (e : Entity)
    (he : Known os e) (hn : ∀ m k, e = .object m k → name = m) : KnownTable os (put t name e) := by
  unfold put
  split
  · exact h
  · intro n x hx
    rcases List.mem_append.1 hx with hx | hx
    · exact h n x hx
    · simp only [List.mem_singleton, Prod.mk.injEq] at hx
      obtain ⟨rfl, rfl⟩ := hx
      exact ⟨he, hn⟩

theorem known_objects (os : List Obj) : ∀ (l : List Obj) (t : Table), (∀ o ∈ l, o ∈ os) → KnownTable os t →
    KnownTable os (readObjects t l) := by
  intro l
  induction l with
  | nil => intro t _ h; exact h
  | cons o l ih =>
    intro t hl h
    rw [readObjects_cons]
    refine ih _ (fun x hx => hl x (List.mem_cons_of_mem _ hx)) (known_put h _ _ (.object o (hl o (by simp))) ?_)
    intro m k he; cases he; rfl

theorem known_selection {os : List Obj} {t : Table} (h : KnownTable os t) (name : String) (ms : Members)
    (e : Entity) (hr : readSelection t name ms = .ok e) :
    Known os e ∧ ∀ m k, e = .object m k → name = m := by
  cases ms with
  | refs ns =>
    unfold readSelection at hr
    simp only at hr
    cases hx : refs t ns with
    | error e => rw [hx] at hr; cases hr
    | ok xs =>
      rw [hx] at hr
      simp only at hr
      split at hr
      · cases hr
      · cases hr
        refine ⟨.selection _ _ _ ?_, fun m k he => by cases he⟩
        have hxs := (refs_ok t ns xs).1 hx
        intro m hm
        have : some m ∈ ns.map fun n => t.lookup n := by rw [hxs]; exact List.mem_map_of_mem hm
        obtain ⟨n, -, hn⟩ := List.mem_map.1 this
        exact (h n m (lookup_mem t hn)).1
  | types ks =>
    unfold readSelection at hr
    simp only at hr
    split at hr
    · cases hr
    · cases hr
      exact ⟨.selection _ _ _ (by simp), fun m k he => by cases he⟩
  | neither => cases hr
  | both => cases hr

theorem known_selections {os : List Obj} : ∀ (ss : List (String × Members)) (t t' : Table), KnownTable os t →
    readSelections t ss = .ok t' → KnownTable os t' := by
  intro ss
  induction ss with
  | nil => intro t t' h hr; cases hr; exact h
  | cons a ss ih =>
    obtain ⟨name, ms⟩ := a
    intro t t' h hr
    unfold readSelections at hr
    cases hs : readSelection t name ms with
    | error e => rw [hs] at hr; cases hr
    | ok e =>
      rw [hs] at hr
      obtain ⟨h1, h2⟩ := known_selection h name ms e hs
      exact ih _ _ (known_put h _ _ h1 h2) hr

theorem known_read {os : List Obj} {ss : List (String × Members)} {t : Table}
    (h : readEntities os ss = .ok t) : KnownTable os t :=
  known_selections ss _ t (known_objects os os [] (fun _ h => h) (by intro n e h; cases h)) h

theorem known_belongs {os : List Obj} {t : Table} (ht : KnownTable os t) {n : String} {e : Entity}
    (h : Belongs t n e) : Known os e → ∃ o ∈ os, o.name = n := by
  induction h with
  | self k => intro hk; cases hk with | object o ho => exact ⟨o, ho, rfl⟩
  | member name ms ks m hm _ ih => intro hk; cases hk with | selection _ _ _ h => exact ih (h m hm)
  | type m name ks k h1 _ =>
    intro _
    obtain ⟨h3, h4⟩ := ht _ _ h1
    cases h3 with
    | object o ho => exact ⟨o, ho, (h4 _ _ rfl).symm⟩

/-- **C185.** Whatever an entity of the scenario stands for is declared as an object in it. -/
theorem C185_declared (os : List Obj) (ss : List (String × Members)) (t : Table)
    (h : readEntities os ss = .ok t) (name : String) (e : Entity) (he : ref t name = .ok e) (n : String)
    (hn : n ∈ e.objects t) : ∃ o ∈ os, o.name = n := by
  have hl : t.lookup name = some e := by
    unfold ref at he
    cases hl : t.lookup name with
    | none => rw [hl] at he; cases he
    | some x => rw [hl] at he; cases he; rfl
  exact known_belongs (known_read h) (objects_belongs t n e hn) ((known_read h) name e (lookup_mem t hl)).1

theorem readObjects_mem (os : List Obj) : ∀ (t : Table), (os.map Obj.name).Nodup →
    (∀ o ∈ os, t.lookup o.name = none) → readObjects t os = t ++ os.map (fun o => (o.name, .object o.name o.kind)) := by
  induction os with
  | nil => intro t _ _; simp [readObjects]
  | cons o os ih =>
    intro t hn ht
    rw [List.map_cons, List.nodup_cons] at hn
    rw [readObjects_cons]
    have h1 : put t o.name (.object o.name o.kind) = t ++ [(o.name, .object o.name o.kind)] := by
      unfold put; simp [ht o (by simp)]
    rw [ih _ hn.2, h1]
    · simp
    · intro x hx
      rw [lookup_put, ht x (List.mem_cons_of_mem _ hx)]
      have : x.name ≠ o.name := fun he => hn.1 (he ▸ List.mem_map_of_mem hx)
      simp [this]

/-- **C185.** With names all different, a selection by type stands for exactly the objects declared with one
of the types. -/
theorem C185_types_partial (os : List Obj) (ss : List (String × Members)) (t : Table)
    (h : readEntities os ss = .ok t) (hn : (names os ss).Nodup) (ks : List Kind) (n : String) (name : String) :
    n ∈ (Entity.selection name [] ks).objects t ↔ ∃ o ∈ os, o.name = n ∧ o.kind ∈ ks := by
  show n ∈ objectsOf t ks ↔ _
  rw [mem_objectsOf]
  constructor
  · rintro ⟨m, k, hm, hk⟩
    obtain ⟨h1, h2⟩ := known_read h n _ hm
    cases h1 with
    | object o ho => exact ⟨o, ho, (h2 _ _ rfl).symm, hk⟩
  · rintro ⟨o, ho, rfl, hk⟩
    have hr := C184_object_partial os ss t h hn o ho
    have hl : t.lookup o.name = some (.object o.name o.kind) := by
      unfold ref at hr
      cases hl : t.lookup o.name with
      | none => rw [hl] at hr; cases hr
      | some x => rw [hl] at hr; cases hr; rfl
    exact ⟨_, _, lookup_mem t hl, hk⟩

/-- **C185.** A selection of names stands for what its names stand for, together. -/
theorem C185_refs_partial (os : List Obj) (ss : List (String × Members)) (t : Table)
    (h : readEntities os ss = .ok t) (hn : (names os ss).Nodup) (name : String) (ns : List String)
    (hs : (name, .refs ns) ∈ ss) (e : Entity) (he : ref t name = .ok e) (n : String) :
    n ∈ e.objects t ↔ ∃ m ∈ ns, ∃ x, ref t m = .ok x ∧ n ∈ x.objects t := by
  obtain ⟨xs, h1, h2⟩ := C184_selection_partial os ss t h hn name ns hs
  rw [h1] at he
  cases he
  have hord : ns ≠ [] := by
    have hg := (C184_read os ss).1 ⟨t, h⟩
    generalize os.map Obj.name = b at hg
    clear h hn h1 h2
    induction ss generalizing b with
    | nil => cases hs
    | cons a ss ih =>
      obtain ⟨nm, m⟩ := a
      rcases List.mem_cons.1 hs with heq | hs
      · cases heq; exact hg.1.1
      · exact ih hs _ hg.2
  rw [objects_selection]
  constructor
  · rintro (⟨x, hx, hnx⟩ | ⟨rfl, _⟩)
    · have : (Except.ok x : Except Error Entity) ∈ ns.map fun n => ref t n := by
        rw [h2]; exact List.mem_map_of_mem hx
      obtain ⟨m, hm, hmx⟩ := List.mem_map.1 this
      exact ⟨m, hm, x, hmx, hnx⟩
    · exact absurd (List.map_eq_nil_iff.1 h2) hord
  · rintro ⟨m, hm, x, hmx, hnx⟩
    have : ref t m ∈ xs.map .ok := by rw [← h2]; exact List.mem_map_of_mem hm
    obtain ⟨y, hy, hxy⟩ := List.mem_map.1 this
    rw [hmx] at hxy
    cases hxy
    exact Or.inl ⟨x, hy, hnx⟩

example : ∃ t e, readEntities osEx ssEx = .ok t ∧ ref t "both" = .ok e ∧ e.objects t = ["ego", "bob", "car"] :=
  ⟨_, _, rfl, rfl, rfl⟩

/-! ### C186: the collision condition -/

theorem allOf_value (f : String → Bool) : ∀ os : List String,
    allOf (fun o => .value (f o)) os = .value (os.all f) := by
  intro os
  induction os with
  | nil => rfl
  | cons o os ih => simp [allOf, ih]

theorem apply_value (r : Rule) (f : Entity → Bool) : ∀ es : List Entity, ∃ b,
    r.apply (fun e => .value (f e)) es = .value b ∧ (b = true ↔ r.Holds (fun e => f e = true) es) := by
  intro es
  induction es with
  | nil => cases r <;> simp [Rule.apply, Rule.Holds]
  | cons e es ih =>
    obtain ⟨b, hb, hh⟩ := ih
    cases r with
    | all =>
      cases hf : f e with
      | true => exact ⟨b, by simp [Rule.apply, hf, hb], by simpa [Rule.Holds, hf] using hh⟩
      | false => exact ⟨false, by simp [Rule.apply, hf], by simp [Rule.Holds, hf]⟩
    | any =>
      cases hf : f e with
      | true => exact ⟨true, by simp [Rule.apply, hf], by simp [Rule.Holds, hf]⟩
      | false => exact ⟨b, by simp [Rule.apply, hf, hb], by simpa [Rule.Holds, hf] using hh⟩

theorem holds_congr (r : Rule) (p q : Entity → Prop) (h : ∀ e, p e ↔ q e) (es : List Entity) :
    r.Holds p es ↔ r.Holds q es := by
  have : p = q := funext fun e => propext (h e)
  rw [this]

theorem checkCollision_iff (s : Sim) (a b : String) : checkCollision s a b = true ↔ s.Hit a b := by
  unfold checkCollision Sim.Hit
  by_cases h : a ≠ b ∧ s.alive a ∧ s.alive b
  · rw [if_pos h]; exact ⟨fun ht => ⟨h.1, h.2.1, h.2.2, ht⟩, fun ht => ht.2.2.2⟩
  · rw [if_neg h]
    constructor
    · intro h; cases h
    · intro ht; exact absurd ⟨ht.1, ht.2.1, ht.2.2.1⟩ h

theorem all_does (t : Table) (f : String → Bool) (p : String → Prop) (h : ∀ o, f o = true ↔ p o) (e : Entity) :
    (e.objects t).all f = true ↔ Does t p e := by
  rw [List.all_eq_true]
  unfold Does
  constructor
  · intro h1 o ho; exact (h o).1 (h1 o ((C185_objects t o e).2 ho))
  · intro h1 o ho; exact (h o).2 (h1 o ((C185_objects t o e).1 ho))

/-- **C186.** A collision condition against an object holds exactly if the object has been added to the
scenario and all, or any, of the triggering entities collide with it, a selection doing so when each of its
objects does. Two collide that are two, both there, and overlap: an entity never collides with itself. -/
theorem C186_object (t : Table) (s : Sim) (rule : Rule) (ts : List Entity) (b : String) (k : Kind) :
    ∃ v, collision t s rule ts (.entity (.object b k)) = .value v ∧
      (v = true ↔ s.added b = true ∧ rule.Holds (Does t fun o => s.Hit o b) ts) := by
  unfold collision
  simp only [isAdded, Entity.objects, List.all_cons, List.all_nil, Bool.and_true, collides, allOf_value]
  cases ha : s.added b with
  | false => exact ⟨false, by simp, by simp⟩
  | true =>
    obtain ⟨v, hv, hh⟩ := apply_value rule (fun x => (x.objects t).all fun o => checkCollision s o b) ts
    refine ⟨v, by simpa using hv, ?_⟩
    rw [hh, holds_congr rule _ _ (fun e => all_does t _ _ (fun o => checkCollision_iff s o b) e)]
    simp

/-- **C186.** A collision condition against a type holds exactly if all, or any, of the triggering entities
collide with some declared object of that type. -/
theorem C186_type (t : Table) (s : Sim) (rule : Rule) (ts : List Entity) (k : Kind) :
    ∃ v, collision t s rule ts (.byType k) = .value v ∧
      (v = true ↔ rule.Holds (Does t fun o => ∃ b m, (b, Entity.object m k) ∈ t ∧ s.Hit o b) ts) := by
  unfold collision
  simp only [allOf_value]
  obtain ⟨v, hv, hh⟩ := apply_value rule
    (fun x => (x.objects t).all fun o => (objectsOf t [k]).any fun y => checkCollision s o y) ts
  refine ⟨v, hv, ?_⟩
  rw [hh]
  apply holds_congr
  intro e
  apply all_does
  intro o
  rw [List.any_eq_true]
  constructor
  · rintro ⟨b, hb, hc⟩
    obtain ⟨m, k', h1, h2⟩ := (mem_objectsOf t [k] b).1 hb
    rw [List.mem_singleton] at h2
    subst h2
    exact ⟨b, m, h1, (checkCollision_iff s o b).1 hc⟩
  · rintro ⟨b, m, h1, hc⟩
    exact ⟨b, (mem_objectsOf t [k] b).2 ⟨m, k, h1, by simp⟩, (checkCollision_iff s o b).2 hc⟩

/-- **C186.** If the condition holds of any of the triggering entities, against an object, and none of them is
without objects, there is a collision: an object that belongs to one of them does collide. -/
theorem C186_collides_partial (t : Table) (s : Sim) (ts : List Entity) (b : String) (k : Kind)
    (hne : ∀ e ∈ ts, ∃ o, Belongs t o e)
    (h : collision t s .any ts (.entity (.object b k)) = .value true) :
    ∃ e ∈ ts, ∃ o, Belongs t o e ∧ s.Hit o b := by
  obtain ⟨v, hv, hh⟩ := C186_object t s .any ts b k
  rw [h] at hv
  cases hv
  obtain ⟨_, e, he, hd⟩ := hh.1 rfl
  obtain ⟨o, ho⟩ := hne e he
  exact ⟨e, he, o, ho, hd o ho⟩

/-- What can be asked for is an entity declared, or a type other than `external`. -/
theorem C186_read (t : Table) (a : String ⊕ Kind) (x : Another) :
    readAnother t a = .ok x ↔
      (∃ n e, a = .inl n ∧ ref t n = .ok e ∧ x = .entity e) ∨ (∃ k, a = .inr k ∧ k ≠ .external ∧ x = .byType k) := by
  unfold readAnother
  cases a with
  | inl n =>
    cases hr : ref t n with
    | error e =>
      simp only [hr]
      constructor
      · intro h; cases h
      · rintro (⟨n', e', h1, h2, _⟩ | ⟨k, h1, _⟩)
        · cases h1; rw [hr] at h2; cases h2
        · cases h1
    | ok e =>
      simp only [hr]
      constructor
      · intro h; cases h; exact Or.inl ⟨n, e, rfl, hr, rfl⟩
      · rintro (⟨n', e', h1, h2, rfl⟩ | ⟨k, h1, _⟩)
        · cases h1; rw [hr] at h2; cases h2; rfl
        · cases h1
  | inr k =>
    by_cases hk : k = .external
    · simp [hk]
    · simp [hk, eq_comm]

/-- Two cars that overlap, and a walker apart. -/
def simEx : Sim where
  added := fun _ => true
  alive := fun _ => true
  touch := fun a b => (a == "ego" && b == "car") || (a == "car" && b == "ego")

example : ∃ t, readEntities osEx ssEx = .ok t ∧
    collision t simEx .any [.object "bob" .pedestrian, .object "ego" .vehicle] (.entity (.object "car" .vehicle)) = .value true ∧
    collision t simEx .all [.object "bob" .pedestrian, .object "ego" .vehicle] (.entity (.object "car" .vehicle)) = .value false ∧
    collision t simEx .all [.selection "cars" [] [.vehicle]] (.byType .vehicle) = .value true ∧
    collision t simEx .any [.object "ego" .vehicle] (.byType .pedestrian) = .value false :=
  ⟨_, rfl, rfl, rfl, rfl, rfl⟩

/-- **C186, not so.** A selection without objects collides with everything, itself no less: the condition
"does any of these collide with the car" is true in a scenario where nothing overlaps anything. -/
theorem C186_nothing_violated :
    ∃ t e, readEntities [⟨"car", .vehicle⟩] [("walkers", .types [.pedestrian])] = .ok t ∧
      ref t "walkers" = .ok e ∧ (∀ o, ¬ Belongs t o e) ∧
      ∀ s : Sim, s.added "car" = true → collision t s .any [e] (.entity (.object "car" .vehicle)) = .value true := by
  refine ⟨_, _, rfl, rfl, ?_, ?_⟩
  · intro o ho
    have := (C185_objects _ o _).2 ho
    exact absurd this (by simp [Entity.objects, objectsOf, nameIf, put, readObjects])
  · intro s hs
    simp [collision, isAdded, Entity.objects, hs, Rule.apply, objectsOf, put, readObjects]
    rfl

/-- **C186, not so.** A condition that asks for a collision with a selection is read, and then throws as soon
as all objects of the selection are added, for any first triggering entity that has an object. -/
theorem C186_selection_violated (t : Table) (s : Sim) (rule : Rule) (e : Entity) (ts : List Entity)
    (name : String) (ms : List Entity) (ks : List Kind)
    (ha : ∀ o, Belongs t o (.selection name ms ks) → s.added o = true) (he : ∃ o, Belongs t o e) :
    collision t s rule (e :: ts) (.entity (.selection name ms ks)) = .thrown := by
  have h1 : isAdded t s (.selection name ms ks) = true := by
    unfold isAdded
    rw [List.all_eq_true]
    exact fun o ho => ha o ((C185_objects t o _).1 ho)
  obtain ⟨o, ho⟩ := he
  have ho := (C185_objects t o e).2 ho
  unfold collision
  simp only [h1, if_true]
  unfold Rule.apply
  have : allOf (fun o => collides s o (.selection name ms ks)) (e.objects t) = .thrown := by
    cases hl : e.objects t with
    | nil => rw [hl] at ho; cases ho
    | cons x xs => simp [allOf, collides]
  simp only [this]

example : ∃ t e, readEntities osEx ssEx = .ok t ∧ ref t "pair" = .ok e ∧
    collision t simEx .any [.object "car" .vehicle] (.entity e) = .thrown :=
  ⟨_, _, rfl, rfl, rfl⟩

end Verif.Select
