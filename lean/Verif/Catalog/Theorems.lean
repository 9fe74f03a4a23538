import Verif.Catalog.Spec
/-
Theorems about catalogs and references to them: C180 to C183.
-/
namespace Verif.Catalog

/-! ### The entry a reference names -/

theorem filter_named {es : List Element} {name : String} {e : Element} :
    e ∈ es.filter (fun e => decide (e.name.getD "" = name)) ↔ e ∈ es ∧ Named name e := by
  rw [List.mem_filter, decide_eq_true_eq]
  unfold Named
  cases e.name with
  | none => simp [eq_comm]
  | some n => simp

theorem choose_ok {es : List Element} {name : String} {e : Element} (h : choose es name = .ok e) :
    e ∈ es ∧ Named name e ∧ ∀ a b, es = a ++ e :: b → ∀ x ∈ a ++ b, ¬ Named name x := by
  unfold choose at h
  split at h
  · cases h
  · rename_i e' he
    injection h with h
    subst h
    have hm : e' ∈ es.filter (fun e => decide (e.name.getD "" = name)) := by rw [he]; simp
    obtain ⟨h1, h2⟩ := filter_named.1 hm
    refine ⟨h1, h2, ?_⟩
    rintro a b rfl x hx hn
    rw [List.filter_append, List.filter_cons_of_pos (p := fun e : Element => decide (e.name.getD "" = name)) (List.mem_filter.1 hm).2] at he
    have hlen := congrArg List.length he
    simp only [List.length_append, List.length_cons, List.length_nil] at hlen
    rcases List.mem_append.1 hx with hx | hx
    · have : x ∈ a.filter (fun e => decide (e.name.getD "" = name)) := filter_named.2 ⟨hx, hn⟩
      have := List.length_pos_of_mem this
      omega
    · have : x ∈ b.filter (fun e => decide (e.name.getD "" = name)) := filter_named.2 ⟨hx, hn⟩
      have := List.length_pos_of_mem this
      omega
  · cases h

theorem readAttr_iff {declared : List (String × String)} {scope : String → Option String} {a : Attr} {v : String} :
    readAttr declared scope a = .ok v ↔ a.Is declared scope v := by
  unfold readAttr Attr.Is
  cases a with
  | lit x => simp
  | ref n =>
    simp only [reduceCtorEq, Attr.ref.injEq, false_or]
    cases hd : declared.lookup n with
    | some x => simp [hd]
    | none =>
      cases hs : scope n with
      | some x => simp [hd, hs]
      | none => simp [hd, hs]

theorem readAttrs_iff {declared : List (String × String)} {scope : String → Option String} :
    ∀ {as : List (String × Attr)} {vs : List (String × String)}, readAttrs declared scope as = .ok vs ↔
      List.Forall₂ (fun a v => v.1 = a.1 ∧ a.2.Is declared scope v.2) as vs
  | [], vs => by
    unfold readAttrs
    constructor
    · intro h; injection h with h; subst h; exact .nil
    · intro h; cases h; rfl
  | (k, a) :: as, vs => by
    unfold readAttrs
    constructor
    · intro h
      cases ha : readAttr declared scope a with
      | error e => rw [ha] at h; cases h
      | ok v =>
        rw [ha] at h
        simp only at h
        cases hs : readAttrs declared scope as with
        | error e => rw [hs] at h; cases h
        | ok ws =>
          rw [hs] at h
          injection h with h
          subst h
          exact .cons ⟨rfl, readAttr_iff.1 ha⟩ (readAttrs_iff.1 hs)
    · intro h
      cases h with
      | cons h1 h2 =>
        rename_i v ws
        rw [readAttr_iff.2 h1.2, readAttrs_iff.2 h2]
        obtain ⟨v1, v2⟩ := v
        obtain ⟨rfl, _⟩ := h1
        rfl

theorem construct_iff {scope : String → Option String} {e : Element} {m : Made} :
    construct scope e = .ok m ↔ e.Makes scope m := by
  unfold construct Element.Makes
  constructor
  · intro h
    cases hr : readAttrs e.declared scope e.attrs with
    | error x => rw [hr] at h; cases h
    | ok vs =>
      rw [hr] at h
      injection h with h
      subst h
      exact ⟨rfl, rfl, readAttrs_iff.1 hr⟩
  · rintro ⟨h1, h2, h3⟩
    rw [readAttrs_iff.2 h3]
    cases m
    simp_all

theorem dispatch_iff {scope : String → Option String} {e : Element} {m : Made} :
    dispatch scope e = .ok m ↔ Supported e.kind ∧ e.Makes scope m := by
  unfold dispatch Supported
  simp only [List.mem_cons, List.not_mem_nil, or_false]
  split
  · rename_i h
    rw [construct_iff]
    exact ⟨fun h' => ⟨h, h'⟩, fun h' => h'.2⟩
  · rename_i h
    constructor
    · intro h'
      split at h' <;> cases h'
    · intro h'
      exact absurd h'.1 h

theorem findCatalog_ok {ls : Locations} {name : String} {es : List Element}
    (h : findCatalog (some ls) name = .ok es) : ∃ l ∈ ls, l.2.lookup name = some es := by
  unfold findCatalog at h
  simp only at h
  split at h
  · rename_i es' he
    injection h with h
    subst h
    obtain ⟨l, h1, h2⟩ := List.exists_of_findSome?_eq_some he
    exact ⟨l, h1, h2⟩
  · cases h

theorem make_ok {ls : Option Locations} {scope : String → Option String} {r : Reference} {m : Made}
    (h : make ls scope r = .ok m) :
    ∃ es e, findCatalog ls r.catalog = .ok es ∧ choose es r.entry = .ok e ∧ dispatch scope e = .ok m := by
  unfold make at h
  cases hf : findCatalog ls r.catalog with
  | error e => rw [hf] at h; cases h
  | ok es =>
    rw [hf] at h
    simp only at h
    cases hc : choose es r.entry with
    | error e => rw [hc] at h; cases h
    | ok e =>
      rw [hc] at h
      exact ⟨es, e, rfl, hc, h⟩

/-- C180: What a reference stands for is made of an entry with the name it asks for, in a catalog with the
name it asks for, in one of the locations of the scenario, and no other entry of that catalog has the name.
Its class is one of those supported; its attributes have the values written. -/
theorem C180_entry {ls : Option Locations} {scope : String → Option String} {r : Reference} {m : Made}
    (h : make ls scope r = .ok m) :
    ∃ locations, ls = some locations ∧ ∃ l ∈ locations, ∃ es, l.2.lookup r.catalog = some es ∧
      ∃ a e b, es = a ++ e :: b ∧ Named r.entry e ∧ (∀ x ∈ a ++ b, ¬ Named r.entry x) ∧ Supported e.kind ∧
        e.Makes scope m := by
  obtain ⟨es, e, h1, h2, h3⟩ := make_ok h
  cases ls with
  | none => cases h1
  | some ls =>
    obtain ⟨l, hl, hl'⟩ := findCatalog_ok h1
    obtain ⟨hm, hn, hu⟩ := choose_ok h2
    obtain ⟨a, b, rfl⟩ := List.append_of_mem hm
    exact ⟨ls, rfl, l, hl, _, hl', a, e, b, rfl, hn, hu a b rfl, dispatch_iff.1 h3⟩

theorem choose_unique {a b : List Element} {e : Element} {name : String} (hn : Named name e)
    (hu : ∀ x ∈ a ++ b, ¬ Named name x) : choose (a ++ e :: b) name = .ok e := by
  have h1 : a.filter (fun e => decide (e.name.getD "" = name)) = [] := by
    rw [List.eq_nil_iff_forall_not_mem]
    intro x hx
    obtain ⟨h1, h2⟩ := filter_named.1 hx
    exact hu x (List.mem_append_left _ h1) h2
  have h2 : b.filter (fun e => decide (e.name.getD "" = name)) = [] := by
    rw [List.eq_nil_iff_forall_not_mem]
    intro x hx
    obtain ⟨h1, h2⟩ := filter_named.1 hx
    exact hu x (List.mem_append_right _ h1) h2
  have h3 : decide (e.name.getD "" = name) = true := by
    rcases hn with h | ⟨h, rfl⟩
    · simp [h]
    · simp [h]
  unfold choose
  rw [List.filter_append, h1, List.filter_cons_of_pos (p := fun e : Element => decide (e.name.getD "" = name)) h3, h2]
  rfl

/-- C180: A reference to an entry that stands alone in a catalog that stands alone is accepted if the class
of the entry is supported and its parameters are known. -/
theorem C180_accepts {ls : Locations} {scope : String → Option String} {r : Reference} {m : Made}
    {l : String × Location} {a b : List Element} {e : Element} (hl : l ∈ ls)
    (hc : l.2.lookup r.catalog = some (a ++ e :: b))
    (hone : ∀ l' ∈ ls, l' ≠ l → l'.2.lookup r.catalog = none) (hn : Named r.entry e)
    (hu : ∀ x ∈ a ++ b, ¬ Named r.entry x) (hs : Supported e.kind) (hm : e.Makes scope m) :
    make (some ls) scope r = .ok m := by
  have hf : findCatalog (some ls) r.catalog = .ok (a ++ e :: b) := by
    unfold findCatalog
    simp only
    have : ls.findSome? (fun l => l.2.lookup r.catalog) = some (a ++ e :: b) := by
      clear hn hu hs hm
      induction ls with
      | nil => cases hl
      | cons x xs ih =>
        rw [List.findSome?_cons]
        by_cases hx : x = l
        · subst hx
          rw [hc]
        · rw [hone x (by simp) hx]
          apply ih
          · rcases List.mem_cons.1 hl with h | h
            · exact absurd h.symm hx
            · exact h
          · exact fun l' h' => hone l' (by simp [h'])
    rw [this]
  unfold make
  rw [hf]
  simp only
  rw [choose_unique hn hu]
  exact dispatch_iff.2 ⟨hs, hm⟩

/-- C180: Otherwise it is an error: no locations, no catalog of the name, no entry of the name. -/
theorem C180_missing {scope : String → Option String} {r : Reference} :
    make none scope r = .error .noLocations ∧
    (∀ ls : Locations, (∀ l ∈ ls, l.2.lookup r.catalog = none) → make (some ls) scope r = .error .noCatalog) ∧
    ∀ (ls : Locations) (es : List Element), findCatalog (some ls) r.catalog = .ok es →
      (∀ e ∈ es, ¬ Named r.entry e) → make (some ls) scope r = .error .noEntry := by
  refine ⟨rfl, fun ls h => ?_, fun ls es h1 h2 => ?_⟩
  · have : ls.findSome? (fun l => l.2.lookup r.catalog) = none := by
      rw [List.findSome?_eq_none_iff]
      exact h
    unfold make findCatalog
    simp only [this]
  · have : es.filter (fun e => decide (e.name.getD "" = r.entry)) = [] := by
      rw [List.eq_nil_iff_forall_not_mem]
      intro x hx
      obtain ⟨h3, h4⟩ := filter_named.1 hx
      exact h2 x h3 h4
    unfold make
    rw [h1]
    simp only
    unfold choose
    rw [this]

/-- C180: Two entries of the name are an error, whatever they are. -/
theorem C180_many {ls : Locations} {scope : String → Option String} {r : Reference} {a b c : List Element}
    {x y : Element} (hf : findCatalog (some ls) r.catalog = .ok (a ++ x :: b ++ y :: c))
    (hx : Named r.entry x) (hy : Named r.entry y) : make (some ls) scope r = .error .manyEntries := by
  have dx : decide (x.name.getD "" = r.entry) = true := by
    rcases hx with h | ⟨h, h'⟩
    · simp [h]
    · simp [h, h']
  have dy : decide (y.name.getD "" = r.entry) = true := by
    rcases hy with h | ⟨h, h'⟩
    · simp [h]
    · simp [h, h']
  unfold make
  rw [hf]
  simp only
  have hlen : 2 ≤ ((a ++ x :: b ++ y :: c).filter fun e => decide (e.name.getD "" = r.entry)).length := by
    rw [List.filter_append, List.filter_append, List.filter_cons_of_pos (p := fun e : Element => decide (e.name.getD "" = r.entry)) dx,
      List.filter_cons_of_pos (p := fun e : Element => decide (e.name.getD "" = r.entry)) dy]
    simp only [List.length_append, List.length_cons]
    omega
  unfold choose
  generalize (a ++ x :: b ++ y :: c).filter (fun e => decide (e.name.getD "" = r.entry)) = l at hlen
  match l, hlen with
  | _ :: _ :: _, _ => rfl

/-- A catalog of two vehicles, and a reference to the second. -/
example : make (some [("Vehicle", [("cars", [⟨"Vehicle", some "a", [], []⟩,
      ⟨"Vehicle", some "b", [("w", "2")], [("width", .ref "w"), ("axles", .lit "2")]⟩])])])
    (fun _ => none) ⟨"cars", "b", []⟩ = .ok ⟨"Vehicle", "b", [("width", "2"), ("axles", "2")]⟩ := by decide +kernel

/-! ### Where the catalogs come from -/

theorem lookup_append {l : Location} {name n : String} {es : List Element} :
    (l ++ [(name, es)]).lookup n = if (l.lookup n).isSome then l.lookup n else if n = name then some es else none := by
  induction l with
  | nil =>
    by_cases h : n = name
    · subst h; simp [List.lookup]
    · have : (n == name) = false := by simpa using h
      simp [List.lookup, h, this]
  | cons x xs ih =>
    obtain ⟨k, v⟩ := x
    rw [List.cons_append]
    by_cases h : n = k
    · subst h; simp [List.lookup]
    · have : (n == k) = false := by simpa using h
      simp only [List.lookup, this]
      exact ih

theorem addDocument_lookup {l : Location} {d : Document} {n : String} :
    (addDocument l d).lookup n = if (l.lookup n).isSome then l.lookup n else
      match d.catalog with
      | some (some name, es) => if n = name then some es else none
      | _ => none := by
  unfold addDocument
  have hnone : ¬ (l.lookup n).isSome = true → l.lookup n = none := by
    intro h
    cases hl : l.lookup n with
    | none => rfl
    | some x => rw [hl] at h; exact absurd rfl h
  cases hd : d.catalog with
  | none =>
    simp only
    split
    · rfl
    · exact hnone (by assumption)
  | some c =>
    obtain ⟨o, es⟩ := c
    cases o with
    | none =>
      simp only
      split
      · rfl
      · exact hnone (by assumption)
    | some name =>
      simp only
      unfold emplace
      by_cases h : (l.lookup name).isSome
      · rw [if_pos h]
        split
        · rfl
        · rename_i hn
          have : ¬ n = name := by rintro rfl; exact hn h
          rw [if_neg this]
          exact hnone hn
      · rw [if_neg h, lookup_append]

theorem foldl_lookup {n : String} {es : List Element} : ∀ {ds : List Document} {l : Location},
    (ds.foldl addDocument l).lookup n = some es →
      l.lookup n = some es ∨ ∃ d ∈ ds, d.Has n es
  | [], l, h => Or.inl h
  | d :: ds, l, h => by
    rw [List.foldl_cons] at h
    rcases foldl_lookup h with h | ⟨d', h1, h2⟩
    · rw [addDocument_lookup] at h
      split at h
      · exact Or.inl h
      · split at h
        · rename_i name es' hd
          split at h
          · rename_i hn
            subst hn
            injection h with h
            subst h
            exact Or.inr ⟨d, by simp, hd⟩
          · cases h
        · cases h
    · exact Or.inr ⟨d', by simp [h1], h2⟩

theorem foldl_some {n : String} : ∀ {ds : List Document} {l : Location}, (l.lookup n).isSome →
    ((ds.foldl addDocument l).lookup n) = l.lookup n
  | [], l, _ => rfl
  | d :: ds, l, h => by
    have h1 : (addDocument l d).lookup n = l.lookup n := by rw [addDocument_lookup, if_pos h]
    rw [List.foldl_cons, foldl_some (by rw [h1]; exact h), h1]

theorem foldl_has {n : String} {es : List Element} : ∀ {ds : List Document} {l : Location},
    l.lookup n = none → (∃ d ∈ ds, d.Has n es) → (∀ d ∈ ds, ∀ es', d.Has n es' → es' = es) →
    (ds.foldl addDocument l).lookup n = some es
  | [], l, _, h, _ => by obtain ⟨_, h, _⟩ := h; cases h
  | d :: ds, l, hl, h, hu => by
    rw [List.foldl_cons]
    by_cases hd : ∃ es', d.Has n es'
    · obtain ⟨es', hd⟩ := hd
      have := hu d (by simp) es' hd
      subst this
      have h1 : (addDocument l d).lookup n = some es' := by
        rw [addDocument_lookup, hl]
        unfold Document.Has at hd
        rw [hd]
        simp
      rw [foldl_some (by rw [h1]; rfl), h1]
    · apply foldl_has
      · rw [addDocument_lookup, hl]
        simp only [Option.isSome_none, Bool.false_eq_true, if_false]
        split
        · rename_i name es' hc
          split
          · rename_i hn
            subst hn
            exact absurd ⟨es', hc⟩ hd
          · rfl
        · rfl
      · obtain ⟨d', h1, h2⟩ := h
        rcases List.mem_cons.1 h1 with rfl | h1
        · exact absurd ⟨es, h2⟩ hd
        · exact ⟨d', h1, h2⟩
      · exact fun d' h' => hu d' (by simp [h'])

theorem documents_mem {w : World} : ∀ {fs : List File} {ds : List Document}, documents w fs = .ok ds →
    ∀ d, d ∈ ds ↔ ∃ f ∈ fs, f.document w = .ok (some d)
  | [], ds, h, d => by
    unfold documents at h
    injection h with h
    subst h
    simp
  | f :: fs, ds, h, d => by
    unfold documents at h
    cases hf : f.document w with
    | error e => rw [hf] at h; cases h
    | ok o =>
      rw [hf] at h
      simp only at h
      cases hs : documents w fs with
      | error e => rw [hs] at h; cases h
      | ok ds' =>
        rw [hs] at h
        injection h with h
        subst h
        rw [List.mem_append, documents_mem hs]
        simp only [List.mem_cons, exists_eq_or_imp, hf, Option.mem_toList, Except.ok.injEq]

theorem documents_perm {w : World} {fs gs : List File} (hp : fs.Perm gs) :
    (∃ ds, documents w fs = .ok ds) → ∃ ds, documents w gs = .ok ds := by
  have key : ∀ fs, (∃ ds, documents w fs = .ok ds) ↔ ∀ f ∈ fs, ∃ d, f.document w = .ok d := by
    intro fs
    induction fs with
    | nil => simp [documents]
    | cons f fs ih =>
      constructor
      · rintro ⟨ds, h⟩
        unfold documents at h
        cases hf : f.document w with
        | error e => rw [hf] at h; cases h
        | ok o =>
          rw [hf] at h
          simp only at h
          cases hs : documents w fs with
          | error e => rw [hs] at h; cases h
          | ok ds' =>
            intro g hg
            rcases List.mem_cons.1 hg with rfl | hg
            · exact ⟨o, hf⟩
            · exact ih.1 ⟨ds', hs⟩ g hg
      · intro h
        obtain ⟨o, ho⟩ := h f (by simp)
        obtain ⟨ds, hds⟩ := ih.2 fun g hg => h g (by simp [hg])
        exact ⟨o.toList ++ ds, by unfold documents; rw [ho, hds]⟩
  rw [key, key]
  exact fun h f hf => h f (hp.mem_iff.2 hf)

/-- C181: A location has a catalog under a name only if one of its files, `.xosc` or `.yaml`, has a catalog
with that name and those entries. -/
theorem C181_from_file {w : World} {fs : List File} {l : Location} {name : String} {es : List Element}
    (h : location w (some fs) = .ok l) (hl : l.lookup name = some es) :
    ∃ f ∈ fs, ∃ d, f.document w = .ok (some d) ∧ d.Has name es := by
  unfold location at h
  simp only at h
  cases hd : documents w fs with
  | error e => rw [hd] at h; cases h
  | ok ds =>
    rw [hd] at h
    injection h with h
    subst h
    rcases foldl_lookup hl with h | ⟨d, h1, h2⟩
    · cases h
    · obtain ⟨f, hf, hf'⟩ := (documents_mem hd d).1 h1
      exact ⟨f, hf, d, hf', h2⟩

/-- C181 (partial: if no two files of the directory have different catalogs of the name): every catalog of a
directory is found, whatever order the file system lists its files in. -/
theorem C181_found_partial {w : World} {fs : List File} {l : Location} {name : String} {es : List Element}
    {f : File} {d : Document} (h : location w (some fs) = .ok l) (hf : f ∈ fs)
    (hd : f.document w = .ok (some d)) (hc : d.Has name es)
    (hu : ∀ g ∈ fs, ∀ d' es', g.document w = .ok (some d') → d'.Has name es' → es' = es) :
    l.lookup name = some es := by
  unfold location at h
  simp only at h
  cases hds : documents w fs with
  | error e => rw [hds] at h; cases h
  | ok ds =>
    rw [hds] at h
    injection h with h
    subst h
    apply foldl_has rfl
    · exact ⟨d, (documents_mem hds d).2 ⟨f, hf, hd⟩, hc⟩
    · intro d' hd' es' hes
      obtain ⟨g, hg, hg'⟩ := (documents_mem hds d').1 hd'
      exact hu g hg d' es' hg' hes

/-- C181 (partial, as before): so the order of the files makes no difference. -/
theorem C181_order_partial {w : World} {fs gs : List File} {l : Location} {name : String}
    (hp : fs.Perm gs) (h : location w (some fs) = .ok l)
    (hu : ∀ f ∈ fs, ∀ g ∈ fs, ∀ d d' es es', f.document w = .ok (some d) → g.document w = .ok (some d') →
      d.Has name es → d'.Has name es' → es' = es) :
    ∃ l', location w (some gs) = .ok l' ∧ l'.lookup name = l.lookup name := by
  have hex : ∃ ds, documents w gs = .ok ds := by
    apply documents_perm hp
    unfold location at h
    simp only at h
    cases hds : documents w fs with
    | error e => rw [hds] at h; cases h
    | ok ds => exact ⟨ds, rfl⟩
  obtain ⟨ds, hds⟩ := hex
  have hl' : location w (some gs) = .ok (ds.foldl addDocument []) := by
    unfold location
    simp only [hds]
  refine ⟨_, hl', ?_⟩
  cases hl : l.lookup name with
  | some es =>
    obtain ⟨f, hf, d, hd, hc⟩ := C181_from_file h hl
    exact C181_found_partial hl' (hp.mem_iff.1 hf) hd hc fun g hg d' es' h1 h2 =>
      hu f hf g (hp.mem_iff.2 hg) d d' es es' hd h1 hc h2
  | none =>
    cases hn : (ds.foldl addDocument []).lookup name with
    | none => rfl
    | some es =>
      obtain ⟨g, hg, d, hd, hc⟩ := C181_from_file hl' hn
      have := C181_found_partial h (hp.mem_iff.2 hg) hd hc fun f hf d' es' h1 h2 =>
        hu g (hp.mem_iff.2 hg) f hf d d' es es' hd h1 hc h2
      rw [hl] at this
      cases this

/-- C181: A directory that exists is read, whatever files lie in it, unless the converter of one of its
`.yaml` files crashes; then it is an error. -/
theorem C181_read {w : World} {fs : List File} :
    (∃ l, location w (some fs) = .ok l) ↔ ∀ stem rules text, File.yaml true stem rules text ∉ fs := by
  have key : (∃ ds, documents w fs = .ok ds) ↔ ∀ stem rules text, File.yaml true stem rules text ∉ fs := by
    induction fs with
    | nil => simp [documents]
    | cons f fs ih =>
      have hf : (∃ d, f.document w = .ok d) ↔ ∀ stem rules text, File.yaml true stem rules text ≠ f := by
        cases f with
        | xosc t => simp [File.document]
        | other => simp [File.document]
        | yaml c stem rules t => cases c <;> simp [File.document]
      have hs : (∃ ds, documents w (f :: fs) = .ok ds) ↔
          (∃ d, f.document w = .ok d) ∧ ∃ ds, documents w fs = .ok ds := by
        have e : documents w (f :: fs) = match f.document w with
            | .error e => .error e
            | .ok d => match documents w fs with
              | .error e => .error e
              | .ok ds => .ok (d.toList ++ ds) := rfl
        rw [e]
        cases f.document w with
        | error e => simp
        | ok d => cases documents w fs <;> simp
      rw [hs, hf, ih]
      simp only [List.mem_cons, not_or]
      exact ⟨fun h a b c => ⟨h.1 a b c, h.2 a b c⟩, fun h => ⟨fun a b c => (h a b c).1, fun a b c => (h a b c).2⟩⟩
  rw [← key]
  unfold location
  simp only
  cases documents w fs <;> simp

example : ∃ l, location ⟨fun _ => [], fun _ => true, fun _ => none⟩ (some [.other, .xosc [], .other]) = .ok l :=
  ⟨_, rfl⟩

/-- C181 (violated): If two files of a directory have catalogs of one name, the one used depends on the
order the file system lists them in, and nothing is said. -/
theorem C181_order_violated : ∃ (w : World) (f g : File) (l l' : Location),
    location w (some [f, g]) = .ok l ∧ location w (some [g, f]) = .ok l' ∧
      l.lookup "cars" ≠ l'.lookup "cars" ∧ l.lookup "cars" ≠ none := by
  refine ⟨⟨fun _ => [], fun _ => true, fun t => some ⟨some (some "cars",
    [⟨"Vehicle", some (if t = [] then "a" else "b"), [], []⟩])⟩⟩, .xosc [], .xosc ['x'], _, _, rfl, rfl, ?_, ?_⟩
  · decide +kernel
  · decide +kernel

/-- C181 (violated): A catalog written in YAML that is not valid under the schema is passed over: the
converter ends with status zero, the file it should have written is not there, and reading it is not
checked. -/
theorem C181_invalid_violated : ∃ (w : World) (t : Modify.Text), w.valid t = false ∧
    (∃ d es, w.parse t = some d ∧ d.Has "cars" es) ∧
    location w (some [.yaml false [] none t]) = .ok [] := by
  refine ⟨⟨fun _ => [], fun _ => false, fun _ => some ⟨some (some "cars", [])⟩⟩, [], rfl, ⟨_, [], rfl, rfl⟩, rfl⟩

/-- C181: A catalog written in YAML without modifiers, valid, is read as the same in XML. -/
theorem C181_yaml {w : World} {stem t : Modify.Text} {d : Document} (hv : w.valid t = true)
    (hp : w.parse t = some d) :
    File.document w (.yaml false stem none t) = .ok (some d) ∧ File.document w (.xosc t) = .ok (some d) := by
  have he : Modify.expand [] t = t := rfl
  constructor
  · unfold File.document load Modify.convert
    simp only [Modify.specs, Modify.product, Modify.deriveFrom, he, hv, if_true, Modify.Folder.write, Modify.fileName,
      List.isEmpty_nil, Bool.not_true, Bool.false_eq_true, if_false]
    simp [hp]
  · unfold File.document load
    simp [hp]

/-- C181: A directory that does not exist is an error, and so is a converter that fails. -/
theorem C181_errors {w : World} :
    location w none = .error .noDirectory ∧
    ∀ (a b : List File) (stem t : Modify.Text) (rules : Option (List Modify.Modifier)),
      ∃ e, location w (some (a ++ .yaml true stem rules t :: b)) = .error e := by
  refine ⟨rfl, fun a b stem t rules => ?_⟩
  have : ∀ a : List File, ∃ e, documents w (a ++ .yaml true stem rules t :: b) = .error e := by
    intro a
    induction a with
    | nil => exact ⟨.conversion, rfl⟩
    | cons f a ih =>
      obtain ⟨e, he⟩ := ih
      rw [List.cons_append]
      unfold documents
      cases f.document w with
      | error e' => exact ⟨e', rfl⟩
      | ok d => rw [he]; exact ⟨e, rfl⟩
  obtain ⟨e, he⟩ := this a
  unfold location
  simp only [he]
  exact ⟨e, rfl⟩

/-- C181 (partial: if one location has catalogs of the name): the order of the locations, which a hash table
holds, makes no difference either. -/
theorem C181_locations_partial {ls ks : Locations} {scope : String → Option String} {r : Reference}
    (hp : ls.Perm ks) (h : ∀ l ∈ ls, ∀ k ∈ ls, (l.2.lookup r.catalog).isSome → (k.2.lookup r.catalog).isSome →
      l.2.lookup r.catalog = k.2.lookup r.catalog) :
    make (some ks) scope r = make (some ls) scope r := by
  have : findCatalog (some ks) r.catalog = findCatalog (some ls) r.catalog := by
    unfold findCatalog
    simp only
    have : ks.findSome? (fun l => l.2.lookup r.catalog) = ls.findSome? fun l => l.2.lookup r.catalog := by
      cases h1 : ls.findSome? fun l => l.2.lookup r.catalog with
      | none =>
        rw [List.findSome?_eq_none_iff] at h1 ⊢
        exact fun l hl => h1 l (hp.mem_iff.2 hl)
      | some es =>
        obtain ⟨l, hl, hl'⟩ := List.exists_of_findSome?_eq_some h1
        cases h2 : ks.findSome? fun l => l.2.lookup r.catalog with
        | none =>
          rw [List.findSome?_eq_none_iff] at h2
          rw [h2 l (hp.mem_iff.1 hl)] at hl'
          cases hl'
        | some es' =>
          obtain ⟨k, hk, hk'⟩ := List.exists_of_findSome?_eq_some h2
          have := h l hl k (hp.mem_iff.2 hk) (by rw [hl']; rfl) (by rw [hk']; rfl)
          rw [← hk', ← this, hl']
    rw [this]
  unfold make
  rw [this]

/-- C181 (violated): A catalog of the name in two locations: the one used depends on the order of the hash
table, not on what the reference is for. -/
theorem C181_locations_violated : ∃ (a b : String × Location) (r : Reference) (scope : String → Option String),
    (make (some [a, b]) scope r).toOption.map Made.kind = some "Vehicle" ∧
      (make (some [b, a]) scope r).toOption.map Made.kind = some "Controller" :=
  ⟨("Vehicle", [("c", [⟨"Vehicle", some "x", [], []⟩])]), ("Controller", [("c", [⟨"Controller", some "x", [], []⟩])]),
    ⟨"c", "x", []⟩, fun _ => none, by decide +kernel, by decide +kernel⟩

/-! ### Parameters -/

/-- C182 (partial: if the reference assigns nothing): the attributes of what is made have the values
OpenSCENARIO says. -/
theorem C182_values_partial {ls : Option Locations} {scope : String → Option String} {r : Reference} {m : Made}
    (h : make ls scope r = .ok m) (ha : r.assignments = []) :
    ∃ e : Element, Named r.entry e ∧
      List.Forall₂ (fun a v => v.1 = a.1 ∧ a.2.Should r.assignments e.declared scope v.2) e.attrs m.values := by
  obtain ⟨_, _, _, _, _, _, _, e, _, _, hn, _, _, hm⟩ := C180_entry h
  refine ⟨e, hn, ?_⟩
  have h3 := hm.2.2
  apply List.Forall₂.imp _ h3
  rintro a v ⟨h1, h2⟩
  refine ⟨h1, ?_⟩
  rcases h2 with h2 | ⟨n, h2, h4⟩
  · exact Or.inl h2
  · exact Or.inr ⟨n, h2, Or.inr ⟨by rw [ha]; rfl, h4⟩⟩

/-- C182 (violated): The assignments of a reference have no effect: whatever they are, the same is made. -/
theorem C182_ignored_violated (ls : Option Locations) (scope : String → Option String) (r : Reference)
    (assignments : List (String × String)) :
    make ls scope { r with assignments := assignments } = make ls scope r := rfl

/-- C182 (violated): so a value that is assigned is not the value used. -/
theorem C182_assigned_violated : ∃ (ls : Option Locations) (r : Reference) (m : Made) (v : String),
    r.assignments.lookup "w" = some v ∧ make ls (fun _ => none) r = .ok m ∧
    (∃ es e, findCatalog ls r.catalog = .ok es ∧ e ∈ es ∧ e.attrs = [("width", .ref "w")]) ∧
    m.values ≠ [("width", v)] :=
  ⟨some [("Vehicle", [("cars", [⟨"Vehicle", some "b", [("w", "2")], [("width", .ref "w")]⟩])])],
    ⟨"cars", "b", [("w", "3")]⟩, ⟨"Vehicle", "b", [("width", "2")]⟩, "3", by decide +kernel, by decide +kernel,
    ⟨_, ⟨"Vehicle", some "b", [("w", "2")], [("width", .ref "w")]⟩, rfl, by decide +kernel, rfl⟩, by decide +kernel⟩

/-! ### The class called for -/

/-- C183: An entity made from a catalog is a vehicle, a pedestrian or an object; a maneuver is a maneuver; a
controller that is used is a controller. Anything else is not used. -/
theorem C183_kind {ls : Option Locations} {scope : String → Option String} {r : Reference} {m : Made} :
    (entityObject ls scope r = .ok (.with m) → m.kind ∈ ["Vehicle", "Pedestrian", "MiscObject"]) ∧
    (maneuver ls scope r = .ok (.with m) → m.kind = "Maneuver") ∧
    (objectController ls scope r = .ok (.with m) → m.kind = "Controller") := by
  refine ⟨fun h => ?_, fun h => ?_, fun h => ?_⟩
  · unfold entityObject at h
    split at h
    · cases h
    · split at h
      · rename_i hk
        injection h with h
        injection h with h
        subst h
        simpa using hk
      · cases h
  · unfold maneuver at h
    split at h
    · cases h
    · split at h
      · rename_i hk
        injection h with h
        injection h with h
        subst h
        exact hk
      · cases h
  · unfold objectController at h
    split at h
    · cases h
    · split at h
      · rename_i hk
        injection h with h
        injection h with h
        subst h
        exact hk
      · injection h with h
        cases h

/-- C183 (partial: for entities and maneuvers): an entry of another class is an error, so what the scenario
names is used or the scenario is refused. -/
theorem C183_loud_partial {ls : Option Locations} {scope : String → Option String} {r : Reference} :
    entityObject ls scope r ≠ .ok .nothing ∧ maneuver ls scope r ≠ .ok .nothing ∧
    (∀ m, make ls scope r = .ok m → m.kind ∉ ["Vehicle", "Pedestrian", "MiscObject"] →
      entityObject ls scope r = .error .wrongKind) ∧
    (∀ m, make ls scope r = .ok m → m.kind ∈ ["Vehicle", "Pedestrian", "MiscObject"] →
      entityObject ls scope r = .ok (.with m)) ∧
    (∀ m, make ls scope r = .ok m → m.kind ≠ "Maneuver" → maneuver ls scope r = .error .wrongKind) ∧
    (∀ m, make ls scope r = .ok m → m.kind = "Maneuver" → maneuver ls scope r = .ok (.with m)) ∧
    (∀ m, make ls scope r = .ok m → m.kind = "Controller" → objectController ls scope r = .ok (.with m)) := by
  refine ⟨?_, ?_, ?_, ?_, ?_, ?_, ?_⟩
  · unfold entityObject
    split
    · simp
    · split <;> simp
  · unfold maneuver
    split
    · simp
    · split <;> simp
  · intro m h hk
    unfold entityObject
    rw [h]
    simp only
    rw [if_neg (by simpa using hk)]
  · intro m h hk
    unfold entityObject
    rw [h]
    simp only
    rw [if_pos (by simpa using hk)]
  · intro m h hk
    unfold maneuver
    rw [h]
    simp only
    rw [if_neg hk]
  · intro m h hk
    unfold maneuver
    rw [h]
    simp only
    rw [if_pos hk]
  · intro m h hk
    unfold objectController
    rw [h]
    simp only
    rw [if_pos hk]

/-- C183 (violated): A reference for a controller that names a vehicle is accepted, and the entity has no
controller. -/
theorem C183_silent_violated : ∃ (ls : Option Locations) (r : Reference) (m : Made),
    make ls (fun _ => none) r = .ok m ∧ m.kind = "Vehicle" ∧ objectController ls (fun _ => none) r = .ok .nothing :=
  ⟨some [("Vehicle", [("cars", [⟨"Vehicle", some "b", [], []⟩])])], ⟨"cars", "b", []⟩, ⟨"Vehicle", "b", []⟩,
    by decide +kernel, rfl, by decide +kernel⟩

/-- C183: No trajectory, environment or route can be taken from a catalog: it is an error. -/
theorem C183_unsupported {ls : Option Locations} {scope : String → Option String} {r : Reference}
    {es : List Element} {e : Element} (h1 : findCatalog ls r.catalog = .ok es)
    (h2 : ∃ a b, es = a ++ e :: b ∧ ∀ x ∈ a ++ b, ¬ Named r.entry x) (hn : Named r.entry e)
    (hk : e.kind ∈ ["Environment", "Trajectory", "Route"]) : make ls scope r = .error .unsupported := by
  obtain ⟨a, b, rfl, hu⟩ := h2
  unfold make
  rw [h1]
  simp only
  rw [choose_unique hn hu]
  simp only
  unfold dispatch
  simp only [List.mem_cons, List.not_mem_nil, or_false] at hk
  rcases hk with hk | hk | hk <;> simp [hk]

end Verif.Catalog
