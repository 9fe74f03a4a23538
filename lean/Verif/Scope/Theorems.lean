import Verif.Scope.Lemmas
/-
C23: lookup of names. C47: qualified references.
-/
namespace Verif.Scope
variable {Obj : Type}

/-- **C23.** In every tree of scopes, looking up a name from scope `f` finds the object iff it is the
only declaration of that name and type at the least anonymous depth of the nearest enclosing scope
in which one is visible. -/
theorem C23_found (ops : List (Op Obj)) (is : Obj → Bool) (name : String) (f : Nat)
    (hf : f < (build ops).length) (o : Obj) :
    find (build ops) is name f = .found o ↔
      ∃ e k, Nearest (build ops) is name f e k ∧ visible (build ops) is name e k = [o] := by
  rcases find_spec (WF.build ops) is name f hf with ⟨h1, h2⟩ | ⟨e, k, h1, h2⟩
  · rw [h1]
    constructor
    · intro h; cases h
    · rintro ⟨e, k, ⟨j, h3, h4, -⟩, -⟩; exact absurd (h2 j e h3 k) h4
  · rw [h2]
    constructor
    · intro h
      refine ⟨e, k, h1, ?_⟩
      revert h
      generalize visible (build ops) is name e k = l
      intro h
      rcases l with _ | ⟨a, _ | ⟨b, l⟩⟩
      · cases h
      · cases h; rfl
      · cases h
    · rintro ⟨e', k', h3, h4⟩
      obtain ⟨rfl, rfl⟩ := nearest_unique h1 h3
      rw [h4]; rfl

/-- **C23.** The lookup is reported as ambiguous iff there are two or more such declarations. -/
theorem C23_ambiguous (ops : List (Op Obj)) (is : Obj → Bool) (name : String) (f : Nat)
    (hf : f < (build ops).length) :
    find (build ops) is name f = .ambiguous ↔
      ∃ e k, Nearest (build ops) is name f e k ∧ 2 ≤ (visible (build ops) is name e k).length := by
  rcases find_spec (WF.build ops) is name f hf with ⟨h1, h2⟩ | ⟨e, k, h1, h2⟩
  · rw [h1]
    constructor
    · intro h; cases h
    · rintro ⟨e, k, ⟨j, h3, h4, -⟩, -⟩; exact absurd (h2 j e h3 k) h4
  · rw [h2]
    have hne : visible (build ops) is name e k ≠ [] := by obtain ⟨j, -, h, -⟩ := h1; exact h
    constructor
    · intro h
      refine ⟨e, k, h1, ?_⟩
      revert h hne
      generalize visible (build ops) is name e k = l
      intro hne h
      rcases l with _ | ⟨a, _ | ⟨b, l⟩⟩
      · exact absurd rfl hne
      · cases h
      · simp
    · rintro ⟨e', k', h3, h4⟩
      obtain ⟨rfl, rfl⟩ := nearest_unique h1 h3
      revert h4
      generalize visible (build ops) is name e k = l
      intro h4
      rcases l with _ | ⟨a, _ | ⟨b, l⟩⟩
      · simp at h4
      · simp at h4
      · rfl

/-- **C23.** The name is reported as missing iff no enclosing scope sees a declaration of it. -/
theorem C23_missing (ops : List (Op Obj)) (is : Obj → Bool) (name : String) (f : Nat)
    (hf : f < (build ops).length) :
    find (build ops) is name f = .missing ↔
      ∀ j e, encloses (build ops) j f = some e → ∀ k, visible (build ops) is name e k = [] := by
  rcases find_spec (WF.build ops) is name f hf with ⟨h1, h2⟩ | ⟨e, k, h1, h2⟩
  · exact ⟨fun _ => h2, fun _ => h1⟩
  · obtain ⟨j, h3, h4, -⟩ := h1
    rw [h2]
    constructor
    · intro h
      exfalso
      revert h h4
      generalize visible (build ops) is name e k = l
      intro hne h
      rcases l with _ | ⟨a, _ | ⟨b, l⟩⟩
      · exact absurd rfl hne
      · cases h
      · cases h
    · intro h; exact absurd (h j e h3 k) h4

/-- Scopes: 0 outermost declares x; 1 "act" in 0; 2 anonymous in 1 declares y; 3 anonymous in 1
declares y and x; 4 "event" in 1. -/
def exOps : List (Op Nat) :=
  [.define 0 "x" 100, .newFrame 0 "act", .newFrame 1 "", .newFrame 1 "", .newFrame 1 "event",
   .define 2 "y" 201, .define 3 "y" 202, .define 3 "x" 300]

example : find (build exOps) (fun _ => true) "x" 4 = .found 300 ∧
    find (build exOps) (fun _ => true) "y" 4 = .ambiguous ∧
    find (build exOps) (fun o => o = 202) "y" 4 = .found 202 ∧
    find (build exOps) (fun _ => true) "z" 4 = .missing ∧ 4 < (build exOps).length := by decide +kernel

theorem valid_snoc {l : List (Op Obj)} {o : Op Obj} {n : Nat} :
    Valid (l ++ [o]) n ↔ Valid l n ∧ Valid [o] (n + (created l).length) := by
  induction l generalizing n with
  | nil => simp [Valid, created]
  | cons x l ih =>
    cases x with
    | newFrame a b =>
      have e : created (.newFrame a b :: l) = (a, b) :: created l := by simp [created]
      rw [e, List.length_cons, show n + ((created l).length + 1) = n + 1 + (created l).length by omega]
      simp only [List.cons_append, Valid, ih, and_assoc]
    | define a b c => simp only [List.cons_append, Valid, ih, created, List.filterMap_cons, and_assoc]

theorem valid_bound {ops : List (Op Obj)} {n : Nat} (h : Valid ops n) {g : Nat} {a : String} {o : Obj}
    (hm : Op.define g a o ∈ ops) : g < n + (created ops).length := by
  induction ops generalizing n with
  | nil => cases hm
  | cons x ops ih =>
    cases x with
    | newFrame p q =>
      have := ih h.2 (by simpa using hm)
      simp only [created, List.filterMap_cons, List.length_cons] at this ⊢
      omega
    | define p q r =>
      have h1 := h.1
      have e : created (.define p q r :: ops) = created ops := by simp [created]
      rw [e]
      rcases List.mem_cons.1 hm with hm | hm
      · cases hm; omega
      · exact ih h.2 hm

theorem valid_created {ops : List (Op Obj)} {n : Nat} (h : Valid ops n) {g : Nat} {a : String}
    (hm : (g, a) ∈ created ops) : g < n + (created ops).length := by
  induction ops generalizing n with
  | nil => cases hm
  | cons x ops ih =>
    cases x with
    | newFrame p q =>
      have h1 := h.1
      have e : created (.newFrame p q :: ops) = (p, q) :: created ops := by simp [created]
      rw [e] at hm ⊢
      rw [List.length_cons]
      rcases List.mem_cons.1 hm with hm | hm
      · cases hm; omega
      · have := ih h.2 hm; omega
    | define p q r =>
      have e : created (.define p q r :: ops) = created ops := by simp [created]
      rw [e] at hm ⊢
      exact ih h.2 hm

theorem createdIn_empty {ops : List (Op Obj)} (h : Valid ops 1) {f : Nat} (n : String)
    (hf : 1 + (created ops).length ≤ f) : createdIn ops f n = [] := by
  unfold createdIn
  rw [List.map_eq_nil_iff, List.filter_eq_nil_iff]
  rintro ⟨⟨g, a⟩, k⟩ hx hc
  simp only [Prod.mk.injEq, decide_eq_true_eq] at hc
  have hm := (List.mem_zipIdx hx).2.2
  have : (g, a) ∈ created ops := by rw [hm]; exact List.getElem_mem _
  have := valid_created h this
  omega

/-- The store says of scope `f` what the operations said. -/
structure Says (s : Store Obj) (ops : List (Op Obj)) (f : Nat) (fr : Frame Obj) : Prop where
  get : s[f]? = some fr
  vars : fr.variables = declarations ops f
  outer : fr.outer = if f = 0 then none else ((created ops)[f - 1]?).map (·.1)
  anon : fr.unnamed = createdIn ops f ""
  named : ∀ n, n ≠ "" → ((fr.inner.filter fun v => v.1 = n).map (·.2)) = createdIn ops f n

theorem createdIn_snoc_new (ops : List (Op Obj)) (a : Nat) (b : String) (f : Nat) (n : String) :
    createdIn (ops ++ [.newFrame a b]) f n =
      createdIn ops f n ++ if a = f ∧ b = n then [(created ops).length + 1] else [] := by
  unfold createdIn created
  simp only [List.filterMap_append, List.filterMap_cons, List.filterMap_nil, List.zipIdx_append, List.filter_append,
    List.map_append, List.zipIdx_cons, List.zipIdx_nil]
  congr 1
  by_cases h : a = f ∧ b = n
  · simp [h, Nat.add_comm]
  · rw [if_neg h]
    simp only [List.filter_cons, List.filter_nil, Prod.mk.injEq, h, decide_false, Bool.false_eq_true, if_false, List.map_nil]

theorem created_snoc (ops : List (Op Obj)) (o : Op Obj) : created (ops ++ [o]) = created ops ++ created [o] := by
  simp [created]

theorem says_build (l : List (Op Obj)) (hv : Valid l.reverse 1) :
    (build l.reverse).length = (created l.reverse).length + 1 ∧
    ∀ f, f < (created l.reverse).length + 1 → ∃ fr, Says (build l.reverse) l.reverse f fr := by
  induction l with
  | nil =>
    refine ⟨rfl, fun f hf => ?_⟩
    have : f = 0 := by simp [created] at hf; exact hf
    subst this
    exact ⟨⟨[], none, [], []⟩, rfl, rfl, rfl, rfl, fun _ _ => rfl⟩
  | cons o l ih =>
    rw [List.reverse_cons] at hv ⊢
    rw [valid_snoc] at hv
    obtain ⟨hlen, hall⟩ := ih hv.1
    have hb : build (l.reverse ++ [o]) = Op.apply (build l.reverse) o := by simp [build]
    generalize l.reverse = ops at hv hlen hall hb ⊢
    cases o with
    | define a b c =>
      have hb' : build (ops ++ [.define a b c]) = (build ops).define a b c := hb
      have hcr : created (ops ++ [.define a b c]) = created ops := by simp [created]
      rw [hb', hcr]
      refine ⟨by simp [Store.define, hlen], fun f hf => ?_⟩
      obtain ⟨fr, h⟩ := hall f hf
      have hin : ∀ n, createdIn (ops ++ [.define a b c]) f n = createdIn ops f n := by
        intro n; unfold createdIn; rw [hcr]
      by_cases hfa : a = f
      · subst hfa
        refine ⟨{ fr with variables := fr.variables ++ [(b, c)] }, ?_, ?_, ?_, ?_, ?_⟩
        · simp [Store.define, h.get]
        · simp [h.vars, declarations]
        · rw [hcr]; exact h.outer
        · rw [hin]; exact h.anon
        · intro n hn; rw [hin]; exact h.named n hn
      · refine ⟨fr, ?_, ?_, ?_, ?_, ?_⟩
        · simp [Store.define, h.get, hfa]
        · simp [h.vars, declarations, hfa]
        · rw [hcr]; exact h.outer
        · rw [hin]; exact h.anon
        · intro n hn; rw [hin]; exact h.named n hn
    | newFrame a b =>
      have ha : a < (build ops).length := by
        have := hv.2.1
        omega
      have hb' : build (ops ++ [.newFrame a b]) = (build ops).newFrame a b := by
        rw [hb]; show (if a < (build ops).length then _ else _) = _; rw [if_pos ha]
      have hcr : created (ops ++ [.newFrame a b]) = created ops ++ [(a, b)] := by simp [created]
      have hdecl : ∀ f, declarations (ops ++ [.newFrame a b]) f = declarations ops f := by
        intro f; simp [declarations]
      rw [hb', hcr]
      refine ⟨by simp [Store.newFrame, hlen], fun f hf => ?_⟩
      by_cases hlast : f = (created ops).length + 1
      · subst hlast
        refine ⟨⟨[], some a, [], []⟩, ?_, ?_, ?_, ?_, ?_⟩
        · simp [Store.newFrame, ← hlen]
        · rw [hdecl]
          symm
          unfold declarations
          rw [List.filterMap_eq_nil_iff]
          intro x hx
          cases x with
          | newFrame _ _ => rfl
          | define g n o =>
            have : g < 1 + (created ops).length := valid_bound hv.1 hx
            simp only
            rw [if_neg (by omega)]
        · rw [hcr]; simp
        · rw [createdIn_snoc_new, if_neg (by have := hv.2.1; omega), List.append_nil]
          exact (createdIn_empty hv.1 _ (by omega)).symm
        · intro n hn
          rw [createdIn_snoc_new, if_neg (by have := hv.2.1; omega), List.append_nil]
          exact (createdIn_empty hv.1 _ (by omega)).symm
      · have hf' : f < (created ops).length + 1 := by
          simp at hf; omega
        obtain ⟨fr, h⟩ := hall f hf'
        have hout : ((created ops ++ [(a, b)])[f - 1]?).map (·.1) = if f = 0 then ((created ops ++ [(a, b)])[f - 1]?).map (·.1) else ((created ops)[f - 1]?).map (·.1) := by
          split
          · rfl
          · rw [List.getElem?_append_left (by omega)]
        by_cases hfa : a = f
        · subst hfa
          refine ⟨if b = "" then { fr with unnamed := fr.unnamed ++ [(build ops).length] }
              else { fr with inner := fr.inner ++ [(b, (build ops).length)] }, ?_, ?_, ?_, ?_, ?_⟩
          · unfold Store.newFrame
            rw [List.getElem?_append_left (by simpa using ha)]
            simp [h.get]
          · rw [hdecl]; split <;> exact h.vars
          · rw [hcr, hout]
            have := h.outer
            split <;> (split <;> simp_all)
          · rw [createdIn_snoc_new]
            by_cases hb0 : b = ""
            · simp [hb0, h.anon, hlen]
            · simp [hb0, h.anon]
          · intro n hn
            rw [createdIn_snoc_new]
            by_cases hb0 : b = ""
            · rw [if_pos hb0, if_neg (by rintro ⟨-, h⟩; exact hn (h ▸ hb0)), List.append_nil]; exact h.named n hn
            · rw [if_neg hb0]
              simp only [List.filter_append, List.map_append, h.named n hn]
              congr 1
              by_cases hbn : b = n
              · simp [hbn, hlen]
              · simp [hbn]
        · refine ⟨fr, ?_, ?_, ?_, ?_, ?_⟩
          · unfold Store.newFrame
            rw [List.getElem?_append_left (by simp; omega)]
            simp [h.get, hfa]
          · rw [hdecl]; exact h.vars
          · rw [hcr, hout]
            have := h.outer
            split <;> simp_all
          · rw [createdIn_snoc_new, if_neg (by simp [hfa]), List.append_nil]; exact h.anon
          · intro n hn
            rw [createdIn_snoc_new, if_neg (by simp [hfa]), List.append_nil]; exact h.named n hn

/-- **C23, what is searched.** In the store the scenario builds, scope `f` declares exactly what the scenario declares
in it, in order; the scope around it and the anonymous and named scopes in it are those the scenario nests
this way. -/
theorem C23_scopes (ops : List (Op Obj)) (hv : Valid ops 1) (f : Nat) (hf : f ≤ (created ops).length) :
    ((build ops)[f]?.map (·.variables)) = some (declarations ops f) ∧
    encloses (build ops) 1 f = (if f = 0 then none else ((created ops)[f - 1]?).map (·.1)) ∧
    anonymous (build ops) f 1 = createdIn ops f "" ∧
    ∀ n, n ≠ "" → scopesNamed (build ops) n f 0 = createdIn ops f n := by
  obtain ⟨-, h⟩ := says_build ops.reverse (by rwa [List.reverse_reverse])
  rw [List.reverse_reverse] at h
  obtain ⟨fr, h⟩ := h f (by omega)
  refine ⟨by rw [h.get, Option.map_some, h.vars], ?_, ?_, fun n hn => ?_⟩
  · rw [← h.outer]
    simp only [encloses, h.get, Option.bind_some]
    cases fr.outer <;> rfl
  · rw [← h.anon]
    simp [anonymous, h.get]
  · rw [← h.named n hn]
    simp [scopesNamed, anonymous, h.get]

example : Valid exOps 1 ∧ createdIn exOps 1 "" = [2, 3] ∧ createdIn exOps 1 "event" = [4] ∧
    declarations exOps 3 = [("y", 202), ("x", 300)] := by
  refine ⟨by simp [Valid, exOps], by decide +kernel, by decide +kernel, by decide +kernel⟩

theorem find_direct {s : Store Obj} {is : Obj → Bool} {name : String} {g : Nat} {o : Obj}
    (h : visible s is name g 0 = [o]) : find s is name g = .found o := by
  have : objects s is name [g] = [o] := by rw [← h]; exact objects_anonymous s is name g 0
  rw [find.eq_def, bfs, this]
  simp

theorem resolve_direct {s : Store Obj} {p : String} {e g : Nat} (fuel : Nat) (h : scopesNamed s p e 0 = [g]) :
    resolvePrefix s p (fuel + 1) e = [g] := by
  unfold scopesNamed anonymous at h
  simp only [List.flatMap_cons, List.flatMap_nil, List.append_nil] at h
  rw [resolvePrefix]
  cases c : s[e]? with
  | none => rw [c] at h; cases h
  | some fr =>
    rw [c] at h
    simp only [Option.map_some, Option.getD_some] at h
    dsimp only
    rw [h]

theorem anonymous_shift (s : Store Obj) (f : Nat) (k : Nat) :
    anonymous s f (k + 1) = (((s[f]?).map (·.unnamed)).getD []).flatMap fun c => anonymous s c k := by
  induction k with
  | zero => simp [anonymous]
  | succ k ih =>
    rw [anonymous, ih, List.flatMap_assoc]
    rfl

theorem resolve_nil (s : Store Obj) (p : String) (fuel e : Nat) (h : ∀ k, scopesNamed s p e k = []) :
    resolvePrefix s p fuel e = [] := by
  induction fuel generalizing e with
  | zero => rfl
  | succ fuel ih =>
    rw [resolvePrefix]
    cases c : s[e]? with
    | none => rfl
    | some fr =>
      dsimp only
      have h0 := h 0
      unfold scopesNamed anonymous at h0
      simp only [List.flatMap_cons, List.flatMap_nil, List.append_nil, c, Option.map_some, Option.getD_some] at h0
      rw [h0]
      dsimp only
      rw [List.flatMap_eq_nil_iff]
      intro d hd
      apply ih
      intro k
      have hk := h (k + 1)
      unfold scopesNamed at hk ⊢
      rw [anonymous_shift, c, List.flatMap_assoc, List.flatMap_eq_nil_iff] at hk
      exact hk d hd

theorem findPrefixed_path {s : Store Obj} {is : Obj → Bool} {name : String} {r g : Nat} {ps : List String} {o : Obj}
    (h : Path s r ps g) (ho : visible s is name g 0 = [o]) : findPrefixed s is name ps r = .found o := by
  induction h with
  | here r => exact find_direct ho
  | step h1 _ ih => rw [findPrefixed, resolve_direct _ h1]; exact ih ho

theorem lookup_nearest {s : Store Obj} (wf : WF s) {p : String} {g : Nat} (j : Nat) :
    ∀ {f e : Nat}, encloses s (j + 1) f = some e → scopesNamed s p e 0 = [g] →
    (∀ j', 1 ≤ j' → j' ≤ j → ∀ e', encloses s j' f = some e' → ∀ k, scopesNamed s p e' k = []) →
    lookupFrame s p f = some g := by
  induction j with
  | zero =>
    intro f e h1 h2 _
    rw [encloses] at h1
    rw [lookupFrame.eq_def]
    cases c : s[f]?.bind (·.outer) with
    | none => rw [c] at h1; cases h1
    | some o =>
      rw [c] at h1
      simp only [encloses, Option.bind_some, Option.some.injEq] at h1
      subst h1
      dsimp only
      rw [resolve_direct _ h2]
  | succ j ih =>
    intro f e h1 h2 h3
    rw [encloses] at h1
    rw [lookupFrame.eq_def]
    cases c : s[f]?.bind (·.outer) with
    | none => rw [c] at h1; cases h1
    | some o =>
      rw [c] at h1
      rw [Option.bind_some] at h1
      dsimp only
      rw [resolve_nil s p _ o (h3 1 (by omega) (by omega) o (by simp [encloses, c]))]
      dsimp only
      have ho : o < f := by
        cases c2 : s[f]? with
        | none => rw [c2] at c; cases c
        | some fr => rw [c2] at c; exact wf.outer f fr o c2 c
      rw [if_pos ho]
      refine ih h1 h2 ?_
      intro j' a b e' he'
      exact h3 (j' + 1) (by omega) (by omega) e' (by rw [encloses, c]; exact he')

/-- C47, in part. A relative reference `p::ps::name` from scope `f` means what is declared in the scope
that `ps` leads to from the scope `p` of the nearest proper encloser of `f` that knows a scope `p`. -/
theorem C47_relative_partial (ops : List (Op Obj)) (is : Obj → Bool) (name p : String) (ps : List String)
    (f e h g j : Nat) (o : Obj)
    (he : encloses (build ops) (j + 1) f = some e) (hp : scopesNamed (build ops) p e 0 = [h])
    (nearer : ∀ j', 1 ≤ j' → j' ≤ j → ∀ e', encloses (build ops) j' f = some e' → ∀ k, scopesNamed (build ops) p e' k = [])
    (path : Path (build ops) h ps g) (ho : visible (build ops) is name g 0 = [o]) :
    ref (build ops) is false (p :: ps) name f = .found o := by
  rw [ref, if_neg (by decide)]
  rw [lookup_nearest (WF.build ops) j he hp nearer]
  exact findPrefixed_path path ho

theorem outermost_encloses {s : Store Obj} (wf : WF s) (j : Nat) :
    ∀ {f r : Nat}, encloses s j f = some r → s[r]?.bind (·.outer) = none → outermost s f = r := by
  induction j with
  | zero => intro f r h1 h2; cases h1; rw [outermost.eq_def, h2]
  | succ j ih =>
    intro f r h1 h2
    rw [encloses] at h1
    cases c : s[f]?.bind (·.outer) with
    | none => rw [c] at h1; cases h1
    | some o =>
      rw [c] at h1
      have ho : o < f := by
        cases c2 : s[f]? with
        | none => rw [c2] at c; cases c
        | some fr => rw [c2] at c; exact wf.outer f fr o c2 c
      rw [outermost.eq_def, c]
      dsimp only
      rw [if_pos ho]
      exact ih h1 h2

/-- C47, in part. An absolute reference `::ps::name` means what is declared in the scope that `ps` leads to
from the outermost scope. -/
theorem C47_absolute_partial (ops : List (Op Obj)) (is : Obj → Bool) (name : String) (ps : List String)
    (f r g j : Nat) (o : Obj) (hr : encloses (build ops) j f = some r)
    (out : (build ops)[r]?.bind (·.outer) = none) (path : Path (build ops) r ps g)
    (ho : visible (build ops) is name g 0 = [o]) : ref (build ops) is true ps name f = .found o := by
  rw [ref.eq_def, if_pos rfl, outermost_encloses (WF.build ops) j hr out]
  exact findPrefixed_path path ho

theorem resolve_many {s : Store Obj} {p : String} {e : Nat} (fuel : Nat) {g h : Nat} {l : List Nat}
    (hs : scopesNamed s p e 0 = g :: h :: l) : resolvePrefix s p (fuel + 1) e = g :: h :: l := by
  unfold scopesNamed anonymous at hs
  simp only [List.flatMap_cons, List.flatMap_nil, List.append_nil] at hs
  rw [resolvePrefix]
  cases c : s[e]? with
  | none => rw [c] at hs; cases hs
  | some fr =>
    rw [c] at hs
    simp only [Option.map_some, Option.getD_some] at hs
    dsimp only
    rw [hs]

theorem findPrefixed_after {s : Store Obj} {is : Obj → Bool} {name : String} {r g : Nat} {ps qs : List String}
    (h : Path s r ps g) : findPrefixed s is name (ps ++ qs) r = findPrefixed s is name qs g := by
  induction h with
  | here r => rfl
  | step h1 _ ih => rw [List.cons_append, findPrefixed, resolve_direct _ h1]; exact ih

/-- C47. A path on which a scope declares two scopes of the next name is reported as ambiguous, one on which a scope knows
none of that name, not even through anonymous scopes, as missing (for absolute references; the first qualifier
of a relative one is the subject of `C47_violated`). -/
theorem C47_absolute_errors (ops : List (Op Obj)) (is : Obj → Bool) (name p : String) (ps qs : List String)
    (f r g j : Nat) (hr : encloses (build ops) j f = some r)
    (out : (build ops)[r]?.bind (·.outer) = none) (path : Path (build ops) r ps g) :
    (2 ≤ (scopesNamed (build ops) p g 0).length → ref (build ops) is true (ps ++ p :: qs) name f = .ambiguous) ∧
    ((∀ k, scopesNamed (build ops) p g k = []) → ref (build ops) is true (ps ++ p :: qs) name f = .missing) := by
  rw [ref.eq_def, if_pos rfl, outermost_encloses (WF.build ops) j hr out, findPrefixed_after path, findPrefixed]
  refine ⟨fun h => ?_, fun h => ?_⟩
  · cases hs : scopesNamed (build ops) p g 0 with
    | nil => rw [hs] at h; simp at h
    | cons a l =>
      cases l with
      | nil => rw [hs] at h; simp at h
      | cons b l => rw [resolve_many _ hs]
  · rw [resolve_nil _ _ _ _ h]

theorem lookup_many {s : Store Obj} (wf : WF s) {p : String} {g h : Nat} {l : List Nat} (j : Nat) :
    ∀ {f e : Nat}, encloses s (j + 1) f = some e → scopesNamed s p e 0 = g :: h :: l →
    (∀ j', 1 ≤ j' → j' ≤ j → ∀ e', encloses s j' f = some e' → ∀ k, scopesNamed s p e' k = []) →
    lookupFrame s p f = none := by
  induction j with
  | zero =>
    intro f e h1 h2 _
    rw [encloses] at h1
    rw [lookupFrame.eq_def]
    cases c : s[f]?.bind (·.outer) with
    | none => rw [c] at h1; cases h1
    | some o =>
      rw [c] at h1
      simp only [encloses, Option.bind_some, Option.some.injEq] at h1
      subst h1
      dsimp only
      rw [resolve_many _ h2]
  | succ j ih =>
    intro f e h1 h2 h3
    rw [encloses] at h1
    rw [lookupFrame.eq_def]
    cases c : s[f]?.bind (·.outer) with
    | none => rw [c] at h1; cases h1
    | some o =>
      rw [c] at h1
      rw [Option.bind_some] at h1
      dsimp only
      rw [resolve_nil s p _ o (h3 1 (by omega) (by omega) o (by simp [encloses, c]))]
      dsimp only
      have ho : o < f := by
        cases c2 : s[f]? with
        | none => rw [c2] at c; cases c
        | some fr => rw [c2] at c; exact wf.outer f fr o c2 c
      rw [if_pos ho]
      refine ih h1 h2 ?_
      intro j' a b e' he'
      exact h3 (j' + 1) (by omega) (by omega) e' (by rw [encloses, c]; exact he')

/-- C47. A relative reference whose first qualifier is the name of two scopes in the nearest encloser that knows the
name is reported as ambiguous. -/
theorem C47_relative_ambiguous (ops : List (Op Obj)) (is : Obj → Bool) (name p : String) (ps : List String)
    (f e j : Nat) (he : encloses (build ops) (j + 1) f = some e) (hp : 2 ≤ (scopesNamed (build ops) p e 0).length)
    (nearer : ∀ j', 1 ≤ j' → j' ≤ j → ∀ e', encloses (build ops) j' f = some e' → ∀ k, scopesNamed (build ops) p e' k = []) :
    ref (build ops) is false (p :: ps) name f = .ambiguous := by
  rw [ref, if_neg (by decide)]
  cases hs : scopesNamed (build ops) p e 0 with
  | nil => rw [hs] at hp; simp at hp
  | cons a l =>
    cases l with
    | nil => rw [hs] at hp; simp at hp
    | cons b l => rw [lookup_many (WF.build ops) j he hs nearer]

/-- Two scopes "event" in the outermost one. -/
example : ref (build [.newFrame 0 "event", .newFrame 0 "event", .newFrame 0 "act", .define 1 "z" 7]) (fun _ => true) false
      ["event"] "z" 3 = .ambiguous ∧
    ref (build [.newFrame 0 "event", .newFrame 0 "event", .newFrame 0 "act", .define 1 "z" 7]) (fun _ => true) true
      ["event"] "z" 3 = .ambiguous ∧
    ref (build [.newFrame 0 "event", .newFrame 0 "act", .define 1 "z" 7]) (fun _ => true) true
      ["evnt"] "z" 2 = .missing := by decide +kernel

/-- From scope 4, `act::x` is not declared in "act" (scope 1) itself but in an anonymous scope in it; `event` is
scope 4 itself, seen from scope 2. -/
example : ref (build (exOps ++ [.define 4 "z" 7])) (fun _ => true) false ["event"] "z" 2 = .found 7 ∧
    ref (build (exOps ++ [.define 4 "z" 7])) (fun _ => true) true ["act", "event"] "z" 2 = .found 7 ∧
    encloses (build (exOps ++ [.define 4 "z" 7])) 1 2 = some 1 ∧
    scopesNamed (build (exOps ++ [.define 4 "z" 7])) "event" 1 0 = [4] := by decide +kernel

/-- C47 is violated: a reference qualified with a name that no scope has finds the global `x`, and so does
`event::x`, although scope "event" does not declare `x`; and from the outermost scope the first qualifier
is dropped even if there is such a scope. -/
theorem C47_violated :
    ref (build [.define 0 "x" 100, .newFrame 0 "act"]) (fun _ => true) false ["nowhere"] "x" 1 = .found 100 ∧
    ref (build [.define 0 "x" 100, .newFrame 0 "act", .newFrame 0 "event"]) (fun _ => true) false ["event"] "x" 1 = .found 100 ∧
    ref (build [.define 0 "x" 100, .newFrame 0 "act", .define 1 "x" 200]) (fun _ => true) false ["act"] "x" 0 = .found 100 := by
  decide +kernel

end Verif.Scope
