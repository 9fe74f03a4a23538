import Verif.Maps.Spec
/-!
C211: which files of a directory are the map.
-/
namespace Verif.Maps

/-! ### Helper lemmas -/

theorem takeWhile_spec (p : Char → Bool) (l : Text) :
    ∃ r, l = l.takeWhile p ++ r ∧ (∀ c, c ∈ l.takeWhile p → p c = true) ∧ (r = [] ∨ ∃ c t, r = c :: t ∧ p c = false) := by
  induction l with
  | nil => exact ⟨[], by simp⟩
  | cons a l ih =>
    obtain ⟨r, h1, h2, h3⟩ := ih
    by_cases ha : p a = true
    · refine ⟨r, ?_, ?_, h3⟩
      · rw [List.takeWhile_cons_of_pos ha, List.cons_append, ← h1]
      · rw [List.takeWhile_cons_of_pos ha]
        intro c hc
        rcases List.mem_cons.mp hc with rfl | hc
        · exact ha
        · exact h2 c hc
    · have ha' : p a = false := by simpa using ha
      exact ⟨a :: l, by rw [List.takeWhile_cons_of_neg ha]; simp, by rw [List.takeWhile_cons_of_neg ha]; simp, Or.inr ⟨a, l, rfl, ha'⟩⟩

theorem takeWhile_append_stop (p : Char → Bool) (s : Text) (c : Char) (t : Text) (hs : ∀ x, x ∈ s → p x = true) (hc : p c = false) :
    (s ++ c :: t).takeWhile p = s := by
  induction s with
  | nil => simp [hc]
  | cons a s ih =>
    rw [List.cons_append, List.takeWhile_cons_of_pos (hs a (by simp)), ih fun x hx => hs x (by simp [hx])]

theorem extension_iff (w name : Text) (hw : ∀ c, c ∈ w → c ≠ '.') (hne : w ≠ []) :
    extension name = '.' :: w ↔ EndsIn ('.' :: w) name := by
  unfold extension EndsIn
  constructor
  · intro h
    split at h
    · simp at h
    · dsimp only at h
      split at h
      · rename_i hlen
        injection h with _ h
        obtain ⟨r, h1, h2, h3⟩ := takeWhile_spec (fun c => decide (c ≠ '.')) name.reverse
        rcases h3 with rfl | ⟨c, t, rfl, hc⟩
        · rw [List.append_nil] at h1
          have := congrArg List.length h1
          rw [List.length_reverse] at this
          omega
        · have hc : c = '.' := by simpa using hc
          subst hc
          refine ⟨t.reverse, ?_, ?_⟩
          · intro ht
            have := congrArg List.length h1
            rw [List.length_reverse, List.length_append, List.length_cons] at this
            have h0 : t.length = 0 := by rw [← List.length_reverse, ht]; rfl
            omega
          · have := congrArg List.reverse h1
            rw [List.reverse_reverse, List.reverse_append, h, List.reverse_cons, List.append_assoc] at this
            exact this
      · simp at h
  · rintro ⟨stem, hs, rfl⟩
    have e : (stem ++ '.' :: w).reverse = w.reverse ++ '.' :: stem.reverse := by simp
    have ht : (stem ++ '.' :: w).reverse.takeWhile (fun c => decide (c ≠ '.')) = w.reverse := by
      rw [e]
      exact takeWhile_append_stop _ _ _ _ (fun x hx => by simpa using hw x (List.mem_reverse.mp hx)) (by simp)
    have hlen : 0 < stem.length := List.length_pos_iff.mpr hs
    have hwl : 0 < w.length := List.length_pos_iff.mpr hne
    have hn : ¬(stem ++ '.' :: w = ".".toList ∨ stem ++ '.' :: w = "..".toList) := by
      rintro (h | h)
      · have := congrArg List.length h
        simp at this
        omega
      · have := congrArg List.length h
        simp at this
        omega
    rw [if_neg hn]
    dsimp only
    rw [ht, List.reverse_reverse, if_pos (by simp; omega)]

theorem less_iff (s t : Text) : less s t = true ↔ Before s t := by
  induction s generalizing t with
  | nil =>
    cases t with
    | nil =>
      simp only [less]
      constructor
      · intro h; cases h
      · rintro (⟨c, r, h⟩ | ⟨p, a, b, r, r', h, -, -⟩)
        · cases h
        · exact absurd h (by simp)
    | cons b t => exact ⟨fun _ => Or.inl ⟨b, t, rfl⟩, fun _ => rfl⟩
  | cons a s ih =>
    cases t with
    | nil =>
      simp only [less]
      constructor
      · intro h; cases h
      · rintro (⟨c, r, h⟩ | ⟨p, a, b, r, r', -, h, -⟩)
        · cases h
        · exact absurd h (by simp)
    | cons b t =>
      simp only [less]
      have hlt : ∀ x y : Char, x < y ↔ x.toNat < y.toNat := fun x y => Iff.rfl
      by_cases h1 : a < b
      · rw [if_pos h1]
        exact ⟨fun _ => Or.inr ⟨[], a, b, s, t, rfl, rfl, (hlt a b).mp h1⟩, fun _ => rfl⟩
      · rw [if_neg h1]
        by_cases h2 : b < a
        · rw [if_pos h2]
          constructor
          · intro h; cases h
          · rintro (⟨c, r, h⟩ | ⟨p, a', b', r, r', hs, ht, hab⟩)
            · injection h with h _
              subst h
              exact absurd h2 h1
            · cases p with
              | nil =>
                injection hs with hs _
                injection ht with ht _
                subst hs ht
                exact absurd ((hlt _ _).mpr hab) h1
              | cons c p =>
                injection hs with hs _
                injection ht with ht _
                subst hs ht
                exact absurd h2 h1
        · rw [if_neg h2, ih t]
          have hab : a = b := by
            have h1' : ¬ a.toNat < b.toNat := fun h => h1 ((hlt a b).mpr h)
            have h2' : ¬ b.toNat < a.toNat := fun h => h2 ((hlt b a).mpr h)
            exact Char.toNat_inj.mp (by omega)
          subst hab
          constructor
          · rintro (⟨c, r, rfl⟩ | ⟨p, a', b', r, r', rfl, rfl, hab⟩)
            · exact Or.inl ⟨c, r, rfl⟩
            · exact Or.inr ⟨a :: p, a', b', r, r', rfl, rfl, hab⟩
          · rintro (⟨c, r, h⟩ | ⟨p, a', b', r, r', hs, ht, hab⟩)
            · injection h with _ h
              exact Or.inl ⟨c, r, h⟩
            · cases p with
              | nil =>
                injection hs with hs _
                injection ht with ht _
                subst hs
                subst ht
                omega
              | cons c p =>
                injection hs with _ hs
                injection ht with _ ht
                exact Or.inr ⟨p, a', b', r, r', hs, ht, hab⟩

theorem less_trans (a b c : Text) (h1 : less a b = true) (h2 : less b c = true) : less a c = true := by
  induction a generalizing b c with
  | nil =>
    cases c with
    | nil => cases b <;> simp [less] at h2
    | cons z c => rfl
  | cons x a ih =>
    cases b with
    | nil => simp [less] at h1
    | cons y b =>
      cases c with
      | nil => simp [less] at h2
      | cons z c =>
        simp only [less] at h1 h2 ⊢
        have hlt : ∀ x y : Char, x < y ↔ x.toNat < y.toNat := fun x y => Iff.rfl
        simp only [hlt] at h1 h2 ⊢
        by_cases a1 : x.toNat < z.toNat
        · rw [if_pos a1]
        · by_cases a2 : x.toNat < y.toNat
          · rw [if_neg (by omega), if_pos (by omega)] at h2
            cases h2
          · rw [if_neg a2] at h1
            by_cases a3 : y.toNat < x.toNat
            · rw [if_pos a3] at h1
              cases h1
            · rw [if_neg a3] at h1
              rw [if_neg (by omega)] at h2
              by_cases a4 : z.toNat < y.toNat
              · rw [if_pos a4] at h2
                cases h2
              · rw [if_neg a4] at h2
                rw [if_neg a1, if_neg (by omega)]
                exact ih b c h1 h2

theorem less_total (a b : Text) : less a b = true ∨ a = b ∨ less b a = true := by
  induction a generalizing b with
  | nil => cases b <;> simp [less]
  | cons x a ih =>
    cases b with
    | nil => simp [less]
    | cons y b =>
      have hlt : ∀ x y : Char, x < y ↔ x.toNat < y.toNat := fun x y => Iff.rfl
      simp only [less, hlt]
      by_cases h1 : x.toNat < y.toNat
      · simp [h1]
      · by_cases h2 : y.toNat < x.toNat
        · simp [h2]
        · have : x = y := Char.toNat_inj.mp (by omega)
          subst this
          rcases ih b with h | h | h
          · left; simp [h]
          · right; left; rw [h]
          · right; right; simp [h]

theorem less_irrefl (a : Text) : less a a = false := by
  induction a with
  | nil => rfl
  | cons x a ih =>
    have h : ¬ x < x := fun h => absurd h (Nat.lt_irrefl x.toNat)
    simp only [less, if_neg h, ih]

/-- The loop keeps the greatest of the names that match. -/
theorem fold_spec (ext : Text) (names : List Text) (r0 : Text) :
    let r := names.foldl (findStep ext) r0
    (r = r0 ∨ (r ∈ names ∧ extension r = ext)) ∧ (r = r0 ∨ less r0 r = true) ∧
      ∀ n, n ∈ names → extension n = ext → n = r ∨ less n r = true := by
  induction names generalizing r0 with
  | nil => simp
  | cons n names ih =>
    simp only [List.foldl_cons]
    obtain ⟨h1, h2, h3⟩ := ih (findStep ext r0 n)
    by_cases hc : extension n = ext ∧ less r0 n = true
    · have e : findStep ext r0 n = n := if_pos hc
      rw [e] at h1 h2 h3 ⊢
      refine ⟨?_, ?_, ?_⟩
      · rcases h1 with h | ⟨h, h'⟩
        · right; rw [h]; exact ⟨by simp, hc.1⟩
        · right; exact ⟨by simp [h], h'⟩
      · right
        rcases h2 with h | h
        · rw [h]; exact hc.2
        · exact less_trans _ _ _ hc.2 h
      · intro m hm he
        rcases List.mem_cons.mp hm with rfl | hm
        · exact h2.elim (fun h => Or.inl h.symm) Or.inr
        · exact h3 m hm he
    · have e : findStep ext r0 n = r0 := if_neg hc
      rw [e] at h1 h2 h3 ⊢
      refine ⟨?_, h2, ?_⟩
      · rcases h1 with h | ⟨h, h'⟩
        · exact Or.inl h
        · exact Or.inr ⟨by simp [h], h'⟩
      · intro m hm he
        rcases List.mem_cons.mp hm with rfl | hm
        · have hn : less r0 m ≠ true := fun h => hc ⟨he, h⟩
          rcases less_total r0 m with h | h | h
          · exact absurd h hn
          · subst h; exact h2.elim (fun h => Or.inl h.symm) Or.inr
          · right
            rcases h2 with h' | h'
            · rw [h']; exact h
            · exact less_trans _ _ _ h h'
        · exact h3 m hm he

theorem osm_iff (n : Text) : extension n = ".osm".toList ↔ EndsIn ".osm".toList n :=
  extension_iff "osm".toList n (by decide) (by decide)

theorem pcd_iff (n : Text) : extension n = ".pcd".toList ↔ EndsIn ".pcd".toList n :=
  extension_iff "pcd".toList n (by decide) (by decide)

theorem find_empty (names : List Text) (ext : Text) (he : ext ≠ []) : find names ext = [] ↔ ∀ n, n ∈ names → extension n ≠ ext := by
  obtain ⟨h1, -, h3⟩ := fold_spec ext names []
  constructor
  · intro h n hn hx
    unfold find at h
    rcases h3 n hn hx with h' | h'
    · rw [h] at h'
      subst h'
      exact he hx.symm
    · rw [h] at h'
      cases n <;> simp [less] at h'
  · intro h
    rcases h1 with h' | ⟨h', h''⟩
    · exact h'
    · exact absurd h'' (h _ h')

/-! ### C211 -/

/-- The one of the names with the ending that comes after all others with it. -/
def LastOf (ending : Text) (names : List Text) (name : Text) : Prop :=
  name ∈ names ∧ EndsIn ending name ∧ ∀ other, other ∈ names → EndsIn ending other → other = name ∨ Before other name

theorem lastOf_unique (ending : Text) (names : List Text) (a b : Text) (ha : LastOf ending names a) (hb : LastOf ending names b) : a = b := by
  obtain ⟨h1, h2, h3⟩ := ha
  obtain ⟨g1, g2, g3⟩ := hb
  rcases h3 b g1 g2 with h | h
  · exact h.symm
  · rcases g3 a h1 h2 with g | g
    · exact g
    · have := less_trans _ _ _ ((less_iff _ _).mpr h) ((less_iff _ _).mpr g)
      rw [less_irrefl] at this
      cases this

theorem find_iff (names : List Text) (w : Text) (hw : ∀ c, c ∈ w → c ≠ '.') (hne : w ≠ []) (r : Text) :
    (r ≠ [] ∧ find names ('.' :: w) = r) ↔ LastOf ('.' :: w) names r := by
  have key : ∀ q, q ≠ [] → find names ('.' :: w) = q → LastOf ('.' :: w) names q := by
    rintro q hr rfl
    obtain ⟨h1, -, h3⟩ := fold_spec ('.' :: w) names []
    rcases h1 with h | ⟨h, h'⟩
    · exact absurd h hr
    · exact ⟨h, (extension_iff w _ hw hne).mp h', fun m hm he => (h3 m hm ((extension_iff w m hw hne).mpr he)).imp id fun h => (less_iff _ _).mp h⟩
  constructor
  · rintro ⟨hr, h⟩
    exact key r hr h
  · intro h
    have hn : find names ('.' :: w) ≠ [] := fun h0 =>
      (find_empty names ('.' :: w) (by simp)).mp h0 r h.1 ((extension_iff w r hw hne).mpr h.2.1)
    have := lastOf_unique _ _ _ _ (key _ hn rfl) h
    obtain ⟨stem, hs, hr⟩ := h.2.1
    exact ⟨by rw [hr]; simp, this⟩

/-- C211 (in part: the property asks for the first one): given a directory, the configuration is made exactly if the path is not empty, there is
a directory, and it has a file whose name ends in `.osm` and one whose name ends in `.pcd`; of each kind the file whose name comes last in
the dictionary is taken. -/
theorem C211_directory_partial (files : Files) (path : Text) (c : Configuration) :
    ofDirectory files path = .ok c ↔
      path ≠ [] ∧ c.directory = path ∧ ∃ names, files path = some names ∧ LastOf ".osm".toList names c.lanelet2 ∧
        LastOf ".pcd".toList names c.pointcloud := by
  have osm := fun names r => find_iff names "osm".toList (by decide) (by decide) r
  have pcd := fun names r => find_iff names "pcd".toList (by decide) (by decide) r
  unfold ofDirectory assertMapPath
  by_cases hp : path = []
  · simp [hp]
  · rw [if_neg hp]
    cases hf : files path with
    | none => simp
    | some names =>
      dsimp only
      obtain ⟨d, l, p⟩ := c
      by_cases ho : find names ".osm".toList = []
      · rw [if_pos ho]
        constructor
        · intro h; cases h
        · rintro ⟨-, -, n, hn, h, -⟩
          cases hn
          exact absurd (((osm names l).mpr h).2.symm.trans ho) ((osm names l).mpr h).1
      · rw [if_neg ho]
        by_cases hq : find names ".pcd".toList = []
        · rw [if_pos hq]
          constructor
          · intro h; cases h
          · rintro ⟨-, -, n, hn, -, h⟩
            cases hn
            exact absurd (((pcd names p).mpr h).2.symm.trans hq) ((pcd names p).mpr h).1
        · rw [if_neg hq]
          constructor
          · intro h
            injection h with h
            injection h with h1 h2 h3
            refine ⟨hp, h1.symm, names, rfl, ?_, ?_⟩
            · exact (osm names l).mp ⟨h2 ▸ ho, h2⟩
            · exact (pcd names p).mp ⟨h3 ▸ hq, h3⟩
          · rintro ⟨-, h1, n, hn, h2, h3⟩
            cases hn
            have e1 := ((osm names l).mpr h2).2
            have e2 := ((pcd names p).mpr h3).2
            dsimp only at h1
            subst h1
            exact congrArg Except.ok (congr (congrArg (Configuration.mk d) e1) e2)

/-- A directory with two lanelet2 maps, a file that only looks like one, and a point cloud. -/
def someFiles : Files := fun p =>
  if p = "/maps".toList then some ["a.osm".toList, "notes.osm.txt".toList, "b.osm".toList, ".osm".toList, "c.pcd".toList] else none

/-- The theorem speaks about this directory: the configuration is made, of `b.osm`. -/
example : ofDirectory someFiles "/maps".toList = .ok ⟨"/maps".toList, "b.osm".toList, "c.pcd".toList⟩ := by rfl

/-- C211: the order in which the operating system lists the names does not matter. -/
theorem C211_order (files files' : Files) (path : Text) (names names' : List Text) (h : files path = some names) (h' : files' path = some names')
    (same : ∀ n, n ∈ names ↔ n ∈ names') : ofDirectory files path = ofDirectory files' path := by
  have key : ∀ w : Text, (∀ c, c ∈ w → c ≠ '.') → w ≠ [] → find names ('.' :: w) = find names' ('.' :: w) := by
    intro w hw hne
    by_cases h0 : find names ('.' :: w) = []
    · have : find names' ('.' :: w) = [] := by
        rw [find_empty _ _ (by simp)] at h0 ⊢
        exact fun n hn => h0 n ((same n).mpr hn)
      rw [h0, this]
    · have hl := (find_iff names w hw hne _).mp ⟨h0, rfl⟩
      exact (((find_iff names' w hw hne _).mpr
        ⟨(same _).mp hl.1, hl.2.1, fun m hm he => hl.2.2 m ((same m).mpr hm) he⟩).2).symm
  have e1 := key "osm".toList (by decide) (by decide)
  have e2 := key "pcd".toList (by decide) (by decide)
  have e1 : find names ".osm".toList = find names' ".osm".toList := e1
  have e2 : find names ".pcd".toList = find names' ".pcd".toList := e2
  unfold ofDirectory assertMapPath
  rw [h, h']
  dsimp only
  rw [e1, e2]
  by_cases h1 : path = []
  · rw [if_pos h1, if_pos h1]
  · rw [if_neg h1, if_neg h1]
    by_cases h2 : find names' ".osm".toList = []
    · rw [if_pos h2, if_pos h2]
    · rw [if_neg h2, if_neg h2]
      by_cases h3 : find names' ".pcd".toList = []
      · rw [if_pos h3, if_pos h3]
      · rw [if_neg h3, if_neg h3]
        dsimp only
        rw [e1, e2]

/-- The theorem speaks about this: the directory from before, listed in another order. -/
example : ofDirectory (fun _ => some ["b.osm".toList, ".osm".toList, "c.pcd".toList, "a.osm".toList, "notes.osm.txt".toList]) "/maps".toList =
    .ok ⟨"/maps".toList, "b.osm".toList, "c.pcd".toList⟩ := by
  rfl

/-- C211 does not hold as stated: of `a.osm` and `b.osm` the second one is taken. -/
theorem C211_first_violated :
    ∃ (names : List Text) (first chosen : Text), find names ".osm".toList = chosen ∧ first ∈ names ∧ EndsIn ".osm".toList first ∧
      Before first chosen :=
  ⟨["a.osm".toList, "b.osm".toList], "a.osm".toList, "b.osm".toList, by decide, by decide, ⟨"a".toList, by decide, by decide⟩,
    Or.inr ⟨[], 'a', 'b', ".osm".toList, ".osm".toList, rfl, rfl, by decide⟩⟩

/-- C211: the reasons for refusing, in this order. -/
theorem C211_refusal (files : Files) (path : Text) :
    (ofDirectory files path = .error .noPath ↔ path = []) ∧
    (ofDirectory files path = .error .notDirectory ↔ path ≠ [] ∧ files path = none) ∧
    (ofDirectory files path = .error .noOsm ↔ path ≠ [] ∧ ∃ names, files path = some names ∧ ∀ n, n ∈ names → ¬EndsIn ".osm".toList n) ∧
    (ofDirectory files path = .error .noPcd ↔ path ≠ [] ∧ ∃ names, files path = some names ∧ (∃ n, n ∈ names ∧ EndsIn ".osm".toList n) ∧
      ∀ n, n ∈ names → ¬EndsIn ".pcd".toList n) := by
  have osm : ∀ names, find names ".osm".toList = [] ↔ ∀ n, n ∈ names → ¬EndsIn ".osm".toList n := fun names => by
    rw [find_empty _ _ (by decide)]
    exact ⟨fun h n hn he => h n hn ((osm_iff n).mpr he), fun h n hn he => h n hn ((osm_iff n).mp he)⟩
  have pcd : ∀ names, find names ".pcd".toList = [] ↔ ∀ n, n ∈ names → ¬EndsIn ".pcd".toList n := fun names => by
    rw [find_empty _ _ (by decide)]
    exact ⟨fun h n hn he => h n hn ((pcd_iff n).mpr he), fun h n hn he => h n hn ((pcd_iff n).mp he)⟩
  unfold ofDirectory assertMapPath
  by_cases hp : path = []
  · simp [hp]
  · rw [if_neg hp]
    cases hf : files path with
    | none => simp [hp]
    | some names =>
      dsimp only
      by_cases ho : find names ".osm".toList = []
      · rw [if_pos ho]
        have ho' := (osm names).mp ho
        refine ⟨by simp [hp], by simp, ⟨fun _ => ⟨hp, names, rfl, ho'⟩, fun _ => rfl⟩, ⟨fun h => (by cases h), ?_⟩⟩
        rintro ⟨-, n, hn, ⟨m, hm, he⟩, -⟩
        cases hn
        exact absurd he (ho' m hm)
      · rw [if_neg ho]
        have ho' : ∃ n, n ∈ names ∧ EndsIn ".osm".toList n := by
          refine Classical.byContradiction fun hx => ho ((osm names).mpr fun n hn he => hx ⟨n, hn, he⟩)
        by_cases hq : find names ".pcd".toList = []
        · rw [if_pos hq]
          have hq' := (pcd names).mp hq
          refine ⟨by simp [hp], by simp, ⟨fun h => (by cases h), ?_⟩, ⟨fun _ => ⟨hp, names, rfl, ho', hq'⟩, fun _ => rfl⟩⟩
          rintro ⟨-, n, hn, h⟩
          cases hn
          obtain ⟨m, hm, he⟩ := ho'
          exact absurd he (h m hm)
        · rw [if_neg hq]
          refine ⟨by simp [hp], by simp, ⟨fun h => (by cases h), ?_⟩, ⟨fun h => (by cases h), ?_⟩⟩
          · rintro ⟨-, n, hn, h⟩
            cases hn
            exact absurd ((osm names).mpr h) ho
          · rintro ⟨-, n, hn, -, h⟩
            cases hn
            exact absurd ((pcd names).mpr h) hq

/-- Each reason is met. -/
example : ofDirectory someFiles [] = .error .noPath ∧ ofDirectory someFiles "/other".toList = .error .notDirectory ∧
    ofDirectory (fun _ => some [".osm".toList, "c.pcd".toList]) "/maps".toList = .error .noOsm ∧
    ofDirectory (fun _ => some ["a.osm".toList]) "/maps".toList = .error .noPcd := by exact ⟨rfl, rfl, rfl, rfl⟩

/-! ### The file named by the scenario -/

theorem filename_of (dir name : Text) (hn : ∀ c, c ∈ name → c ≠ '/') : filename (dir ++ '/' :: name) = name := by
  unfold filename
  have e : (dir ++ '/' :: name).reverse = name.reverse ++ '/' :: dir.reverse := by simp
  rw [e, takeWhile_append_stop _ _ _ _ (fun x hx => by simpa using hn x (List.mem_reverse.mp hx)) (by simp), List.reverse_reverse]

theorem dropWhile_append_stop (p : Char → Bool) (s : Text) (c : Char) (t : Text) (hs : ∀ x, x ∈ s → p x = true) (hc : p c = false) :
    (s ++ c :: t).dropWhile p = c :: t := by
  induction s with
  | nil => simp [hc]
  | cons a s ih =>
    rw [List.cons_append, List.dropWhile_cons_of_pos (hs a (by simp)), ih fun x hx => hs x (by simp [hx])]

theorem parent_of (dir : Text) (last : Char) (name : Text) (hl : last ≠ '/') (hn : ∀ c, c ∈ name → c ≠ '/') :
    parentPath ((dir ++ [last]) ++ '/' :: name) = dir ++ [last] := by
  unfold parentPath
  have e : ((dir ++ [last]) ++ '/' :: name).reverse = name.reverse ++ '/' :: (last :: dir.reverse) := by simp
  have d : (name.reverse ++ '/' :: (last :: dir.reverse)).dropWhile (fun c => decide (c ≠ '/')) = '/' :: last :: dir.reverse :=
    dropWhile_append_stop _ _ _ _ (fun x hx => by simpa using hn x (List.mem_reverse.mp hx)) (by simp)
  dsimp only
  rw [e, d]
  have d2 : ('/' :: last :: dir.reverse).dropWhile (fun c => decide (c = '/')) = last :: dir.reverse := by
    rw [List.dropWhile_cons_of_pos (by simp), List.dropWhile_cons_of_neg (by simpa using hl)]
  rw [d2, List.reverse_cons, List.reverse_reverse, if_neg (by simp)]

/-- C211 (in part: the file must be named with its directory): a scenario that names a file ending in `.osm` in some directory gets that file, and
the point cloud of the directory, or is refused as the directory is. -/
theorem C211_named_partial (files : Files) (dir : Text) (last : Char) (name : Text) (hl : last ≠ '/') (hn : ∀ c, c ∈ name → c ≠ '/')
    (he : EndsIn ".osm".toList name) (hf : files ((dir ++ [last]) ++ '/' :: name) = none) :
    makeCurrentConfiguration files ((dir ++ [last]) ++ '/' :: name) =
      (match ofDirectory files (dir ++ [last]) with
        | .error e => .error e
        | .ok c => .ok ⟨dir ++ [last], name, c.pointcloud⟩) := by
  unfold makeCurrentConfiguration
  rw [filename_of _ _ hn, parent_of _ _ _ hl hn, hf, if_pos ⟨rfl, (osm_iff name).mpr he⟩]
  unfold ofFile ofDirectory
  cases assertMapPath files (dir ++ [last]) <;> rfl

/-- The theorem speaks about this: the file named is taken, which is not the one of the directory. -/
example : makeCurrentConfiguration someFiles "/maps/a.osm".toList = .ok ⟨"/maps".toList, "a.osm".toList, "c.pcd".toList⟩ := by rfl

/-- C211: a scenario that names a directory, or something else that does not end in `.osm`, gets the files of that directory. -/
theorem C211_whole (files : Files) (path : Text) (h : files path ≠ none ∨ ¬EndsIn ".osm".toList (filename path)) :
    makeCurrentConfiguration files path = ofDirectory files path := by
  unfold makeCurrentConfiguration
  rw [if_neg]
  rintro ⟨h1, h2⟩
  rcases h with h | h
  · exact h (Option.isNone_iff_eq_none.mp h1)
  · exact h ((osm_iff _).mp h2)

example : makeCurrentConfiguration someFiles "/maps".toList = .ok ⟨"/maps".toList, "b.osm".toList, "c.pcd".toList⟩ := by rfl

/-- C211 does not hold as stated: a map in the current directory, named without a directory, is refused, for want of a path, whatever there is. -/
theorem C211_bare_violated (files : Files) (name : Text) (hn : ∀ c, c ∈ name → c ≠ '/') (he : EndsIn ".osm".toList name)
    (hf : files name = none) : makeCurrentConfiguration files name = .error .noPath := by
  have h1 : filename name = name := by
    unfold filename
    have : name.reverse.takeWhile (fun c => decide (c ≠ '/')) = name.reverse := by
      obtain ⟨r, h1, h2, h3⟩ := takeWhile_spec (fun c => decide (c ≠ '/')) name.reverse
      rcases h3 with rfl | ⟨c, t, rfl, hc⟩
      · rw [List.append_nil] at h1
        exact h1.symm
      · have hc : c = '/' := by simpa using hc
        have : c ∈ name.reverse := by rw [h1]; simp
        exact absurd hc (hn c (List.mem_reverse.mp this))
    rw [this, List.reverse_reverse]
  have h2 : parentPath name = [] := by
    have h3 : name.reverse.dropWhile (fun c => decide (c ≠ '/')) = [] := by
      have h4 : ∀ l : Text, (∀ c, c ∈ l → c ≠ '/') → l.dropWhile (fun c => decide (c ≠ '/')) = [] := by
        intro l
        induction l with
        | nil => intro _; rfl
        | cons a l ih =>
          intro h
          rw [List.dropWhile_cons_of_pos (by simpa using h a (by simp))]
          exact ih fun c hc => h c (by simp [hc])
      exact h4 _ fun c hc => hn c (List.mem_reverse.mp hc)
    unfold parentPath
    dsimp only
    rw [h3]
    rfl
  unfold makeCurrentConfiguration
  rw [h1, h2, hf, if_pos ⟨rfl, (osm_iff name).mpr he⟩]
  rfl

/-- The theorem speaks about this: the current directory has the map and a point cloud. -/
example : makeCurrentConfiguration (fun p => if p = ".".toList then some ["a.osm".toList, "c.pcd".toList] else none) "a.osm".toList =
    .error .noPath := by rfl

end Verif.Maps
