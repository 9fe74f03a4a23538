import Verif.Literal.Spec

namespace Verif.Literal

theorem figure_toNat {d : Nat} (h : d < 10) : (figure d).toNat = 48 + d := by
  have : ∀ d : Fin 10, (figure d).toNat = 48 + d := by decide +kernel
  exact this ⟨d, h⟩

theorem figure_of {c : Char} (h : isDigit c = true) : ∃ d, d < 10 ∧ c = figure d ∧ c.toNat = 48 + d := by
  unfold isDigit at h
  have h := of_decide_eq_true h
  refine ⟨c.toNat - 48, by omega, ?_, by omega⟩
  have h1 : (figure (c.toNat - 48)).toNat = c.toNat := by
    rw [figure_toNat (by omega)]
    omega
  apply Char.ext
  apply UInt32.toNat_inj.1
  exact h1.symm

theorem isDigit_figure {d : Nat} (h : d < 10) : isDigit (figure d) = true := by
  unfold isDigit
  rw [figure_toNat h]
  exact decide_eq_true (by omega)

theorem stands_digits {ds : Text} {n : Nat} (h : Stands ds n) : digits ds = some n := by
  induction h with
  | one d h =>
    unfold digits
    simp [isDigit_figure h, figure_toNat h]
  | @more ds n d h _ ih =>
    unfold digits at ih ⊢
    split at ih
    · rename_i h1
      injection ih with ih
      rw [if_pos ⟨by simp, by simp [h1.2, isDigit_figure h]⟩, List.foldl_append, ih]
      simp [figure_toNat h]
    · cases ih

theorem digits_stands : ∀ (k : Nat) {ds : Text} {n : Nat}, ds.length = k → digits ds = some n → Stands ds n
  | 0, ds, n, hk, h => by
    have : ds = [] := by simpa using hk
    subst this
    simp [digits] at h
  | k + 1, ds, n, hk, h => by
    rcases List.eq_nil_or_concat ds with rfl | ⟨l, c, rfl⟩
    · simp at hk
    · unfold digits at h
      split at h
      · rename_i h1
        injection h with h
        have h2 := h1.2
        simp only [List.concat_eq_append, List.all_append, List.all_cons, List.all_nil, Bool.and_true,
          Bool.and_eq_true] at h2
        obtain ⟨d, hd, hc, hc'⟩ := figure_of h2.2
        rw [List.concat_eq_append, List.foldl_append] at h
        simp only [List.foldl_cons, List.foldl_nil] at h
        by_cases hl : l = []
        · subst hl
          simp only [List.foldl_nil] at h
          have : n = d := by omega
          subst this
          rw [hc]
          exact .one n hd
        · have hn : digits l = some (l.foldl (fun n c => 10 * n + (c.toNat - 48)) 0) := by
            unfold digits
            rw [if_pos ⟨hl, h2.1⟩]
          have ih := digits_stands k (by simpa using hk) hn
          have : n = 10 * (l.foldl (fun n c => 10 * n + (c.toNat - 48)) 0) + d := by omega
          rw [this, hc, List.concat_eq_append]
          exact .more d hd ih
      · cases h

theorem digits_iff {ds : Text} {n : Nat} : digits ds = some n ↔ Stands ds n :=
  ⟨digits_stands _ rfl, stands_digits⟩

theorem stands_head {s : Text} {n : Nat} {c : Char} (h : Stands (c :: s) n) : isDigit c = true := by
  have h := stands_digits h
  unfold digits at h
  split at h
  · rename_i h1
    simp at h1
    exact h1.1
  · cases h

theorem not_sign {s : Text} {n : Nat} (h : Stands s n) : (∀ t, s ≠ '-' :: t) ∧ ∀ t, s ≠ '+' :: t := by
  constructor
  · rintro t rfl
    have := stands_head h
    revert this
    decide
  · rintro t rfl
    have := stands_head h
    revert this
    decide

theorem castSigned_plain {s : Text} (h1 : ∀ t, s ≠ '-' :: t) (h2 : ∀ t, s ≠ '+' :: t) :
    castSigned s = (digits s).bind fun n => if n < 2 ^ 63 then some (n : Int) else none := by
  unfold castSigned
  split
  · exact absurd rfl (h1 _)
  · exact absurd rfl (h2 _)
  · rfl

theorem castUnsigned_plain {bits : Nat} {s : Text} (h1 : ∀ t, s ≠ '-' :: t) (h2 : ∀ t, s ≠ '+' :: t) :
    castUnsigned bits s = (digits s).bind fun n => if n < 2 ^ bits then some n else none := by
  unfold castUnsigned
  split
  · exact absurd rfl (h1 _)
  · exact absurd rfl (h2 _)
  · rfl

theorem signs (s : Text) : (∃ t, s = '-' :: t) ∨ (∃ t, s = '+' :: t) ∨
    ((∀ t, s ≠ '-' :: t) ∧ ∀ t, s ≠ '+' :: t) := by
  cases s with
  | nil => exact Or.inr (Or.inr ⟨by simp, by simp⟩)
  | cons c s =>
    by_cases h1 : c = '-'
    · exact Or.inl ⟨s, by rw [h1]⟩
    · by_cases h2 : c = '+'
      · exact Or.inr (Or.inl ⟨s, by rw [h2]⟩)
      · refine Or.inr (Or.inr ⟨?_, ?_⟩)
        · intro t h
          injection h with h
          exact h1 h
        · intro t h
          injection h with h
          exact h2 h

theorem whole_minus {t : Text} {i : Int} (h : Whole ('-' :: t) i) : ∃ n, Stands t n ∧ i = -(n : Int) := by
  generalize hs : '-' :: t = s at h
  cases h with
  | plain h => exact absurd hs.symm ((not_sign h).1 t)
  | plus h =>
    injection hs with h1 _
    exact absurd h1 (by decide)
  | minus h =>
    injection hs with _ h2
    subst h2
    exact ⟨_, h, rfl⟩

theorem whole_plus {t : Text} {i : Int} (h : Whole ('+' :: t) i) : ∃ n, Stands t n ∧ i = (n : Int) := by
  generalize hs : '+' :: t = s at h
  cases h with
  | plain h => exact absurd hs.symm ((not_sign h).2 t)
  | minus h =>
    injection hs with h1 _
    exact absurd h1 (by decide)
  | plus h =>
    injection hs with _ h2
    subst h2
    exact ⟨_, h, rfl⟩

theorem whole_plain {s : Text} {i : Int} (h1 : ∀ t, s ≠ '-' :: t) (h2 : ∀ t, s ≠ '+' :: t) (h : Whole s i) :
    ∃ n, Stands s n ∧ i = (n : Int) := by
  cases h with
  | plain h => exact ⟨_, h, rfl⟩
  | plus h => exact absurd rfl (h2 _)
  | minus h => exact absurd rfl (h1 _)

/-! ### C201: whole numbers -/

theorem castSigned_iff (s : Text) (i : Int) :
    castSigned s = some i ↔ Whole s i ∧ -2 ^ 63 ≤ i ∧ i < 2 ^ 63 := by
  rcases signs s with ⟨t, rfl⟩ | ⟨t, rfl⟩ | ⟨h1, h2⟩
  · unfold castSigned
    simp only
    constructor
    · intro h
      cases hd : digits t with
      | none => rw [hd] at h; cases h
      | some n =>
        rw [hd] at h
        simp only [Option.bind_some] at h
        split at h
        · injection h with h
          subst h
          exact ⟨.minus (digits_iff.1 hd), by omega, by omega⟩
        · cases h
    · rintro ⟨h, h3, h4⟩
      obtain ⟨n, hn, rfl⟩ := whole_minus h
      rw [digits_iff.2 hn]
      simp only [Option.bind_some]
      rw [if_pos (by omega)]
  · unfold castSigned
    simp only
    constructor
    · intro h
      cases hd : digits t with
      | none => rw [hd] at h; cases h
      | some n =>
        rw [hd] at h
        simp only [Option.bind_some] at h
        split at h
        · injection h with h
          subst h
          exact ⟨.plus (digits_iff.1 hd), by omega, by omega⟩
        · cases h
    · rintro ⟨h, h3, h4⟩
      obtain ⟨n, hn, rfl⟩ := whole_plus h
      rw [digits_iff.2 hn]
      simp only [Option.bind_some]
      rw [if_pos (by omega)]
  · rw [castSigned_plain h1 h2]
    constructor
    · intro h
      cases hd : digits s with
      | none => rw [hd] at h; cases h
      | some n =>
        rw [hd] at h
        simp only [Option.bind_some] at h
        split at h
        · injection h with h
          subst h
          exact ⟨.plain (digits_iff.1 hd), by omega, by omega⟩
        · cases h
    · rintro ⟨h, h3, h4⟩
      obtain ⟨n, hn, rfl⟩ := whole_plain h1 h2 h
      rw [digits_iff.2 hn]
      simp only [Option.bind_some]
      rw [if_pos (by omega)]

theorem digits_noSpace {s : Text} {n : Nat} (h : Stands s n) : ∀ c ∈ s, space c = false := by
  have h := stands_digits h
  unfold digits at h
  split at h
  · rename_i h1
    intro c hc
    have := List.all_eq_true.1 h1.2 c hc
    obtain ⟨d, hd, rfl, _⟩ := figure_of this
    have h10 : ∀ d : Fin 10, space (figure d) = false := by decide +kernel
    exact h10 ⟨d, hd⟩
  · cases h

theorem whole_noSpace {s : Text} {i : Int} (h : Whole s i) : ∀ c ∈ s, space c = false := by
  cases h with
  | plain h => exact digits_noSpace h
  | plus h =>
    intro c hc
    rcases List.mem_cons.1 hc with rfl | hc
    · decide
    · exact digits_noSpace h c hc
  | minus h =>
    intro c hc
    rcases List.mem_cons.1 hc with rfl | hc
    · decide
    · exact digits_noSpace h c hc

theorem token_all {s : Text} (h : ∀ c ∈ s, space c = false) : token s = s ∧ rest s = [] := by
  unfold token rest
  induction s with
  | nil => exact ⟨rfl, rfl⟩
  | cons c s ih =>
    have hc := h c (by simp)
    obtain ⟨h1, h2⟩ := ih fun x hx => h x (by simp [hx])
    simp [hc, h1, h2]

theorem token_rest (s : Text) : token s ++ rest s = s := List.takeWhile_append_dropWhile

/-- **C201.** A whole number of 64 bits is read from exactly the texts that stand for it: figures with a sign
or without, nothing before or after, and in range. So it is for attributes and for values of parameters. -/
theorem C201_integer (s : Text) (i : Int) :
    (castSigned s = some i ↔ Whole s i ∧ -2 ^ 63 ≤ i ∧ i < 2 ^ 63) ∧
      (attributeInteger s = some i ↔ Whole s i ∧ -2 ^ 63 ≤ i ∧ i < 2 ^ 63) := by
  refine ⟨castSigned_iff s i, ?_⟩
  rw [← castSigned_iff]
  unfold attributeInteger
  constructor
  · intro h
    split at h
    · rename_i j hj
      split at h
      · rename_i hr
        have := token_rest s
        rw [hr, List.append_nil] at this
        rw [this] at hj
        rw [← h]
        exact hj
      · cases h
    · cases h
  · intro h
    obtain ⟨h1, h2⟩ := token_all (whole_noSpace ((castSigned_iff s i).1 h).1)
    rw [h1, h]
    simp [h2]

example : castSigned "-0042".toList = some (-42) ∧ castSigned "9223372036854775808".toList = none ∧
    castSigned "4 2".toList = none := by decide +kernel

/-- **C201** (partial: of texts without a minus sign). An unsigned number of 64 or 16 bits is read from exactly
the texts that stand for it. -/
theorem C201_unsigned_partial (bits : Nat) (s : Text) (n : Nat) (hs : s.head? ≠ some '-') :
    castUnsigned bits s = some n ↔ Whole s n ∧ n < 2 ^ bits := by
  rcases signs s with ⟨t, rfl⟩ | ⟨t, rfl⟩ | ⟨h1, h2⟩
  · exact absurd rfl hs
  · unfold castUnsigned
    simp only
    constructor
    · intro h
      cases hd : digits t with
      | none => rw [hd] at h; cases h
      | some m =>
        rw [hd] at h
        simp only [Option.bind_some] at h
        split at h
        · injection h with h
          subst h
          exact ⟨.plus (digits_iff.1 hd), by omega⟩
        · cases h
    · rintro ⟨h, h3⟩
      obtain ⟨m, hm, hi⟩ := whole_plus h
      have : n = m := by omega
      subst this
      rw [digits_iff.2 hm]
      simp only [Option.bind_some]
      rw [if_pos h3]
  · rw [castUnsigned_plain h1 h2]
    constructor
    · intro h
      cases hd : digits s with
      | none => rw [hd] at h; cases h
      | some m =>
        rw [hd] at h
        simp only [Option.bind_some] at h
        split at h
        · injection h with h
          subst h
          exact ⟨.plain (digits_iff.1 hd), by omega⟩
        · cases h
    · rintro ⟨h, h3⟩
      obtain ⟨m, hm, hi⟩ := whole_plain h1 h2 h
      have : n = m := by omega
      subst this
      rw [digits_iff.2 hm]
      simp only [Option.bind_some]
      rw [if_pos h3]

/-- **C201, not so.** A negative number is read as an unsigned one, without an error: minus one is the
greatest of the type. -/
theorem C201_negative_violated (bits : Nat) (t : Text) (n : Nat) (h : Stands t n) (h0 : 0 < n) (hn : n < 2 ^ bits) :
    castUnsigned bits ('-' :: t) = some (2 ^ bits - n) := by
  unfold castUnsigned
  simp only
  rw [digits_iff.2 h]
  simp only [Option.bind_some]
  rw [if_pos hn, Nat.mod_eq_of_lt (by omega)]

example : castUnsigned 64 "-1".toList = some 18446744073709551615 ∧ castUnsigned 16 "-1".toList = some 65535 := by
  decide +kernel

/-- A row of figures begins with a zero only if it is one figure. -/
theorem stands_repr : ∀ n : Nat, Stands (Nat.toDigits 10 n) n := by
  intro n
  induction n using Nat.strongRecOn with
  | ind n ih =>
    have hfig : ∀ d, d < 10 → d.digitChar = figure d := by
      intro d hd
      have : ∀ d : Fin 10, Nat.digitChar d = figure d := by decide +kernel
      exact this ⟨d, hd⟩
    rw [Nat.toDigits_eq_if (by decide)]
    split
    · rename_i h
      rw [hfig n h]
      exact .one n h
    · rename_i h
      have h1 := ih (n / 10) (Nat.div_lt_self (by omega) (by decide))
      have h2 := Stands.more (n % 10) (Nat.mod_lt _ (by decide)) h1
      rw [hfig _ (Nat.mod_lt _ (by decide))]
      have : 10 * (n / 10) + n % 10 = n := Nat.div_add_mod n 10
      rw [this] at h2
      exact h2

theorem stands_printUnsigned (n : Nat) : Stands (printUnsigned n) n := by
  unfold printUnsigned
  rw [Nat.toList_repr]
  exact stands_repr n

theorem whole_printInteger (i : Int) : Whole (printInteger i) i := by
  unfold printInteger Int.repr
  cases i with
  | ofNat m => exact .plain (stands_printUnsigned m)
  | negSucc m =>
    have : ("-" ++ (m.succ).repr).toList = '-' :: (m.succ).repr.toList := by simp
    simp only [this]
    exact .minus (stands_printUnsigned (m + 1))

/-- **C201.** What is written of a number, or of a truth value, is read as the same, as an attribute and as
the value of a parameter. -/
theorem C201_round_trip :
    (∀ i : Int, -2 ^ 63 ≤ i → i < 2 ^ 63 →
      castSigned (printInteger i) = some i ∧ attributeInteger (printInteger i) = some i) ∧
    (∀ bits n, n < 2 ^ bits → castUnsigned bits (printUnsigned n) = some n) ∧
    ∀ b, attributeBoolean (printBoolean b) = some b ∧ makeBoolean (printBoolean b) = some b := by
  refine ⟨fun i h1 h2 => ?_, fun bits n h => ?_, fun b => by cases b <;> decide +kernel⟩
  · exact ⟨(C201_integer _ i).1.2 ⟨whole_printInteger i, h1, h2⟩, (C201_integer _ i).2.2 ⟨whole_printInteger i, h1, h2⟩⟩
  · have hw := stands_printUnsigned n
    refine (C201_unsigned_partial bits _ n ?_).2 ⟨.plain hw, h⟩
    intro h0
    cases hp : printUnsigned n with
    | nil => rw [hp] at h0; cases h0
    | cons c s =>
      rw [hp] at h0 hw
      injection h0 with h0
      subst h0
      exact (not_sign hw).1 s rfl

/-! ### C202: truth values -/

theorem boolalpha_some {s t : Text} {b : Bool} (h : boolalpha s = some (b, t)) : s = printBoolean b ++ t := by
  unfold boolalpha at h
  split at h
  · injection h with h
    injection h with h1 h2
    subst h1 h2
    rfl
  · injection h with h
    injection h with h1 h2
    subst h1 h2
    rfl
  · cases h

theorem boolalpha_word (b : Bool) (t : Text) : boolalpha (printBoolean b ++ t) = some (b, t) := by
  cases b <;> rfl

/-- **C202.** An attribute has a truth value exactly if it is the word `true` or `false`, to the letter. -/
theorem C202_attribute (s : Text) (b : Bool) :
    attributeBoolean s = some b ↔ s = (if b then "true" else "false").toList := by
  have hb : (if b then "true" else "false").toList = printBoolean b := by cases b <;> rfl
  rw [hb]
  unfold attributeBoolean
  constructor
  · intro h
    split at h
    · rename_i b' hb'
      injection h with h
      subst h
      have := boolalpha_some hb'
      rw [this, List.append_nil]
    · cases h
  · rintro rfl
    have := boolalpha_word b []
    rw [List.append_nil] at this
    rw [this]

/-- **C202, not so.** The schema has also `1` and `0` as truth values; they are errors. -/
theorem C202_figures_violated : attributeBoolean "1".toList = none ∧ attributeBoolean "0".toList = none ∧
    makeBoolean "1".toList = none ∧ makeBoolean "0".toList = none := by decide +kernel

theorem space_iff (c : Char) : space c = true ↔ c ∈ [' ', '\t', '\n', '\r', '\x0b', '\x0c'] := by
  simp [space, or_assoc]

theorem dropWhile_blank {w t : Text} (h : ∀ c ∈ w, space c = true) (ht : ∀ c s, t = c :: s → space c = false) :
    (w ++ t).dropWhile space = t := by
  induction w with
  | nil =>
    cases t with
    | nil => rfl
    | cons c s => simp [ht c s rfl]
  | cons c w ih =>
    have hc := h c (by simp)
    simp [hc, ih fun x hx => h x (by simp [hx])]

theorem takeWhile_mem {p : Char → Bool} : ∀ (s : Text), ∀ c ∈ s.takeWhile p, p c = true
  | [], c, hc => by simp at hc
  | x :: s, c, hc => by
    rw [List.takeWhile_cons] at hc
    split at hc
    · rename_i hx
      rcases List.mem_cons.1 hc with rfl | hc
      · exact hx
      · exact takeWhile_mem s c hc
    · simp at hc

/-- **C202, not so.** A parameter has a truth value also if more than the word is written: white space before
it and anything after it. -/
theorem C202_rest_violated (s : Text) (b : Bool) : makeBoolean s = some b ↔
    ∃ before after, Blank before ∧ s = before ++ (if b then "true" else "false").toList ++ after := by
  have hb : (if b then "true" else "false").toList = printBoolean b := by cases b <;> rfl
  rw [hb]
  unfold makeBoolean
  constructor
  · intro h
    obtain ⟨⟨b', t⟩, h1, h2⟩ := Option.map_eq_some_iff.1 h
    simp only at h2
    subst h2
    refine ⟨s.takeWhile space, t, ?_, ?_⟩
    · intro c hc
      exact (space_iff c).1 (takeWhile_mem s c hc)
    · rw [List.append_assoc, ← boolalpha_some h1, List.takeWhile_append_dropWhile]
  · rintro ⟨w, t, hw, rfl⟩
    rw [List.append_assoc, dropWhile_blank fun c hc => (space_iff c).2 (hw c hc), boolalpha_word]
    · rfl
    · intro c s h
      cases b
      · have h' : printBoolean false ++ t = 'f' :: ("alse".toList ++ t) := rfl
        rw [h'] at h
        injection h with h
        subst h
        decide
      · have h' : printBoolean true ++ t = 't' :: ("rue".toList ++ t) := rfl
        rw [h'] at h
        injection h with h
        subst h
        decide

example : makeBoolean " falsehood".toList = some false ∧ attributeBoolean " falsehood".toList = none := by
  decide +kernel

/-- **C202.** Infinity: an attribute of floating point has the value infinity exactly from the texts the schema
has, or from those that the language has for it; other texts stand for what the language reads. -/
theorem C202_infinity {R : Type} (number : Text → Option (Float R)) (s : Text) (x : Float R) :
    attributeDouble number s = some x ↔ (∀ c ∈ s, c ∉ [' ', '\t', '\n', '\r', '\x0b', '\x0c']) ∧
      ((s = "INF".toList ∧ x = .infinite false) ∨ (s = "+INF".toList ∧ x = .infinite false) ∨
        (s = "-INF".toList ∧ x = .infinite true) ∨
        (s ≠ "INF".toList ∧ s ≠ "+INF".toList ∧ s ≠ "-INF".toList ∧ number s = some x)) := by
  have hno : (∀ c ∈ s, c ∉ [' ', '\t', '\n', '\r', '\x0b', '\x0c']) ↔ ∀ c ∈ s, space c = false := by
    refine forall₂_congr fun c _ => ?_
    rw [← space_iff]
    simp
  rw [hno]
  have hr : rest s = [] ↔ ∀ c ∈ s, space c = false := by
    constructor
    · intro h c hc
      unfold rest at h
      have h0 := token_rest s
      unfold rest at h0
      rw [h, List.append_nil] at h0
      rw [← h0] at hc
      have := takeWhile_mem (p := fun c => !space c) s c hc
      simpa using this
    · exact fun h => (token_all h).2
  unfold attributeDouble
  simp only
  by_cases h : ∀ c ∈ s, space c = false
  · obtain ⟨h1, h2⟩ := token_all h
    rw [h1, h2]
    by_cases hp : s = "INF".toList ∨ s = "+INF".toList
    · rw [if_pos hp]
      simp only [if_true, Option.some.injEq]
      constructor
      · rintro rfl
        rcases hp with hp | hp
        · exact ⟨h, Or.inl ⟨hp, rfl⟩⟩
        · exact ⟨h, Or.inr (Or.inl ⟨hp, rfl⟩)⟩
      · rintro ⟨_, ⟨_, rfl⟩ | ⟨_, rfl⟩ | ⟨hm, rfl⟩ | ⟨h3, h4, _, _⟩⟩
        · rfl
        · rfl
        · rcases hp with hp | hp <;> rw [hm] at hp <;> exact absurd hp (by decide)
        · rcases hp with hp | hp
          · exact absurd hp h3
          · exact absurd hp h4
    · rw [if_neg hp]
      rw [not_or] at hp
      by_cases hm : s = "-INF".toList
      · rw [if_pos hm]
        simp only [if_true, Option.some.injEq]
        constructor
        · rintro rfl
          exact ⟨h, Or.inr (Or.inr (Or.inl ⟨hm, rfl⟩))⟩
        · rintro ⟨_, ⟨h3, _⟩ | ⟨h3, _⟩ | ⟨_, rfl⟩ | ⟨_, _, h3, _⟩⟩
          · exact absurd h3 hp.1
          · exact absurd h3 hp.2
          · rfl
          · exact absurd hm h3
      · rw [if_neg hm]
        constructor
        · intro h3
          refine ⟨h, Or.inr (Or.inr (Or.inr ⟨hp.1, hp.2, hm, ?_⟩))⟩
          cases hn : number s with
          | none => rw [hn] at h3; cases h3
          | some y =>
            rw [hn] at h3
            simpa using h3
        · rintro ⟨_, ⟨h3, _⟩ | ⟨h3, _⟩ | ⟨h3, _⟩ | ⟨_, _, _, h3⟩⟩
          · exact absurd h3 hp.1
          · exact absurd h3 hp.2
          · exact absurd h3 hm
          · rw [h3]
            simp
  · have hne : rest s ≠ [] := fun h0 => h (hr.1 h0)
    constructor
    · intro h3
      split at h3
      · rw [if_neg hne] at h3
        cases h3
      · cases h3
    · rintro ⟨h3, _⟩
      exact absurd h3 h

/-! ### C203: the declaration of parameters -/

/-- **C203** (partial: but for unsigned numbers with a minus sign and truth values with more around them). A
parameter has the value that its text stands for as one of its type; a text that stands for none is an error. -/
theorem C203_value_partial {R : Type} (number : Text → Option (Float R)) (k : Kind) (s : Text) (v : Value R)
    (h1 : k = .unsignedInt ∨ k = .unsignedShort → s.head? ≠ some '-')
    (h2 : k = .boolean → s.length ≤ 5 ∧ ∀ c ∈ s, c ∈ "truefalse".toList)
    (h3 : k = .boolean → s.length = 5 → s.head? = some 'f') :
    make number k s = some v ↔ Means number k s v := by
  cases k with
  | dateTime => simp [make, Means, eq_comm]
  | string => simp [make, Means, eq_comm]
  | double =>
    simp only [make, Means, Option.map_eq_some_iff]
    exact ⟨fun ⟨x, a, b⟩ => ⟨x, a, b.symm⟩, fun ⟨x, a, b⟩ => ⟨x, a, b.symm⟩⟩
  | integer =>
    simp only [make, Means, Option.map_eq_some_iff]
    constructor
    · rintro ⟨i, a, b⟩
      obtain ⟨c, d, e⟩ := (castSigned_iff s i).1 a
      exact ⟨i, c, d, e, b.symm⟩
    · rintro ⟨i, c, d, e, b⟩
      exact ⟨i, (castSigned_iff s i).2 ⟨c, d, e⟩, b.symm⟩
  | unsignedInt =>
    simp only [make, Means, Option.map_eq_some_iff]
    have := fun n => C201_unsigned_partial 64 s n (h1 (Or.inl rfl))
    constructor
    · rintro ⟨n, a, b⟩
      exact ⟨n, ((this n).1 a).1, ((this n).1 a).2, b.symm⟩
    · rintro ⟨n, a, b, c⟩
      exact ⟨n, (this n).2 ⟨a, b⟩, c.symm⟩
  | unsignedShort =>
    simp only [make, Means, Option.map_eq_some_iff]
    have := fun n => C201_unsigned_partial 16 s n (h1 (Or.inr rfl))
    constructor
    · rintro ⟨n, a, b⟩
      exact ⟨n, ((this n).1 a).1, ((this n).1 a).2, b.symm⟩
    · rintro ⟨n, a, b, c⟩
      exact ⟨n, (this n).2 ⟨a, b⟩, c.symm⟩
  | boolean =>
    simp only [make, Means, Option.map_eq_some_iff]
    obtain ⟨hl, hc⟩ := h2 rfl
    have h3 := h3 rfl
    constructor
    · rintro ⟨b, a, rfl⟩
      obtain ⟨w, t, hw, hs⟩ := (C202_rest_violated s b).1 a
      have hw0 : w = [] := by
        cases w with
        | nil => rfl
        | cons c w =>
          have hc1 := (space_iff c).2 (hw c (by simp))
          have hc2 := hc c (by rw [hs]; simp)
          have : ∀ c ∈ "truefalse".toList, space c = false := by decide
          rw [this c hc2] at hc1
          cases hc1
      subst hw0
      have ht : t = [] := by
        cases t with
        | nil => rfl
        | cons c t =>
          have hl2 := congrArg List.length hs
          cases b
          · simp at hl2
            omega
          · simp at hl2
            have hlen : s.length = 5 := by omega
            have := h3 hlen
            rw [hs] at this
            simp at this
      subst ht
      cases b
      · exact Or.inr ⟨by simpa using hs, rfl⟩
      · exact Or.inl ⟨by simpa using hs, rfl⟩
    · rintro (⟨rfl, rfl⟩ | ⟨rfl, rfl⟩)
      · exact ⟨true, by decide +kernel, rfl⟩
      · exact ⟨false, by decide +kernel, rfl⟩

/-- **C203.** A declaration is accepted exactly if its name is not reserved, its text can be read as its type
and, if it has groups of constraints, the value fits one of them; what is declared is that name with that
value. -/
theorem C203_declared {R : Type} (number : Text → Option (Float R)) (d : Declaration R) (n : Text) (v : Value R) :
    d.insert number = some (n, v) ↔
      n = d.name ∧ (¬ ∃ t, d.name = "OSC".toList ++ t) ∧ make number d.kind d.value = some v ∧
        (d.groups = [] ∨ ∃ g ∈ d.groups, g v = true) := by
  have hosc : d.name.take 3 = "OSC".toList ↔ ∃ t, d.name = "OSC".toList ++ t := by
    constructor
    · intro h
      refine ⟨d.name.drop 3, ?_⟩
      rw [← h, List.take_append_drop]
    · rintro ⟨t, h⟩
      rw [h]
      rfl
  unfold Declaration.insert checkName
  by_cases ho : d.name.take 3 = "OSC".toList
  · rw [if_pos ho]
    constructor
    · intro h
      cases h
    · rintro ⟨_, h, _⟩
      exact absurd (hosc.1 ho) h
  · rw [if_neg ho]
    rw [hosc] at ho
    simp only [Option.bind_some]
    unfold Declaration.evaluate
    by_cases hg : d.groups = []
    · rw [if_pos hg]
      cases make number d.kind d.value with
      | none => simp
      | some x =>
        simp only [Option.bind_some, Option.some.injEq, Prod.mk.injEq]
        exact ⟨fun ⟨a, b⟩ => ⟨a.symm, ho, b, Or.inl hg⟩, fun ⟨a, _, b, _⟩ => ⟨a.symm, b⟩⟩
    · rw [if_neg hg]
      cases make number d.kind d.value with
      | none => simp
      | some x =>
        simp only
        by_cases ha : (d.groups.any fun g => g x) = true
        · rw [if_pos ha]
          simp only [Option.bind_some, Option.some.injEq, Prod.mk.injEq]
          constructor
          · rintro ⟨a, rfl⟩
            exact ⟨a.symm, ho, rfl, Or.inr (List.any_eq_true.1 ha)⟩
          · exact fun ⟨a, _, b, _⟩ => ⟨a.symm, b⟩
        · rw [if_neg ha]
          constructor
          · intro h
            cases h
          · rintro ⟨_, _, h, h'⟩
            injection h with h
            subst h
            rcases h' with h' | h'
            · exact absurd h' hg
            · exact absurd (List.any_eq_true.2 h') ha

/-- **C203.** All declarations of a list are made, in their order, or there is an error because of one. -/
theorem C203_all {R : Type} (number : Text → Option (Float R)) (ds : List (Declaration R)) :
    (∀ es, declare number ds = some es → ds.map (·.insert number) = es.map some) ∧
      (declare number ds = none → ∃ d ∈ ds, d.insert number = none) := by
  induction ds with
  | nil =>
    refine ⟨?_, fun h => by cases h⟩
    intro es h
    injection h with h
    subst h
    rfl
  | cons d ds ih =>
    have hd : declare number (d :: ds) =
        (d.insert number).bind fun e => (declare number ds).bind fun es => some (e :: es) := rfl
    rw [hd]
    cases hi : d.insert number with
    | none =>
      refine ⟨fun es h => ?_, fun _ => ⟨d, by simp, hi⟩⟩
      cases h
    | some e =>
      cases hs : declare number ds with
      | none =>
        refine ⟨fun es h => ?_, fun _ => ?_⟩
        · cases h
        · obtain ⟨x, hx, hx'⟩ := ih.2 hs
          exact ⟨x, by simp [hx], hx'⟩
      | some es' =>
        refine ⟨fun es h => ?_, fun h => ?_⟩
        · simp only [Option.bind_some, Option.some.injEq] at h
          subst h
          simp [hi, ih.1 es' hs]
        · cases h

example : Declaration.insert (R := Int) (fun _ => none) ⟨"limit".toList, .unsignedShort, "30".toList,
    [fun v => v == .unsignedShort 30]⟩ = some ("limit".toList, .unsignedShort 30) := by decide +kernel

/-- **C203, not so.** Names with symbols that the standard does not allow are accepted, whatever they are. -/
theorem C203_names_violated : ∃ (name : Text) (c : Char), c ∈ name ∧ Forbidden c ∧
    ∀ (R : Type) (number : Text → Option (Float R)) (s : Text),
      Declaration.insert number ⟨name, .string, s, []⟩ = some (name, .string s) :=
  ⟨"my $name".toList, '$', by decide, Or.inr (Or.inl rfl), fun _ _ _ => rfl⟩

/-- **C203, not so.** A date is accepted whatever it says. -/
theorem C203_date_violated {R : Type} (number : Text → Option (Float R)) (s : Text) :
    make number .dateTime s = some (.string s) := rfl

end Verif.Literal
