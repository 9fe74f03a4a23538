import Verif.Modify.Spec
import Mathlib.Tactic.Linarith
import Mathlib.Tactic.FieldSimp
import Mathlib.Tactic.Ring
import Mathlib.Tactic.NormNum
import Mathlib.Tactic.Positivity
/-
Theorems about the conversion of scenarios written in YAML: C175 to C178.
-/
namespace Verif.Modify

/-! ### Ranges -/

theorem close_iff (a b : ℚ) : close a b = true ↔ Almost a b := by
  unfold close Almost relative tolerance
  rw [decide_eq_true_iff, le_max_iff, mul_max_of_nonneg _ _ (by norm_num), le_max_iff, or_assoc]

theorem almost_bound {x stop : ℚ} (h : Almost x stop) : |x| ≤ 2 * |stop| + 1 := by
  have hx : |x| ≤ |x - stop| + |stop| := by
    have := abs_add_le (x - stop) stop
    simpa using this
  have hs := abs_nonneg stop
  have h0 := abs_nonneg x
  rcases h with h | h | h <;> norm_num at h <;> linarith

theorem goesOn_bound {step stop x : ℚ} (h : goesOn step stop x = true) :
    (0 < step → x ≤ 2 * |stop| + 1) ∧ (step < 0 → -(2 * |stop| + 1) ≤ x) := by
  unfold goesOn at h
  rw [Bool.or_eq_true, close_iff] at h
  have h1 := le_abs_self stop
  have h2 := neg_abs_le stop
  have h3 := abs_nonneg stop
  constructor
  · intro hs
    rcases h with h | h
    · simp only [hs, if_true, decide_eq_true_eq] at h
      linarith
    · exact le_trans (le_abs_self x) (almost_bound h)
  · intro hs
    rcases h with h | h
    · simp only [not_lt.2 hs.le, if_false, decide_eq_true_eq] at h
      linarith
    · linarith [almost_bound h, neg_abs_le x]

theorem iotaLoop_get (step stop : ℚ) : ∀ (n : Nat) (x : ℚ) (i : Nat) (v : ℚ),
    (iotaLoop step stop n x)[i]? = some v ↔
      i < n ∧ v = x + i * step ∧ ∀ j ≤ i, goesOn step stop (x + j * step) = true
  | 0, x, i, v => by simp [iotaLoop]
  | n + 1, x, i, v => by
    unfold iotaLoop
    by_cases h : goesOn step stop x = true
    · rw [if_pos h]
      cases i with
      | zero =>
        simp only [List.getElem?_cons_zero, Option.some.injEq, Nat.cast_zero, zero_mul, add_zero, Nat.le_zero]
        constructor
        · rintro rfl
          exact ⟨Nat.succ_pos _, rfl, fun j hj => by subst hj; simpa using h⟩
        · rintro ⟨_, rfl, _⟩; rfl
      | succ i =>
        rw [List.getElem?_cons_succ, iotaLoop_get step stop n (x + step) i v]
        constructor
        · rintro ⟨h1, h2, h3⟩
          refine ⟨by omega, by rw [h2]; push_cast; ring, fun j hj => ?_⟩
          cases j with
          | zero => simpa using h
          | succ j =>
            have := h3 j (by omega)
            rw [← this]; congr 1; push_cast; ring
        · rintro ⟨h1, h2, h3⟩
          refine ⟨by omega, by rw [h2]; push_cast; ring, fun j hj => ?_⟩
          have := h3 (j + 1) (by omega)
          rw [← this]; congr 1; push_cast; ring
    · rw [if_neg h]
      simp only [List.getElem?_nil, reduceCtorEq, false_iff, not_and]
      rintro _ _ h3
      exact h (by simpa using h3 0 (Nat.zero_le _))

/-- The loop ends before the rounds given to it do. -/
theorem iota_enough (start step stop : ℚ) (h : step ≠ 0) (i : Nat)
    (hi : goesOn step stop (start + i * step) = true) : i < rounds start step stop := by
  unfold rounds
  by_contra hc
  have hc' : ⌈(|start| + 2 * |stop| + 2) / |step|⌉₊ < i := by omega
  have h1 : (|start| + 2 * |stop| + 2) / |step| ≤ i :=
    le_trans (Nat.le_ceil _) (by exact_mod_cast hc'.le)
  have hp : 0 < |step| := abs_pos.2 h
  rw [div_le_iff₀ hp] at h1
  have hb := goesOn_bound hi
  have ha := neg_abs_le start
  have ha' := le_abs_self start
  rcases lt_or_gt_of_ne h with hs | hs
  · have := hb.2 hs
    rw [abs_of_neg hs] at h1
    linarith
  · have := hb.1 hs
    rw [abs_of_pos hs] at h1
    linarith

theorem close_zero (step : ℚ) : close step 0 = true ↔ |step| ≤ 1 / 10 ^ 10 := by
  rw [close_iff]
  unfold Almost
  rw [sub_zero, abs_zero, mul_zero]
  have := abs_nonneg step
  constructor
  · rintro (h | h | h)
    · norm_num at h; norm_num; linarith
    · norm_num; linarith
    · exact h
  · exact fun h => Or.inr (Or.inr h)

theorem iota_get {start step stop : ℚ} (h : 1 / 10 ^ 10 < |step|) (i : Nat) (v : ℚ) :
    (iota start step stop)[i]? = some v ↔
      v = start + i * step ∧ ∀ j ≤ i, goesOn step stop (start + j * step) = true := by
  unfold iota
  have hc : ¬ close step 0 = true := by rw [close_zero]; exact not_le.2 h
  rw [if_neg hc, iotaLoop_get]
  constructor
  · exact fun h => h.2
  · intro h'
    refine ⟨iota_enough start step stop ?_ i (h'.2 i le_rfl), h'⟩
    rintro rfl
    norm_num at h

theorem goesOn_iff {step stop x : ℚ} (h : step ≠ 0) :
    goesOn step stop x = true ↔ NotPast step stop x ∨ Almost x stop := by
  have ha : x = stop → Almost x stop := by
    rintro rfl; right; right; simp
  unfold goesOn NotPast
  rw [Bool.or_eq_true, close_iff]
  rcases lt_or_gt_of_ne h with hs | hs
  · simp only [not_lt.2 hs.le, if_false, decide_eq_true_eq, hs, false_and, true_and, false_or]
    constructor
    · rintro (h | h)
      · exact Or.inl (le_of_lt h)
      · exact Or.inr h
    · rintro (h | h)
      · rcases lt_or_eq_of_le h with h | h
        · exact Or.inl h
        · exact Or.inr (ha h.symm)
      · exact Or.inr h
  · simp only [hs, if_true, decide_eq_true_eq, not_lt.2 hs.le, false_and, true_and, or_false]
    constructor
    · rintro (h | h)
      · exact Or.inl (le_of_lt h)
      · exact Or.inr h
    · rintro (h | h)
      · rcases lt_or_eq_of_le h with h | h
        · exact Or.inl h
        · exact Or.inr (ha h)
      · exact Or.inr h

/-- C175: The values of a range are `start`, `start + step`, `start + 2 step` and so on, in that order. -/
theorem C175_steps {start step stop : ℚ} {i : Nat} {v : ℚ} (h : (iota start step stop)[i]? = some v) :
    v = start + i * step := by
  by_cases hs : 1 / 10 ^ 10 < |step|
  · exact ((iota_get hs i v).1 h).1
  · unfold iota at h
    rw [if_pos ((close_zero step).2 (not_lt.1 hs))] at h
    cases i with
    | zero => simpa using h.symm
    | succ i => simp at h

/-- C175: A step of zero (or within 10^-10 of it) gives `start` alone, wherever `stop` is. -/
theorem C175_zero {start step stop : ℚ} (h : |step| ≤ 1 / 10 ^ 10) : iota start step stop = [start] := by
  unfold iota
  rw [if_pos ((close_zero step).2 h)]

/-- C175: No step up to `stop` is left out, and `stop` itself is a value if the steps meet it. -/
theorem C175_complete {start step stop : ℚ} (h : 1 / 10 ^ 10 < |step|) (i : Nat)
    (hi : NotPast step stop (start + i * step)) : (iota start step stop)[i]? = some (start + i * step) := by
  rw [iota_get h]
  refine ⟨rfl, fun j hj => ?_⟩
  have hj' : (j : ℚ) ≤ i := by exact_mod_cast hj
  rcases hi with ⟨hs, hi⟩ | ⟨hs, hi⟩
  · rw [goesOn_iff hs.ne']
    exact Or.inl (Or.inl ⟨hs, by nlinarith⟩)
  · rw [goesOn_iff hs.ne]
    exact Or.inl (Or.inr ⟨hs, by nlinarith⟩)

/-- C175: Every value is not past `stop`, or almost equal to it: within 10^-10, or a thousand-millionth of
the one or the other. -/
theorem C175_bounded {start step stop v : ℚ} (h : 1 / 10 ^ 10 < |step|) (hv : v ∈ iota start step stop) :
    NotPast step stop v ∨ Almost v stop := by
  obtain ⟨i, hi⟩ := List.mem_iff_getElem?.1 hv
  obtain ⟨rfl, h2⟩ := (iota_get h i v).1 hi
  refine (goesOn_iff ?_).1 (h2 i le_rfl)
  rintro rfl
  norm_num at h

/-- C175 (partial: for steps greater than the tolerance near `stop`): a range whose steps meet `stop` has
exactly the values from `start` to `stop`. -/
theorem C175_exact_partial {start step stop : ℚ} (k : Nat) (h : 1 / 10 ^ 10 < |step|)
    (hk : start + k * step = stop) (hw : |stop| + |step| < 10 ^ 9 * |step|) :
    iota start step stop = (List.range (k + 1)).map fun i : Nat => start + i * step := by
  have h0 : step ≠ 0 := by
    rintro rfl
    norm_num at h
  apply List.ext_getElem?
  intro i
  apply Option.ext
  intro v
  rw [iota_get h, List.getElem?_map]
  constructor
  · rintro ⟨rfl, h2⟩
    by_cases hik : i < k + 1
    · rw [List.getElem?_range hik]; rfl
    · exfalso
      have := (goesOn_iff h0).1 (h2 (k + 1) (by omega))
      have he : start + ((k + 1 : Nat) : ℚ) * step = stop + step := by rw [← hk]; push_cast; ring
      rw [he] at this
      rcases this with (⟨hs, h3⟩ | ⟨hs, h3⟩) | (h3 | h3 | h3)
      · linarith
      · linarith
      · have ht := abs_add_le stop step
        rw [add_sub_cancel_left] at h3
        norm_num at h3 hw ⊢
        linarith
      · rw [add_sub_cancel_left] at h3
        have hp := abs_nonneg step
        norm_num at h3 hw
        linarith
      · rw [add_sub_cancel_left] at h3
        exact absurd h3 (not_le.2 h)
  · intro hm
    by_cases hik : i < k + 1
    · rw [List.getElem?_range hik] at hm
      simp only [Option.map_some, Option.some.injEq] at hm
      refine ⟨hm.symm, fun j hj => ?_⟩
      have := C175_complete (start := start) (step := step) (stop := stop) h j ?_
      · exact ((iota_get h j _).1 this).2 j le_rfl
      · have hj' : (j : ℚ) ≤ k := by exact_mod_cast (by omega : j ≤ k)
        rcases lt_or_gt_of_ne h0 with hs | hs
        · exact Or.inr ⟨hs, by rw [← hk]; nlinarith⟩
        · exact Or.inl ⟨hs, by rw [← hk]; nlinarith⟩
    · rw [List.getElem?_eq_none (by simpa using hik)] at hm
      simp at hm

/-- From -20 to -10 by twos. -/
example : iota (-20) 2 (-10) = (List.range 6).map fun i : Nat => (-20 : ℚ) + i * 2 :=
  C175_exact_partial 5 (by norm_num) (by norm_num) (by norm_num [abs_of_pos, abs_of_neg])

/-- C175 (violated): values go past `stop` when it is great. From ten thousand million to itself by ones
there are further values after it. -/
theorem C175_past_violated : (10 ^ 10 + 7 : ℚ) ∈ iota (10 ^ 10) 1 (10 ^ 10) := by
  apply List.mem_iff_getElem?.2
  refine ⟨7, (iota_get (by norm_num) 7 _).2 ⟨by norm_num, fun j hj => ?_⟩⟩
  rw [goesOn_iff (by norm_num)]
  right; right; left
  have : (j : ℚ) ≤ 7 := by exact_mod_cast hj
  have hp : (0 : ℚ) ≤ j := Nat.cast_nonneg j
  rw [mul_one, add_sub_cancel_left, abs_of_nonneg hp]
  norm_num
  linarith

/-! ### Combinations -/

theorem flatMap_get {α β : Type} (f : α → List β) (L : Nat) (hL : 0 < L) (hf : ∀ x, (f x).length = L) :
    ∀ (s : List α) (i : Nat), (s.flatMap f)[i]? = s[i / L]?.bind fun x => (f x)[i % L]?
  | [], i => by simp
  | x :: s, i => by
    rw [List.flatMap_cons]
    by_cases h : i < L
    · rw [List.getElem?_append_left (by rw [hf]; exact h), Nat.div_eq_of_lt h, Nat.mod_eq_of_lt h]
      simp
    · have hle : L ≤ i := Nat.le_of_not_lt h
      rw [List.getElem?_append_right (by rw [hf]; exact hle), hf, flatMap_get f L hL hf s (i - L)]
      have h1 : i / L = (i - L) / L + 1 := by
        rw [Nat.div_eq_sub_div hL hle]
      have h2 : i % L = (i - L) % L := Nat.mod_eq_sub_mod hle
      rw [h1, h2, List.getElem?_cons_succ]

theorem product_length {α : Type} : ∀ ss : List (List α), (product ss).length = (ss.map List.length).prod
  | [] => rfl
  | s :: ss => by
    unfold product
    rw [List.length_flatMap]
    simp only [List.length_map, product_length ss, List.map_const', List.sum_replicate, List.map_cons,
      List.prod_cons]
    rfl

theorem product_get {α : Type} : ∀ (ss : List (List α)) (i : Nat), i < (ss.map List.length).prod →
    ∃ r, (product ss)[i]? = some r ∧ r.length = ss.length ∧ ∀ (k : Nat) (s : List α), ss[k]? = some s →
      ∃ d x, (digits (ss.map List.length) i)[k]? = some d ∧ s[d]? = some x ∧ r[k]? = some x
  | [], i, h => by
    have : i = 0 := by simpa using h
    subst this
    exact ⟨[], rfl, rfl, by simp⟩
  | s :: ss, i, h => by
    rw [List.map_cons, List.prod_cons] at h
    have hL : 0 < (ss.map List.length).prod := by
      rcases Nat.eq_zero_or_pos (ss.map List.length).prod with h0 | h0
      · rw [h0, Nat.mul_zero] at h; omega
      · exact h0
    obtain ⟨r, h1, h2, h3⟩ := product_get ss (i % (ss.map List.length).prod) (Nat.mod_lt _ hL)
    have hd : i / (ss.map List.length).prod < s.length := by
      rw [Nat.div_lt_iff_lt_mul hL]; exact h
    refine ⟨s[i / (ss.map List.length).prod] :: r, ?_, ?_, ?_⟩
    · unfold product
      rw [flatMap_get (fun x => (product ss).map fun r => x :: r) (ss.map List.length).prod hL
        (fun x => by rw [List.length_map, product_length])]
      rw [List.getElem?_eq_getElem hd, Option.bind_some, List.getElem?_map, h1]
      rfl
    · simp [h2]
    · intro k t hk
      rw [List.map_cons]
      unfold digits
      cases k with
      | zero =>
        simp only [List.getElem?_cons_zero, Option.some.injEq] at hk
        subst hk
        exact ⟨_, _, rfl, List.getElem?_eq_getElem hd, rfl⟩
      | succ k =>
        rw [List.getElem?_cons_succ] at hk
        obtain ⟨d, x, h4, h5, h6⟩ := h3 k t hk
        exact ⟨d, x, by rw [List.getElem?_cons_succ]; exact h4, h5, by rw [List.getElem?_cons_succ]; exact h6⟩

theorem pairs_length (print : ℚ → Text) (m : Modifier) : (m.pairs print).length = m.count := by
  unfold Modifier.pairs Modifier.count
  cases m.values <;> simp

theorem pairs_get {print : ℚ → Text} {m : Modifier} {d : Nat} {x : Text × Text}
    (h : (m.pairs print)[d]? = some x) : ∃ v, m.nth print d = some v ∧ x = (m.name, v) := by
  unfold Modifier.pairs at h
  unfold Modifier.nth
  cases hm : m.values with
  | list items =>
    rw [hm] at h
    simp only [List.getElem?_map, Option.map_eq_some_iff] at h
    obtain ⟨v, h1, rfl⟩ := h
    exact ⟨v, h1, rfl⟩
  | range a b c =>
    rw [hm] at h
    simp only [List.getElem?_map, Option.map_eq_some_iff] at h
    obtain ⟨v, h1, rfl⟩ := h
    exact ⟨print v, by simp only; rw [h1]; rfl, rfl⟩

theorem specs_counts (print : ℚ → Text) (ms : List Modifier) :
    (specs print (some ms)).map List.length = ms.map Modifier.count := by
  simp only [specs, List.map_map]
  exact List.map_congr_left fun m _ => pairs_length print m

theorem combination_get (print : ℚ → Text) (ms : List Modifier) (i : Nat)
    (h : i < (ms.map Modifier.count).prod) :
    ∃ bs, (product (specs print (some ms)))[i]? = some bs ∧ Combination print ms i bs := by
  rw [← specs_counts print ms] at h
  obtain ⟨r, h1, h2, h3⟩ := product_get _ i h
  refine ⟨r, h1, ?_, ?_⟩
  · rw [h2]; simp [specs]
  · intro k m hk
    obtain ⟨d, x, h4, h5, h6⟩ := h3 k (m.pairs print) (by simp [specs, hk])
    obtain ⟨v, h7, rfl⟩ := pairs_get h5
    rw [specs_counts] at h4
    exact ⟨d, v, h4, h7, h6⟩

/-! ### Files -/

/-- The loop: what the directory has at the end, if all is valid. -/
theorem deriveFrom_valid (valid : Text → Bool) (b : Bool) (stem xosc : Text) :
    ∀ (cs : List (List (Text × Text))) (i : Nat) (f : Folder) (ps : List FileName),
      (∀ bs ∈ cs, valid (expand bs xosc) = true) →
      (deriveFrom valid b stem xosc i cs f ps).2 =
        .paths (ps ++ (List.range' i cs.length).map (fileName b stem))
  | [], i, f, ps, _ => by simp [deriveFrom]
  | bs :: cs, i, f, ps, h => by
    unfold deriveFrom
    rw [if_pos (h bs (by simp)), deriveFrom_valid valid b stem xosc cs (i + 1) _ _ fun c hc => h c (by simp [hc])]
    simp [List.range'_succ]

theorem deriveFrom_folder (valid : Text → Bool) (stem xosc : Text) :
    ∀ (cs : List (List (Text × Text))) (i : Nat) (f : Folder) (ps : List FileName) (n : FileName),
      (∀ bs ∈ cs, valid (expand bs xosc) = true) →
      (deriveFrom valid true stem xosc i cs f ps).1 n =
        match n.index with
        | none => f n
        | some j => if n.stem = stem ∧ i ≤ j then
            match cs[j - i]? with
            | some bs => some (expand bs xosc)
            | none => f n
          else f n
  | [], i, f, ps, n, _ => by
    unfold deriveFrom
    cases n.index <;> simp
  | bs :: cs, i, f, ps, n, h => by
    unfold deriveFrom
    rw [if_pos (h bs (by simp)), deriveFrom_folder valid stem xosc cs (i + 1) _ _ n fun c hc => h c (by simp [hc])]
    cases n with
    | mk s x =>
      cases x with
      | none => simp [Folder.write, fileName]
      | some j =>
        simp only [Folder.write, fileName, if_true, FileName.mk.injEq, Option.some.injEq]
        by_cases hs : s = stem
        · subst hs
          by_cases h1 : i + 1 ≤ j
          · have h2 : i ≤ j := by omega
            have h3 : j - i = (j - (i + 1)) + 1 := by omega
            have h4 : ¬ j = i := by omega
            simp only [h1, h2, and_self, if_true, h3, List.getElem?_cons_succ, h4, and_false, if_false]
          · by_cases h2 : j = i
            · subst h2
              simp
            · have h3 : ¬ i ≤ j := by omega
              simp [h1, h2, h3]
        · simp [hs]

/-- C176: Every combination of the values of the modifiers is written to a file of its own, numbered from
zero, the last modifier turning fastest, the text that of the scenario with that combination. Nothing else
is in the directory afterwards, and the paths returned are those, in that order. -/
theorem C176_files {print : ℚ → Text} {valid : Text → Bool} {ms : List Modifier} {stem xosc : Text}
    {before : Folder} (hm : ms ≠ [])
    (hv : ∀ i bs, Combination print ms i bs → valid (expand bs xosc) = true) :
    (convert print valid (some ms) stem xosc before).2 =
        .paths ((List.range (ms.map Modifier.count).prod).map fun i => ⟨stem, some i⟩) ∧
    (∀ i, i < (ms.map Modifier.count).prod → ∃ bs, Combination print ms i bs ∧
      (convert print valid (some ms) stem xosc before).1 ⟨stem, some i⟩ = some (expand bs xosc)) ∧
    ∀ n, (∀ i, i < (ms.map Modifier.count).prod → n ≠ ⟨stem, some i⟩) →
      (convert print valid (some ms) stem xosc before).1 n = none := by
  have hlen : (product (specs print (some ms))).length = (ms.map Modifier.count).prod := by
    rw [product_length, specs_counts]
  have hall : ∀ bs ∈ product (specs print (some ms)), valid (expand bs xosc) = true := by
    intro bs hbs
    obtain ⟨i, hi⟩ := List.mem_iff_getElem?.1 hbs
    have hlt : i < (ms.map Modifier.count).prod := by
      rw [← hlen]
      exact (List.getElem?_eq_some_iff.1 hi).1
    obtain ⟨bs', h1, h2⟩ := combination_get print ms i hlt
    rw [hi, Option.some.injEq] at h1
    subst h1
    exact hv i bs h2
  have hb : (!(specs print (some ms)).isEmpty) = true := by
    cases ms with
    | nil => exact absurd rfl hm
    | cons m ms => rfl
  unfold convert
  rw [hb]
  refine ⟨?_, ?_, ?_⟩
  · rw [deriveFrom_valid valid true stem xosc _ _ _ _ hall, hlen, List.nil_append, List.range_eq_range']
    rfl
  · intro i hi
    obtain ⟨bs, h1, h2⟩ := combination_get print ms i hi
    refine ⟨bs, h2, ?_⟩
    rw [deriveFrom_folder valid stem xosc _ _ _ _ _ hall]
    simp [h1]
  · intro n hn
    rw [deriveFrom_folder valid stem xosc _ _ _ _ _ hall]
    cases n with
    | mk s x =>
      cases x with
      | none => rfl
      | some j =>
        simp only [Nat.zero_le, and_true, Nat.sub_zero]
        by_cases hs : s = stem
        · subst hs
          have hj : ¬ j < (ms.map Modifier.count).prod := fun h => hn j h rfl
          rw [List.getElem?_eq_none (by rw [hlen]; omega)]
          simp
        · simp [hs]

/-- C176: Two modifiers with two values and three give six scenarios. -/
example : ((convert (fun _ => []) (fun _ => true)
    (some [⟨"A".toList, .list ["1".toList, "2".toList]⟩, ⟨"B".toList, .list ["x".toList, "y".toList, "z".toList]⟩])
    "s".toList "A-B".toList fun _ => none).1 ⟨"s".toList, some 4⟩) = some "2-y".toList := by decide +kernel

/-- C176: A scenario without modifiers, or with an empty list of them, gives one file without a number,
unchanged. -/
theorem C176_plain {print : ℚ → Text} {valid : Text → Bool} {rules : Option (List Modifier)}
    {stem xosc : Text} {before : Folder} (hr : rules = none ∨ rules = some []) (hv : valid xosc = true) :
    (convert print valid rules stem xosc before).2 = .paths [⟨stem, none⟩] ∧
    (convert print valid rules stem xosc before).1 ⟨stem, none⟩ = some xosc ∧
    ∀ n, n ≠ ⟨stem, none⟩ → (convert print valid rules stem xosc before).1 n = none := by
  have hs : specs print rules = [] := by
    rcases hr with rfl | rfl <;> rfl
  unfold convert
  rw [hs]
  simp only [List.isEmpty_nil, Bool.not_true, product, deriveFrom, expand, sortBindings, List.foldl_nil, hv,
    if_true, fileName, Folder.write, List.nil_append, Bool.false_eq_true, if_false]
  refine ⟨trivial, trivial, fun n hn => ?_⟩
  simp [hn]

/-- C176 (violated): A modifier without values is not an error: nothing is converted, and the list of
paths is empty, as if there were nothing to test. -/
theorem C176_none_violated (print : ℚ → Text) (valid : Text → Bool) (stem xosc name : Text) (before : Folder) :
    convert print valid (some [⟨name, .list []⟩]) stem xosc before = (fun _ => none, .paths []) := by
  rfl

/-- C176: A range whose `start` is past `stop` gives no scenarios. -/
example : (convert (fun _ => []) (fun _ => true) (some [⟨"A".toList, .range 3 1 2⟩]) "s".toList "A".toList
    fun _ => none).2 = .paths [] := by decide +kernel

theorem deriveFrom_invalid (valid : Text → Bool) (b : Bool) (stem xosc : Text) :
    ∀ (cs : List (List (Text × Text))) (i : Nat) (f : Folder) (ps : List FileName),
      (∃ bs ∈ cs, valid (expand bs xosc) = false) → (deriveFrom valid b stem xosc i cs f ps).2 = .exited
  | [], i, f, ps, h => by obtain ⟨_, h, _⟩ := h; cases h
  | bs :: cs, i, f, ps, h => by
    unfold deriveFrom
    by_cases hv : valid (expand bs xosc) = true
    · rw [if_pos hv]
      apply deriveFrom_invalid
      obtain ⟨c, hc, hc'⟩ := h
      rcases List.mem_cons.1 hc with rfl | hc
      · rw [hv] at hc'; cases hc'
      · exact ⟨c, hc, hc'⟩
    · rw [if_neg hv]

theorem deriveFrom_written (valid : Text → Bool) (b : Bool) (stem xosc : Text) :
    ∀ (cs : List (List (Text × Text))) (i : Nat) (f : Folder) (ps : List FileName) (n : FileName) (t : Text),
      (deriveFrom valid b stem xosc i cs f ps).1 n = some t → f n = some t ∨ valid t = true
  | [], i, f, ps, n, t, h => Or.inl h
  | bs :: cs, i, f, ps, n, t, h => by
    unfold deriveFrom at h
    by_cases hv : valid (expand bs xosc) = true
    · rw [if_pos hv] at h
      rcases deriveFrom_written valid b stem xosc cs _ _ _ n t h with h | h
      · unfold Folder.write at h
        split at h
        · right
          rw [← Option.some.inj h]
          exact hv
        · exact Or.inl h
      · exact Or.inr h
    · rw [if_neg hv] at h
      exact Or.inl h

/-- C178: No file is written that is not valid under the schema, whatever the modifiers. -/
theorem C178_valid {print : ℚ → Text} {valid : Text → Bool} {rules : Option (List Modifier)}
    {stem xosc : Text} {before : Folder} {n : FileName} {t : Text}
    (h : (convert print valid rules stem xosc before).1 n = some t) : valid t = true := by
  rcases deriveFrom_written _ _ _ _ _ _ _ _ n t h with h | h
  · cases h
  · exact h

/-- C178: If a scenario derived is not valid, no list of paths is returned. -/
theorem C178_exits {print : ℚ → Text} {valid : Text → Bool} {ms : List Modifier}
    {stem xosc : Text} {before : Folder} {i : Nat} (hi : i < (ms.map Modifier.count).prod)
    (h : ∀ bs, Combination print ms i bs → valid (expand bs xosc) = false) :
    (convert print valid (some ms) stem xosc before).2 = .exited := by
  obtain ⟨bs, h1, h2⟩ := combination_get print ms i hi
  exact deriveFrom_invalid _ _ _ _ _ _ _ _ ⟨bs, List.mem_of_getElem? h1, h bs h2⟩

/-- C178 (violated): The status says success although the scenario is not valid and there is no file. -/
theorem C178_silent_violated : ∃ (valid : Text → Bool) (xosc : Text),
    valid xosc = false ∧ (convert (fun _ => []) valid none [] xosc fun _ => none).1 ⟨[], none⟩ = none ∧
    status (convert (fun _ => []) valid none [] xosc fun _ => none).2 = 0 :=
  ⟨fun _ => false, "bad".toList, rfl, rfl, rfl⟩

/-! ### Replacement of names -/

theorem isPrefixOf_occurs {name s : Text} (h : name.isPrefixOf s = true) : Occurs name s := by
  obtain ⟨b, rfl⟩ := List.isPrefixOf_iff_prefix.1 h
  exact ⟨[], b, by simp⟩

theorem occurs_cons {name s : Text} (c : Char) (h : Occurs name s) : Occurs name (c :: s) := by
  obtain ⟨a, b, rfl⟩ := h
  exact ⟨c :: a, b, by simp⟩

theorem replace_none {name value : Text} : ∀ {s : Text}, ¬ Occurs name s → replace name value s = s
  | [], _ => rfl
  | c :: s, h => by
    unfold replace subFrom
    have h1 : ¬ name.isPrefixOf (c :: s) = true := fun h' => h (isPrefixOf_occurs h')
    rw [if_neg h1]
    have := replace_none (value := value) (s := s) fun h' => h (occurs_cons c h')
    unfold replace at this
    rw [this]

theorem subFrom_drop (name value : Text) : ∀ (k : Nat) (s : Text),
    subFrom name value k s = subFrom name value 0 (s.drop k)
  | 0, s => by simp
  | k + 1, [] => by simp [subFrom]
  | k + 1, _ :: s => by rw [List.drop_succ_cons, ← subFrom_drop name value k s]; rfl

theorem replace_self {name value : Text} (h : name ≠ []) : replace name value name = value := by
  cases name with
  | nil => exact absurd rfl h
  | cons c s =>
    unfold replace subFrom
    have h1 : (c :: s).isPrefixOf (c :: s) = true := List.isPrefixOf_iff_prefix.2 (List.prefix_refl _)
    rw [if_pos h1, subFrom_drop]
    simp [subFrom]

theorem prefix_append {name a b : Text} {d : Char} (hd : d ∉ name) :
    name.isPrefixOf (a ++ d :: b) = name.isPrefixOf a := by
  rw [Bool.eq_iff_iff, List.isPrefixOf_iff_prefix, List.isPrefixOf_iff_prefix]
  constructor
  · intro h
    rcases List.prefix_or_prefix_of_prefix h (List.prefix_append a (d :: b)) with h1 | h1
    · exact h1
    · obtain ⟨t, rfl⟩ := h1
      rw [List.prefix_append_right_inj] at h
      cases t with
      | nil => simp
      | cons e t =>
        obtain ⟨u, hu⟩ := h
        simp only [List.cons_append, List.cons.injEq] at hu
        exact absurd (by simp [hu.1]) hd
  · exact fun h => h.trans (List.prefix_append _ _)

/-- A character that is not in the name parts the text. -/
theorem replace_parted {name value : Text} {d : Char} (hn : name ≠ []) (hd : d ∉ name) (b : Text) :
    ∀ (n : Nat) (a : Text), a.length ≤ n → replace name value (a ++ d :: b) = replace name value a ++ d :: replace name value b
  | n, [], _ => by
    unfold replace
    rw [List.nil_append]
    conv_lhs => unfold subFrom
    have h1 : ¬ name.isPrefixOf (d :: b) = true := by
      intro h
      cases name with
      | nil => exact hn rfl
      | cons c s =>
        simp only [List.isPrefixOf, Bool.and_eq_true, beq_iff_eq] at h
        exact hd (by simp [h.1])
    rw [if_neg h1]
    rfl
  | 0, _ :: _, h => by simp at h
  | n + 1, c :: a, h => by
    have hp := prefix_append (a := c :: a) (b := b) hd
    unfold replace
    rw [List.cons_append]
    unfold subFrom
    rw [List.cons_append] at hp
    rw [hp]
    by_cases h1 : name.isPrefixOf (c :: a) = true
    · rw [if_pos h1, if_pos h1, subFrom_drop, subFrom_drop name value _ a]
      have hl : name.length ≤ (c :: a).length := (List.isPrefixOf_iff_prefix.1 h1).length_le
      have hl' : name.length - 1 ≤ a.length := by simp at hl; omega
      rw [List.drop_append_of_le_length hl']
      have := replace_parted (value := value) hn hd b n (a.drop (name.length - 1)) (by simp at h ⊢; omega)
      unfold replace at this
      rw [this, List.append_assoc]
      cases b <;> rfl
    · rw [if_neg h1, if_neg h1]
      have := replace_parted (value := value) hn hd b n a (by simpa using h)
      unfold replace at this
      rw [this, List.cons_append]
      cases b <;> rfl

/-- Replace by each binding in turn. -/
def inTurn (bs : List (Text × Text)) (s : Text) : Text := bs.foldl (fun t b => replace b.1 b.2 t) s

theorem inTurn_none : ∀ (bs : List (Text × Text)) (s : Text), (∀ b ∈ bs, ¬ Occurs b.1 s) → inTurn bs s = s
  | [], s, _ => rfl
  | b :: bs, s, h => by
    unfold inTurn
    rw [List.foldl_cons, replace_none (h b (by simp))]
    exact inTurn_none bs s fun c hc => h c (by simp [hc])

theorem inTurn_parted {d : Char} : ∀ (bs : List (Text × Text)) (a b : Text),
    (∀ c ∈ bs, c.1 ≠ [] ∧ d ∉ c.1) → inTurn bs (a ++ d :: b) = inTurn bs a ++ d :: inTurn bs b
  | [], a, b, _ => rfl
  | c :: bs, a, b, h => by
    unfold inTurn
    rw [List.foldl_cons, replace_parted (h c (by simp)).1 (h c (by simp)).2 b a.length a le_rfl]
    exact inTurn_parted bs _ _ fun e he => h e (by simp [he])

theorem mem_insertBinding {b c : Text × Text} : ∀ {l : List (Text × Text)}, c ∈ insertBinding b l ↔ c = b ∨ c ∈ l
  | [] => by simp [insertBinding]
  | x :: l => by
    unfold insertBinding
    split
    · simp
    · rw [List.mem_cons, mem_insertBinding, List.mem_cons]
      tauto

theorem mem_sortBindings {c : Text × Text} : ∀ {l : List (Text × Text)}, c ∈ sortBindings l ↔ c ∈ l
  | [] => by simp [sortBindings]
  | b :: l => by
    unfold sortBindings
    rw [mem_insertBinding, mem_sortBindings, List.mem_cons]

theorem insertBinding_sorted {b : Text × Text} : ∀ {l : List (Text × Text)},
    l.Pairwise (fun x y => y.1.length ≤ x.1.length) →
    (insertBinding b l).Pairwise (fun x y => y.1.length ≤ x.1.length)
  | [], _ => by simp [insertBinding]
  | c :: l, h => by
    unfold insertBinding
    rw [List.pairwise_cons] at h
    split
    · rename_i hc
      rw [List.pairwise_cons, List.pairwise_cons]
      refine ⟨fun y hy => ?_, h⟩
      rcases List.mem_cons.1 hy with rfl | hy
      · exact hc
      · exact le_trans (h.1 y hy) hc
    · rename_i hc
      rw [List.pairwise_cons]
      refine ⟨fun y hy => ?_, insertBinding_sorted h.2⟩
      rcases mem_insertBinding.1 hy with rfl | hy
      · omega
      · exact h.1 y hy

theorem sortBindings_sorted : ∀ l : List (Text × Text),
    (sortBindings l).Pairwise (fun x y => y.1.length ≤ x.1.length)
  | [] => List.Pairwise.nil
  | _ :: l => insertBinding_sorted (sortBindings_sorted l)

theorem find_insertBinding {b : Text × Text} {w : Text} : ∀ l : List (Text × Text),
    (insertBinding b l).find? (fun c => c.1 = w) = (b :: l).find? (fun c => c.1 = w)
  | [] => rfl
  | c :: l => by
    unfold insertBinding
    split
    · rfl
    · rename_i hc
      rw [List.find?_cons, find_insertBinding l]
      by_cases hb : b.1 = w
      · have hne : ¬ c.1 = w := by
          rintro rfl
          rw [hb] at hc
          omega
        simp [hb, hne]
      · simp [List.find?_cons, hb]

theorem find_sortBindings (w : Text) : ∀ l : List (Text × Text),
    (sortBindings l).find? (fun c => c.1 = w) = l.find? (fun c => c.1 = w)
  | [] => rfl
  | b :: l => by
    unfold sortBindings
    rw [find_insertBinding, List.find?_cons, List.find?_cons, find_sortBindings w l]

theorem occurs_length {a b : Text} (h : Occurs a b) (hl : b.length ≤ a.length) : a = b := by
  obtain ⟨x, y, rfl⟩ := h
  simp only [List.length_append] at hl
  have hx : x = [] := List.length_eq_zero_iff.1 (by omega)
  have hy : y = [] := List.length_eq_zero_iff.1 (by omega)
  subst hx hy
  simp

theorem inTurn_name {w : Text} (hw : w ≠ []) : ∀ (bs : List (Text × Text)),
    bs.Pairwise (fun x y => y.1.length ≤ x.1.length) → (∃ b ∈ bs, b.1 = w) →
    (∀ b ∈ bs, ∀ c ∈ bs, ¬ Occurs b.1 c.2) → inTurn bs w = valueOf bs w
  | [], _, h, _ => by obtain ⟨_, h, _⟩ := h; cases h
  | b :: bs, hp, hm, hv => by
    rw [List.pairwise_cons] at hp
    by_cases hb : b.1 = w
    · unfold inTurn valueOf
      rw [List.foldl_cons, List.find?_cons, hb, replace_self hw]
      simp only [decide_true]
      exact inTurn_none bs b.2 fun c hc => hv c (by simp [hc]) b (by simp)
    · obtain ⟨c, hc, hcw⟩ := hm
      have hc' : c ∈ bs := by
        rcases List.mem_cons.1 hc with rfl | h
        · exact absurd hcw hb
        · exact h
      have hno : ¬ Occurs b.1 w := by
        intro ho
        have := hp.1 c hc'
        rw [hcw] at this
        exact hb (occurs_length ho this)
      have ih := inTurn_name hw bs hp.2 ⟨c, hc', hcw⟩ fun x hx y hy => hv x (by simp [hx]) y (by simp [hy])
      unfold inTurn valueOf at ih ⊢
      rw [List.foldl_cons, replace_none hno, ih, List.find?_cons]
      simp [hb]

theorem inTurn_alone {bs : List (Text × Text)} {w : Text} (hne : ∀ b ∈ bs, b.1 ≠ [])
    (hv : ∀ b ∈ bs, ∀ c ∈ bs, ¬ Occurs b.1 c.2) (ha : Alone bs w) :
    inTurn (sortBindings bs) w = valueOf bs w := by
  rcases ha with ⟨b, hb, rfl⟩ | h
  · rw [inTurn_name (hne b hb) _ (sortBindings_sorted bs) ⟨b, mem_sortBindings.2 hb, rfl⟩
      (fun x hx y hy => hv x (mem_sortBindings.1 hx) y (mem_sortBindings.1 hy))]
    unfold valueOf
    rw [find_sortBindings]
  · rw [inTurn_none _ _ fun c hc => h c (mem_sortBindings.1 hc)]
    unfold valueOf
    have : bs.find? (fun b => b.1 = w) = none := by
      rw [List.find?_eq_none]
      intro c hc hcw
      have hcw' : c.1 = w := by simpa using hcw
      exact h c hc ⟨[], [], by simp [hcw']⟩
    rw [this]

/-- C177 (partial: where names stand alone among characters that are in no name, and no value has a name
in it): in a scenario derived every name is replaced by the value it has in the combination, a longer name
before a shorter one that begins alike, and all the rest is as it was. -/
theorem C177_words_partial {bs : List (Text × Text)} (hne : ∀ b ∈ bs, b.1 ≠ [])
    (hv : ∀ b ∈ bs, ∀ c ∈ bs, ¬ Occurs b.1 c.2) : ∀ (word : Text) (more : List (Char × Text)),
    (∀ x ∈ more, ∀ b ∈ bs, x.1 ∉ b.1) → Alone bs word → (∀ x ∈ more, Alone bs x.2) →
    expand bs (joined word more) =
      joined (valueOf bs word) (more.map fun x => (x.1, valueOf bs x.2))
  | word, [], _, ha, _ => inTurn_alone hne hv ha
  | word, (d, w) :: more, hd, ha, hm => by
    have h1 : expand bs (joined word ((d, w) :: more)) =
        inTurn (sortBindings bs) word ++ d :: expand bs (joined w more) :=
      inTurn_parted _ _ _ fun c hc =>
        ⟨hne c (mem_sortBindings.1 hc), hd (d, w) (by simp) c (mem_sortBindings.1 hc)⟩
    rw [h1, inTurn_alone hne hv ha, C177_words_partial hne hv w more (fun x hx => hd x (by simp [hx]))
      (hm (d, w) (by simp)) (fun x hx => hm x (by simp [hx]))]
    rfl

/-- C177: A text in which no name occurs is left as it is. -/
theorem C177_unchanged {bs : List (Text × Text)} {xosc : Text} (h : ∀ b ∈ bs, ¬ Occurs b.1 xosc) :
    expand bs xosc = xosc :=
  inTurn_none _ _ fun b hb => h b (mem_sortBindings.1 hb)

/-- C177: A name that begins with another is replaced as a whole. -/
example : expand [("_x".toList, "1".toList), ("_xy".toList, "2".toList)] "a=_x b=_xy".toList =
    "a=1 b=2".toList := by decide +kernel

/-- The hypotheses of C177 hold of that: the words are `a`, `_x`, `b`, `_xy`. -/
example : joined "a".toList [('=', "_x".toList), (' ', "b".toList), ('=', "_xy".toList)] = "a=_x b=_xy".toList := by
  decide +kernel

/-- C177 (violated): A value in which the name of another modifier occurs is changed in turn. The value of
`_from` is `_to`, that of `_to` is `2`, and the scenario derived has `2` for both. -/
theorem C177_again_violated :
    expand [("_from".toList, "_to".toList), ("_to".toList, "2".toList)] "_from;_to".toList ≠
      joined "_to".toList [(';', "2".toList)] := by decide +kernel

/-- C177 (violated): A name is replaced within a longer word also. -/
theorem C177_within_violated : ∃ (bs : List (Text × Text)) (word : Text),
    (∀ b ∈ bs, b.1 ≠ word) ∧ expand bs word ≠ word :=
  ⟨[("ego".toList, "car".toList)], "category".toList, by decide +kernel, by decide +kernel⟩

end Verif.Modify
