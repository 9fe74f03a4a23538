import Verif.Lanes.Spec
import Mathlib.Tactic.Linarith
import Mathlib.Tactic.Ring
import Mathlib.Tactic.FieldSimp
import Mathlib.Tactic.NormNum
import Mathlib.Tactic.Module
/-!
C152: the center line of a lanelet is in the middle between its borders.
-/

namespace Verif.Lanes
open Spec
variable {V : Type} [NormedAddCommGroup V] [NormedSpace ℝ V]

omit [NormedSpace ℝ V] in
theorem total_eq (line : List V) : total line = length line := by
  induction line using distances.induct with
  | case1 a b l ih => simp only [total, distances, length, List.sum_cons] at ih ⊢; rw [ih]
  | case2 l h =>
    cases l with
    | nil => simp [total, distances, length]
    | cons a l => cases l with
      | nil => simp [total, distances, length]
      | cons b l => exact absurd rfl (h a b l)

omit [NormedSpace ℝ V] in
theorem length_nonneg (line : List V) : 0 ≤ length line := by
  induction line using distances.induct with
  | case1 a b l ih => simp only [length]; positivity
  | case2 l h =>
    cases l with
    | nil => simp [length]
    | cons a l => cases l with
      | nil => simp [length]
      | cons b l => exact absurd rfl (h a b l)

theorem walk_zero (a : V) (l : List V) : walk (a :: l) 0 = a := by
  cases l with
  | nil => rfl
  | cons b l => simp [walk]

theorem walk_length (a : V) (l : List V) : walk (a :: l) (length (a :: l)) = (a :: l).getLast (by simp) := by
  induction l generalizing a with
  | nil => rfl
  | cons b l ih =>
    rw [walk, length]
    by_cases h : ‖b - a‖ + length (b :: l) ≤ ‖b - a‖
    · rw [if_pos h]
      have h0 : length (b :: l) = 0 := le_antisymm (by linarith) (length_nonneg _)
      have := ih b
      rw [h0, walk_zero] at this
      rw [List.getLast_cons (by simp), ← this, h0, add_zero]
      by_cases hd : ‖b - a‖ = 0
      · rw [hd, div_zero, zero_smul, add_zero]
        rw [norm_eq_zero, sub_eq_zero] at hd
        exact hd.symm
      · rw [div_self hd, one_smul]; abel
    · rw [if_neg h, add_sub_cancel_left, ih b]
      exact (List.getLast_cons (by simp)).symm

/-- Walking is not faster than one is told. -/
theorem walk_lipschitz (line : List V) (hne : line ≠ []) (s t : ℝ) (hs : 0 ≤ s) (hst : s ≤ t) (ht : t ≤ length line) : ‖walk line t - walk line s‖ ≤ t - s := by
  induction line generalizing s t with
  | nil => exact absurd rfl hne
  | cons a l ih =>
    cases l with
    | nil => simp only [walk, sub_self, norm_zero]; linarith
    | cons b l =>
      simp only [length] at ht
      have hn := norm_nonneg (b - a)
      have first : ∀ u v : ℝ, u ≤ v → v ≤ ‖b - a‖ → 0 ≤ u → ‖(a + (v / ‖b - a‖) • (b - a)) - (a + (u / ‖b - a‖) • (b - a))‖ ≤ v - u := by
        intro u v huv hv hu
        have : (a + (v / ‖b - a‖) • (b - a)) - (a + (u / ‖b - a‖) • (b - a)) = ((v - u) / ‖b - a‖) • (b - a) := by
          rw [sub_div]; module
        rw [this, norm_smul, Real.norm_eq_abs, abs_of_nonneg (div_nonneg (by linarith) hn)]
        by_cases hd : ‖b - a‖ = 0
        · rw [hd, mul_zero]; linarith
        · rw [div_mul_cancel₀ _ hd]
      simp only [walk]
      by_cases h1 : t ≤ ‖b - a‖
      · rw [if_pos h1, if_pos (le_trans hst h1)]
        exact first s t hst h1 hs
      · rw [if_neg h1]
        push Not at h1
        by_cases h2 : s ≤ ‖b - a‖
        · rw [if_pos h2]
          have e1 := first s ‖b - a‖ h2 le_rfl hs
          have e2 := ih (by simp) 0 (t - ‖b - a‖) le_rfl (by linarith) (by linarith)
          rw [walk_zero] at e2
          have eb : a + (‖b - a‖ / ‖b - a‖) • (b - a) = b := by
            by_cases hd : ‖b - a‖ = 0
            · rw [hd, div_zero, zero_smul, add_zero]
              rw [norm_eq_zero, sub_eq_zero] at hd
              exact hd.symm
            · rw [div_self hd, one_smul]; abel
          rw [eb] at e1
          calc ‖walk (b :: l) (t - ‖b - a‖) - (a + (s / ‖b - a‖) • (b - a))‖
              = ‖(walk (b :: l) (t - ‖b - a‖) - b) + (b - (a + (s / ‖b - a‖) • (b - a)))‖ := by congr 1; abel
            _ ≤ _ := norm_add_le _ _
            _ ≤ t - s := by linarith
        · rw [if_neg h2]
          push Not at h2
          have := ih (by simp) (s - ‖b - a‖) (t - ‖b - a‖) (by linarith) (by linarith) (by linarith)
          linarith

theorem sums_length (o : ℝ) (l : List ℝ) : (sums o l).length = l.length + 1 := by
  induction l generalizing o with
  | nil => rfl
  | cons d l ih => simp [sums, ih]

omit [NormedSpace ℝ V] in
theorem distances_length (line : List V) : (distances line).length = line.length - 1 := by
  induction line using distances.induct with
  | case1 a b l ih => simp only [distances, List.length_cons] at ih ⊢; omega
  | case2 l h =>
    cases l with
    | nil => rfl
    | cons a l => cases l with
      | nil => rfl
      | cons b l => exact absurd rfl (h a b l)

omit [NormedSpace ℝ V] in
theorem distances_nonneg (line : List V) : ∀ d ∈ distances line, 0 ≤ d := by
  induction line using distances.induct with
  | case1 a b l ih =>
    intro d hd
    simp only [distances, List.mem_cons] at hd
    obtain rfl | hd := hd
    · exact norm_nonneg _
    · exact ih d hd
  | case2 l h =>
    intro d hd
    cases l with
    | nil => simp [distances] at hd
    | cons a l => cases l with
      | nil => simp [distances] at hd
      | cons b l => exact absurd rfl (h a b l)

theorem sums_head (o : ℝ) (l : List ℝ) : (sums o l)[0]? = some o := by cases l <;> rfl

theorem sums_ge (o : ℝ) (l : List ℝ) (hl : ∀ d ∈ l, 0 ≤ d) (i : Nat) (x : ℝ) (h : (sums o l)[i]? = some x) : o ≤ x := by
  induction l generalizing o i with
  | nil =>
    cases i with
    | zero => simp [sums] at h; linarith
    | succ i => simp [sums] at h
  | cons d l ih =>
    cases i with
    | zero => simp [sums] at h; linarith
    | succ i =>
      have := ih (o + d) (fun d hd => hl d (List.mem_cons_of_mem _ hd)) i (by simpa [sums] using h)
      have := hl d (by simp)
      linarith

theorem sums_mono (o : ℝ) (l : List ℝ) (hl : ∀ d ∈ l, 0 ≤ d) (i j : Nat) (hij : i ≤ j) (x y : ℝ) (hx : (sums o l)[i]? = some x) (hy : (sums o l)[j]? = some y) : x ≤ y := by
  induction l generalizing o i j with
  | nil =>
    cases i with
    | zero => cases j with
      | zero => simp_all
      | succ j => simp [sums] at hy
    | succ i => simp [sums] at hx
  | cons d l ih =>
    cases i with
    | zero =>
      simp only [sums, List.getElem?_cons_zero, Option.some.injEq] at hx
      subst hx
      exact sums_ge _ _ hl j y hy
    | succ i => cases j with
      | zero => omega
      | succ j => exact ih (o + d) (fun d hd => hl d (List.mem_cons_of_mem _ hd)) i j (by omega) (by simpa [sums] using hx) (by simpa [sums] using hy)

theorem sums_last (o : ℝ) (l : List ℝ) : (sums o l)[l.length]? = some (o + l.sum) := by
  induction l generalizing o with
  | nil => simp [sums]
  | cons d l ih =>
    simp only [sums, List.length_cons, List.getElem?_cons_succ, List.sum_cons]
    rw [ih, add_assoc]

/-- On any segment with a length the code finds the point where one is after walking. -/
theorem on_segment (line : List V) (o t : ℝ) (i : Nat) (back front : V) (x y : ℝ) (hb : line[i]? = some back) (hf : line[i + 1]? = some front)
    (hx : (sums o (distances line))[i]? = some x) (hy : (sums o (distances line))[i + 1]? = some y) (hxt : x ≤ t) (hty : t ≤ y) (hne : y - x ≠ 0) :
    back + ((t - x) / (y - x)) • (front - back) = walk line (t - o) := by
  induction line generalizing o i with
  | nil => simp at hb
  | cons a l ih =>
    cases l with
    | nil => cases i <;> simp at hf
    | cons b l =>
      simp only [distances, sums] at hx hy
      cases i with
      | zero =>
        simp only [List.getElem?_cons_zero, List.getElem?_cons_succ, Option.some.injEq, Nat.zero_add] at hb hf hx hy
        rw [sums_head, Option.some.injEq] at hy
        subst hb hf hx hy
        rw [walk, if_pos (by linarith), add_sub_cancel_left]
      | succ i =>
        simp only [List.getElem?_cons_succ] at hb hf hx hy
        have hge := sums_ge _ _ (distances_nonneg (b :: l)) i x hx
        rw [ih (o + ‖b - a‖) i hb hf hx hy, walk]
        have hsub : t - (o + ‖b - a‖) = t - o - ‖b - a‖ := by ring
        split
        · rename_i h
          have h0 : t - o = ‖b - a‖ := le_antisymm h (by linarith)
          rw [hsub, h0, sub_self, walk_zero]
          by_cases hd : ‖b - a‖ = 0
          · rw [hd, div_zero, zero_smul, add_zero]
            rw [norm_eq_zero, sub_eq_zero] at hd
            exact hd
          · rw [div_self hd, one_smul]; abel
        · rw [hsub]

theorem search_some (t : ℝ) (acc : List ℝ) (k j : Nat) (h : search t acc k = some j) :
    ∃ i x y, j = k + i ∧ acc[i]? = some x ∧ acc[i + 1]? = some y ∧ x ≤ t ∧ t ≤ y ∧ ∀ i', i' < i → ∀ x y, acc[i']? = some x → acc[i' + 1]? = some y → ¬ (x ≤ t ∧ t ≤ y) := by
  induction acc generalizing k with
  | nil => simp [search] at h
  | cons a acc ih => cases acc with
    | nil => simp [search] at h
    | cons b acc =>
      simp only [search] at h
      split at h
      · rename_i hab
        cases h
        exact ⟨0, a, b, rfl, rfl, rfl, hab.1, hab.2, fun i' h => by omega⟩
      · rename_i hab
        obtain ⟨i, x, y, rfl, hx, hy, h1, h2, h3⟩ := ih (k + 1) h
        refine ⟨i + 1, x, y, by omega, by simpa using hx, by simpa using hy, h1, h2, ?_⟩
        intro i' hi' x' y' hx' hy'
        cases i' with
        | zero =>
          simp only [List.getElem?_cons_zero, List.getElem?_cons_succ, Option.some.injEq] at hx' hy'
          subst hx' hy'
          exact hab
        | succ i' => exact h3 i' (by omega) x' y' (by simpa using hx') (by simpa using hy')

theorem search_none (t : ℝ) (a : ℝ) (acc : List ℝ) (k : Nat) (hl : acc ≠ []) (ha : a ≤ t) (hlast : ∀ z, (a :: acc).getLast? = some z → t ≤ z) : search t (a :: acc) k ≠ none := by
  induction acc generalizing a k with
  | nil => exact absurd rfl hl
  | cons b acc ih =>
    simp only [search]
    split
    · simp
    · rename_i h
      have hb : b < t := by
        by_contra hb
        exact h ⟨ha, not_lt.1 hb⟩
      refine ih b (k + 1) ?_ hb.le ?_
      · rintro rfl
        have := hlast b (by simp)
        linarith
      · intro z hz
        exact hlast z (by simpa [List.getLast?_cons_cons] using hz)

/-- The code finds the point where one is after walking, if the line begins with two different points. -/
theorem pointAt_eq (a b : V) (l : List V) (hab : a ≠ b) (t : ℝ) (h0 : 0 ≤ t) (ht : t ≤ length (a :: b :: l)) : pointAt (a :: b :: l) t = .ok (some (walk (a :: b :: l) t)) := by
  set line := a :: b :: l with hline
  have hlen : (accumulated line).length = l.length + 2 := by
    unfold accumulated; rw [sums_length, distances_length]; simp [hline]
  have hll : line.length = l.length + 2 := by simp [hline]
  have hd : 0 < ‖b - a‖ := norm_pos_iff.2 (sub_ne_zero.2 hab.symm)
  have hA0 : (accumulated line)[0]? = some 0 := sums_head _ _
  have hA1 : (accumulated line)[1]? = some ‖b - a‖ := by
    simp only [accumulated, hline, distances, sums, List.getElem?_cons_succ, sums_head, zero_add]
  have hnn := distances_nonneg line
  have hlast : (accumulated line)[l.length + 1]? = some (length line) := by
    have := sums_last 0 (distances line)
    rw [distances_length, hll, zero_add] at this
    rw [← total_eq]
    exact this
  have finish : ∀ i x y, nearest (accumulated line) t = .ok i → (accumulated line)[i]? = some x → (accumulated line)[i + 1]? = some y → x ≤ t → t ≤ y → y - x ≠ 0 →
      pointAt line t = .ok (some (walk line t)) := by
    intro i x y hn hx hy hxt hty hne
    have hi : i + 1 < line.length := by
      have := (List.getElem?_eq_some_iff.1 hy).1
      omega
    have hb : line[i]? = some line[i] := List.getElem?_eq_getElem (by omega)
    have hf : line[i + 1]? = some line[i + 1] := List.getElem?_eq_getElem hi
    have := on_segment line 0 t i _ _ x y hb hf hx hy hxt hty hne
    unfold pointAt
    rw [hn]
    simp only [hb, hf, hx, hy, if_neg hne]
    rw [this, sub_zero]
  by_cases h1 : t < ‖b - a‖
  · refine finish 0 0 ‖b - a‖ ?_ hA0 hA1 h0 h1.le (by linarith)
    unfold nearest
    simp only [hA1, if_pos h1]
  · push Not at h1
    obtain ⟨z, hz⟩ : ∃ z, (accumulated line)[l.length]? = some z := ⟨_, List.getElem?_eq_getElem (by omega)⟩
    by_cases h2 : z < t
    · refine finish l.length z (length line) ?_ hz hlast h2.le ht (by linarith)
      unfold nearest
      simp only [hA1, if_neg (not_lt.2 h1), hlen, Nat.add_sub_cancel, hz, if_pos h2]
    · have hs : search t (accumulated line) 0 ≠ none := by
        have : accumulated line = 0 :: sums (0 + ‖b - a‖) (distances (b :: l)) := by simp only [accumulated, hline, distances, sums]
        rw [this]
        refine search_none t 0 _ 0 ?_ h0 ?_
        · intro h
          have := congrArg List.length h
          rw [sums_length] at this
          simp at this
        · intro z hz
          rw [← this, List.getLast?_eq_getElem?, hlen] at hz
          have : l.length + 2 - 1 = l.length + 1 := by omega
          rw [this, hlast] at hz
          cases hz
          exact ht
      obtain ⟨j, hj⟩ := Option.ne_none_iff_exists'.1 hs
      obtain ⟨i, x, y, rfl, hx, hy, hxt, hty, hfirst⟩ := search_some t _ 0 j hj
      rw [Nat.zero_add] at hj
      refine finish i x y ?_ hx hy hxt hty ?_
      · unfold nearest
        simp only [hA1, if_neg (not_lt.2 h1), hlen, Nat.add_sub_cancel, hz, if_neg h2, hj]
      · intro e
        have hxy : y = x := by linarith
        have hxt' : x = t := by linarith
        cases i with
        | zero =>
          rw [hA0] at hx
          rw [Nat.zero_add, hA1] at hy
          cases hx; cases hy
          linarith
        | succ i =>
          obtain ⟨w, hw⟩ : ∃ w, (accumulated line)[i]? = some w := ⟨_, List.getElem?_eq_getElem (by have := (List.getElem?_eq_some_iff.1 hx).1; omega)⟩
          exact hfirst i (by omega) w x hw hx ⟨by rw [← hxt']; exact sums_mono _ _ hnn i (i + 1) (by omega) _ _ hw hx, by linarith⟩

theorem mapM_ok {A B E : Type} (f : A → Except E B) (g : A → B) (l : List A) (h : ∀ a ∈ l, f a = .ok (g a)) : l.mapM f = .ok (l.map g) := by
  induction l with
  | nil => rfl
  | cons a l ih =>
    rw [List.mapM_cons, h a (by simp), ih fun b hb => h b (List.mem_cons_of_mem _ hb)]
    rfl

/-- C152: a border is sampled at equal distances along it, from its beginning to its end. -/
theorem C152_resampled (a b : V) (l : List V) (hab : a ≠ b) (n : Nat) (hn : 1 ≤ n) :
    resample (a :: b :: l) n = .ok ((List.range (n + 1)).map fun i : Nat => some (walk (a :: b :: l) ((i : ℝ) / n * length (a :: b :: l)))) := by
  unfold resample
  have hn' : (0 : ℝ) < n := by exact_mod_cast hn
  have hl := length_nonneg (a :: b :: l)
  apply mapM_ok
  intro i hi
  rw [total_eq]
  have hi' : (i : ℝ) ≤ n := by exact_mod_cast Nat.lt_succ_iff.1 (List.mem_range.1 hi)
  apply pointAt_eq a b l hab
  · positivity
  · have : (i : ℝ) / n ≤ 1 := (div_le_one hn').2 hi'
    nlinarith

omit [NormedSpace ℝ V] in
/-- The number of segments is the least that is at least one and makes no border longer than 2 m per segment. -/
theorem C152_count (left right : List V) :
    1 ≤ segmentCount left right ∧ length left ≤ 2 * segmentCount left right ∧ length right ≤ 2 * segmentCount left right ∧
      ∀ n : Nat, 1 ≤ n → length left ≤ 2 * n → length right ≤ 2 * n → segmentCount left right ≤ n := by
  unfold segmentCount
  rw [total_eq, total_eq]
  set m := (if length left > length right then length left else length right) with hm
  have h1 : length left ≤ m ∧ length right ≤ m := by
    rw [hm]; split <;> constructor <;> linarith
  have h2 : m / 2 ≤ (max ⌈m / 2⌉₊ 1 : Nat) := le_trans (Nat.le_ceil _) (by exact_mod_cast le_max_left _ _)
  refine ⟨le_max_right _ _, by linarith, by linarith, ?_⟩
  intro n hn hl hr
  refine max_le (Nat.ceil_le.2 ?_) hn
  have : m ≤ 2 * n := by rw [hm]; split <;> assumption
  linarith

/-- C152: the center line of a lanelet, if its borders begin with two different points each: as many segments as needed for 2 m each along the longer border; each point is in the middle between the points of the
borders at the same fraction of their lengths. -/
theorem C152_centerline_partial (a b : V) (l : List V) (hab : a ≠ b) (c d : V) (r : List V) (hcd : c ≠ d) :
    centerline (a :: b :: l) (c :: d :: r) = .ok ((List.range (segmentCount (a :: b :: l) (c :: d :: r) + 1)).map fun i : Nat =>
      some ((2 : ℝ)⁻¹ • (walk (c :: d :: r) ((i : ℝ) / segmentCount (a :: b :: l) (c :: d :: r) * length (c :: d :: r)) +
        walk (a :: b :: l) ((i : ℝ) / segmentCount (a :: b :: l) (c :: d :: r) * length (a :: b :: l))))) := by
  have h1 := (C152_count (a :: b :: l) (c :: d :: r)).1
  unfold centerline
  rw [C152_resampled a b l hab _ h1, C152_resampled c d r hcd _ h1]
  simp only [List.zipWith_map, List.zipWith_self]
  rfl

/-- C152: the center line begins in the middle between the beginnings of the borders and ends in the middle between their ends, and its points are at most 2 m apart. -/
theorem C152_shape_partial (a b : V) (l : List V) (hab : a ≠ b) (c d : V) (r : List V) (hcd : c ≠ d) :
    ∃ points : List V, centerline (a :: b :: l) (c :: d :: r) = .ok (points.map some) ∧ points.head? = some ((2 : ℝ)⁻¹ • (c + a)) ∧
      points.getLast? = some ((2 : ℝ)⁻¹ • ((c :: d :: r).getLast (by simp) + (a :: b :: l).getLast (by simp))) ∧
      ∀ i p q, points[i]? = some p → points[i + 1]? = some q → ‖q - p‖ ≤ 2 := by
  set n := segmentCount (a :: b :: l) (c :: d :: r) with hn
  obtain ⟨h1, hl, hr, -⟩ := C152_count (a :: b :: l) (c :: d :: r)
  rw [← hn] at h1 hl hr
  have hn' : (0 : ℝ) < n := by exact_mod_cast h1
  have hn0 : (n : ℝ) ≠ 0 := hn'.ne'
  refine ⟨(List.range (n + 1)).map fun i : Nat => (2 : ℝ)⁻¹ • (walk (c :: d :: r) ((i : ℝ) / n * length (c :: d :: r)) + walk (a :: b :: l) ((i : ℝ) / n * length (a :: b :: l))), ?_, ?_, ?_, ?_⟩
  · rw [C152_centerline_partial a b l hab c d r hcd, List.map_map]
    rfl
  · simp [List.head?_range, walk_zero]
  · rw [List.getLast?_map, List.getLast?_range]
    simp only [Nat.add_eq_zero_iff, one_ne_zero, and_false, if_false, Nat.add_sub_cancel, Option.map_some, div_self hn0, one_mul, walk_length]
  · intro i p q hp hq
    simp only [List.getElem?_map, Option.map_eq_some_iff] at hp hq
    obtain ⟨i', hi, rfl⟩ := hp
    obtain ⟨j', hj, rfl⟩ := hq
    obtain ⟨hi1, hi⟩ := List.getElem?_eq_some_iff.1 hi
    obtain ⟨hj1, hj⟩ := List.getElem?_eq_some_iff.1 hj
    simp only [List.getElem_range] at hi hj
    subst hi hj
    rw [List.length_range] at hj1
    have step : ∀ (line : List V), line ≠ [] → length line ≤ 2 * n → ‖walk line (((i + 1 : Nat) : ℝ) / n * length line) - walk line ((i : ℝ) / n * length line)‖ ≤ 2 := by
      intro line hne hle
      have hnn := length_nonneg line
      have hi1 : ((i + 1 : Nat) : ℝ) ≤ n := by exact_mod_cast (by omega : i + 1 ≤ n)
      refine le_trans (walk_lipschitz line hne _ _ (by positivity) ?_ ?_) ?_
      · apply mul_le_mul_of_nonneg_right _ hnn
        apply div_le_div_of_nonneg_right _ hn'.le
        push_cast; linarith
      · have : ((i + 1 : Nat) : ℝ) / n ≤ 1 := (div_le_one hn').2 hi1
        nlinarith
      · have : ((i + 1 : Nat) : ℝ) / n * length line - (i : ℝ) / n * length line = length line / n := by
          push_cast; field_simp; ring
        rw [this, div_le_iff₀ hn']
        exact hle
    have e1 := step (c :: d :: r) (by simp) hr
    have e2 := step (a :: b :: l) (by simp) hl
    rw [← smul_sub, norm_smul, Real.norm_eq_abs, abs_of_pos (by norm_num), add_sub_add_comm]
    have := norm_add_le (walk (c :: d :: r) (((i + 1 : Nat) : ℝ) / n * length (c :: d :: r)) - walk (c :: d :: r) ((i : ℝ) / n * length (c :: d :: r)))
      (walk (a :: b :: l) (((i + 1 : Nat) : ℝ) / n * length (a :: b :: l)) - walk (a :: b :: l) ((i : ℝ) / n * length (a :: b :: l)))
    linarith

/-- C152: a center line of the map is kept if custom center lines are used, and only then. -/
theorem C152_custom (useCustom : Bool) (custom : Option (List V)) (left right : List V) :
    (∀ c, useCustom = true → custom = some c → chosen useCustom custom left right = .ok (c.map some)) ∧
      ((useCustom = false ∨ custom = none) → chosen useCustom custom left right = centerline left right) := by
  constructor
  · rintro c rfl rfl; rfl
  · rintro (rfl | rfl)
    · rfl
    · cases useCustom <;> rfl

/-- C152: a line of two points gets its middle as a third point; other lines stay as they are. -/
theorem C152_third (l : List V) : (∀ p q, l = [p, q] → centerPoints l = [p, (2 : ℝ)⁻¹ • (p + q), q]) ∧ (l.length ≠ 2 → centerPoints l = l) := by
  constructor
  · rintro p q rfl; rfl
  · intro h
    unfold centerPoints
    split
    · simp at h
    · rfl

/-- A border that begins with the same point twice gives a center line that begins with no point: its coordinates are NaN. -/
theorem C152_repeated_violated (a : V) (l : List V) (n : Nat) (points : List (Option V)) (h : resample (a :: a :: l) n = .ok points) : points.head? = some none := by
  have hp : pointAt (a :: a :: l) (0 : ℝ) = .ok none := by
    set line := a :: a :: l with hline
    have hlen : (accumulated line).length = l.length + 2 := by
      unfold accumulated; rw [sums_length, distances_length]; simp [hline]
    have hA : accumulated line = 0 :: sums 0 (distances (a :: l)) := by simp [accumulated, hline, distances, sums]
    have hA0 : (accumulated line)[0]? = some 0 := sums_head _ _
    have hA1 : (accumulated line)[1]? = some 0 := by rw [hA, List.getElem?_cons_succ, sums_head]
    obtain ⟨z, hz⟩ : ∃ z, (accumulated line)[l.length]? = some z := ⟨_, List.getElem?_eq_getElem (by omega)⟩
    have hz0 : ¬ z < 0 := not_lt.2 (sums_ge _ _ (distances_nonneg line) _ _ hz)
    have hs : search 0 (accumulated line) 0 = some 0 := by
      rw [hA]
      cases hd : distances (a :: l) with
      | nil => simp [sums, search]
      | cons x y => simp [sums, search]
    have hn : nearest (accumulated line) 0 = .ok 0 := by
      unfold nearest
      simp only [hA1, lt_irrefl, if_false, hlen, Nat.add_sub_cancel, hz, if_neg hz0, hs]
    unfold pointAt
    rw [hn]
    have hb : line[0]? = some a := rfl
    have hf : line[0 + 1]? = some a := rfl
    simp only [hb, hf, hA0, Nat.zero_add, hA1]
    simp
  unfold resample at h
  rw [List.range_succ_eq_map, List.mapM_cons] at h
  simp only [Nat.cast_zero, zero_div, zero_mul, hp] at h
  cases hr : (List.map Nat.succ (List.range n)).mapM fun i : Nat => pointAt (a :: a :: l) ((i : ℝ) / n * total (a :: a :: l)) with
  | error e => rw [hr] at h; cases h
  | ok r => rw [hr] at h; cases h; rfl

/-- A border of one point makes the loading of the map fail. -/
theorem C152_point_violated (a : V) (n : Nat) : resample [a] n = .error .range := by
  unfold resample
  rw [List.range_succ_eq_map, List.mapM_cons]
  have : pointAt [a] ((0 : Nat) / n * total [a] : ℝ) = .error .range := by
    unfold pointAt nearest
    simp [accumulated, distances, sums]
  rw [this]
  rfl

example : ∃ points : List ℝ, centerline ([0, 3, 5] : List ℝ) [1, 4] = .ok (points.map some) ∧ points.head? = some ((2 : ℝ)⁻¹ • (1 + 0)) ∧ points.getLast? = some ((2 : ℝ)⁻¹ • (4 + 5)) := by
  obtain ⟨p, h, a, b, -⟩ := C152_shape_partial (V := ℝ) 0 3 [5] (by norm_num) 1 4 [] (by norm_num)
  exact ⟨p, h, a, b⟩
example : resample ([2, 2, 5] : List ℝ) 1 = .ok [none, some 5] := by
  have h3 : ‖(5 : ℝ) - 2‖ = 3 := by norm_num
  have hA : accumulated ([2, 2, 5] : List ℝ) = [0, 0, 3] := by simp [accumulated, distances, sums, h3]
  have ht : total ([2, 2, 5] : List ℝ) = 3 := by simp [total, distances, h3]
  have h0 : pointAt ([2, 2, 5] : List ℝ) 0 = .ok none := by simp [pointAt, hA, nearest, search]
  have h1 : pointAt ([2, 2, 5] : List ℝ) 3 = .ok (some 5) := by
    simp [pointAt, hA, nearest]
    norm_num
  unfold resample
  rw [ht]
  have e : List.range (1 + 1) = [0, 1] := rfl
  rw [e, List.mapM_cons, List.mapM_cons, List.mapM_nil]
  simp only [Nat.cast_zero, zero_mul, h0, Nat.cast_one, div_one, one_mul, h1]
  rfl
example (points : List (Option ℝ)) (h : resample ([2, 2, 5] : List ℝ) 1 = .ok points) : points.head? = some none := C152_repeated_violated (2 : ℝ) [5] 1 points h

end Verif.Lanes
