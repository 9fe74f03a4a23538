import Verif.Grid.BuilderTheorems
/-
C118: objects are seen on the grid.
-/
namespace Verif.Grid
open Classical Spec

/-! ### Edges -/

theorem mem_zip_drop {ps : List Point} {p q : Point} : (p, q) ∈ ps.zip (ps.drop 1) ↔ ∃ l l', ps = l ++ p :: q :: l' := by
  induction ps with
  | nil => simp
  | cons a ps ih =>
    cases ps with
    | nil =>
      simp only [List.drop_one, List.tail_cons, List.zip_nil_right, List.not_mem_nil, false_iff]
      rintro ⟨l, l', h⟩
      have := congrArg List.length h
      simp at this
      omega
    | cons b ps =>
      simp only [List.drop_one, List.tail_cons] at ih ⊢
      rw [List.zip_cons_cons, List.mem_cons, ih]
      constructor
      · rintro (h | ⟨l, l', h⟩)
        · simp only [Prod.mk.injEq] at h
          exact ⟨[], ps, by rw [h.1, h.2]; rfl⟩
        · exact ⟨a :: l, l', by rw [h]; rfl⟩
      · rintro ⟨l, l', h⟩
        cases l with
        | nil =>
          simp only [List.nil_append, List.cons.injEq] at h
          left; rw [h.1, h.2.1]
        | cons x l =>
          simp only [List.cons_append, List.cons.injEq] at h
          exact Or.inr ⟨l, l', h.2⟩

theorem mem_edges {ps : List Point} {p q : Point} : (p, q) ∈ ps.zip (ps.drop 1 ++ ps.take 1) ↔ Edge ps p q := by
  rw [Edge, ← mem_zip_drop]
  cases ps using List.reverseRecOn with
  | nil => simp
  | append_singleton l x =>
    have hl : l.length = ((l ++ [x]).drop 1).length := by simp
    rw [show (l ++ [x]).zip ((l ++ [x]).drop 1 ++ (l ++ [x]).take 1) = l.zip ((l ++ [x]).drop 1) ++ [x].zip ((l ++ [x]).take 1) from List.zip_append hl]
    have h2 : (l ++ [x]).zip ((l ++ [x]).drop 1) = l.zip ((l ++ [x]).drop 1) := by
      conv_lhs => rw [← List.append_nil ((l ++ [x]).drop 1)]
      rw [List.zip_append hl]
      simp
    rw [h2, List.mem_append]
    apply or_congr Iff.rfl
    cases l with
    | nil => simp [eq_comm]
    | cons a l =>
      have e : (a :: l ++ [x]).getLast? = some x := List.getLast?_concat
      rw [e]
      simp [eq_comm]

/-- The cells on the outline are those on the edges. -/
theorem outline_mem {ps : List Point} {cells : List (ℤ × ℤ)} (h : outline ps = some cells) (c : ℤ × ℤ) :
    c ∈ cells ↔ ∃ p q e, Edge ps p q ∧ traverse p q = some e ∧ c ∈ e := by
  unfold outline at h
  rw [Option.map_eq_some_iff] at h
  obtain ⟨l, h, rfl⟩ := h
  simp only [← mem_edges]
  generalize ps.zip (ps.drop 1 ++ ps.take 1) = es at h
  induction es generalizing l with
  | nil =>
    have : l = [] := by simpa using h
    subst this
    simp
  | cons x es ih =>
    rw [List.mapM_cons] at h
    simp only [Option.bind_eq_bind, Option.bind_eq_some_iff] at h
    obtain ⟨e, h1, l', h2, h3⟩ := h
    have : e :: l' = l := by simpa using h3
    subst this
    rw [List.flatten_cons, List.mem_append, ih l' h2]
    constructor
    · rintro (hc | ⟨p, q, e', k1, k2, k3⟩)
      · exact ⟨x.1, x.2, e, List.mem_cons_self, h1, hc⟩
      · exact ⟨p, q, e', List.mem_cons_of_mem _ k1, k2, k3⟩
    · rintro ⟨p, q, e', k1, k2, k3⟩
      rcases List.mem_cons.1 k1 with k1 | k1
      · left
        subst k1
        rw [h1] at k2
        cases k2
        exact k3
      · exact Or.inr ⟨p, q, e', k1, k2, k3⟩

theorem edge_mem {ps : List Point} {p q : Point} (h : Edge ps p q) : p ∈ ps ∧ q ∈ ps := by
  rcases h with ⟨l, l', rfl⟩ | ⟨h1, h2⟩
  · simp
  · exact ⟨List.mem_of_getLast? h1, List.mem_of_head? h2⟩

/-- What is handed on along the edges holds for all corners if for one. -/
theorem spread {ps : List Point} {P : Point → Prop} (h : ∀ p q, Edge ps p q → P p → P q) {x : Point} (hx : x ∈ ps) (hp : P x) : ∀ y ∈ ps, P y := by
  have fwd : ∀ (l' l : List Point) (q : Point), ps = l ++ q :: l' → P q → ∀ r ∈ q :: l', P r := by
    intro l'
    induction l' with
    | nil => intro l q _ hq r hr; rw [List.mem_singleton.1 hr]; exact hq
    | cons a l' ih =>
      intro l q he hq r hr
      rcases List.mem_cons.1 hr with rfl | hr
      · exact hq
      · exact ih (l ++ [q]) a (by rw [he]; simp) (h q a (Or.inl ⟨l, l', he⟩) hq) r hr
  obtain ⟨l, l', he⟩ := List.append_of_mem hx
  have hl := fwd l' l x he hp
  cases ps with
  | nil => simp at hx
  | cons a ps =>
    have : P a := by
      have hne : (a :: ps).getLast? = some ((x :: l').getLast (by simp)) := by
        rw [he, List.getLast?_append_of_ne_nil _ (by simp), List.getLast?_eq_getLast_of_ne_nil (by simp)]
      exact h _ a (Or.inr ⟨hne, rfl⟩) (hl _ (List.getLast_mem _))
    exact fwd ps [] a rfl this

/-! ### The outline is marked -/

theorem floor_of_within {k : ℤ} {s e : ℝ} (h : Within k s e 1) : ⌊e⌋ = k := by
  rw [Int.floor_eq_iff]
  rcases h with h | ⟨rfl, h⟩
  · rw [mul_one, add_sub_cancel] at h
    exact ⟨h.1.le, h.2⟩
  · exact h

/-- C118. Every cell into which the outline of an object goes is marked, unless all corners of the object are in this cell. -/
theorem C118_outline (ps : List Point) (cells : List (ℤ × ℤ)) (h : outline ps = some cells) (hs : ∀ p q, Edge ps p q → Start p.1 q.1 ∧ Start p.2 q.2) (p q : Point) (he : Edge ps p q)
    (t : ℝ) (h0 : 0 ≤ t) (h1 : t ≤ 1) (c : ℤ × ℤ) (hc : Goes c p q t) : c ∈ cells ∨ ∀ r ∈ ps, ⌊r.1⌋ = c.1 ∧ ⌊r.2⌋ = c.2 := by
  by_cases hm : c ∈ cells
  · exact Or.inl hm
  · right
    have hno : ∀ p q e, Edge ps p q → traverse p q = some e → c ∉ e := fun p q e k1 k2 k3 => hm ((outline_mem h c).2 ⟨p, q, e, k1, k2, k3⟩)
    have start : ⌊q.1⌋ = c.1 ∧ ⌊q.2⌋ = c.2 := by
      obtain ⟨e, ht⟩ := C117_ends p q
      have := (C117_cells p q (hs p q he).1 (hs p q he).2 e ht c ⟨t, h0, h1, hc⟩).not.1 (hno p q e he ht)
      rw [not_not] at this
      exact ⟨floor_of_within this.1, floor_of_within this.2⟩
    refine spread (P := fun r => ⌊r.1⌋ = c.1 ∧ ⌊r.2⌋ = c.2) (fun a b hab ha => ?_) (edge_mem he).2 start
    obtain ⟨e, ht⟩ := C117_ends a b
    rcases start_visited a b (hs a b hab).1 (hs a b hab).2 e ht with k | k
    · rw [ha.1, ha.2] at k
      exact absurd k (hno a b e hab ht)
    · rw [k.1, k.2]; exact ha

/-- C118. What is marked is, in its row, between two cells that are touched by the outline. -/
theorem C118_between (ps : List Point) (cells : List (ℤ × ℤ)) (h : outline ps = some cells) (hs : ∀ p q, Edge ps p q → Start p.1 q.1 ∧ Start p.2 q.2) (row col : ℤ)
    (hc : Covered cells row col) :
    ∃ l r : ℤ, l ≤ col ∧ col ≤ r ∧ (∃ p q t, Edge ps p q ∧ 0 ≤ t ∧ t ≤ 1 ∧ Touches (l, row) (on p q t)) ∧ ∃ p q t, Edge ps p q ∧ 0 ≤ t ∧ t ≤ 1 ∧ Touches (r, row) (on p q t) := by
  obtain ⟨l, r, h1, h2, h3, h4⟩ := hc
  have key : ∀ c ∈ cells, ∃ p q t, Edge ps p q ∧ 0 ≤ t ∧ t ≤ 1 ∧ Touches c (on p q t) := by
    intro c hc
    obtain ⟨p, q, e, he, ht, hm⟩ := (outline_mem h c).1 hc
    obtain ⟨t, h0, h1, h2⟩ := C117_touched p q (hs p q he).1 (hs p q he).2 e ht c hm
    exact ⟨p, q, t, he, h0, h1, h2⟩
  exact ⟨l, r, h3, h4, key _ h1, key _ h2⟩

/-! ### The inside is marked -/

/-- Somewhere along the corners the height is passed upwards. -/
theorem crossing {ps : List Point} {P : Point → Prop} {x y : Point} (hx : x ∈ ps) (hy : y ∈ ps) (h1 : P x) (h2 : ¬ P y) : ∃ p q, Edge ps p q ∧ P p ∧ ¬ P q := by
  by_contra hcon
  have : ∀ p q, Edge ps p q → P p → P q := by
    intro p q he hp
    by_contra hq
    exact hcon ⟨p, q, he, hp, hq⟩
  exact h2 (spread this hx h1 y hy)

/-- A point of a slanted or vertical line at a height inside a row: a cell of this row into which the line goes, with the column of the point or, for a whole coordinate, a column beside it. -/
theorem cell_at (p q : Point) (t : ℝ) (h0 : 0 ≤ t) (h1 : t ≤ 1) (row : ℤ) (hr : row < (on p q t).2 ∧ (on p q t).2 < row + 1) :
    ∃ col : ℤ, ∃ t', 0 ≤ t' ∧ t' ≤ 1 ∧ Goes (col, row) p q t' ∧ col ≤ (on p q t).1 ∧ (on p q t).1 ≤ col + 1 := by
  simp only [on] at hr ⊢
  by_cases hv : p.1 = q.1
  · refine ⟨⌊p.1⌋, t, h0, h1, ⟨Or.inr ⟨hv, Int.floor_le _, Int.lt_floor_add_one _⟩, Or.inl hr⟩, ?_⟩
    rw [← hv, sub_self, zero_mul, add_zero]
    exact ⟨Int.floor_le _, (Int.lt_floor_add_one _).le⟩
  · by_cases hk : ∃ k : ℤ, p.1 + (q.1 - p.1) * t = k
    · obtain ⟨k, hk⟩ := hk
      -- a small step away from the whole coordinate
      have hx : 0 < |q.1 - p.1| := abs_pos.2 (sub_ne_zero.2 (Ne.symm hv))
      obtain ⟨d, hd, hd1, hd3, hd5, hd4⟩ : ∃ d : ℝ, 0 < d ∧ d ≤ 1 / 2 ∧ |q.1 - p.1| * d < 1 ∧ |q.2 - p.2| * d < (p.2 + (q.2 - p.2) * t) - row ∧
          |q.2 - p.2| * d < row + 1 - (p.2 + (q.2 - p.2) * t) := by
        have hm : 0 < min ((p.2 + (q.2 - p.2) * t) - row) (row + 1 - (p.2 + (q.2 - p.2) * t)) := lt_min (by linarith) (by linarith)
        set m := min ((p.2 + (q.2 - p.2) * t) - row) (row + 1 - (p.2 + (q.2 - p.2) * t)) with hmdef
        have hy : 0 < |q.2 - p.2| + 1 := by positivity
        refine ⟨min (1 / 2) (min (1 / (2 * |q.1 - p.1|)) (m / (|q.2 - p.2| + 1))), by positivity, min_le_left _ _, ?_, ?_, ?_⟩
        · have : min (1 / 2) (min (1 / (2 * |q.1 - p.1|)) (m / (|q.2 - p.2| + 1))) ≤ 1 / (2 * |q.1 - p.1|) := (min_le_right _ _).trans (min_le_left _ _)
          calc |q.1 - p.1| * _ ≤ |q.1 - p.1| * (1 / (2 * |q.1 - p.1|)) := mul_le_mul_of_nonneg_left this hx.le
            _ = 1 / 2 := by field_simp
            _ < 1 := by norm_num
        all_goals
          have : min (1 / 2) (min (1 / (2 * |q.1 - p.1|)) (m / (|q.2 - p.2| + 1))) ≤ m / (|q.2 - p.2| + 1) := (min_le_right _ _).trans (min_le_right _ _)
          have h3 : |q.2 - p.2| * min (1 / 2) (min (1 / (2 * |q.1 - p.1|)) (m / (|q.2 - p.2| + 1))) < m := by
            calc |q.2 - p.2| * _ ≤ |q.2 - p.2| * (m / (|q.2 - p.2| + 1)) := mul_le_mul_of_nonneg_left this (abs_nonneg _)
              _ < m := by rw [mul_div_assoc', div_lt_iff₀ hy]; nlinarith
        · exact h3.trans_le (min_le_left _ _)
        · exact h3.trans_le (min_le_right _ _)
      -- which way to go
      obtain ⟨t', ht0, ht1, e, he, hte⟩ : ∃ t', 0 ≤ t' ∧ t' ≤ 1 ∧ ∃ e : ℝ, |e| = d ∧ t' = t + e := by
        by_cases h : t ≤ 1 / 2
        · exact ⟨t + d, by linarith, by linarith, d, abs_of_pos hd, rfl⟩
        · exact ⟨t - d, by linarith, by linarith, -d, by rw [abs_neg, abs_of_pos hd], by ring⟩
      have e1 : |(q.1 - p.1) * e| = |q.1 - p.1| * d := by rw [abs_mul, he]
      have e2 : |(q.2 - p.2) * e| = |q.2 - p.2| * d := by rw [abs_mul, he]
      have hne : (q.1 - p.1) * e ≠ 0 := by
        intro h
        rw [h, abs_zero] at e1
        have := mul_pos hx hd
        linarith
      have b1 : |(q.1 - p.1) * e| < 1 := by rw [e1]; exact hd3
      rw [abs_lt] at b1
      have b2 := abs_lt.1 (e2 ▸ hd4 : |(q.2 - p.2) * e| < _)
      have b3 := abs_lt.1 (e2 ▸ hd5 : |(q.2 - p.2) * e| < _)
      have hyrow : Within row p.2 q.2 t' := by
        left
        rw [hte, mul_add]
        constructor <;> linarith
      rcases lt_or_gt_of_ne hne with hs | hs
      · refine ⟨k - 1, t', ht0, ht1, ⟨Or.inl ?_, hyrow⟩, ?_⟩
        · rw [hte, mul_add]; push_cast; constructor <;> linarith
        · rw [hk]; push_cast; constructor <;> linarith
      · refine ⟨k, t', ht0, ht1, ⟨Or.inl ?_, hyrow⟩, ?_⟩
        · rw [hte, mul_add]; constructor <;> linarith
        · rw [hk]; constructor <;> linarith
    · refine ⟨⌊p.1 + (q.1 - p.1) * t⌋, t, h0, h1, ⟨Or.inl ⟨?_, Int.lt_floor_add_one _⟩, Or.inl hr⟩, Int.floor_le _, (Int.lt_floor_add_one _).le⟩
      exact lt_of_le_of_ne (Int.floor_le _) fun h => hk ⟨_, h.symm⟩

/-- The point of an edge at a height. -/
theorem at_height (p q : Point) (y : ℝ) (h : (p.2 ≤ y ∧ y ≤ q.2 ∨ q.2 ≤ y ∧ y ≤ p.2) ∧ p.2 ≠ q.2) : ∃ t, 0 ≤ t ∧ t ≤ 1 ∧ (on p q t).2 = y ∧ (q.2 - p.2) * t = y - p.2 := by
  obtain ⟨h, hne⟩ := h
  have hd : q.2 - p.2 ≠ 0 := sub_ne_zero.2 (Ne.symm hne)
  have e : (q.2 - p.2) * ((y - p.2) / (q.2 - p.2)) = y - p.2 := by field_simp
  refine ⟨(y - p.2) / (q.2 - p.2), ?_, ?_, by simp only [on]; rw [e]; ring, e⟩
  · rcases h with h | h
    · exact div_nonneg (by linarith) (by linarith)
    · exact div_nonneg_of_nonpos (by linarith) (by linarith)
  · rcases h with h | h
    · have : 0 < q.2 - p.2 := lt_of_le_of_ne (by linarith) (Ne.symm hd)
      rw [div_le_one this]; linarith
    · have : q.2 - p.2 < 0 := lt_of_le_of_ne (by linarith) hd
      rw [div_le_one_of_neg this]; linarith

/-- C118. Every cell that has a point of a convex object inside it is marked, unless all corners of the object are in one cell. -/
theorem C118_inside (ps : List Point) (cells : List (ℤ × ℤ)) (h : outline ps = some cells) (hs : ∀ p q, Edge ps p q → Start p.1 q.1 ∧ Start p.2 q.2) (r : Point)
    (hi : Inside ps r) (c : ℤ × ℤ) (hc : InCell c r) (hbig : ¬ ∃ k : ℤ × ℤ, ∀ p ∈ ps, ⌊p.1⌋ = k.1 ∧ ⌊p.2⌋ = k.2) : Covered cells c.2 c.1 := by
  obtain ⟨hside, ⟨lo, hlo, hlo'⟩, hi', hhi, hhi'⟩ := hi
  obtain ⟨hcx, hcy⟩ := hc
  -- an edge that goes up through the height of the point, and one that goes down
  obtain ⟨p1, q1, he1, hp1, hq1⟩ := crossing (P := fun p => p.2 ≤ r.2) hlo hhi hlo'.le (not_le.2 hhi')
  obtain ⟨p2, q2, he2, hp2, hq2⟩ := crossing (P := fun p => r.2 ≤ p.2) hhi hlo hhi'.le (not_le.2 hlo')
  rw [not_le] at hq1 hq2
  -- a marked cell for each
  have mark : ∀ p q, Edge ps p q → ∀ t, 0 ≤ t → t ≤ 1 → (on p q t).2 = r.2 → ∃ col : ℤ, (col, c.2) ∈ cells ∧ col ≤ (on p q t).1 ∧ (on p q t).1 ≤ col + 1 := by
    intro p q he t h0 h1 hy
    obtain ⟨col, t', k0, k1, k2, k3, k4⟩ := cell_at p q t h0 h1 c.2 (by rw [hy]; exact hcy)
    refine ⟨col, ?_, k3, k4⟩
    rcases C118_outline ps cells h hs p q he t' k0 k1 _ k2 with k | k
    · exact k
    · exact absurd ⟨(col, c.2), k⟩ hbig
  obtain ⟨t1, a0, a1, a2, a3⟩ := at_height p1 q1 r.2 ⟨Or.inl ⟨hp1, hq1.le⟩, by intro h; linarith⟩
  obtain ⟨t2, b0, b1, b2, b3⟩ := at_height p2 q2 r.2 ⟨Or.inr ⟨hq2.le, hp2⟩, by intro h; linarith⟩
  obtain ⟨x1, m1, l1, u1⟩ := mark p1 q1 he1 t1 a0 a1 a2
  obtain ⟨x2, m2, l2, u2⟩ := mark p2 q2 he2 t2 b0 b1 b2
  -- the side on which the point is
  have s1 : area p1 q1 r = (q1.2 - p1.2) * ((on p1 q1 t1).1 - r.1) := by
    simp only [area, on]; rw [← a3]; ring
  have s2 : area p2 q2 r = (q2.2 - p2.2) * ((on p2 q2 t2).1 - r.1) := by
    simp only [area, on]; rw [← b3]; ring
  have g1 : 0 < q1.2 - p1.2 := by linarith
  have g2 : q2.2 - p2.2 < 0 := by linarith
  have left : ∀ x : ℤ, ∀ y : ℝ, (x : ℝ) ≤ y → y ≤ r.1 → x ≤ c.1 := by
    intro x y hx hy
    have : (x : ℝ) < c.1 + 1 := by linarith
    have : x < c.1 + 1 := by exact_mod_cast this
    omega
  have right : ∀ x : ℤ, ∀ y : ℝ, y ≤ (x : ℝ) + 1 → r.1 ≤ y → c.1 ≤ x := by
    intro x y hx hy
    have : (c.1 : ℝ) < x + 1 := by linarith
    have : c.1 < x + 1 := by exact_mod_cast this
    omega
  rcases hside with hside | hside
  · have k1 := hside _ _ he1
    have k2 := hside _ _ he2
    rw [s1] at k1
    rw [s2] at k2
    have o1 : (on p1 q1 t1).1 ≤ r.1 := by nlinarith
    have o2 : r.1 ≤ (on p2 q2 t2).1 := by nlinarith
    exact ⟨x1, x2, m1, m2, left _ _ l1 o1, right _ _ u2 o2⟩
  · have k1 := hside _ _ he1
    have k2 := hside _ _ he2
    rw [s1] at k1
    rw [s2] at k2
    have o1 : r.1 ≤ (on p1 q1 t1).1 := by nlinarith
    have o2 : (on p2 q2 t2).1 ≤ r.1 := by nlinarith
    exact ⟨x2, x1, m2, m1, left _ _ l2 o2, right _ _ u1 o1⟩

/-- C118. On the grid that is built from any number of objects, every cell that has a point of a convex object inside it is occupied, unless all corners of the object are in
one cell. -/
theorem C118_seen (c : Config) (s : State) (objects : List (List Point × List Point)) (hn : objects.length ≤ 32767) (o : List Point × List Point) (ho : o ∈ objects)
    (hs : ∀ p q, Edge o.1 p q → Start p.1 q.1 ∧ Start p.2 q.2) (hbig : ¬ ∃ k : ℤ × ℤ, ∀ p ∈ o.1, ⌊p.1⌋ = k.1 ∧ ⌊p.2⌋ = k.2) (r : Point) (hi : Inside o.1 r)
    (row col : ℕ) (hr : row < c.height) (hcol : col < c.width) (hc : InCell (col, row) r) :
    ∃ s', s.frame c objects = some (s', false) ∧ s'.values (row * c.width + col) = c.occupied := by
  obtain ⟨s', h1, h2⟩ := C118_values c (by omega) s objects hn
  obtain ⟨cells, -, h3, -⟩ := polygon_spec 0 1 (by omega) o.1 (fun _ => 0) (fun _ => by simp)
  exact ⟨s', h1, (h2 row col hr hcol).1 ⟨o, ho, cells, h3, C118_inside o.1 cells h3 hs r hi (col, row) hc hbig⟩⟩

/-! ### Cases -/

theorem no_whole {s : ℝ} (k : ℤ) (h1 : (k : ℝ) < s) (h2 : s < k + 1) (j : ℤ) : s ≠ j := by
  rintro rfl
  have : k < j := by exact_mod_cast h1
  have : j < k + 1 := by exact_mod_cast h2
  omega

/-- A square in the middle of nine cells. -/
noncomputable def square : List Point := [(1 / 2, 1 / 2), (1 / 2, 5 / 2), (5 / 2, 5 / 2), (5 / 2, 1 / 2)]

/-- On a grid of three by three, the cell in the middle is occupied if there is the square. -/
example (s : State) : ∃ s', s.frame ⟨1, 3, 3, 100, 50⟩ [(square, [])] = some (s', false) ∧ s'.values (1 * 3 + 1) = 100 := by
  have e : ∀ p q, Edge square p q → (p, q) ∈ [(((1 / 2, 1 / 2) : Point), ((1 / 2, 5 / 2) : Point)), ((1 / 2, 5 / 2), (5 / 2, 5 / 2)), ((5 / 2, 5 / 2), (5 / 2, 1 / 2)),
      ((5 / 2, 1 / 2), (1 / 2, 1 / 2))] := by
    intro p q h
    rw [← mem_edges] at h
    exact h
  refine C118_seen ⟨1, 3, 3, 100, 50⟩ s [(square, [])] (by simp) (square, []) (by simp) ?_ ?_ (3 / 2, 3 / 2) ⟨Or.inl ?_, ?_, ?_⟩ 1 1 (by simp) (by simp) ?_
  · intro p q h
    have := e p q h
    simp only [List.mem_cons, Prod.mk.injEq, List.not_mem_nil, or_false] at this
    rcases this with ⟨rfl, rfl⟩ | ⟨rfl, rfl⟩ | ⟨rfl, rfl⟩ | ⟨rfl, rfl⟩ <;>
      refine ⟨⟨by norm_num, fun h => ?_⟩, by norm_num, fun h => ?_⟩ <;> first | (norm_num at h; done) | exact no_whole 0 (by norm_num) (by norm_num)
  · rintro ⟨k, hk⟩
    have h1 := (hk (1 / 2, 1 / 2) (by simp [square])).1
    have h2 := (hk (5 / 2, 5 / 2) (by simp [square])).1
    rw [← h1] at h2
    norm_num at h2
  · intro p q h
    have := e p q h
    simp only [List.mem_cons, Prod.mk.injEq, List.not_mem_nil, or_false] at this
    rcases this with ⟨rfl, rfl⟩ | ⟨rfl, rfl⟩ | ⟨rfl, rfl⟩ | ⟨rfl, rfl⟩ <;> norm_num [area]
  · exact ⟨(1 / 2, 1 / 2), by simp [square], by norm_num⟩
  · exact ⟨(5 / 2, 5 / 2), by simp [square], by norm_num⟩
  · norm_num [InCell]

/-- C118 is violated by objects that are inside one cell: nothing is marked. -/
theorem C118_small_violated (ps : List Point) (c : ℤ × ℤ) (h0 : 0 ≤ c.1 ∧ 0 ≤ c.2) (h : ∀ p ∈ ps, InCell c p) : outline ps = some [] := by
  have key : ∀ p q, InCell c p → InCell c q → traverse p q = some [] := by
    intro p q hp hq
    have pos : (0 : ℝ) ≤ c.1 ∧ (0 : ℝ) ≤ c.2 := ⟨by exact_mod_cast h0.1, by exact_mod_cast h0.2⟩
    have sx : Start p.1 q.1 := ⟨by linarith [hp.1.1], fun _ => no_whole c.1 hp.1.1 hp.1.2⟩
    have sy : Start p.2 q.2 := ⟨by linarith [hp.2.1], fun _ => no_whole c.2 hp.2.1 hp.2.2⟩
    have ax := (⟨p.1, q.1 - p.1⟩ : Axis).start (by simpa using sx)
    have ay := (⟨p.2, q.2 - p.2⟩ : Axis).start (by simpa using sy)
    have f1 : ⌊p.1⌋ = c.1 := by rw [Int.floor_eq_iff]; exact ⟨hp.1.1.le, hp.1.2⟩
    have f2 : ⌊p.2⌋ = c.2 := by rw [Int.floor_eq_iff]; exact ⟨hp.2.1.le, hp.2.2⟩
    have l1 := (⟨p.1, q.1 - p.1⟩ : Axis).inside_before c.1 1 (Or.inl (by simpa [Axis.pos] using hq.1))
    have l2 := (⟨p.2, q.2 - p.2⟩ : Axis).inside_before c.2 1 (Or.inl (by simpa [Axis.pos] using hq.2))
    rw [traverse, run.eq_1, if_neg]
    rw [It.more, not_or, not_le, not_le]
    simp only [begin', ax.2, ay.2]
    rw [f1, f2]
    exact ⟨l1, l2⟩
  have : ∀ es : List (Point × Point), (∀ e ∈ es, InCell c e.1 ∧ InCell c e.2) → (es.mapM fun e => traverse e.1 e.2).map List.flatten = some [] := by
    intro es
    induction es with
    | nil => intro _; rfl
    | cons e es ih =>
      intro h
      have h1 := key _ _ (h e (by simp)).1 (h e (by simp)).2
      have h2 := ih fun x hx => h x (by simp [hx])
      rw [Option.map_eq_some_iff] at h2
      obtain ⟨l, h2, h3⟩ := h2
      rw [List.mapM_cons, h1, h2]
      simp [h3]
  refine this _ fun e he => ?_
  have := edge_mem (mem_edges.1 (show (e.1, e.2) ∈ _ from he))
  exact ⟨h _ this.1, h _ this.2⟩

/-- A pedestrian of 80 cm on a grid with cells of one metre may not be on the grid at all. -/
example (s : State) : ∃ s', s.frame ⟨1, 3, 3, 100, 50⟩ [([(11 / 10, 11 / 10), (11 / 10, 19 / 10), (19 / 10, 19 / 10), (19 / 10, 11 / 10)], [])] = some (s', false) ∧
    s'.values (1 * 3 + 1) = 0 := by
  obtain ⟨s', h1, h2⟩ := C118_values ⟨1, 3, 3, 100, 50⟩ (by simp) s [([(11 / 10, 11 / 10), (11 / 10, 19 / 10), (19 / 10, 19 / 10), (19 / 10, 11 / 10)], [])] (by simp)
  have e1 := C118_small_violated [(11 / 10, 11 / 10), (11 / 10, 19 / 10), (19 / 10, 19 / 10), (19 / 10, 11 / 10)] (1, 1) (by simp) (by
    intro p hp
    simp only [List.mem_cons, List.not_mem_nil, or_false] at hp
    rcases hp with rfl | rfl | rfl | rfl <;> norm_num [InCell])
  refine ⟨s', h1, (h2 1 1 (by simp) (by simp)).2.2 ?_ ?_⟩
  · rintro ⟨p, hp, cells, hc, l, r, hl, -⟩
    rw [List.mem_singleton.1 hp] at hc
    rw [e1] at hc
    cases hc
    simp at hl
  · rintro ⟨p, hp, cells, hc, l, r, hl, -⟩
    rw [List.mem_singleton.1 hp] at hc
    have : outline [] = some [] := rfl
    simp only at hc
    rw [this] at hc
    cases hc
    simp at hl

theorem run_x_top (ax ay : Axis) (tx d : ℝ) (x y : ℤ) (h1 : tx ≤ 1) (hd : ax.td = d) :
    run ax ay ⟨tx, ⊤, x, y⟩ = (run ax ay ⟨((tx + d : ℝ) : WithTop ℝ), ⊤, x + ax.step, y⟩).map ((x, y) :: ·) := by
  have hm : It.more ⟨tx, ⊤, x, y⟩ := Or.inl (WithTop.coe_le_coe.2 h1)
  rw [run.eq_1, if_pos hm, It.next, if_pos (WithTop.coe_lt_top tx), hd]
  rw [WithTop.coe_add, Option.map_eq_bind]
  rfl

theorem td_neg {s v : ℝ} (h : v < 0) : (⟨s, v⟩ : Axis).td = ((-1 / v : ℝ) : WithTop ℝ) ∧ (⟨s, v⟩ : Axis).step = -1 := by
  have : (⟨s, v⟩ : Axis).step = -1 := by rw [Axis.step, if_pos h]
  refine ⟨?_, this⟩
  rw [Axis.td, if_neg h.ne, this]
  simp

theorem first_neg {s v : ℝ} (h : v < 0) : (⟨s, v⟩ : Axis).first = (((⌊s⌋ - s) / v : ℝ) : WithTop ℝ) := by
  simp only [Axis.first, if_neg (not_lt.2 h.le), gt_iff_lt, ne_eq, h.ne, not_false_eq_true, if_true]

theorem first_zero {s : ℝ} : (⟨s, 0⟩ : Axis).first = ⊤ := by simp [Axis.first, Axis.td]

theorem cell_of {s v : ℝ} (k : ℤ) (h0 : 0 ≤ s) (h1 : (k : ℝ) ≤ s) (h2 : s < k + 1) : (⟨s, v⟩ : Axis).cell = k := by
  rw [Axis.cell, if_pos h0, Int.floor_eq_iff]; exact ⟨h1, h2⟩

/-- C118 is violated by objects at the left or lower border of the grid: cells that the object covers are left out, because the way along its edge is shifted by one cell. -/
theorem C118_border_violated : ∃ (ps : List Point) (cells : List (ℤ × ℤ)) (r : Point) (c : ℤ × ℤ), outline ps = some cells ∧ (∀ p ∈ ps, 0 ≤ p.1 ∧ 0 ≤ p.2) ∧
    (¬ ∃ k : ℤ × ℤ, ∀ p ∈ ps, ⌊p.1⌋ = k.1 ∧ ⌊p.2⌋ = k.2) ∧ Inside ps r ∧ InCell c r ∧ ¬ Covered cells c.2 c.1 := by
  have t1 : traverse (0, 1 / 2) (9 / 4, 11 / 4) = some [(0, 0), (1, 0), (1, 1), (2, 1), (2, 2)] := by
    have dx := td_of (s := 0) (v := 9 / 4 - 0) (by norm_num)
    have dy := td_of (s := 1 / 2) (v := 11 / 4 - 1 / 2) (by norm_num)
    have e2 : ⌈(1 / 2 : ℝ)⌉ = 1 := by rw [Int.ceil_eq_iff]; norm_num
    simp only [traverse, begin', cell_of (s := 0) (v := 9 / 4 - 0) 0 (by norm_num) (by norm_num) (by norm_num), cell_of (s := 1 / 2) (v := 11 / 4 - 1 / 2) 0 (by norm_num) (by norm_num) (by norm_num),
      first_of (s := 0) (v := 9 / 4 - 0) (by norm_num), first_of (s := 1 / 2) (v := 11 / 4 - 1 / 2) (by norm_num), Int.ceil_zero, e2]
    rw [run_x _ _ _ _ _ _ _ (by norm_num) (by norm_num) dx.1, run_y _ _ _ _ _ _ _ (by norm_num) (by norm_num) dy.1, run_x _ _ _ _ _ _ _ (by norm_num) (by norm_num) dx.1,
      run_y _ _ _ _ _ _ _ (by norm_num) (by norm_num) dy.1, run_x _ _ _ _ _ _ _ (by norm_num) (by norm_num) dx.1, run_done _ _ _ _ _ _ (by norm_num) (by norm_num), dx.2, dy.2]
    rfl
  have t2 : traverse (9 / 4, 11 / 4) (5 / 2, 1 / 2) = some [(2, 2), (2, 1)] := by
    have dx := td_of (s := 9 / 4) (v := 5 / 2 - 9 / 4) (by norm_num)
    have dy := td_neg (s := 11 / 4) (v := 1 / 2 - 11 / 4) (by norm_num)
    have e1 : ⌈(9 / 4 : ℝ)⌉ = 3 := by rw [Int.ceil_eq_iff]; norm_num
    have e2 : ⌊(11 / 4 : ℝ)⌋ = 2 := by rw [Int.floor_eq_iff]; norm_num
    simp only [traverse, begin', cell_of (s := 9 / 4) (v := 5 / 2 - 9 / 4) 2 (by norm_num) (by norm_num) (by norm_num), cell_of (s := 11 / 4) (v := 1 / 2 - 11 / 4) 2 (by norm_num) (by norm_num) (by norm_num),
      first_of (s := 9 / 4) (v := 5 / 2 - 9 / 4) (by norm_num), first_neg (s := 11 / 4) (v := 1 / 2 - 11 / 4) (by norm_num), e1, e2]
    rw [run_y _ _ _ _ _ _ _ (by norm_num) (by norm_num) dy.1, run_y _ _ _ _ _ _ _ (by norm_num) (by norm_num) dy.1, run_done _ _ _ _ _ _ (by norm_num) (by norm_num), dy.2]
    rfl
  have t3 : traverse (5 / 2, 1 / 2) (0, 1 / 2) = some [(2, 0), (1, 0), (0, 0)] := by
    have dx := td_neg (s := 5 / 2) (v := 0 - 5 / 2) (by norm_num)
    have e1 : ⌊(5 / 2 : ℝ)⌋ = 2 := by rw [Int.floor_eq_iff]; norm_num
    simp only [traverse, begin', cell_of (s := 5 / 2) (v := 0 - 5 / 2) 2 (by norm_num) (by norm_num) (by norm_num), cell_of (s := 1 / 2) (v := 0) 0 (by norm_num) (by norm_num) (by norm_num),
      first_neg (s := 5 / 2) (v := 0 - 5 / 2) (by norm_num), sub_self, first_zero, e1]
    rw [run_x_top _ _ _ _ _ _ (by norm_num) dx.1, run_x_top _ _ _ _ _ _ (by norm_num) dx.1, run_x_top _ _ _ _ _ _ (by norm_num) dx.1, run.eq_1, if_neg, dx.2]
    · rfl
    · rw [It.more, not_or, not_le, not_le]
      exact ⟨WithTop.coe_lt_coe.2 (by norm_num), WithTop.coe_lt_top _⟩
  refine ⟨[(0, 1 / 2), (9 / 4, 11 / 4), (5 / 2, 1 / 2)], [(0, 0), (1, 0), (1, 1), (2, 1), (2, 2), (2, 2), (2, 1), (2, 0), (1, 0), (0, 0)], (9 / 10, 6 / 5), (0, 1), ?_, ?_, ?_, ⟨Or.inl ?_, ?_, ?_⟩, ?_, ?_⟩
  · simp only [outline, List.drop_one, List.tail_cons, List.take_succ_cons, List.take_zero, List.cons_append, List.nil_append, List.zip_cons_cons, List.zip_nil_right, List.mapM_cons, List.mapM_nil,
      t1, t2, t3]
    rfl
  · intro p hp
    simp only [List.mem_cons, List.not_mem_nil, or_false] at hp
    rcases hp with rfl | rfl | rfl <;> norm_num
  · rintro ⟨k, hk⟩
    have h1 := (hk (0, 1 / 2) (by simp)).1
    have h2 := (hk (5 / 2, 1 / 2) (by simp)).1
    rw [← h1] at h2
    norm_num at h2
  · intro p q h
    rw [← mem_edges] at h
    simp only [List.drop_one, List.tail_cons, List.take_succ_cons, List.take_zero, List.cons_append, List.nil_append, List.zip_cons_cons, List.zip_nil_right, List.mem_cons, Prod.mk.injEq,
      List.not_mem_nil, or_false] at h
    rcases h with ⟨rfl, rfl⟩ | ⟨rfl, rfl⟩ | ⟨rfl, rfl⟩ <;> norm_num [area]
  · exact ⟨(0, 1 / 2), by simp, by norm_num⟩
  · exact ⟨(9 / 4, 11 / 4), by simp, by norm_num⟩
  · norm_num [InCell]
  · rintro ⟨l, r, h1, -, h2, -⟩
    simp only [List.mem_cons, Prod.mk.injEq, List.not_mem_nil, or_false] at h1
    omega

end Verif.Grid
