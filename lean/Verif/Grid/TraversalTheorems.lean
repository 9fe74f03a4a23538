import Verif.Grid.Traversal
import Verif.Grid.Spec
import Mathlib.Tactic.Linarith
import Mathlib.Tactic.FieldSimp
import Mathlib.Tactic.Ring
import Mathlib.Tactic.Positivity
/-
C117: the cells on a line are found.
-/
namespace Verif.Grid
open Classical Spec

/-! ### One coordinate -/

/-- The coordinate at the time `t`. -/
def Axis.pos (a : Axis) (t : ℝ) : ℝ := a.s + a.v * t

/-- When the column `x` is left. -/
noncomputable def Axis.leave (a : Axis) (x : ℤ) : WithTop ℝ :=
  if a.v = 0 then ⊤ else if a.v > 0 then (((x + 1 - a.s) / a.v : ℝ) : WithTop ℝ) else (((x - a.s) / a.v : ℝ) : WithTop ℝ)

/-- The column `x` is not behind the column `k`. -/
def Axis.notPast (a : Axis) (x k : ℤ) : Prop := (a.v > 0 → x ≤ k) ∧ (a.v < 0 → k ≤ x) ∧ (a.v = 0 → x = k)

theorem Axis.leave_zero {a : Axis} (h : a.v = 0) (x : ℤ) : a.leave x = ⊤ := by simp [Axis.leave, h]

theorem Axis.leave_pos {a : Axis} (h : 0 < a.v) (x : ℤ) : a.leave x = (((x + 1 - a.s) / a.v : ℝ) : WithTop ℝ) := by
  rw [Axis.leave, if_neg h.ne', if_pos h]

theorem Axis.leave_neg {a : Axis} (h : a.v < 0) (x : ℤ) : a.leave x = (((x - a.s) / a.v : ℝ) : WithTop ℝ) := by
  rw [Axis.leave, if_neg h.ne, if_neg (by linarith)]

theorem Axis.stay (a : Axis) (x : ℤ) (t₀ t : ℝ) (h : x ≤ a.pos t₀ ∧ a.pos t₀ ≤ x + 1) (ht : t₀ ≤ t) (hl : (t : WithTop ℝ) ≤ a.leave x) : x ≤ a.pos t ∧ a.pos t ≤ x + 1 := by
  unfold Axis.pos at *
  rcases lt_trichotomy a.v 0 with hv | hv | hv
  · rw [Axis.leave_neg hv, WithTop.coe_le_coe, le_div_iff_of_neg hv] at hl
    exact ⟨by linarith, by nlinarith⟩
  · rw [hv] at h ⊢; simpa using h
  · rw [Axis.leave_pos hv, WithTop.coe_le_coe, le_div_iff₀ hv] at hl
    exact ⟨by nlinarith, by linarith⟩

theorem Axis.advance (a : Axis) (x : ℤ) : a.leave x + a.td = a.leave (x + a.step) := by
  rcases lt_trichotomy a.v 0 with hv | hv | hv
  · rw [Axis.leave_neg hv, Axis.leave_neg hv, Axis.td, if_neg hv.ne, ← WithTop.coe_add]
    congr 1
    simp only [Axis.step, if_pos hv]
    push_cast
    rw [← add_div]
    congr 1; ring
  · simp [Axis.leave_zero hv]
  · rw [Axis.leave_pos hv, Axis.leave_pos hv, Axis.td, if_neg hv.ne', ← WithTop.coe_add]
    congr 1
    simp only [Axis.step, if_neg (not_lt.2 hv.le)]
    push_cast
    rw [← add_div]
    congr 1; ring

theorem Axis.arrive (a : Axis) (x : ℤ) (t : ℝ) (h : a.leave x = t) : (((x + a.step : ℤ) : ℝ) ≤ a.pos t ∧ a.pos t ≤ ((x + a.step : ℤ) : ℝ) + 1) := by
  unfold Axis.pos
  rcases lt_trichotomy a.v 0 with hv | hv | hv
  · rw [Axis.leave_neg hv, WithTop.coe_eq_coe, div_eq_iff hv.ne] at h
    simp only [Axis.step, if_pos hv]
    push_cast
    constructor <;> linarith
  · rw [Axis.leave_zero hv] at h; exact absurd h (by simp)
  · rw [Axis.leave_pos hv, WithTop.coe_eq_coe, div_eq_iff hv.ne'] at h
    simp only [Axis.step, if_neg (not_lt.2 hv.le)]
    push_cast
    constructor <;> linarith

/-- The column at the time `t`, as in the specification. -/
def Axis.Within (a : Axis) (k : ℤ) (t : ℝ) : Prop := (k < a.pos t ∧ a.pos t < k + 1) ∨ (a.v = 0 ∧ k ≤ a.s ∧ a.s < k + 1)

theorem Axis.within_ne {a : Axis} {k : ℤ} {t : ℝ} (h : a.Within k t) (hv : a.v ≠ 0) : k < a.s + a.v * t ∧ a.s + a.v * t < k + 1 := by
  rcases h with h | h
  · exact h
  · exact absurd h.1 hv

theorem Axis.within_zero {a : Axis} {k : ℤ} {t : ℝ} (h : a.Within k t) (hv : a.v = 0) : k ≤ a.s ∧ a.s < k + 1 := by
  rcases h with h | h
  · unfold Axis.pos at h
    rw [hv] at h
    constructor <;> linarith
  · exact h.2

theorem Axis.inside_before (a : Axis) (k : ℤ) (t : ℝ) (h : a.Within k t) : (t : WithTop ℝ) < a.leave k := by
  rcases lt_trichotomy a.v 0 with hv | hv | hv
  · have := within_ne h hv.ne
    rw [Axis.leave_neg hv, WithTop.coe_lt_coe, lt_div_iff_of_neg hv]; linarith
  · rw [Axis.leave_zero hv]; exact WithTop.coe_lt_top t
  · have := within_ne h hv.ne'
    rw [Axis.leave_pos hv, WithTop.coe_lt_coe, lt_div_iff₀ hv]; linarith

theorem Axis.before (a : Axis) (x k : ℤ) (t : ℝ) (h : a.Within k t) (hn : a.notPast x k) (hx : x ≠ k) : a.leave x < (t : WithTop ℝ) := by
  obtain ⟨h1, h2, h3⟩ := hn
  rcases lt_trichotomy a.v 0 with hv | hv | hv
  · have := within_ne h hv.ne
    have : k + 1 ≤ x := by have := h2 hv; omega
    have : (k : ℝ) + 1 ≤ x := by exact_mod_cast this
    rw [Axis.leave_neg hv, WithTop.coe_lt_coe, div_lt_iff_of_neg hv]; linarith
  · exact absurd (h3 hv) hx
  · have := within_ne h hv.ne'
    have : x + 1 ≤ k := by have := h1 hv; omega
    have : (x : ℝ) + 1 ≤ k := by exact_mod_cast this
    rw [Axis.leave_pos hv, WithTop.coe_lt_coe, div_lt_iff₀ hv]; linarith

theorem Axis.inside_end (a : Axis) (k : ℤ) (t : ℝ) (h : a.Within k t) (ht : t ≤ 1) (hl : 1 < a.leave k) : a.Within k 1 := by
  have e : (1 : WithTop ℝ) = ((1 : ℝ) : WithTop ℝ) := rfl
  rcases lt_trichotomy a.v 0 with hv | hv | hv
  · have h := within_ne h hv.ne
    rw [Axis.leave_neg hv, e, WithTop.coe_lt_coe, lt_div_iff_of_neg hv] at hl
    left
    unfold Axis.pos
    exact ⟨by linarith, by nlinarith⟩
  · exact Or.inr ⟨hv, within_zero h hv⟩
  · have h := within_ne h hv.ne'
    rw [Axis.leave_pos hv, e, WithTop.coe_lt_coe, lt_div_iff₀ hv] at hl
    left
    unfold Axis.pos
    exact ⟨by nlinarith, by linarith⟩

theorem Axis.notPast_step (a : Axis) (x k : ℤ) (hn : a.notPast x k) (hx : x ≠ k) : a.notPast (x + a.step) k := by
  obtain ⟨h1, h2, h3⟩ := hn
  refine ⟨fun h => ?_, fun h => ?_, fun h => absurd (h3 h) hx⟩
  · rw [Axis.step, if_neg (not_lt.2 h.le)]; have := h1 h; omega
  · rw [Axis.step, if_pos h]; have := h2 h; omega

/-- The start of the traversal, in one coordinate. -/
theorem Axis.start (a : Axis) (h : Start a.s (a.s + a.v)) : a.cell = ⌊a.s⌋ ∧ a.first = a.leave ⌊a.s⌋ := by
  obtain ⟨h0, h1⟩ := h
  refine ⟨by rw [Axis.cell, if_pos h0], ?_⟩
  rcases lt_trichotomy a.v 0 with hv | hv | hv
  · rw [Axis.leave_neg hv]; simp only [Axis.first, if_pos hv.ne, if_neg (not_lt.2 hv.le), gt_iff_lt]
  · rw [Axis.leave_zero hv]; simp [Axis.first, Axis.td, hv]
  · rw [Axis.leave_pos hv]
    have : ⌈a.s⌉ = ⌊a.s⌋ + 1 := by
      have h2 := h1 (by linarith)
      rw [Int.ceil_eq_iff]
      push_cast
      refine ⟨?_, (Int.lt_floor_add_one a.s).le⟩
      rw [add_sub_cancel_right]
      exact lt_of_le_of_ne (Int.floor_le a.s) (fun h => h2 _ h.symm)
    simp only [Axis.first, if_pos hv.ne', if_pos hv, gt_iff_lt, this]
    push_cast
    rfl

theorem Axis.start_notPast (a : Axis) (k : ℤ) (t : ℝ) (ht : 0 ≤ t) (h : a.Within k t) : a.notPast ⌊a.s⌋ k := by
  refine ⟨fun hv => ?_, fun hv => ?_, fun hv => ?_⟩
  · have h := within_ne h (ne_of_gt hv)
    have : a.s < k + 1 := by nlinarith
    have : ⌊a.s⌋ < k + 1 := by rw [Int.floor_lt]; exact_mod_cast this
    omega
  · have h := within_ne h hv.ne
    rw [Int.le_floor]; nlinarith
  · rw [Int.floor_eq_iff]
    exact within_zero h hv

theorem Axis.td_pos (a : Axis) : 0 < a.td := by
  rw [Axis.td]
  split
  · exact WithTop.coe_lt_top 0
  · rename_i h
    rw [show (0 : WithTop ℝ) = ((0 : ℝ) : WithTop ℝ) from rfl, WithTop.coe_lt_coe, Axis.step]
    split
    · rename_i h'; push_cast; exact div_pos_of_neg_of_neg (by norm_num) h'
    · rename_i h'
      push_cast
      have : 0 < a.v := lt_of_le_of_ne (not_lt.1 h') (Ne.symm h)
      positivity

/-! ### The traversal ends -/

/-- The time passes one after so many steps. -/
theorem passes (t d : WithTop ℝ) (ht : 0 ≤ t) (hd : 0 < d) : ∃ n : ℕ, 1 < t + n • d := by
  have e : (1 : WithTop ℝ) = ((1 : ℝ) : WithTop ℝ) := rfl
  have z : (0 : WithTop ℝ) = ((0 : ℝ) : WithTop ℝ) := rfl
  cases t with
  | top => exact ⟨0, by rw [zero_nsmul]; simp⟩
  | coe t =>
    cases d with
    | top => exact ⟨1, by rw [one_nsmul]; simp⟩
    | coe d =>
      rw [z, WithTop.coe_le_coe] at ht
      rw [z, WithTop.coe_lt_coe] at hd
      obtain ⟨n, hn⟩ := exists_nat_gt (1 / d)
      refine ⟨n, ?_⟩
      rw [← WithTop.coe_nsmul, ← WithTop.coe_add, e, WithTop.coe_lt_coe, nsmul_eq_mul]
      rw [div_lt_iff₀ hd] at hn
      linarith

theorem run_ends (ax ay : Axis) (n m : ℕ) (i : It) (hx : 1 < i.tx + n • ax.td) (hy : 1 < i.ty + m • ay.td) : ∃ r, run ax ay i = some r := by
  generalize hk : n + m = k
  induction k generalizing n m i with
  | zero =>
    obtain ⟨rfl, rfl⟩ : n = 0 ∧ m = 0 := by omega
    rw [run.eq_1, if_neg]
    · exact ⟨[], rfl⟩
    · rw [zero_nsmul, add_zero] at hx hy; rw [It.more, not_or, not_le, not_le]; exact ⟨hx, hy⟩
  | succ k ih =>
    rw [run.eq_1]
    split
    · rename_i hm
      have : ∃ r, run ax ay (i.next ax ay) = some r := by
        rw [It.next]
        split
        · rename_i hlt
          have h1 : i.tx ≤ 1 := by
            rcases hm with hm | hm
            · exact hm
            · exact hlt.le.trans hm
          cases n with
          | zero => rw [zero_nsmul, add_zero] at hx; exact absurd h1 (not_le.2 hx)
          | succ n =>
            refine ih n m _ ?_ hy (by omega)
            simpa [succ_nsmul', add_assoc] using hx
        · rename_i hlt
          have h1 : i.ty ≤ 1 := by
            rcases hm with hm | hm
            · exact (not_lt.1 hlt).trans hm
            · exact hm
          cases m with
          | zero => rw [zero_nsmul, add_zero] at hy; exact absurd h1 (not_le.2 hy)
          | succ m =>
            refine ih n m _ hx ?_ (by omega)
            simpa [succ_nsmul', add_assoc] using hy
      obtain ⟨r, hr⟩ := this
      exact ⟨_, by rw [hr]; rfl⟩
    · exact ⟨[], rfl⟩

theorem Axis.first_nonneg (a : Axis) : 0 ≤ a.first := by
  simp only [Axis.first]
  split
  · rename_i hv
    rw [show (0 : WithTop ℝ) = ((0 : ℝ) : WithTop ℝ) from rfl, WithTop.coe_le_coe]
    split
    · rename_i h
      exact div_nonneg (sub_nonneg.2 (Int.le_ceil _)) (le_of_lt h)
    · rename_i h
      exact div_nonneg_of_nonpos (sub_nonpos.2 (Int.floor_le _)) (not_lt.1 h)
  · exact a.td_pos.le

/-- C117. The traversal of the cells of a line ends, for all lines. -/
theorem C117_ends (p q : Point) : ∃ cells, traverse p q = some cells := by
  obtain ⟨n, hn⟩ := passes _ _ (Axis.first_nonneg ⟨p.1, q.1 - p.1⟩) (Axis.td_pos ⟨p.1, q.1 - p.1⟩)
  obtain ⟨m, hm⟩ := passes _ _ (Axis.first_nonneg ⟨p.2, q.2 - p.2⟩) (Axis.td_pos ⟨p.2, q.2 - p.2⟩)
  exact run_ends _ _ n m _ hn hm

/-! ### What is visited is on the line -/

/-- What holds in all steps. -/
structure Inv (ax ay : Axis) (i : It) : Prop where
  tx : i.tx = ax.leave i.x
  ty : i.ty = ay.leave i.y
  at' : ∃ t : ℝ, 0 ≤ t ∧ (t : WithTop ℝ) ≤ i.tx ∧ (t : WithTop ℝ) ≤ i.ty ∧ (i.x ≤ ax.pos t ∧ ax.pos t ≤ i.x + 1) ∧ (i.y ≤ ay.pos t ∧ ay.pos t ≤ i.y + 1)

theorem Inv.next {ax ay : Axis} {i : It} (h : Inv ax ay i) (hm : i.more) : Inv ax ay (i.next ax ay) := by
  obtain ⟨h1, h2, t, h0, ht1, ht2, hx, hy⟩ := h
  rw [It.next]
  split
  · rename_i hlt
    obtain ⟨t', ht'⟩ := WithTop.ne_top_iff_exists.1 (ne_top_of_lt hlt)
    rw [← ht', WithTop.coe_le_coe] at ht1
    refine ⟨?_, h2, t', h0.trans ht1, ?_, ?_, ax.arrive i.x t' (by rw [← h1, ht']), ay.stay i.y t t' hy ht1 (by rw [← h2, ht']; exact hlt.le)⟩
    · show i.tx + ax.td = _; rw [h1]; exact ax.advance i.x
    · show (t' : WithTop ℝ) ≤ i.tx + ax.td; rw [ht']; exact le_add_of_nonneg_right ax.td_pos.le
    · show (t' : WithTop ℝ) ≤ i.ty; rw [ht']; exact hlt.le
  · rename_i hlt
    rw [not_lt] at hlt
    have : i.ty ≤ 1 := by
      rcases hm with hm | hm
      · exact hlt.trans hm
      · exact hm
    obtain ⟨t', ht'⟩ := WithTop.ne_top_iff_exists.1 (ne_top_of_le_ne_top (by exact WithTop.coe_ne_top) this)
    rw [← ht', WithTop.coe_le_coe] at ht2
    refine ⟨h1, ?_, t', h0.trans ht2, ?_, ?_, ax.stay i.x t t' hx ht2 (by rw [← h1, ht']; exact hlt), ay.arrive i.y t' (by rw [← h2, ht'])⟩
    · show i.ty + ay.td = _; rw [h2]; exact ay.advance i.y
    · show (t' : WithTop ℝ) ≤ i.tx; rw [ht']; exact hlt
    · show (t' : WithTop ℝ) ≤ i.ty + ay.td; rw [ht']; exact le_add_of_nonneg_right ay.td_pos.le

theorem inv_begin (ax ay : Axis) (hx : Start ax.s (ax.s + ax.v)) (hy : Start ay.s (ay.s + ay.v)) : Inv ax ay (begin' ax ay) := by
  have sx := ax.start hx
  have sy := ay.start hy
  have f : ∀ s : ℝ, (⌊s⌋ : ℝ) ≤ s ∧ s ≤ ⌊s⌋ + 1 := fun s => ⟨Int.floor_le s, (Int.lt_floor_add_one s).le⟩
  refine ⟨?_, ?_, 0, le_rfl, ax.first_nonneg, ay.first_nonneg, ?_, ?_⟩
  · simp only [begin', sx.1, sx.2]
  · simp only [begin', sy.1, sy.2]
  · simpa [begin', sx.1, Axis.pos] using f ax.s
  · simpa [begin', sy.1, Axis.pos] using f ay.s

/-- A visited cell comes from a step. -/
theorem run_mem (ax ay : Axis) (i : It) (r : List (ℤ × ℤ)) (hr : run ax ay i = some r) (h : Inv ax ay i) (c : ℤ × ℤ) (hc : c ∈ r) :
    ∃ j : It, Inv ax ay j ∧ j.more ∧ c = (j.x, j.y) := by
  refine run.partial_correctness ax ay (fun i r => Inv ax ay i → ∀ c ∈ r, ∃ j : It, Inv ax ay j ∧ j.more ∧ c = (j.x, j.y)) ?_ i r hr h c hc
  intro run' ih i r hr h c hc
  split at hr
  · rename_i hm
    cases hn : run' (i.next ax ay) with
    | none => rw [hn] at hr; exact absurd hr (by simp)
    | some r' =>
      rw [hn] at hr
      have : (i.x, i.y) :: r' = r := by simpa using hr
      subst this
      rcases List.mem_cons.1 hc with rfl | hc
      · exact ⟨i, h, hm, rfl⟩
      · exact ih _ _ hn (h.next hm) c hc
  · cases hr; exact absurd hc (by simp)

theorem pos_on (p q : Point) (t : ℝ) : (⟨p.1, q.1 - p.1⟩ : Axis).pos t = (on p q t).1 ∧ (⟨p.2, q.2 - p.2⟩ : Axis).pos t = (on p q t).2 := ⟨rfl, rfl⟩

/-- C117. Every visited cell is touched by the line. -/
theorem C117_touched (p q : Point) (hx : Start p.1 q.1) (hy : Start p.2 q.2) (cells : List (ℤ × ℤ)) (h : traverse p q = some cells) (c : ℤ × ℤ) (hc : c ∈ cells) :
    ∃ t, 0 ≤ t ∧ t ≤ 1 ∧ Touches c (on p q t) := by
  obtain ⟨j, ⟨-, -, t, h0, h1, h2, h3, h4⟩, hm, rfl⟩ := run_mem _ _ _ _ h (inv_begin _ _ (by simpa using hx) (by simpa using hy)) c hc
  refine ⟨t, h0, ?_, h3, h4⟩
  have : (t : WithTop ℝ) ≤ 1 := by
    rcases hm with hm | hm
    · exact h1.trans hm
    · exact h2.trans hm
  exact WithTop.coe_le_coe.1 this

/-! ### What is on the line is visited -/

theorem run_visits (ax ay : Axis) (a b : ℤ) (t : ℝ) (ht : t ≤ 1) (hx : ax.Within a t) (hy : ay.Within b t)
    (he : ax.leave a ≤ 1 ∨ ay.leave b ≤ 1) (i : It) (r : List (ℤ × ℤ)) (hr : run ax ay i = some r) (h1 : i.tx = ax.leave i.x) (h2 : i.ty = ay.leave i.y)
    (nx : ax.notPast i.x a) (ny : ay.notPast i.y b) : (a, b) ∈ r := by
  have e : (t : WithTop ℝ) ≤ 1 := WithTop.coe_le_coe.2 ht
  refine run.partial_correctness ax ay (fun i r => i.tx = ax.leave i.x → i.ty = ay.leave i.y → ax.notPast i.x a → ay.notPast i.y b → (a, b) ∈ r) ?_ i r hr h1 h2 nx ny
  intro run' ih i r hr h1 h2 nx ny
  have hm : i.more := by
    by_cases cx : i.x = a
    · by_cases cy : i.y = b
      · rw [It.more, h1, h2, cx, cy]; exact he
      · right; rw [h2]; exact (ay.before _ b t hy ny cy).le.trans e
    · left; rw [h1]; exact (ax.before _ a t hx nx cx).le.trans e
  rw [if_pos hm] at hr
  cases hn : run' (i.next ax ay) with
  | none => rw [hn] at hr; exact absurd hr (by simp)
  | some r' =>
    rw [hn] at hr
    have : (i.x, i.y) :: r' = r := by simpa using hr
    subst this
    by_cases c : i.x = a ∧ i.y = b
    · rw [c.1, c.2]; exact List.mem_cons_self
    · refine List.mem_cons_of_mem _ (ih _ _ hn ?_ ?_ ?_ ?_)
      all_goals rw [It.next]
      · split
        · show i.tx + ax.td = _; rw [h1]; exact ax.advance i.x
        · exact h1
      · split
        · exact h2
        · show i.ty + ay.td = _; rw [h2]; exact ay.advance i.y
      · split
        · rename_i hlt
          refine ax.notPast_step _ _ nx fun cx => ?_
          have cy : i.y ≠ b := fun cy => c ⟨cx, cy⟩
          have k1 := ay.before _ b t hy ny cy
          have k2 := ax.inside_before a t hx
          rw [h1, h2, cx] at hlt
          exact absurd ((hlt.trans k1).trans k2) (lt_irrefl _)
        · exact nx
      · split
        · exact ny
        · rename_i hlt
          refine ay.notPast_step _ _ ny fun cy => ?_
          have cx : i.x ≠ a := fun cx => c ⟨cx, cy⟩
          have k1 := ax.before _ a t hx nx cx
          have k2 := ay.inside_before b t hy
          rw [not_lt, h1, h2, cy] at hlt
          exact absurd ((hlt.trans_lt k1).trans k2) (lt_irrefl _)

theorem within_iff (k : ℤ) (s e t : ℝ) : (⟨s, e - s⟩ : Axis).Within k t ↔ Within k s e t := by
  unfold Axis.Within Axis.pos Spec.Within
  simp only [sub_eq_zero, eq_comm (a := e)]

/-- C117. Of the cells into which a line goes, all are visited but the one in which it ends. -/
theorem C117_cells (p q : Point) (hx : Start p.1 q.1) (hy : Start p.2 q.2) (cells : List (ℤ × ℤ)) (h : traverse p q = some cells) (c : ℤ × ℤ)
    (hc : ∃ t, 0 ≤ t ∧ t ≤ 1 ∧ Goes c p q t) : c ∈ cells ↔ ¬ Goes c p q 1 := by
  obtain ⟨t, h0, h1, ix, iy⟩ := hc
  rw [← within_iff] at ix iy
  constructor
  · intro hm hq
    obtain ⟨j, ⟨k1, k2, -⟩, hj, rfl⟩ := run_mem _ _ _ _ h (inv_begin _ _ (by simpa using hx) (by simpa using hy)) c hm
    rw [Goes, ← within_iff, ← within_iff] at hq
    have l1 := Axis.inside_before _ _ _ hq.1
    have l2 := Axis.inside_before _ _ _ hq.2
    rcases hj with hj | hj
    · rw [k1] at hj; exact absurd (l1.trans_le hj) (lt_irrefl _)
    · rw [k2] at hj; exact absurd (l2.trans_le hj) (lt_irrefl _)
  · intro hq
    have sx := (⟨p.1, q.1 - p.1⟩ : Axis).start (by simpa using hx)
    have sy := (⟨p.2, q.2 - p.2⟩ : Axis).start (by simpa using hy)
    refine run_visits ⟨p.1, q.1 - p.1⟩ ⟨p.2, q.2 - p.2⟩ c.1 c.2 t h1 ix iy ?_ _ _ h ?_ ?_ ?_ ?_
    · by_contra hcon
      rw [not_or, not_le, not_le] at hcon
      apply hq
      rw [Goes, ← within_iff, ← within_iff]
      exact ⟨Axis.inside_end _ _ t ix h1 hcon.1, Axis.inside_end _ _ t iy h1 hcon.2⟩
    · simp only [begin', sx.1, sx.2]
    · simp only [begin', sy.1, sy.2]
    · simp only [begin', sx.1]; exact Axis.start_notPast _ _ t h0 ix
    · simp only [begin', sy.1]; exact Axis.start_notPast _ _ t h0 iy

/-- The cell of the start is visited, unless the line ends in it. -/
theorem start_visited (p q : Point) (hx : Start p.1 q.1) (hy : Start p.2 q.2) (cells : List (ℤ × ℤ)) (h : traverse p q = some cells) :
    (⌊p.1⌋, ⌊p.2⌋) ∈ cells ∨ (⌊q.1⌋ = ⌊p.1⌋ ∧ ⌊q.2⌋ = ⌊p.2⌋) := by
  have sx := (⟨p.1, q.1 - p.1⟩ : Axis).start (by simpa using hx)
  have sy := (⟨p.2, q.2 - p.2⟩ : Axis).start (by simpa using hy)
  have key : ∀ s e : ℝ, 1 < (⟨s, e - s⟩ : Axis).leave ⌊s⌋ → ⌊e⌋ = ⌊s⌋ := by
    intro s e hl
    have o : (1 : WithTop ℝ) = ((1 : ℝ) : WithTop ℝ) := rfl
    have f1 := Int.floor_le s
    have f2 := Int.lt_floor_add_one s
    rw [Int.floor_eq_iff]
    rcases lt_trichotomy (e - s) 0 with hv | hv | hv
    · rw [Axis.leave_neg hv, o, WithTop.coe_lt_coe, lt_div_iff_of_neg hv] at hl
      simp only at hl
      constructor <;> linarith
    · constructor <;> linarith
    · rw [Axis.leave_pos hv, o, WithTop.coe_lt_coe, lt_div_iff₀ hv] at hl
      simp only at hl
      constructor <;> linarith
  rw [traverse, run.eq_1] at h
  split at h
  · left
    rename_i hm
    simp only [Option.bind_eq_bind, Option.bind_eq_some_iff] at h
    obtain ⟨r, -, hr⟩ := h
    have : (⌊p.1⌋, ⌊p.2⌋) :: r = cells := by
      simpa [begin', sx.1, sy.1] using hr
    rw [← this]
    exact List.mem_cons_self
  · right
    rename_i hm
    rw [It.more, not_or, not_le, not_le] at hm
    simp only [begin', sx.2, sy.2] at hm
    exact ⟨key _ _ hm.1, key _ _ hm.2⟩

/-! ### Cases -/

theorem run_x (ax ay : Axis) (tx ty d : ℝ) (x y : ℤ) (h : tx < ty) (h1 : tx ≤ 1) (hd : ax.td = d) :
    run ax ay ⟨tx, ty, x, y⟩ = (run ax ay ⟨((tx + d : ℝ) : WithTop ℝ), ty, x + ax.step, y⟩).map ((x, y) :: ·) := by
  have hm : It.more ⟨tx, ty, x, y⟩ := Or.inl (WithTop.coe_le_coe.2 h1)
  rw [run.eq_1, if_pos hm, It.next, if_pos (WithTop.coe_lt_coe.2 h), hd]
  rw [WithTop.coe_add, Option.map_eq_bind]
  rfl

theorem run_y (ax ay : Axis) (tx ty d : ℝ) (x y : ℤ) (h : ty ≤ tx) (h1 : ty ≤ 1) (hd : ay.td = d) :
    run ax ay ⟨tx, ty, x, y⟩ = (run ax ay ⟨tx, ((ty + d : ℝ) : WithTop ℝ), x, y + ay.step⟩).map ((x, y) :: ·) := by
  have hm : It.more ⟨tx, ty, x, y⟩ := Or.inr (WithTop.coe_le_coe.2 h1)
  rw [run.eq_1, if_pos hm, It.next, if_neg (not_lt.2 (WithTop.coe_le_coe.2 h)), hd]
  rw [WithTop.coe_add, Option.map_eq_bind]
  rfl

theorem run_done (ax ay : Axis) (tx ty : ℝ) (x y : ℤ) (h : 1 < tx) (h1 : 1 < ty) : run ax ay ⟨tx, ty, x, y⟩ = some [] := by
  rw [run.eq_1, if_neg]
  rw [It.more, not_or, not_le, not_le]
  exact ⟨WithTop.coe_lt_coe.2 h, WithTop.coe_lt_coe.2 h1⟩

theorem td_of {s v : ℝ} (h : 0 < v) : (⟨s, v⟩ : Axis).td = ((1 / v : ℝ) : WithTop ℝ) ∧ (⟨s, v⟩ : Axis).step = 1 := by
  have : (⟨s, v⟩ : Axis).step = 1 := by rw [Axis.step, if_neg (not_lt.2 h.le)]
  refine ⟨?_, this⟩
  rw [Axis.td, if_neg h.ne', this]
  simp

theorem first_of {s v : ℝ} (h : 0 < v) : (⟨s, v⟩ : Axis).first = (((⌈s⌉ - s) / v : ℝ) : WithTop ℝ) := by
  simp only [Axis.first, if_pos h, gt_iff_lt, if_pos h.ne']

/-- The line from (1/4, 1/2) to (9/4, 5/2) goes through four cells before it ends in a fifth. -/
theorem case_inside : traverse (1 / 4, 1 / 2) (9 / 4, 5 / 2) = some [(0, 0), (0, 1), (1, 1), (1, 2)] := by
  have dx := td_of (s := 1 / 4) (v := 9 / 4 - 1 / 4) (by norm_num)
  have dy := td_of (s := 1 / 2) (v := 5 / 2 - 1 / 2) (by norm_num)
  have c1 : (⟨1 / 4, 9 / 4 - 1 / 4⟩ : Axis).cell = 0 := by rw [Axis.cell, if_pos (by norm_num), Int.floor_eq_iff]; norm_num
  have c2 : (⟨1 / 2, 5 / 2 - 1 / 2⟩ : Axis).cell = 0 := by rw [Axis.cell, if_pos (by norm_num), Int.floor_eq_iff]; norm_num
  have e1 : ⌈(1 / 4 : ℝ)⌉ = 1 := by rw [Int.ceil_eq_iff]; norm_num
  have e2 : ⌈(1 / 2 : ℝ)⌉ = 1 := by rw [Int.ceil_eq_iff]; norm_num
  simp only [traverse, begin', c1, c2, first_of (s := 1 / 4) (v := 9 / 4 - 1 / 4) (by norm_num), first_of (s := 1 / 2) (v := 5 / 2 - 1 / 2) (by norm_num), e1, e2]
  rw [run_y _ _ _ _ _ _ _ (by norm_num) (by norm_num) dy.1, run_x _ _ _ _ _ _ _ (by norm_num) (by norm_num) dx.1,
    run_y _ _ _ _ _ _ _ (by norm_num) (by norm_num) dy.1, run_x _ _ _ _ _ _ _ (by norm_num) (by norm_num) dx.1, run_done _ _ _ _ _ _ (by norm_num) (by norm_num), dx.2, dy.2]
  rfl

/-- C117 is violated by lines that go up from a whole coordinate, as on the border of the grid: the cells are shifted by one, so that cells the line goes through are
left out and others are visited that it does not touch. -/
theorem C117_border_violated : ∃ cells, traverse (0, 1 / 2) (2, 5 / 2) = some cells ∧ (0, 1) ∉ cells ∧ Goes (0, 1) (0, 1 / 2) (2, 5 / 2) (3 / 8) ∧ ¬ Goes (0, 1) (0, 1 / 2) (2, 5 / 2) 1 ∧
    (1, 0) ∈ cells ∧ ∀ t, 0 ≤ t → t ≤ 1 → ¬ Touches (1, 0) (on (0, 1 / 2) (2, 5 / 2) t) := by
  refine ⟨[(0, 0), (1, 0), (1, 1), (2, 1), (2, 2)], ?_, by decide, ?_, ?_, by decide, ?_⟩
  · have dx := td_of (s := 0) (v := 2 - 0) (by norm_num)
    have dy := td_of (s := 1 / 2) (v := 5 / 2 - 1 / 2) (by norm_num)
    have c1 : (⟨0, 2 - 0⟩ : Axis).cell = 0 := by rw [Axis.cell, if_pos (by norm_num), Int.floor_eq_iff]; norm_num
    have c2 : (⟨1 / 2, 5 / 2 - 1 / 2⟩ : Axis).cell = 0 := by rw [Axis.cell, if_pos (by norm_num), Int.floor_eq_iff]; norm_num
    have e1 : ⌈(0 : ℝ)⌉ = 0 := by simp
    have e2 : ⌈(1 / 2 : ℝ)⌉ = 1 := by rw [Int.ceil_eq_iff]; norm_num
    simp only [traverse, begin', c1, c2, first_of (s := 0) (v := 2 - 0) (by norm_num), first_of (s := 1 / 2) (v := 5 / 2 - 1 / 2) (by norm_num), e1, e2]
    rw [run_x _ _ _ _ _ _ _ (by norm_num) (by norm_num) dx.1, run_y _ _ _ _ _ _ _ (by norm_num) (by norm_num) dy.1, run_x _ _ _ _ _ _ _ (by norm_num) (by norm_num) dx.1,
      run_y _ _ _ _ _ _ _ (by norm_num) (by norm_num) dy.1, run_x _ _ _ _ _ _ _ (by norm_num) (by norm_num) dx.1, run_done _ _ _ _ _ _ (by norm_num) (by norm_num), dx.2, dy.2]
    rfl
  · exact ⟨Or.inl (by norm_num), Or.inl (by norm_num)⟩
  · rintro ⟨h | h, -⟩ <;> norm_num at h
  · rintro t - - ⟨⟨h1, -⟩, -, h2⟩
    norm_num [on] at h1 h2
    linarith

/-- The hypotheses of C117 can be met: the line goes through the cell (0, 1) and does not end there. -/
example : (0, 1) ∈ ([(0, 0), (0, 1), (1, 1), (1, 2)] : List (ℤ × ℤ)) ∧ ¬ Goes (0, 1) (1 / 4, 1 / 2) (9 / 4, 5 / 2) 1 := by
  have n : ∀ (s : ℝ) (k : ℤ), (k : ℝ) < s → s < k + 1 → ∀ j : ℤ, s ≠ j := by
    rintro s k h1 h2 j rfl
    have : k < j := by exact_mod_cast h1
    have : j < k + 1 := by exact_mod_cast h2
    omega
  have := C117_cells (1 / 4, 1 / 2) (9 / 4, 5 / 2) ⟨by norm_num, fun _ => n _ 0 (by norm_num) (by norm_num)⟩ ⟨by norm_num, fun _ => n _ 0 (by norm_num) (by norm_num)⟩ _ case_inside (0, 1)
    ⟨3 / 10, by norm_num, by norm_num, Or.inl (by norm_num), Or.inl (by norm_num)⟩
  exact ⟨by decide, this.1 (by decide)⟩

end Verif.Grid
