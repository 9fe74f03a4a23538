import Verif.Geometry.Spec
import Mathlib.Tactic.Linarith
import Mathlib.Tactic.FieldSimp
import Mathlib.Tactic.LinearCombination
import Mathlib.Tactic.NormNum
import Mathlib.Tactic.Positivity
/-
Properties of line segments.
-/
namespace Verif.Geometry
open Classical

theorem eps_pos : 0 < eps := by unfold eps; positivity

theorem determinant_eq (l : Seg) (p : Pt) :
    l.vector2d.y * (p.x - l.stop.x) - l.vector2d.x * (p.y - l.stop.y) = - area l.start l.stop p := by
  unfold area Seg.vector2d; ring

theorem relativePosition_eq (l : Seg) (p : Pt) :
    l.relativePosition p = (if area l.start l.stop p < -eps then 1 else 0) - (if eps < area l.start l.stop p then 1 else 0) := by
  unfold Seg.relativePosition
  simp only [determinant_eq, gt_iff_lt]
  congr 1
  · congr 1; apply propext; constructor <;> intro h <;> linarith
  · congr 1; apply propext; constructor <;> intro h <;> linarith

theorem relativePosition_cases (l : Seg) (p : Pt) :
    (l.relativePosition p = 1 ∧ area l.start l.stop p < -eps) ∨ (l.relativePosition p = -1 ∧ eps < area l.start l.stop p) ∨
    (l.relativePosition p = 0 ∧ |area l.start l.stop p| ≤ eps) := by
  have he := eps_pos
  rw [relativePosition_eq]
  by_cases h1 : area l.start l.stop p < -eps
  · left; rw [if_pos h1, if_neg (by linarith)]; simp [h1]
  · by_cases h2 : eps < area l.start l.stop p
    · right; left; rw [if_neg h1, if_pos h2]; simp [h2]
    · right; right; rw [if_neg h1, if_neg h2]; simp [abs_le]; constructor <;> linarith

/-- With the tolerance out of the way the relative position is minus the sign of the area. -/
theorem relativePosition_clear {l : Seg} {p : Pt} (h : Clear l.start l.stop p) :
    (l.relativePosition p = 1 ∧ area l.start l.stop p < 0) ∨ (l.relativePosition p = -1 ∧ 0 < area l.start l.stop p) ∨
    (l.relativePosition p = 0 ∧ area l.start l.stop p = 0) := by
  have he := eps_pos
  rcases relativePosition_cases l p with ⟨h1, h2⟩ | ⟨h1, h2⟩ | ⟨h1, h2⟩
  · left; exact ⟨h1, by linarith⟩
  · right; left; exact ⟨h1, by linarith⟩
  · right; right
    refine ⟨h1, ?_⟩
    rcases h with h | h
    · exact h
    · unfold eps at h2; exact absurd h (not_lt.mpr h2)

theorem onSegment_inBounds {l : Seg} {p : Pt} (h : OnSegment l.start l.stop p) : l.isInBounds p := by
  obtain ⟨t, h0, h1, hx, hy⟩ := h
  unfold Seg.isInBounds
  rw [hx, hy]
  refine ⟨?_, ?_, ?_, ?_⟩
  · rcases le_total l.start.x l.stop.x with h | h
    · rw [min_eq_left h]; nlinarith
    · rw [min_eq_right h]; nlinarith
  · rcases le_total l.start.x l.stop.x with h | h
    · rw [max_eq_right h]; nlinarith
    · rw [max_eq_left h]; nlinarith
  · rcases le_total l.start.y l.stop.y with h | h
    · rw [min_eq_left h]; nlinarith
    · rw [min_eq_right h]; nlinarith
  · rcases le_total l.start.y l.stop.y with h | h
    · rw [max_eq_right h]; nlinarith
    · rw [max_eq_left h]; nlinarith

/-- A number between two others is a convex combination of them. -/
theorem between {a b x : ℝ} (h1 : min a b ≤ x) (h2 : x ≤ max a b) (hab : a ≠ b) : 0 ≤ (x - a) / (b - a) ∧ (x - a) / (b - a) ≤ 1 := by
  rcases lt_or_gt_of_ne hab with h | h
  · rw [min_eq_left h.le] at h1; rw [max_eq_right h.le] at h2
    have : 0 < b - a := by linarith
    exact ⟨div_nonneg (by linarith) this.le, (div_le_one this).mpr (by linarith)⟩
  · rw [min_eq_right h.le] at h1; rw [max_eq_left h.le] at h2
    have : b - a < 0 := by linarith
    exact ⟨div_nonneg_of_nonpos (by linarith) this.le, (div_le_one_of_neg this).mpr (by linarith)⟩

theorem inBounds_onSegment {l : Seg} {p : Pt} (hb : l.isInBounds p) (ha : area l.start l.stop p = 0) : OnSegment l.start l.stop p := by
  obtain ⟨h1, h2, h3, h4⟩ := hb
  unfold area at ha
  by_cases hx : l.start.x = l.stop.x
  · by_cases hy : l.start.y = l.stop.y
    · refine ⟨0, le_refl _, zero_le_one, ?_, ?_⟩
      · rw [hx, min_self] at h1; rw [hx, max_self] at h2; rw [hx]; linarith
      · rw [hy, min_self] at h3; rw [hy, max_self] at h4; rw [hy]; linarith
    · obtain ⟨ht0, ht1⟩ := between h3 h4 hy
      have hne : l.stop.y - l.start.y ≠ 0 := sub_ne_zero.mpr (Ne.symm hy)
      refine ⟨_, ht0, ht1, ?_, ?_⟩
      · rw [hx, min_self] at h1; rw [hx, max_self] at h2; rw [hx]; linarith
      · rw [div_mul_cancel₀ _ hne]; ring
  · obtain ⟨ht0, ht1⟩ := between h1 h2 hx
    have hne : l.stop.x - l.start.x ≠ 0 := sub_ne_zero.mpr (Ne.symm hx)
    refine ⟨_, ht0, ht1, ?_, ?_⟩
    · rw [div_mul_cancel₀ _ hne]; ring
    · field_simp
      linarith

theorem area_onSegment {a b c d p : Pt} {t : ℝ} (hx : p.x = c.x + t * (d.x - c.x)) (hy : p.y = c.y + t * (d.y - c.y)) :
    area a b p = (1 - t) * area a b c + t * area a b d := by
  unfold area; rw [hx, hy]; ring

theorem onSegment_area {a b p : Pt} (h : OnSegment a b p) : area a b p = 0 := by
  obtain ⟨t, _, _, hx, hy⟩ := h
  unfold area; rw [hx, hy]; ring

theorem onSegment_start (a b : Pt) : OnSegment a b a := ⟨0, le_refl _, zero_le_one, by ring, by ring⟩

theorem onSegment_stop (a b : Pt) : OnSegment a b b := ⟨1, zero_le_one, le_refl _, by ring, by ring⟩

theorem unit_of_mul {t D : ℝ} (hD : D ≠ 0) (h : (t * D) * ((t - 1) * D) ≤ 0) : 0 ≤ t ∧ t ≤ 1 := by
  have hDD : 0 < D * D := mul_self_pos.mpr hD
  have e : (t * D) * ((t - 1) * D) = (t * (t - 1)) * (D * D) := by ring
  rw [e] at h
  have k : t * (t - 1) ≤ 0 := by
    by_contra hc
    exact absurd h (not_le.mpr (mul_pos (not_le.mp hc) hDD))
  constructor
  · by_contra hc
    exact absurd k (not_le.mpr (mul_pos_of_neg_of_neg (not_le.mp hc) (by linarith)))
  · by_contra hc
    exact absurd k (not_le.mpr (mul_pos (by linarith) (by linarith)))

theorem area_difference (p0 q0 p1 q1 : Pt) : area p1 q1 q0 - area p1 q1 p0 = -(area p0 q0 q1 - area p0 q0 p1) := by
  unfold area; ring

theorem collinear_param {a b p : Pt} (h : area a b p = 0) (hne : a.x ≠ b.x ∨ a.y ≠ b.y) :
    ∃ k : ℝ, p.x = a.x + k * (b.x - a.x) ∧ p.y = a.y + k * (b.y - a.y) := by
  unfold area at h
  rcases hne with hx | hy
  · have hne : b.x - a.x ≠ 0 := sub_ne_zero.mpr (Ne.symm hx)
    refine ⟨(p.x - a.x) / (b.x - a.x), by rw [div_mul_cancel₀ _ hne]; ring, ?_⟩
    field_simp; linarith
  · have hne : b.y - a.y ≠ 0 := sub_ne_zero.mpr (Ne.symm hy)
    refine ⟨(p.y - a.y) / (b.y - a.y), ?_, by rw [div_mul_cancel₀ _ hne]; ring⟩
    field_simp; linarith

/-- Segments on one line that meet: an end of one is on the other. -/
theorem collinear_ends {l0 l1 : Seg} (z1 : area l0.start l0.stop l1.start = 0) (z2 : area l0.start l0.stop l1.stop = 0)
    (h : Meet l0 l1) :
    OnSegment l0.start l0.stop l1.start ∨ OnSegment l0.start l0.stop l1.stop ∨ OnSegment l1.start l1.stop l0.start := by
  obtain ⟨p, ⟨t, t0, t1, hx, hy⟩, ⟨r, r0, r1, kx, ky⟩⟩ := h
  by_cases hne : l0.start.x ≠ l0.stop.x ∨ l0.start.y ≠ l0.stop.y
  · obtain ⟨a, ax, ay⟩ := collinear_param z1 hne
    obtain ⟨b, bx, by'⟩ := collinear_param z2 hne
    have htab : t = a + r * (b - a) := by
      rcases hne with hne | hne
      · apply mul_right_cancel₀ (sub_ne_zero.mpr (Ne.symm hne)); rw [ax, bx] at kx; linarith
      · apply mul_right_cancel₀ (sub_ne_zero.mpr (Ne.symm hne)); rw [ay, by'] at ky; linarith
    by_cases ha : 0 ≤ a ∧ a ≤ 1
    · left; exact ⟨a, ha.1, ha.2, ax, ay⟩
    · by_cases hb : 0 ≤ b ∧ b ≤ 1
      · right; left; exact ⟨b, hb.1, hb.2, bx, by'⟩
      · right; right
        have hab : (a < 0 ∧ 1 < b) ∨ (b < 0 ∧ 1 < a) := by
          rcases lt_or_ge a 0 with ha0 | ha0
          · left; refine ⟨ha0, ?_⟩
            by_contra hb1
            have hb0 : b < 0 := by
              by_contra hc; exact hb ⟨not_lt.mp hc, not_lt.mp hb1⟩
            rcases le_total a b with h | h <;>
              nlinarith [mul_nonneg r0 (sub_nonneg.mpr h), mul_nonneg (sub_nonneg.mpr r1) (sub_nonneg.mpr h)]
          · have ha1 : 1 < a := by
              by_contra hc; exact ha ⟨ha0, not_lt.mp hc⟩
            right; refine ⟨?_, ha1⟩
            by_contra hb0
            have hb1 : 1 < b := by
              by_contra hc; exact hb ⟨not_lt.mp hb0, not_lt.mp hc⟩
            rcases le_total a b with h | h <;>
              nlinarith [mul_nonneg r0 (sub_nonneg.mpr h), mul_nonneg (sub_nonneg.mpr r1) (sub_nonneg.mpr h)]
        have hba : b - a ≠ 0 := by rcases hab with h | h <;> intro hc <;> linarith [h.1, h.2]
        have e : a + (-a / (b - a)) * (b - a) = 0 := by rw [div_mul_cancel₀ _ hba]; ring
        refine ⟨-a / (b - a), ?_, ?_, ?_, ?_⟩
        · rcases hab with h | h
          · exact div_nonneg (by linarith) (by linarith)
          · exact div_nonneg_of_nonpos (by linarith) (by linarith)
        · rcases hab with h | h
          · exact (div_le_one (by linarith)).mpr (by linarith)
          · exact (div_le_one_of_neg (by linarith)).mpr (by linarith)
        · rw [ax, bx]; linear_combination (-(l0.stop.x - l0.start.x)) * e
        · rw [ay, by']; linear_combination (-(l0.stop.y - l0.start.y)) * e
  · right; right
    have ex : l0.start.x = l0.stop.x := by by_contra hc; exact hne (Or.inl hc)
    have ey : l0.start.y = l0.stop.y := by by_contra hc; exact hne (Or.inr hc)
    refine ⟨r, r0, r1, ?_, ?_⟩
    · rw [← kx, hx, ex]; ring
    · rw [← ky, hy, ey]; ring

/-- If the ends of each segment are not on the same side of the other one, and not all four are on it, the segments cross. -/
theorem cross {l0 l1 : Seg}
    (h1 : area l0.start l0.stop l1.start * area l0.start l0.stop l1.stop ≤ 0)
    (h0 : area l1.start l1.stop l0.start * area l1.start l1.stop l0.stop ≤ 0)
    (hd : area l0.start l0.stop l1.start ≠ area l0.start l0.stop l1.stop) :
    ∃ p, OnSegment l0.start l0.stop p ∧ OnSegment l1.start l1.stop p := by
  obtain ⟨p0, q0⟩ := l0
  obtain ⟨p1, q1⟩ := l1
  simp only at h1 h0 hd ⊢
  set D := (q0.x - p0.x) * (q1.y - p1.y) - (q0.y - p0.y) * (q1.x - p1.x) with hD
  have e1 : area p0 q0 q1 - area p0 q0 p1 = D := by rw [hD]; unfold area; ring
  have e0 : area p1 q1 q0 - area p1 q1 p0 = -D := by rw [hD]; unfold area; ring
  have hDne : D ≠ 0 := by rw [← e1]; exact sub_ne_zero.mpr (Ne.symm hd)
  set t := area p1 q1 p0 / D with ht
  set r := -area p0 q0 p1 / D with hr
  have htD : t * D = area p1 q1 p0 := by rw [ht]; field_simp
  have hrD : r * D = -area p0 q0 p1 := by rw [hr]; field_simp
  have hq0 : area p1 q1 q0 = (t - 1) * D := by linarith
  have hq1 : area p0 q0 q1 = (1 - r) * D := by linarith
  have hp1 : area p0 q0 p1 = -r * D := by linarith
  rw [hp1, hq1] at h1
  rw [← htD, hq0] at h0
  obtain ⟨t0, t1⟩ := unit_of_mul hDne h0
  obtain ⟨r0, r1⟩ := unit_of_mul hDne (by linarith : (r * D) * ((r - 1) * D) ≤ 0)
  refine ⟨⟨p0.x + t * (q0.x - p0.x), p0.y + t * (q0.y - p0.y), 0⟩, ⟨t, t0, t1, rfl, rfl⟩, ⟨r, r0, r1, ?_, ?_⟩⟩
  · simp only
    apply mul_right_cancel₀ hDne
    have : (p0.x + t * (q0.x - p0.x)) * D = p0.x * D + (t * D) * (q0.x - p0.x) := by ring
    rw [this, htD]
    have : (p1.x + r * (q1.x - p1.x)) * D = p1.x * D + (r * D) * (q1.x - p1.x) := by ring
    rw [this, hrD, hD]; unfold area; ring
  · simp only
    apply mul_right_cancel₀ hDne
    have : (p0.y + t * (q0.y - p0.y)) * D = p0.y * D + (t * D) * (q0.y - p0.y) := by ring
    rw [this, htD]
    have : (p1.y + r * (q1.y - p1.y)) * D = p1.y * D + (r * D) * (q1.y - p1.y) := by ring
    rw [this, hrD, hD]; unfold area; ring

theorem Meet.symm {l0 l1 : Seg} (h : Meet l0 l1) : Meet l1 l0 := by
  obtain ⟨p, h0, h1⟩ := h; exact ⟨p, h1, h0⟩

/-- Meeting segments: the ends of one are not strictly on one side of the other. -/
theorem meet_area {l0 l1 : Seg} (h : Meet l0 l1) : area l0.start l0.stop l1.start * area l0.start l0.stop l1.stop ≤ 0 := by
  obtain ⟨p, h0, t, t0, t1, hx, hy⟩ := h
  have ha := onSegment_area h0
  rw [area_onSegment hx hy] at ha
  set a := area l0.start l0.stop l1.start
  set b := area l0.start l0.stop l1.stop
  rcases eq_or_lt_of_le t0 with h | h
  · rw [← h] at ha; have : a = 0 := by linarith
    rw [this]; simp
  · have hb : t * (a * b) = - (1 - t) * a ^ 2 := by
      have : t * b = -(1 - t) * a := by linarith
      calc t * (a * b) = a * (t * b) := by ring
        _ = _ := by rw [this]; ring
    by_contra hc
    have h2 := mul_pos h (not_le.mp hc)
    have h3 : 0 ≤ (1 - t) * a ^ 2 := mul_nonneg (by linarith) (sq_nonneg a)
    linarith

theorem sign_ne {a b : ℝ} {s t : ℤ} (ha : (s = 1 ∧ a < 0) ∨ (s = -1 ∧ 0 < a) ∨ (s = 0 ∧ a = 0))
    (hb : (t = 1 ∧ b < 0) ∨ (t = -1 ∧ 0 < b) ∨ (t = 0 ∧ b = 0)) :
    s ≠ t ↔ (a * b ≤ 0 ∧ ¬ (a = 0 ∧ b = 0)) := by
  rcases ha with ⟨rfl, ha⟩ | ⟨rfl, ha⟩ | ⟨rfl, ha⟩ <;> rcases hb with ⟨rfl, hb⟩ | ⟨rfl, hb⟩ | ⟨rfl, hb⟩
  · have := mul_pos_of_neg_of_neg ha hb; simp; intro h; linarith
  · have := mul_neg_of_neg_of_pos ha hb; simp; exact ⟨this.le, fun h => by linarith⟩
  · simp [hb]; linarith
  · have := mul_neg_of_pos_of_neg ha hb; simp; exact ⟨this.le, fun h => by linarith⟩
  · have := mul_pos ha hb; simp; intro h; linarith
  · simp [hb]; linarith
  · simp [ha]; linarith
  · simp [ha]; linarith
  · simp [ha, hb]

/-- **C77** Two segments are reported to intersect exactly if they have a point in common, seen from above. This holds as long as no
end of one segment is off the line of the other one by less than the tolerance of the code. Missing: ends within the tolerance
(`isIntersect_tiny_violated`). -/
theorem isIntersect_iff_partial (l0 l1 : Seg) (h : ClearPair l0 l1) : isIntersect l0 l1 ↔ Meet l0 l1 := by
  obtain ⟨hp1, hq1, hp0, hq0⟩ := h
  have cp1 := relativePosition_clear hp1
  have cq1 := relativePosition_clear hq1
  have cp0 := relativePosition_clear hp0
  have cq0 := relativePosition_clear hq0
  have z {l : Seg} {p : Pt} (c : (l.relativePosition p = 1 ∧ area l.start l.stop p < 0) ∨
      (l.relativePosition p = -1 ∧ 0 < area l.start l.stop p) ∨ (l.relativePosition p = 0 ∧ area l.start l.stop p = 0)) :
      l.relativePosition p = 0 ↔ area l.start l.stop p = 0 := by
    rcases c with ⟨h, c⟩ | ⟨h, c⟩ | ⟨h, c⟩ <;> simp [h, c] <;> linarith
  unfold isIntersect
  simp only [z cp1, z cq1, z cp0, z cq0]
  split
  · rename_i hz
    obtain ⟨z1, z2, z3, z4⟩ := hz
    constructor
    · rintro (hb | hb | hb | hb)
      · exact ⟨_, inBounds_onSegment hb z1, onSegment_start _ _⟩
      · exact ⟨_, inBounds_onSegment hb z2, onSegment_stop _ _⟩
      · exact ⟨_, onSegment_start _ _, inBounds_onSegment hb z3⟩
      · exact ⟨_, onSegment_stop _ _, inBounds_onSegment hb z4⟩
    · intro hm
      rcases collinear_ends z1 z2 hm with h | h | h
      · exact Or.inl (onSegment_inBounds h)
      · exact Or.inr (Or.inl (onSegment_inBounds h))
      · exact Or.inr (Or.inr (Or.inl (onSegment_inBounds h)))
  · rename_i hz
    rw [sign_ne cp1 cq1, sign_ne cp0 cq0]
    constructor
    · rintro ⟨⟨h1, n1⟩, ⟨h0, n0⟩⟩
      by_cases hd : area l0.start l0.stop l1.start = area l0.start l0.stop l1.stop
      · rw [hd] at h1 n1
        have := mul_self_eq_zero.mp (le_antisymm h1 (mul_self_nonneg _))
        exact absurd ⟨this, this⟩ n1
      · exact cross h1 h0 hd
    · intro hm
      have m1 := meet_area hm
      have m0 := meet_area hm.symm
      have e := area_difference l0.start l0.stop l1.start l1.stop
      refine ⟨⟨m1, ?_⟩, ⟨m0, ?_⟩⟩
      · rintro ⟨z1, z2⟩
        rw [z1, z2] at e
        have e' : area l1.start l1.stop l0.stop = area l1.start l1.stop l0.start := by linarith
        rw [e'] at m0
        have := mul_self_eq_zero.mp (le_antisymm m0 (mul_self_nonneg _))
        exact hz ⟨z1, z2, this, by rw [e', this]⟩
      · rintro ⟨z1, z2⟩
        rw [z1, z2] at e
        have e' : area l0.start l0.stop l1.stop = area l0.start l0.stop l1.start := by linarith
        rw [e'] at m1
        have := mul_self_eq_zero.mp (le_antisymm m1 (mul_self_nonneg _))
        exact hz ⟨this, by rw [e', this], z1, z2⟩

/-- Two roads crossing at a right angle meet the hypothesis of `isIntersect_iff_partial` and intersect. -/
example : ClearPair ⟨⟨-1, 0, 0⟩, ⟨1, 0, 0⟩⟩ ⟨⟨0, -1, 0⟩, ⟨0, 1, 5⟩⟩ ∧ isIntersect ⟨⟨-1, 0, 0⟩, ⟨1, 0, 0⟩⟩ ⟨⟨0, -1, 0⟩, ⟨0, 1, 5⟩⟩ := by
  have h : ClearPair ⟨⟨-1, 0, 0⟩, ⟨1, 0, 0⟩⟩ ⟨⟨0, -1, 0⟩, ⟨0, 1, 5⟩⟩ := by
    unfold ClearPair Clear area; norm_num
  refine ⟨h, (isIntersect_iff_partial _ _ h).mpr ⟨⟨0, 0, 0⟩, ⟨1 / 2, ?_⟩, ⟨1 / 2, ?_⟩⟩⟩ <;> norm_num

/-- A segment beside another one meets the hypothesis and does not intersect it. -/
example : ClearPair ⟨⟨-1, 0, 0⟩, ⟨1, 0, 0⟩⟩ ⟨⟨0, 1, 0⟩, ⟨5, 3, 0⟩⟩ ∧ ¬ isIntersect ⟨⟨-1, 0, 0⟩, ⟨1, 0, 0⟩⟩ ⟨⟨0, 1, 0⟩, ⟨5, 3, 0⟩⟩ := by
  have h : ClearPair ⟨⟨-1, 0, 0⟩, ⟨1, 0, 0⟩⟩ ⟨⟨0, 1, 0⟩, ⟨5, 3, 0⟩⟩ := by
    unfold ClearPair Clear area; norm_num [abs_of_nonneg, abs_of_nonpos, abs_lt]
  refine ⟨h, fun hc => ?_⟩
  obtain ⟨p, ⟨t, _, _, _, hy⟩, ⟨r, r0, _, _, ky⟩⟩ := (isIntersect_iff_partial _ _ h).mp hc
  simp only at hy ky
  linarith

/-- The tolerance does not shrink with the segments: two segments of 2⁻²⁹ m that cross in their middle are reported not to intersect. -/
theorem isIntersect_tiny_violated :
    ∃ l0 l1 : Seg, Meet l0 l1 ∧ l0.start ≠ l0.stop ∧ l1.start ≠ l1.stop ∧ ¬ isIntersect l0 l1 := by
  refine ⟨⟨⟨-1 / 2 ^ 30, 0, 0⟩, ⟨1 / 2 ^ 30, 0, 0⟩⟩, ⟨⟨0, -1 / 2 ^ 30, 0⟩, ⟨0, 1 / 2 ^ 30, 0⟩⟩,
    ⟨⟨0, 0, 0⟩, ⟨1 / 2, by norm_num⟩, ⟨1 / 2, by norm_num⟩⟩, ?_, ?_, ?_⟩
  · intro h; have := congrArg Pt.x h; norm_num at this
  · intro h; have := congrArg Pt.y h; norm_num at this
  · unfold isIntersect
    simp only [relativePosition_eq]
    have e : eps = 1 / 2 ^ 52 := rfl
    unfold area Seg.isInBounds
    rw [e]
    norm_num

/-- The list version reports an intersection exactly if two segments at different places of the list meet, under the condition of
`isIntersect_iff_partial` for all of them. -/
theorem isIntersectAny_iff_partial (lines : List Seg) (h : ∀ a ∈ lines, ∀ b ∈ lines, ClearPair a b) :
    isIntersectAny lines ↔ ∃ i m : Nat, i ≠ m ∧ ∃ a b, lines[i]? = some a ∧ lines[m]? = some b ∧ Meet a b := by
  constructor
  · rintro ⟨i, m, _, _, hne, a, b, ha, hb, hi⟩
    exact ⟨i, m, hne, a, b, ha, hb,
      (isIntersect_iff_partial _ _ (h a (List.mem_of_getElem? ha) b (List.mem_of_getElem? hb))).mp hi⟩
  · rintro ⟨i, m, hne, a, b, ha, hb, hi⟩
    obtain ⟨hi1, _⟩ := List.getElem?_eq_some_iff.mp ha
    obtain ⟨hm1, _⟩ := List.getElem?_eq_some_iff.mp hb
    exact ⟨i, m, hi1, hm1, hne, a, b, ha, hb,
      (isIntersect_iff_partial _ _ (h a (List.mem_of_getElem? ha) b (List.mem_of_getElem? hb))).mpr hi⟩

theorem clear_slanted {l0 l1 : Seg} (h : ClearPair l0 l1) (hm : Meet l0 l1)
    (hn : ¬ (area l0.start l0.stop l1.start = 0 ∧ area l0.start l0.stop l1.stop = 0)) : Slanted l0 l1 := by
  have m1 := meet_area hm
  obtain ⟨h1, h2, _, _⟩ := h
  have e : (l0.stop.x - l0.start.x) * (l1.stop.y - l1.start.y) - (l0.stop.y - l0.start.y) * (l1.stop.x - l1.start.x)
      = area l0.start l0.stop l1.stop - area l0.start l0.stop l1.start := by unfold area; ring
  unfold Slanted
  rw [e]
  unfold Clear at h1 h2
  set a := area l0.start l0.stop l1.start
  set b := area l0.start l0.stop l1.stop
  have hp : (0 : ℝ) < 1 / 2 ^ 52 := by positivity
  rcases h1 with h1 | h1
  · rcases h2 with h2 | h2
    · exact absurd ⟨h1, h2⟩ hn
    · rw [h1]; simpa using h2
  · rcases h2 with h2 | h2
    · rw [h2]; simpa using h1
    · rcases lt_abs.mp h1 with ha | ha <;> rcases lt_abs.mp h2 with hb | hb
      · nlinarith
      · rw [abs_sub_comm]; exact lt_of_lt_of_le (by linarith) (le_abs_self _)
      · exact lt_of_lt_of_le (by linarith) (le_abs_self _)
      · nlinarith

/-- The value of `getIntersection` for two slanted segments that are found to intersect. -/
theorem getIntersection_slanted {l0 l1 : Seg} (hi : isIntersect l0 l1) (hs : Slanted l0 l1) :
    ∃ p, getIntersection l0 l1 = some (some p) ∧ p.z = 0 ∧ area l0.start l0.stop p = 0 ∧ area l1.start l1.stop p = 0 := by
  unfold getIntersection
  rw [if_neg (not_not.mpr hi)]
  have hd : l0.vector2d.y * -l1.vector2d.x - l1.vector2d.y * -l0.vector2d.x =
      (l0.stop.x - l0.start.x) * (l1.stop.y - l1.start.y) - (l0.stop.y - l0.start.y) * (l1.stop.x - l1.start.x) := by
    unfold Seg.vector2d; ring
  simp only [hd]
  unfold Slanted at hs
  have e : eps = 1 / 2 ^ 52 := rfl
  rw [if_neg (by rw [e]; exact not_le.mpr hs)]
  set D := (l0.stop.x - l0.start.x) * (l1.stop.y - l1.start.y) - (l0.stop.y - l0.start.y) * (l1.stop.x - l1.start.x) with hD
  have hne : D ≠ 0 := by
    intro h0; rw [h0, abs_zero] at hs; exact absurd hs (not_lt.mpr (by positivity))
  refine ⟨_, rfl, rfl, ?_, ?_⟩
  · unfold area Seg.vector2d; field_simp; rw [hD]; ring
  · unfold area Seg.vector2d; field_simp; rw [hD]; ring

theorem slanted_unique {l0 l1 : Seg} (hs : Slanted l0 l1) {p q : Pt} (p0 : area l0.start l0.stop p = 0) (p1 : area l1.start l1.stop p = 0)
    (q0 : area l0.start l0.stop q = 0) (q1 : area l1.start l1.stop q = 0) : q.x = p.x ∧ q.y = p.y := by
  unfold Slanted at hs
  set D := (l0.stop.x - l0.start.x) * (l1.stop.y - l1.start.y) - (l0.stop.y - l0.start.y) * (l1.stop.x - l1.start.x) with hD
  have hne : D ≠ 0 := by
    intro h0; rw [h0, abs_zero] at hs; exact absurd hs (not_lt.mpr (by positivity))
  unfold area at p0 p1 q0 q1
  constructor
  · apply mul_right_cancel₀ hne; rw [hD]
    linear_combination (l1.stop.x - l1.start.x) * (q0 - p0) - (l0.stop.x - l0.start.x) * (q1 - p1)
  · apply mul_right_cancel₀ hne; rw [hD]
    linear_combination (l1.stop.y - l1.start.y) * (q0 - p0) - (l0.stop.y - l0.start.y) * (q1 - p1)

/-- **C78** If the segments do not lie on one line, the point of intersection is given if they meet, and is then the only point they
have in common; otherwise there is none. The tolerance is left out as in `isIntersect_iff_partial`. Missing: segments on one line
(`getIntersection_touching_violated`). -/
theorem getIntersection_partial (l0 l1 : Seg) (h : ClearPair l0 l1)
    (hn : ¬ (area l0.start l0.stop l1.start = 0 ∧ area l0.start l0.stop l1.stop = 0 ∧
      area l1.start l1.stop l0.start = 0 ∧ area l1.start l1.stop l0.stop = 0)) :
    (Meet l0 l1 → ∃ p, getIntersection l0 l1 = some (some p) ∧ p.z = 0 ∧
      ∀ q, (OnSegment l0.start l0.stop q ∧ OnSegment l1.start l1.stop q) ↔ (q.x = p.x ∧ q.y = p.y)) ∧
    (¬ Meet l0 l1 → getIntersection l0 l1 = some none) := by
  constructor
  · intro hm
    have hi := (isIntersect_iff_partial l0 l1 h).mpr hm
    have hn' : ¬ (area l0.start l0.stop l1.start = 0 ∧ area l0.start l0.stop l1.stop = 0) := by
      rintro ⟨z1, z2⟩
      have m0 := meet_area hm.symm
      have e := area_difference l0.start l0.stop l1.start l1.stop
      rw [z1, z2] at e
      have e' : area l1.start l1.stop l0.stop = area l1.start l1.stop l0.start := by linarith
      rw [e'] at m0
      have := mul_self_eq_zero.mp (le_antisymm m0 (mul_self_nonneg _))
      exact hn ⟨z1, z2, this, by rw [e', this]⟩
    have hs := clear_slanted h hm hn'
    obtain ⟨p, hp, hz, a0, a1⟩ := getIntersection_slanted hi hs
    refine ⟨p, hp, hz, fun q => ⟨fun hq => ?_, fun hq => ?_⟩⟩
    · exact slanted_unique hs a0 a1 (onSegment_area hq.1) (onSegment_area hq.2)
    · obtain ⟨r, r0, r1⟩ := hm
      obtain ⟨ex, ey⟩ := slanted_unique hs a0 a1 (onSegment_area r0) (onSegment_area r1)
      obtain ⟨t, t0, t1, tx, ty⟩ := r0
      obtain ⟨k, k0, k1, kx, ky⟩ := r1
      exact ⟨⟨t, t0, t1, by rw [hq.1, ← ex, tx], by rw [hq.2, ← ey, ty]⟩, ⟨k, k0, k1, by rw [hq.1, ← ex, kx], by rw [hq.2, ← ey, ky]⟩⟩
  · intro hm
    unfold getIntersection
    rw [if_pos (fun hc => hm ((isIntersect_iff_partial l0 l1 h).mp hc))]

/-- Two crossing segments meet the hypotheses of `getIntersection_partial`. -/
example : ∃ l0 l1 : Seg, ClearPair l0 l1 ∧ Meet l0 l1 ∧
    ¬ (area l0.start l0.stop l1.start = 0 ∧ area l0.start l0.stop l1.stop = 0 ∧
      area l1.start l1.stop l0.start = 0 ∧ area l1.start l1.stop l0.stop = 0) := by
  refine ⟨⟨⟨-1, 0, 0⟩, ⟨1, 0, 0⟩⟩, ⟨⟨0, -1, 0⟩, ⟨0, 1, 5⟩⟩, ?_, ⟨⟨0, 0, 0⟩, ⟨1 / 2, by norm_num⟩, ⟨1 / 2, by norm_num⟩⟩, ?_⟩
  · unfold ClearPair Clear area; norm_num
  · unfold area; norm_num

/-- Two consecutive pieces of a straight line, which have exactly their common end in common, make `getIntersection2D` throw. -/
theorem getIntersection_touching_violated :
    ∃ (l0 l1 : Seg) (p : Pt), l0.start ≠ l0.stop ∧ l1.start ≠ l1.stop ∧
      (∀ q, (OnSegment l0.start l0.stop q ∧ OnSegment l1.start l1.stop q) ↔ (q.x = p.x ∧ q.y = p.y)) ∧ getIntersection l0 l1 = none := by
  refine ⟨⟨⟨0, 0, 0⟩, ⟨1, 0, 0⟩⟩, ⟨⟨1, 0, 0⟩, ⟨2, 0, 0⟩⟩, ⟨1, 0, 0⟩, ?_, ?_, ?_, ?_⟩
  · intro h; have := congrArg Pt.x h; norm_num at this
  · intro h; have := congrArg Pt.x h; norm_num at this
  · intro q; constructor
    · rintro ⟨⟨t, t0, t1, hx, hy⟩, ⟨r, r0, r1, kx, ky⟩⟩
      simp only at hx hy kx ky ⊢
      constructor <;> linarith
    · rintro ⟨hx, hy⟩
      exact ⟨⟨1, zero_le_one, le_refl _, by simp [hx], by simp [hy]⟩, ⟨0, le_refl _, zero_le_one, by simp [hx], by simp [hy]⟩⟩
  · have hi : isIntersect ⟨⟨0, 0, 0⟩, ⟨1, 0, 0⟩⟩ ⟨⟨1, 0, 0⟩, ⟨2, 0, 0⟩⟩ := by
      rw [isIntersect_iff_partial]
      · exact ⟨⟨1, 0, 0⟩, onSegment_stop _ _, onSegment_start _ _⟩
      · unfold ClearPair Clear area; norm_num
    unfold getIntersection
    rw [if_neg (not_not.mpr hi)]
    have := eps_pos
    unfold Seg.vector2d
    simp [this.le]

theorem length2d_pos {l : Seg} (h : l.start.x ≠ l.stop.x ∨ l.start.y ≠ l.stop.y) : 0 < l.length2d := by
  unfold Seg.length2d
  apply Real.sqrt_pos.mpr
  rcases h with h | h
  · have := sq_pos_of_ne_zero (sub_ne_zero.mpr (Ne.symm h)); nlinarith [sq_nonneg (l.stop.y - l.start.y)]
  · have := sq_pos_of_ne_zero (sub_ne_zero.mpr (Ne.symm h)); nlinarith [sq_nonneg (l.stop.x - l.start.x)]

theorem length_pos {l : Seg} (h : l.start.x ≠ l.stop.x ∨ l.start.y ≠ l.stop.y) : 0 < l.length := by
  unfold Seg.length distance
  apply Real.sqrt_pos.mpr
  rcases h with h | h
  · have := sq_pos_of_ne_zero (sub_ne_zero.mpr (Ne.symm h)); nlinarith [sq_nonneg (l.stop.y - l.start.y), sq_nonneg (l.stop.z - l.start.z)]
  · have := sq_pos_of_ne_zero (sub_ne_zero.mpr (Ne.symm h)); nlinarith [sq_nonneg (l.stop.x - l.start.x), sq_nonneg (l.stop.z - l.start.z)]

theorem isIntersectPoint_of_onSegment {l : Seg} {p : Pt} (h : OnSegment l.start l.stop p) : l.isIntersectPoint p := by
  unfold Seg.isIntersectPoint
  rw [if_pos (onSegment_inBounds h)]
  have ha := onSegment_area h
  unfold area at ha
  have e : (p.y - l.start.y) * l.vector2d.x - (p.x - l.start.x) * l.vector2d.y = 0 := by unfold Seg.vector2d; linarith
  rw [e, abs_zero]
  exact mul_nonneg (Real.sqrt_nonneg _) eps_pos.le

/-- The proportion computed for a point of the segment is its parameter. -/
theorem proportion_eq {l : Seg} (h : l.start.x ≠ l.stop.x ∨ l.start.y ≠ l.stop.y) {p : Pt} {t : ℝ} (t0 : 0 ≤ t)
    (hx : p.x = l.start.x + t * (l.stop.x - l.start.x)) (hy : p.y = l.start.y + t * (l.stop.y - l.start.y)) :
    Real.sqrt ((p.x - l.start.x) ^ 2 + (p.y - l.start.y) ^ 2) / l.length2d = t := by
  have hpos := length2d_pos h
  rw [div_eq_iff hpos.ne']
  have e : (p.x - l.start.x) ^ 2 + (p.y - l.start.y) ^ 2 = t ^ 2 * ((l.stop.x - l.start.x) ^ 2 + (l.stop.y - l.start.y) ^ 2) := by
    rw [hx, hy]; ring
  rw [e, Real.sqrt_mul (sq_nonneg t), Real.sqrt_sq t0]
  rfl

theorem sValue_onSegment {l : Seg} (h : l.start.x ≠ l.stop.x ∨ l.start.y ≠ l.stop.y) {p : Pt} {t : ℝ} (t0 : 0 ≤ t) (t1 : t ≤ 1)
    (hx : p.x = l.start.x + t * (l.stop.x - l.start.x)) (hy : p.y = l.start.y + t * (l.stop.y - l.start.y)) (d : Bool) :
    l.sValue p d = some (if d then t * l.length else t) := by
  unfold Seg.sValue
  rw [if_pos (isIntersectPoint_of_onSegment ⟨t, t0, t1, hx, hy⟩)]
  simp only [proportion_eq h t0 hx hy]

theorem getPoint_param {l : Seg} (h : l.start.x ≠ l.stop.x ∨ l.start.y ≠ l.stop.y) {t : ℝ} (t0 : 0 ≤ t) (t1 : t ≤ 1) (d : Bool) :
    l.getPoint (if d then t * l.length else t) d =
      some ⟨l.start.x + l.vector.x * t, l.start.y + l.vector.y * t, l.start.z + l.vector.z * t⟩ := by
  have hl := length_pos h
  unfold Seg.getPoint
  cases d
  · simp [t0, t1]
  · have e : t * l.length / l.length = t := by field_simp
    simp [e, t0, t1]

/-- **C79** Along a segment that is not vertical in space, every `s` from 0 to its length is the coordinate of one point of the segment:
the point at `s` is on the segment, at distance `s` from its start, and its coordinate is `s` again. Other values of `s` are refused. -/
theorem point_at_s (l : Seg) (h : l.start.x ≠ l.stop.x ∨ l.start.y ≠ l.stop.y) (s : ℝ) :
    (0 ≤ s ∧ s ≤ distance l.start l.stop →
      ∃ p, l.getPoint s true = some p ∧ OnSegment l.start l.stop p ∧ distance l.start p = s ∧ l.sValue p true = some s) ∧
    (¬ (0 ≤ s ∧ s ≤ distance l.start l.stop) → l.getPoint s true = none) := by
  have hl := length_pos h
  have hd : distance l.start l.stop = l.length := by
    unfold Seg.length distance; congr 1; ring
  rw [hd]
  constructor
  · rintro ⟨s0, s1⟩
    have t0 : 0 ≤ s / l.length := div_nonneg s0 hl.le
    have t1 : s / l.length ≤ 1 := (div_le_one hl).mpr s1
    have e : s = s / l.length * l.length := by field_simp
    have hp := getPoint_param h t0 t1 true
    simp only [if_true, ← e] at hp
    refine ⟨_, hp, ⟨s / l.length, t0, t1, ?_, ?_⟩, ?_, ?_⟩
    · unfold Seg.vector; ring
    · unfold Seg.vector; ring
    · unfold distance Seg.vector
      have e2 : (l.start.x - (l.start.x + (l.stop.x - l.start.x) * (s / l.length))) ^ 2 +
          (l.start.y - (l.start.y + (l.stop.y - l.start.y) * (s / l.length))) ^ 2 +
          (l.start.z - (l.start.z + (l.stop.z - l.start.z) * (s / l.length))) ^ 2 = (s / l.length) ^ 2 *
          ((l.stop.x - l.start.x) ^ 2 + (l.stop.y - l.start.y) ^ 2 + (l.stop.z - l.start.z) ^ 2) := by ring
      simp only [e2]
      rw [Real.sqrt_mul (sq_nonneg _), Real.sqrt_sq t0]
      exact e.symm
    · have := sValue_onSegment (l := l)
        (p := ⟨l.start.x + l.vector.x * (s / l.length), l.start.y + l.vector.y * (s / l.length), l.start.z + l.vector.z * (s / l.length)⟩)
        h t0 t1 (by unfold Seg.vector; ring) (by unfold Seg.vector; ring) true
      simp only [if_true, ← e] at this
      exact this
  · intro hn
    unfold Seg.getPoint
    simp only [if_true]
    rw [if_neg]
    rintro ⟨a, b⟩
    refine hn ⟨?_, (div_le_one hl).mp b⟩
    by_contra hc
    exact absurd a (not_le.mpr (div_neg_of_neg_of_pos (not_le.mp hc) hl))

/-- A sloped segment of length 3 meets the hypothesis of `point_at_s`. -/
example : ∃ l : Seg, (l.start.x ≠ l.stop.x ∨ l.start.y ≠ l.stop.y) ∧ distance l.start l.stop = 3 := by
  refine ⟨⟨⟨0, 0, 0⟩, ⟨1, 2, 2⟩⟩, Or.inl (by norm_num), ?_⟩
  unfold distance
  rw [show ((0 : ℝ) - 1) ^ 2 + (0 - 2) ^ 2 + (0 - 2) ^ 2 = 3 ^ 2 by norm_num, Real.sqrt_sq (by norm_num)]

/-- **C79** The coordinate of a point of the segment leads back to that point, seen from above. -/
theorem s_of_point (l : Seg) (h : l.start.x ≠ l.stop.x ∨ l.start.y ≠ l.stop.y) (d : Bool) (p : Pt) (hp : OnSegment l.start l.stop p) :
    ∃ s q, l.sValue p d = some s ∧ l.getPoint s d = some q ∧ q.x = p.x ∧ q.y = p.y := by
  obtain ⟨t, t0, t1, hx, hy⟩ := hp
  refine ⟨_, _, sValue_onSegment h t0 t1 hx hy d, getPoint_param h t0 t1 d, ?_, ?_⟩
  · rw [hx]; unfold Seg.vector; ring
  · rw [hy]; unfold Seg.vector; ring

/-- **C79** A point that is off the line by more than the machine epsilon, or beyond the ends of the segment, has no coordinate. -/
theorem s_refused (l : Seg) (d : Bool) (p : Pt)
    (h : 1 / 2 ^ 52 * Real.sqrt (sq2 l.stop l.start) < |area l.start l.stop p| ∨ p.x < min l.start.x l.stop.x ∨ max l.start.x l.stop.x < p.x ∨
      p.y < min l.start.y l.stop.y ∨ max l.start.y l.stop.y < p.y) : l.sValue p d = none := by
  have : ¬ l.isIntersectPoint p := by
    unfold Seg.isIntersectPoint
    split
    · rename_i hb
      obtain ⟨b1, b2, b3, b4⟩ := hb
      rcases h with h | h | h | h | h
      · rw [not_le]
        unfold eps Seg.length2d
        rw [mul_comm]
        have e : (p.y - l.start.y) * l.vector2d.x - (p.x - l.start.x) * l.vector2d.y = area l.start l.stop p := by
          unfold area Seg.vector2d; ring
        rw [e]; exact h
      · exact absurd b1 (not_le.mpr h)
      · exact absurd b2 (not_le.mpr h)
      · exact absurd b3 (not_le.mpr h)
      · exact absurd b4 (not_le.mpr h)
    · simp
  unfold Seg.sValue
  rw [if_neg this]

example : (1 : ℝ) / 2 ^ 52 * Real.sqrt (sq2 ⟨4, 0, 0⟩ ⟨0, 0, 0⟩) < |area ⟨0, 0, 0⟩ ⟨4, 0, 0⟩ ⟨1, 1, 0⟩| := by
  unfold sq2 area
  rw [show ((4 : ℝ) - 0) ^ 2 + (0 - 0) ^ 2 = 4 ^ 2 by norm_num, Real.sqrt_sq (by norm_num)]
  norm_num

/-- **C79** The coordinate given for the crossing with another segment is that of a point of both. -/
theorem s_of_crossing (l line : Seg) (h : ClearPair l line)
    (hn : ¬ (area l.start l.stop line.start = 0 ∧ area l.start l.stop line.stop = 0 ∧
      area line.start line.stop l.start = 0 ∧ area line.start line.stop l.stop = 0)) (d : Bool)
    (hne : l.start.x ≠ l.stop.x ∨ l.start.y ≠ l.stop.y) :
    (Meet l line → ∃ s q, l.sValueSeg line d = some (some s) ∧ l.getPoint s d = some q ∧ OnSegment line.start line.stop q) ∧
    (¬ Meet l line → l.sValueSeg line d = some none) := by
  obtain ⟨h1, h2⟩ := getIntersection_partial l line h hn
  constructor
  · intro hm
    obtain ⟨p, hp, _, hq⟩ := h1 hm
    obtain ⟨k0, k1⟩ := (hq p).mpr ⟨rfl, rfl⟩
    obtain ⟨s, q, hs, hg, qx, qy⟩ := s_of_point l hne d p k0
    refine ⟨s, q, ?_, hg, ?_⟩
    · unfold Seg.sValueSeg; rw [hp]; simp [hs]
    · obtain ⟨r, r0, r1, rx, ry⟩ := k1
      exact ⟨r, r0, r1, by rw [qx, rx], by rw [qy, ry]⟩
  · intro hm
    unfold Seg.sValueSeg; rw [h2 hm]

/-- **C80** The documentation of the relative position promises 1 for a point on the left of the segment and -1 for one on its right.
Both signs are the other way round, for every segment and every point off its line by more than the tolerance. -/
theorem relativePosition_side (l : Seg) (p : Pt) :
    (l.relativePosition p = 1 ↔ area l.start l.stop p < -(1 / 2 ^ 52)) ∧
    (l.relativePosition p = -1 ↔ 1 / 2 ^ 52 < area l.start l.stop p) ∧
    (l.relativePosition p = 0 ↔ |area l.start l.stop p| ≤ 1 / 2 ^ 52) := by
  have he := eps_pos
  have e : eps = 1 / 2 ^ 52 := rfl
  rw [← e]
  rcases relativePosition_cases l p with ⟨h, c⟩ | ⟨h, c⟩ | ⟨h, c⟩ <;> rw [h]
  · refine ⟨by simp [c], by simp; linarith, ?_⟩
    simp [abs_le]; intro; linarith
  · refine ⟨by simp; linarith, by simp [c], ?_⟩
    simp [abs_le]; intro; linarith
  · obtain ⟨c1, c2⟩ := abs_le.mp c
    refine ⟨by simp; linarith, by simp; linarith, by simp [c]⟩

/-- A point on the left of a segment that leads to the east gets -1, not the documented 1. -/
theorem relativePosition_left_violated : ∃ (l : Seg) (p : Pt), 0 < area l.start l.stop p ∧ l.relativePosition p = -1 := by
  have h : area ⟨0, 0, 0⟩ ⟨1, 0, 0⟩ ⟨0, 1, 0⟩ = 1 := by unfold area; norm_num
  refine ⟨⟨⟨0, 0, 0⟩, ⟨1, 0, 0⟩⟩, ⟨0, 1, 0⟩, by rw [h]; norm_num, (relativePosition_side _ _).2.1.mpr ?_⟩
  rw [h]; norm_num

/-- **C80** The slope is given for a segment that leads to larger `x`, and is then the slope of its line. Missing: segments that lead to
smaller `x` (`slope_leftward_violated`). -/
theorem slope_partial (l : Seg) (h : 1 / 2 ^ 52 < l.stop.x - l.start.x) :
    ∃ m, l.slope = some m ∧ ∀ p, OnSegment l.start l.stop p → p.y - l.start.y = m * (p.x - l.start.x) := by
  have e : eps = 1 / 2 ^ 52 := rfl
  have hp : (0 : ℝ) < l.stop.x - l.start.x := lt_trans (by positivity) h
  unfold Seg.slope Seg.vector2d
  rw [if_neg (by rw [e]; exact not_le.mpr h)]
  refine ⟨_, rfl, ?_⟩
  rintro p ⟨t, _, _, hx, hy⟩
  rw [hx, hy]; field_simp; ring

example : (1 : ℝ) / 2 ^ 52 < (⟨⟨0, 0, 0⟩, ⟨2, 1, 0⟩⟩ : Seg).stop.x - (⟨⟨0, 0, 0⟩, ⟨2, 1, 0⟩⟩ : Seg).start.x := by norm_num

/-- A segment that leads from right to left has a slope, but it is refused as vertical. -/
theorem slope_leftward_violated : ∃ l : Seg, l.start.x ≠ l.stop.x ∧ l.slope = none := by
  refine ⟨⟨⟨2, 0, 0⟩, ⟨0, 1, 0⟩⟩, by norm_num, ?_⟩
  have := eps_pos
  unfold Seg.slope Seg.vector2d
  simp only
  rw [if_pos (by linarith)]

theorem mem_segments (l : List Pt) (s : Seg) :
    s ∈ segments l ↔ s.start ≠ s.stop ∧ ∃ i : Nat, l[i]? = some s.start ∧ l[i + 1]? = some s.stop := by
  induction l with
  | nil => simp [segments]
  | cons a t ih =>
    cases t with
    | nil => simp [segments]
    | cons b l =>
      have step : (∃ i : Nat, (a :: b :: l)[i]? = some s.start ∧ (a :: b :: l)[i + 1]? = some s.stop) ↔
          (s = ⟨a, b⟩ ∨ ∃ i : Nat, (b :: l)[i]? = some s.start ∧ (b :: l)[i + 1]? = some s.stop) := by
        constructor
        · rintro ⟨i, h1, h2⟩
          cases i with
          | zero => left; simp at h1 h2; obtain ⟨s1, s2⟩ := s; simp_all
          | succ i => right; exact ⟨i, by simpa using h1, by simpa using h2⟩
        · rintro (h | ⟨i, h1, h2⟩)
          · exact ⟨0, by simp [h], by simp [h]⟩
          · exact ⟨i + 1, by simpa using h1, by simpa using h2⟩
      rw [step]
      unfold segments
      split
      · rename_i hab
        rw [List.mem_cons, ih]
        constructor
        · rintro (h | ⟨h1, h2⟩)
          · exact ⟨by rw [h]; exact hab, Or.inl h⟩
          · exact ⟨h1, Or.inr h2⟩
        · rintro ⟨h1, h | h⟩
          · exact Or.inl h
          · exact Or.inr ⟨h1, h⟩
      · rename_i hab
        rw [ih]
        constructor
        · rintro ⟨h1, h2⟩; exact ⟨h1, Or.inr h2⟩
        · rintro ⟨h1, h | h⟩
          · rw [h] at h1; exact absurd h1 hab
          · exact ⟨h1, h⟩

/-- **C80** The segments made from a list of points are those between neighbouring points that differ, and, if asked for, the one that
leads from the last point back to the first. -/
theorem getLineSegments_mem (points : List Pt) (close : Bool) (s : Seg) :
    s ∈ getLineSegments points close ↔ s.start ≠ s.stop ∧
      ((∃ i : Nat, points[i]? = some s.start ∧ points[i + 1]? = some s.stop) ∨
       (close = true ∧ points.getLast? = some s.start ∧ points.head? = some s.stop)) := by
  obtain ⟨s1, s2⟩ := s
  cases points with
  | nil => simp [getLineSegments]
  | cons a t =>
    cases t with
    | nil =>
      simp only [getLineSegments, List.not_mem_nil, false_iff]
      rintro ⟨h, h1 | ⟨_, h1, h2⟩⟩
      · obtain ⟨i, _, h2⟩ := h1; simp at h2
      · simp at h1 h2; exact h (by rw [← h1, ← h2])
    | cons b l =>
      simp only [getLineSegments, List.mem_append, mem_segments]
      have hl : (a :: b :: l).getLast? = some ((b :: l).getLast (by simp)) := by
        rw [List.getLast?_cons_cons, List.getLast?_eq_getLast_of_ne_nil (by simp)]
      rw [hl]
      simp only [List.head?_cons]
      set last := (b :: l).getLast (by simp)
      constructor
      · rintro (⟨h1, h2⟩ | h)
        · exact ⟨h1, Or.inl h2⟩
        · cases close with
          | false => simp at h
          | true =>
            simp only [if_true] at h
            split at h
            · rename_i hla
              simp at h
              obtain ⟨rfl, rfl⟩ := h
              exact ⟨hla, Or.inr ⟨rfl, rfl, rfl⟩⟩
            · simp at h
      · rintro ⟨h1, h2 | ⟨hc, h2, h3⟩⟩
        · exact Or.inl ⟨h1, h2⟩
        · right
          simp at h2 h3
          subst h2 h3
          simp [hc, h1]

/-- A triangle given by three points has three sides when it is closed. -/
example : (⟨⟨1, 1, 0⟩, ⟨0, 0, 0⟩⟩ : Seg) ∈ getLineSegments [⟨0, 0, 0⟩, ⟨1, 0, 0⟩, ⟨1, 1, 0⟩] true := by
  rw [getLineSegments_mem]
  refine ⟨?_, Or.inr ⟨rfl, rfl, rfl⟩⟩
  intro h; have := congrArg Pt.x h; norm_num at this

end Verif.Geometry
