import Verif.Orca.Spec
import Mathlib.Tactic.Linarith
import Mathlib.Tactic.LinearCombination
import Mathlib.Tactic.FieldSimp
import Mathlib.Tactic.NormNum
import Mathlib.Tactic.Positivity
import Mathlib.Analysis.SpecialFunctions.Complex.Arg
/-
**C171**: velocities that the lines of two entities allow keep them apart.
-/
namespace Verif.Orca
open Geometry Classical

theorem radius_eq {box : BBox} {angle direction r θ s : ℝ} (hb : Solid box) (h : Reaches box angle direction r) (hs : s ^ 2 = 1)
    (hc : Real.cos θ = s * Real.cos direction) (hn : Real.sin θ = s * Real.sin direction) : radius box θ angle = r := by
  obtain ⟨h1, h2⟩ := hb
  obtain ⟨h0, h⟩ := h
  have e1 : Real.cos (θ - angle) = s * Real.cos (direction - angle) := by
    rw [Real.cos_sub, Real.cos_sub, hc, hn]; ring
  have e2 : Real.sin (θ - angle) = s * Real.sin (direction - angle) := by
    rw [Real.sin_sub, Real.sin_sub, hc, hn]; ring
  have hq : Real.sqrt 2 ^ 2 = 2 := Real.sq_sqrt (by norm_num)
  unfold radius
  simp only
  rw [e1, e2]
  generalize Real.cos (direction - angle) = c at *
  generalize Real.sin (direction - angle) = k at *
  generalize Real.sqrt 2 = q at *
  field_simp at h
  have e3 : box.dims.y * (1 / 2) * q * (s * c) * (box.dims.y * (1 / 2) * q * (s * c)) +
      box.dims.x * (1 / 2) * q * (s * k) * (box.dims.x * (1 / 2) * q * (s * k)) =
      (box.dims.x * box.dims.y / (2 * r)) ^ 2 := by
    have : box.dims.y * (1 / 2) * q * (s * c) * (box.dims.y * (1 / 2) * q * (s * c)) +
      box.dims.x * (1 / 2) * q * (s * k) * (box.dims.x * (1 / 2) * q * (s * k)) =
      (1 / 4) * q ^ 2 * s ^ 2 * (box.dims.y ^ 2 * c ^ 2 + box.dims.x ^ 2 * k ^ 2) := by ring
    rw [this, hq, hs]
    field_simp
    linarith
  rw [e3, Real.sqrt_sq (by positivity)]
  have : box.dims.x * (1 / 2) * q * (box.dims.y * (1 / 2) * q) = box.dims.x * box.dims.y * (q ^ 2 * (1 / 4)) := by ring
  rw [this, hq]
  field_simp
  norm_num

theorem arg_towards {p : Pt} {direction : ℝ} (h : Towards p direction) :
    Real.cos (atan2 p.y p.x) = Real.cos direction ∧ Real.sin (atan2 p.y p.x) = Real.sin direction := by
  obtain ⟨d, hd, hx, hy⟩ := h
  have hn : ‖(⟨p.x, p.y⟩ : ℂ)‖ = d := by
    rw [Complex.norm_def, Complex.normSq_apply]
    simp only
    rw [hx, hy]
    have : d * Real.cos direction * (d * Real.cos direction) + d * Real.sin direction * (d * Real.sin direction) = d ^ 2 := by
      linear_combination d ^ 2 * Real.sin_sq_add_cos_sq direction
    rw [this, Real.sqrt_sq hd.le]
  have h0 : (⟨p.x, p.y⟩ : ℂ) ≠ 0 := by
    intro h0; rw [h0, norm_zero] at hn; linarith
  unfold atan2
  rw [Complex.cos_arg h0, Complex.sin_arg, hn]
  simp only
  rw [hx, hy]
  constructor <;> field_simp

theorem towards_opposite {p : Pt} {direction : ℝ} (h : Towards p direction) : Towards (opposite p) (direction + Real.pi) := by
  obtain ⟨d, hd, hx, hy⟩ := h
  refine ⟨d, hd, ?_, ?_⟩
  · unfold opposite; simp only; rw [Real.cos_add_pi, hx]; ring
  · unfold opposite; simp only; rw [Real.sin_add_pi, hy]; ring

theorem combined_eq {p : Pt} {box box' : BBox} {angle angle' direction r r' : ℝ} (hb : Solid box) (hb' : Solid box')
    (hp : Towards p direction) (h : Reaches box angle direction r) (h' : Reaches box' angle' direction r') :
    combinedRadius p box angle box' angle' = r + r' := by
  obtain ⟨hc, hs⟩ := arg_towards hp
  unfold combinedRadius
  simp only
  rw [radius_eq (s := 1) hb h (by norm_num) (by rw [hc]; ring) (by rw [hs]; ring),
    radius_eq (s := -1) hb' h' (by norm_num) (by rw [add_comm, Real.cos_add_pi, hc]; ring) (by rw [add_comm, Real.sin_add_pi, hs]; ring)]

theorem combined_opposite {p : Pt} {box box' : BBox} {angle angle' direction r r' : ℝ} (hb : Solid box) (hb' : Solid box')
    (hp : Towards p direction) (h : Reaches box angle direction r) (h' : Reaches box' angle' direction r') :
    combinedRadius (opposite p) box' angle' box angle = r + r' := by
  obtain ⟨hc, hs⟩ := arg_towards (towards_opposite hp)
  rw [Real.cos_add_pi] at hc
  rw [Real.sin_add_pi] at hs
  unfold combinedRadius
  simp only
  rw [radius_eq (s := -1) hb' h' (by norm_num) (by rw [hc]; ring) (by rw [hs]; ring),
    radius_eq (s := 1) hb h (by norm_num) (by rw [add_comm, Real.cos_add_pi, hc]; ring) (by rw [add_comm, Real.sin_add_pi, hs]; ring)]
  ring

/-- In the direction of a leg, the other entity is on the right at the distance of both radii. -/
theorem leg_dir {r : ℝ} {p v w : Pt} (hr : 0 < r) (hp : Flat p) (h : r * r ≤ inner p p) :
    (leg r p v w).1.x * p.y - (leg r p v w).1.y * p.x = -r ∧ (leg r p v w).1.x ^ 2 + (leg r p v w).1.y ^ 2 = 1 := by
  unfold Flat at hp
  have hi : inner p p = p.x ^ 2 + p.y ^ 2 := by unfold inner; rw [hp]; ring
  have h0 : 0 < inner p p := lt_of_lt_of_le (by positivity) h
  have hl : Real.sqrt (inner p p - r * r) ^ 2 = inner p p - r * r := Real.sq_sqrt (by linarith)
  unfold leg
  simp only
  generalize Real.sqrt (inner p p - r * r) = l at *
  generalize inner p p = q at *
  split
  · simp only
    constructor
    · field_simp; rw [hi]; ring
    · field_simp
      have : (p.x * l - p.y * r) ^ 2 + (p.x * r + l * p.y) ^ 2 = (p.x ^ 2 + p.y ^ 2) * (l ^ 2 + r * r) := by ring
      rw [this, hl, ← hi]; ring
  · unfold Pt.smul
    simp only
    constructor
    · field_simp; rw [hi]; ring
    · field_simp
      have : (p.x * l + p.y * r) ^ 2 + (-(p.x * r) + l * p.y) ^ 2 = (p.x ^ 2 + p.y ^ 2) * (l ^ 2 + r * r) := by ring
      rw [this, hl, ← hi]; ring

theorem leg_opposite {r : ℝ} {p v w : Pt} : (leg r (opposite p) (opposite v) (opposite w)).1.x = -(leg r p v w).1.x ∧
    (leg r (opposite p) (opposite v) (opposite w)).1.y = -(leg r p v w).1.y := by
  have h1 : inner (opposite p) (opposite p) = inner p p := by unfold inner opposite; simp only; ring
  have h2 : cross2d (opposite p) (opposite w) = cross2d p w := by unfold cross2d opposite; simp only; ring
  unfold leg
  simp only
  rw [h1, h2]
  split
  · unfold opposite; simp only; constructor <;> ring
  · unfold opposite Pt.smul; simp only; constructor <;> ring

theorem change_leg {r step : ℝ} {p v o : Pt} (hp : Flat p) (hv : Flat v) (ho : Flat o) (h : r * r ≤ inner p p) (hb : Beside r p v o) :
    change r step p (v.sub o) = some (leg r p (v.sub o) ((v.sub o).sub (p.smul (1 / 5)))) := by
  unfold change
  simp only
  rw [if_pos h, if_neg]
  rintro ⟨h1, h2⟩
  unfold Flat at hp hv ho
  unfold Beside at hb
  unfold inner at h2
  unfold Pt.sub Pt.smul at h1 h2
  simp only [hp, hv, ho] at h1 h2
  rcases hb with hb | hb
  · nlinarith
  · nlinarith

theorem flat_opposite {p : Pt} (h : Flat p) : Flat (opposite p) := by unfold Flat opposite at *; simp [h]

theorem sub_opposite (v o : Pt) : o.sub v = opposite (v.sub o) := by unfold Pt.sub opposite; simp

theorem beside_opposite {r : ℝ} {p v o : Pt} (h : Beside r p v o) : Beside r (opposite p) o v := by
  unfold Beside opposite at *
  simp only
  rcases h with h | h
  · left; linarith
  · right; linarith

/-- Both entities are on the left of a common line of relative velocities. -/
theorem side_sum {d d' : Pt} {v o v' o' u u' : Pt} (hx : d'.x = -d.x) (hy : d'.y = -d.y) (hux : u'.x = -u.x) (huy : u'.y = -u.y)
    (h : Allows ⟨v.add (u.smul (1 / 2)), d⟩ v') (h' : Allows ⟨o.add (u'.smul (1 / 2)), d'⟩ o') :
    d.y * (v'.x - o'.x - (v.x - o.x) - u.x) - d.x * (v'.y - o'.y - (v.y - o.y) - u.y) ≤ 0 := by
  unfold Allows excess Pt.add Pt.smul at h h'
  simp only at h h'
  rw [hx, hy, hux, huy] at h'
  linarith

/-- **C171** Two entities are apart by at least what their ellipses reach towards each other, and their relative velocity is beside the near
end. If both choose velocities that their lines allow, they stay apart by as much for all time. Partial: on one level; the near end is left
out, see `C171_end_violated`. -/
theorem C171_apart_partial (p v o v' o' : Pt) (box box' : BBox) (angle angle' direction r r' step : ℝ) (hb : Solid box) (hb' : Solid box')
    (hp : Flat p) (hv : Flat v) (ho : Flat o) (ht : Towards p direction) (h : Reaches box angle direction r)
    (h' : Reaches box' angle' direction r') (ha : (r + r') ^ 2 ≤ apartAfter p v o 0) (hs : Beside (r + r') p v o) (own other : Line)
    (hown : orcaLine v p (v.sub o) box angle box' angle' step = some own)
    (hother : orcaLine o (opposite p) (o.sub v) box' angle' box angle step = some other)
    (h1 : Allows own v') (h2 : Allows other o') (t : ℝ) (h0 : 0 ≤ t) : (r + r') ^ 2 ≤ apartAfter p v' o' t := by
  have hr : 0 < r + r' := add_pos h.1 h'.1
  have hd : (r + r') * (r + r') ≤ inner p p := by
    unfold Flat at hp
    unfold apartAfter at ha
    unfold inner
    rw [hp]
    nlinarith
  have hd' : (r + r') * (r + r') ≤ inner (opposite p) (opposite p) := by
    have : inner (opposite p) (opposite p) = inner p p := by unfold inner opposite; simp only; ring
    rw [this]; exact hd
  unfold orcaLine at hown hother
  rw [combined_eq hb hb' ht h h', change_leg hp hv ho hd hs] at hown
  rw [combined_opposite hb hb' ht h h', change_leg (flat_opposite hp) ho hv hd' (beside_opposite hs)] at hother
  have hw : (o.sub v).sub ((opposite p).smul (1 / 5)) = opposite ((v.sub o).sub (p.smul (1 / 5))) := by
    unfold Pt.sub Pt.smul opposite; ext <;> simp only <;> ring
  rw [hw, sub_opposite] at hother
  simp only [Option.map_some, Option.some.injEq] at hown hother
  subst hown hother
  obtain ⟨c1, c2⟩ := leg_dir (v := v.sub o) (w := (v.sub o).sub (p.smul (1 / 5))) hr hp hd
  have hl : ∀ w : Pt, (leg (r + r') p (v.sub o) w).2.x = (leg (r + r') p (v.sub o) w).1.x * ((v.x - o.x) * (leg (r + r') p (v.sub o) w).1.x + (v.y - o.y) * (leg (r + r') p (v.sub o) w).1.y) - (v.x - o.x) ∧
      (leg (r + r') p (v.sub o) w).2.y = (leg (r + r') p (v.sub o) w).1.y * ((v.x - o.x) * (leg (r + r') p (v.sub o) w).1.x + (v.y - o.y) * (leg (r + r') p (v.sub o) w).1.y) - (v.y - o.y) :=
    fun w => ⟨rfl, rfl⟩
  have hl' : ∀ w : Pt, (leg (r + r') (opposite p) (opposite (v.sub o)) w).2.x = (leg (r + r') (opposite p) (opposite (v.sub o)) w).1.x * (-(v.x - o.x) * (leg (r + r') (opposite p) (opposite (v.sub o)) w).1.x + -(v.y - o.y) * (leg (r + r') (opposite p) (opposite (v.sub o)) w).1.y) - -(v.x - o.x) ∧
      (leg (r + r') (opposite p) (opposite (v.sub o)) w).2.y = (leg (r + r') (opposite p) (opposite (v.sub o)) w).1.y * (-(v.x - o.x) * (leg (r + r') (opposite p) (opposite (v.sub o)) w).1.x + -(v.y - o.y) * (leg (r + r') (opposite p) (opposite (v.sub o)) w).1.y) - -(v.y - o.y) :=
    fun w => ⟨rfl, rfl⟩
  obtain ⟨k1, k2⟩ := hl ((v.sub o).sub (p.smul (1 / 5)))
  obtain ⟨k3, k4⟩ := hl' (opposite ((v.sub o).sub (p.smul (1 / 5))))
  obtain ⟨e1, e2⟩ := leg_opposite (r := r + r') (p := p) (v := v.sub o) (w := (v.sub o).sub (p.smul (1 / 5)))
  have key := side_sum e1 e2 (by rw [k1, k3, e1, e2]; ring) (by rw [k2, k4, e1, e2]; ring) h1 h2
  rw [k1, k2] at key
  generalize (leg (r + r') p (v.sub o) ((v.sub o).sub (p.smul (1 / 5)))).1 = d at *
  unfold apartAfter
  have h3 : d.y * (v'.x - o'.x) - d.x * (v'.y - o'.y) ≤ 0 := by
    nlinarith
  have h4 : d.x * (p.y + t * (o'.y - v'.y)) - d.y * (p.x + t * (o'.x - v'.x)) ≤ -(r + r') := by
    nlinarith
  generalize p.x + t * (o'.x - v'.x) = x at *
  generalize p.y + t * (o'.y - v'.y) = y at *
  have h5 : (d.x * y - d.y * x) ^ 2 ≤ x ^ 2 + y ^ 2 := by
    have : x ^ 2 + y ^ 2 = (d.x ^ 2 + d.y ^ 2) * (x ^ 2 + y ^ 2) := by rw [c2]; ring
    rw [this]
    nlinarith [sq_nonneg (d.x * x + d.y * y)]
  nlinarith

/-- **C171** Two entities are nearer than what their ellipses reach towards each other. If both choose velocities that their lines allow, they
are apart by that much after the next frame. Partial: on one level; not at one place with one velocity, see `C171_same_violated`. -/
theorem C171_parted_partial (p v o v' o' : Pt) (box box' : BBox) (angle angle' direction r r' step : ℝ) (hb : Solid box) (hb' : Solid box')
    (hp : Flat p) (hv : Flat v) (ho : Flat o) (hstep : 0 < step) (ht : Towards p direction) (h : Reaches box angle direction r)
    (h' : Reaches box' angle' direction r') (ha : apartAfter p v o 0 < (r + r') ^ 2) (own other : Line)
    (hown : orcaLine v p (v.sub o) box angle box' angle' step = some own)
    (hother : orcaLine o (opposite p) (o.sub v) box' angle' box angle step = some other)
    (h1 : Allows own v') (h2 : Allows other o') : (r + r') ^ 2 ≤ apartAfter p v' o' step := by
  have hr : 0 < r + r' := add_pos h.1 h'.1
  have hpp : inner (opposite p) (opposite p) = inner p p := by unfold inner opposite; simp only; ring
  have hd : ¬ (r + r') * (r + r') ≤ inner p p := by
    unfold Flat at hp
    unfold apartAfter at ha
    unfold inner
    rw [hp]
    nlinarith
  unfold orcaLine change at hown hother
  rw [combined_eq hb hb' ht h h', if_neg hd] at hown
  rw [combined_opposite hb hb' ht h h', hpp, if_neg hd, sub_opposite] at hother
  unfold overlap at hown hother
  simp only at hown hother
  have hw : (opposite (v.sub o)).sub ((opposite p).smul (1 / step)) = opposite ((v.sub o).sub (p.smul (1 / step))) := by
    unfold Pt.sub Pt.smul opposite; ext <;> simp only <;> ring
  rw [hw] at hother
  have hwf : Flat ((v.sub o).sub (p.smul (1 / step))) := by
    unfold Flat Pt.sub Pt.smul at *; simp only [hp, hv, ho]; ring
  have hdef : ((v.sub o).sub (p.smul (1 / step))).x = v.x - o.x - p.x * (1 / step) ∧
    ((v.sub o).sub (p.smul (1 / step))).y = v.y - o.y - p.y * (1 / step) := ⟨rfl, rfl⟩
  generalize (v.sub o).sub (p.smul (1 / step)) = w at *
  have hww : inner (opposite w) (opposite w) = inner w w := by unfold inner opposite; simp only; ring
  rw [hww] at hother
  by_cases h0 : inner w w = 0
  · rw [if_pos h0] at hown; exact absurd hown (by simp)
  · rw [if_neg h0] at hown hother
    have hwi : inner w w = w.x ^ 2 + w.y ^ 2 := by unfold inner; unfold Flat at hwf; rw [hwf]; ring
    have hpos : 0 < inner w w := lt_of_le_of_ne (by rw [hwi]; positivity) (Ne.symm h0)
    have hq : Real.sqrt (inner w w) ^ 2 = inner w w := Real.sq_sqrt hpos.le
    have hq0 : 0 < Real.sqrt (inner w w) := Real.sqrt_pos.mpr hpos
    generalize Real.sqrt (inner w w) = q at *
    simp only [Option.map_some, Option.some.injEq] at hown hother
    subst hown hother
    have key := side_sum (by unfold Pt.smul opposite; simp only; ring) (by unfold Pt.smul opposite; simp only; ring)
      (by unfold Pt.smul opposite; simp only; ring) (by unfold Pt.smul opposite; simp only; ring) h1 h2
    unfold Pt.smul at key
    simp only at key
    obtain ⟨dx, dy⟩ := hdef
    have hnn : (w.x * (1 / q)) ^ 2 + (w.y * (1 / q)) ^ 2 = 1 := by
      have : (w.x * (1 / q)) ^ 2 + (w.y * (1 / q)) ^ 2 = (w.x ^ 2 + w.y ^ 2) * (1 / q) ^ 2 := by ring
      rw [this, ← hwi, ← hq]; field_simp
    have hnw : (w.x * (1 / q)) * w.x + (w.y * (1 / q)) * w.y = q := by
      have : (w.x * (1 / q)) * w.x + (w.y * (1 / q)) * w.y = (w.x ^ 2 + w.y ^ 2) * (1 / q) := by ring
      rw [this, ← hwi, ← hq]; field_simp
    generalize w.x * (1 / q) = nx at *
    generalize w.y * (1 / q) = ny at *
    have k1 : (r + r') * (1 / step) ≤ nx * (v'.x - o'.x - p.x * (1 / step)) + ny * (v'.y - o'.y - p.y * (1 / step)) := by
      rw [dx, dy] at hnw
      linear_combination key - ((r + r') * (1 / step) - q) * hnn - hnw
    have k2 : r + r' ≤ nx * (-(p.x + step * (o'.x - v'.x))) + ny * (-(p.y + step * (o'.y - v'.y))) := by
      have := mul_le_mul_of_nonneg_left k1 hstep.le
      have e1 : step * ((r + r') * (1 / step)) = r + r' := by field_simp
      have e2 : step * (nx * (v'.x - o'.x - p.x * (1 / step)) + ny * (v'.y - o'.y - p.y * (1 / step))) =
          nx * (-(p.x + step * (o'.x - v'.x))) + ny * (-(p.y + step * (o'.y - v'.y))) := by field_simp; ring
      rw [e1, e2] at this
      exact this
    unfold apartAfter
    generalize p.x + step * (o'.x - v'.x) = x at *
    generalize p.y + step * (o'.y - v'.y) = y at *
    have h5 : (nx * -x + ny * -y) ^ 2 ≤ x ^ 2 + y ^ 2 := by
      have : x ^ 2 + y ^ 2 = (nx ^ 2 + ny ^ 2) * (x ^ 2 + y ^ 2) := by rw [hnn]; ring
      rw [this]
      nlinarith [sq_nonneg (nx * y - ny * x)]
    nlinarith

theorem change_end {r step : ℝ} {p v o : Pt} (hp : Flat p) (hv : Flat v) (ho : Flat o) (h : r * r ≤ inner p p) (hb : ¬ Beside r p v o) :
    change r step p (v.sub o) = some (roundedEnd r ((v.sub o).sub (p.smul (1 / 5)))) := by
  unfold change
  simp only
  rw [if_pos h, if_pos]
  unfold Flat at hp hv ho
  unfold Beside at hb
  rw [not_or, not_le, not_le] at hb
  unfold inner
  unfold Pt.sub Pt.smul
  simp only [hp, hv, ho]
  constructor
  · linarith [hb.1]
  · nlinarith [hb.2]

theorem end_allows (r : ℝ) (v w : Pt) : Allows ⟨v.add ((roundedEnd r w).2.smul (1 / 2)), (roundedEnd r w).1⟩ v := by
  unfold Allows excess roundedEnd Pt.add Pt.smul
  simp only
  linarith

/-- **C171 does not hold** at the near end: whenever the relative velocity is nearest to it, the lines of both entities allow the velocities
that they have, whether these lead to a collision or not. -/
theorem C171_end_not_avoided (p v o : Pt) (box box' : BBox) (angle angle' direction r r' step : ℝ) (hb : Solid box) (hb' : Solid box')
    (hp : Flat p) (hv : Flat v) (ho : Flat o) (ht : Towards p direction) (h : Reaches box angle direction r)
    (h' : Reaches box' angle' direction r') (ha : (r + r') ^ 2 ≤ apartAfter p v o 0) (hs : ¬ Beside (r + r') p v o) :
    (∃ own, orcaLine v p (v.sub o) box angle box' angle' step = some own ∧ Allows own v) ∧
      ∃ other, orcaLine o (opposite p) (o.sub v) box' angle' box angle step = some other ∧ Allows other o := by
  have hd : (r + r') * (r + r') ≤ inner p p := by
    unfold Flat at hp
    unfold apartAfter at ha
    unfold inner
    rw [hp]
    nlinarith
  have hd' : (r + r') * (r + r') ≤ inner (opposite p) (opposite p) := by
    have : inner (opposite p) (opposite p) = inner p p := by unfold inner opposite; simp only; ring
    rw [this]; exact hd
  have hs' : ¬ Beside (r + r') (opposite p) o v := by
    intro hx
    have := beside_opposite hx
    unfold opposite at this
    simp only [neg_neg] at this
    exact hs this
  unfold orcaLine
  rw [combined_eq hb hb' ht h h', change_end hp hv ho hd hs, combined_opposite hb hb' ht h h',
    change_end (flat_opposite hp) ho hv hd' hs']
  exact ⟨⟨_, rfl, end_allows _ _ _⟩, ⟨_, rfl, end_allows _ _ _⟩⟩

/-- A box of 3 m by 1 m. -/
noncomputable def cart : BBox := ⟨⟨0, 0, 0⟩, ⟨3, 1, 2⟩⟩
/-- A box of 4 m by 1 m. -/
noncomputable def wagon : BBox := ⟨⟨0, 0, 0⟩, ⟨4, 1, 2⟩⟩

theorem cart_solid : Solid cart := by unfold Solid cart; norm_num
theorem wagon_solid : Solid wagon := by unfold Solid wagon; norm_num

theorem sqrt2_sq : Real.sqrt 2 ^ 2 = 2 := Real.sq_sqrt (by norm_num)

theorem cart_reaches : Reaches cart 0 0 (3 * Real.sqrt 2 / 2) := by
  refine ⟨by positivity, ?_⟩
  unfold cart
  simp only [sub_zero, Real.cos_zero, Real.sin_zero]
  have : (3 * Real.sqrt 2 / 2 * 1) ^ 2 = 9 / 4 * Real.sqrt 2 ^ 2 := by ring
  rw [this, sqrt2_sq]; norm_num

theorem east_towards (d : ℝ) (h : 0 < d) : Towards ⟨d, 0, 0⟩ 0 := ⟨d, h, by simp, by simp⟩

/-- **C171 is violated** at the near end: 10 m apart, one stands and the other moves towards it with 1.5 m/s. The lines allow both to go on,
and after 5 s they overlap. -/
theorem C171_end_violated : ∃ (p v o : Pt) (box : BBox) (r : ℝ) (own other : Line), Solid box ∧ Reaches box 0 0 r ∧
    (r + r) ^ 2 ≤ apartAfter p v o 0 ∧ Towards p 0 ∧ orcaLine v p (v.sub o) box 0 box 0 (1 / 30) = some own ∧
    orcaLine o (opposite p) (o.sub v) box 0 box 0 (1 / 30) = some other ∧ Allows own v ∧ Allows other o ∧
    apartAfter p v o 5 < (r + r) ^ 2 := by
  have hr : (3 * Real.sqrt 2 / 2 + 3 * Real.sqrt 2 / 2) ^ 2 = 18 := by
    have : (3 * Real.sqrt 2 / 2 + 3 * Real.sqrt 2 / 2) ^ 2 = 9 * Real.sqrt 2 ^ 2 := by ring
    rw [this, sqrt2_sq]; norm_num
  have ha : (3 * Real.sqrt 2 / 2 + 3 * Real.sqrt 2 / 2) ^ 2 ≤ apartAfter ⟨10, 0, 0⟩ ⟨3 / 2, 0, 0⟩ ⟨0, 0, 0⟩ 0 := by
    rw [hr]; unfold apartAfter; norm_num
  obtain ⟨⟨own, h1, h2⟩, other, h3, h4⟩ := C171_end_not_avoided ⟨10, 0, 0⟩ ⟨3 / 2, 0, 0⟩ ⟨0, 0, 0⟩ cart cart 0 0 0
    (3 * Real.sqrt 2 / 2) (3 * Real.sqrt 2 / 2) (1 / 30) cart_solid cart_solid rfl rfl rfl (east_towards 10 (by norm_num)) cart_reaches cart_reaches ha
    (by unfold Beside; rw [hr]; norm_num)
  exact ⟨⟨10, 0, 0⟩, ⟨3 / 2, 0, 0⟩, ⟨0, 0, 0⟩, cart, _, own, other, cart_solid, cart_reaches, ha, east_towards 10 (by norm_num), h1, h3, h2, h4,
    by rw [hr]; unfold apartAfter; norm_num⟩

/-- The hypotheses of `C171_apart_partial` hold for two entities that would pass through each other much sooner than in 5 s. -/
example (own other : Line) (v' o' : Pt)
    (hown : orcaLine ⟨6, 0, 0⟩ ⟨10, 0, 0⟩ (Pt.sub ⟨6, 0, 0⟩ ⟨-6, 0, 0⟩) cart 0 cart 0 (1 / 30) = some own)
    (hother : orcaLine ⟨-6, 0, 0⟩ (opposite ⟨10, 0, 0⟩) (Pt.sub ⟨-6, 0, 0⟩ ⟨6, 0, 0⟩) cart 0 cart 0 (1 / 30) = some other)
    (h1 : Allows own v') (h2 : Allows other o') : 18 ≤ apartAfter ⟨10, 0, 0⟩ v' o' 1 := by
  have hr : (3 * Real.sqrt 2 / 2 + 3 * Real.sqrt 2 / 2) ^ 2 = 18 := by
    have : (3 * Real.sqrt 2 / 2 + 3 * Real.sqrt 2 / 2) ^ 2 = 9 * Real.sqrt 2 ^ 2 := by ring
    rw [this, sqrt2_sq]; norm_num
  rw [← hr]
  exact C171_apart_partial ⟨10, 0, 0⟩ ⟨6, 0, 0⟩ ⟨-6, 0, 0⟩ v' o' cart cart 0 0 0 _ _ (1 / 30) cart_solid cart_solid rfl rfl rfl
    (east_towards 10 (by norm_num)) cart_reaches cart_reaches (by rw [hr]; unfold apartAfter; norm_num) (.inl (by norm_num)) own other hown hother h1 h2 1
    (by norm_num)

/-- The hypotheses of `C171_parted_partial` hold for two entities that overlap. -/
example (own other : Line) (v' o' : Pt)
    (hown : orcaLine ⟨1, 0, 0⟩ ⟨2, 0, 0⟩ (Pt.sub ⟨1, 0, 0⟩ ⟨0, 0, 0⟩) cart 0 cart 0 (1 / 30) = some own)
    (hother : orcaLine ⟨0, 0, 0⟩ (opposite ⟨2, 0, 0⟩) (Pt.sub ⟨0, 0, 0⟩ ⟨1, 0, 0⟩) cart 0 cart 0 (1 / 30) = some other)
    (h1 : Allows own v') (h2 : Allows other o') : 18 ≤ apartAfter ⟨2, 0, 0⟩ v' o' (1 / 30) := by
  have hr : (3 * Real.sqrt 2 / 2 + 3 * Real.sqrt 2 / 2) ^ 2 = 18 := by
    have : (3 * Real.sqrt 2 / 2 + 3 * Real.sqrt 2 / 2) ^ 2 = 9 * Real.sqrt 2 ^ 2 := by ring
    rw [this, sqrt2_sq]; norm_num
  rw [← hr]
  exact C171_parted_partial ⟨2, 0, 0⟩ ⟨1, 0, 0⟩ ⟨0, 0, 0⟩ v' o' cart cart 0 0 0 _ _ (1 / 30) cart_solid cart_solid rfl rfl rfl (by norm_num)
    (east_towards 2 (by norm_num)) cart_reaches cart_reaches (by rw [hr]; unfold apartAfter; norm_num) own other hown hother h1 h2

/-- **C171 is violated** for boxes across each other: the ellipses reach only as far as half of the corner of the boxes would need, so two
boxes that overlap count as apart, and the lines allow both to stand so forever. -/
theorem C171_across_violated : ∃ (p q : Pt) (box : BBox) (own other : Line), Solid box ∧ InBox ⟨0, 0, 0⟩ 0 box q ∧
    InBox p (Real.pi / 2) box q ∧ orcaLine ⟨0, 0, 0⟩ p (Pt.sub ⟨0, 0, 0⟩ ⟨0, 0, 0⟩) box 0 box (Real.pi / 2) (1 / 30) = some own ∧
    orcaLine ⟨0, 0, 0⟩ (opposite p) (Pt.sub ⟨0, 0, 0⟩ ⟨0, 0, 0⟩) box (Real.pi / 2) box 0 (1 / 30) = some other ∧
    Allows own ⟨0, 0, 0⟩ ∧ Allows other ⟨0, 0, 0⟩ := by
  have h17 : Real.sqrt 17 ^ 2 = 17 := Real.sq_sqrt (by norm_num)
  have hpos : 0 < Real.sqrt 17 := Real.sqrt_pos.mpr (by norm_num)
  have c4 : Real.cos (Real.pi / 4) ^ 2 = 1 / 2 := by rw [Real.cos_pi_div_four, div_pow, sqrt2_sq]; norm_num
  have s4 : Real.sin (Real.pi / 4) ^ 2 = 1 / 2 := by rw [Real.sin_pi_div_four, div_pow, sqrt2_sq]; norm_num
  have r1 : Reaches wagon 0 (Real.pi / 4) (4 / Real.sqrt 17) := by
    refine ⟨by positivity, ?_⟩
    unfold wagon
    simp only [sub_zero]
    rw [mul_pow, mul_pow, c4, s4, div_pow, h17]; norm_num
  have r2 : Reaches wagon (Real.pi / 2) (Real.pi / 4) (4 / Real.sqrt 17) := by
    refine ⟨by positivity, ?_⟩
    unfold wagon
    simp only
    rw [show Real.pi / 4 - Real.pi / 2 = -(Real.pi / 4) by ring, Real.cos_neg, Real.sin_neg]
    rw [mul_pow, mul_pow, neg_sq, c4, s4, div_pow, h17]; norm_num
  have ht : Towards ⟨3 / 2, 3 / 2, 0⟩ (Real.pi / 4) := by
    refine ⟨3 / 2 * Real.sqrt 2, by positivity, ?_, ?_⟩
    · rw [Real.cos_pi_div_four]; linear_combination -(3 / 4) * sqrt2_sq
    · rw [Real.sin_pi_div_four]; linear_combination -(3 / 4) * sqrt2_sq
  have hr : (4 / Real.sqrt 17 + 4 / Real.sqrt 17) ^ 2 = 64 / 17 := by
    have : (4 / Real.sqrt 17 + 4 / Real.sqrt 17) ^ 2 = 64 / Real.sqrt 17 ^ 2 := by field_simp; norm_num
    rw [this, h17]
  obtain ⟨⟨own, h1, h2⟩, other, h3, h4⟩ := C171_end_not_avoided ⟨3 / 2, 3 / 2, 0⟩ ⟨0, 0, 0⟩ ⟨0, 0, 0⟩ wagon wagon 0 (Real.pi / 2) (Real.pi / 4)
    _ _ (1 / 30) wagon_solid wagon_solid rfl rfl rfl ht r1 r2 (by rw [hr]; unfold apartAfter; norm_num)
    (by unfold Beside; rw [hr]; norm_num)
  refine ⟨⟨3 / 2, 3 / 2, 0⟩, ⟨3 / 2, 1 / 4, 0⟩, wagon, own, other, wagon_solid, ?_, ?_, h1, h3, h2, h4⟩
  · refine ⟨3 / 2, 1 / 4, by unfold wagon; norm_num [abs_of_pos], by unfold wagon; norm_num [abs_of_pos], ?_, ?_⟩ <;> simp
  · refine ⟨-(5 / 4), 0, by unfold wagon; norm_num [abs_of_pos], by unfold wagon; norm_num [abs_of_pos], ?_, ?_⟩
    · simp
    · rw [Real.sin_pi_div_two]; norm_num

/-- **C171 is violated** for two entities at one place with one velocity: there is no line at all. -/
theorem C171_same_violated (v : Pt) (box box' : BBox) (angle angle' step : ℝ) (hb : Solid box) (hb' : Solid box') :
    orcaLine v ⟨0, 0, 0⟩ (v.sub v) box angle box' angle' step = none := by
  have pos : ∀ (b : BBox) (θ a : ℝ), Solid b → 0 < radius b θ a := by
    intro b θ a hs
    obtain ⟨h1, h2⟩ := hs
    unfold radius
    simp only
    have hq : 0 < Real.sqrt 2 := Real.sqrt_pos.mpr (by norm_num)
    apply div_pos (by positivity)
    apply Real.sqrt_pos.mpr
    by_cases hc : Real.cos (θ - a) = 0
    · have hs : Real.sin (θ - a) ≠ 0 := by
        intro hs; have := Real.sin_sq_add_cos_sq (θ - a); rw [hc, hs] at this; norm_num at this
      rw [hc]
      have := mul_self_pos.mpr (mul_ne_zero (by positivity : b.dims.x * (1 / 2) * Real.sqrt 2 ≠ 0) hs)
      linarith [mul_self_nonneg (b.dims.y * (1 / 2) * Real.sqrt 2 * 0)]
    · have := mul_self_pos.mpr (mul_ne_zero (by positivity : b.dims.y * (1 / 2) * Real.sqrt 2 ≠ 0) hc)
      linarith [mul_self_nonneg (b.dims.x * (1 / 2) * Real.sqrt 2 * Real.sin (θ - a))]
  have hr : 0 < combinedRadius ⟨0, 0, 0⟩ box angle box' angle' := by
    unfold combinedRadius; exact add_pos (pos _ _ _ hb) (pos _ _ _ hb')
  unfold orcaLine change
  rw [if_neg]
  · unfold overlap
    simp only
    rw [if_pos]
    · rfl
    · unfold inner Pt.sub Pt.smul; simp
  · have := mul_pos hr hr
    unfold inner; simp only; linarith

end Verif.Orca
