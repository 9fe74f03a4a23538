import Verif.Geometry.Box
import Verif.Geometry.SegmentTheorems
/-
Properties of closest points.
-/
namespace Verif.Geometry
open Classical

theorem project_onSegment (p a b : Pt) : OnSegment a b (project p a b) := by
  unfold project
  simp only
  split
  · exact onSegment_start a b
  · rename_i h
    split
    · exact onSegment_stop a b
    · rename_i h2
      rw [not_le] at h h2
      have hp := lt_trans h h2
      refine ⟨_, div_nonneg h.le hp.le, (div_le_one hp).mpr h2.le, by simp only; ring, by simp only; ring⟩

/-- **C81** The projection of a point onto a segment is a point of the segment, and no point of the segment is closer. -/
theorem project_closest (p a b q : Pt) (hq : OnSegment a b q) : sq2 p (project p a b) ≤ sq2 p q := by
  obtain ⟨t, t0, t1, hx, hy⟩ := hq
  unfold project sq2
  simp only
  rw [hx, hy]
  set vx := b.x - a.x
  set vy := b.y - a.y
  have hb : b.x = a.x + vx ∧ b.y = a.y + vy := ⟨by simp [vx], by simp [vy]⟩
  set wx := p.x - a.x with hwx
  set wy := p.y - a.y with hwy
  have hpx : p.x = a.x + wx := by rw [hwx]; ring
  have hpy : p.y = a.y + wy := by rw [hwy]; ring
  have c2 : 0 ≤ vx * vx + vy * vy := add_nonneg (mul_self_nonneg _) (mul_self_nonneg _)
  split
  · rename_i h
    rw [hpx, hpy]
    have k1 : 0 ≤ t * -(wx * vx + wy * vy) := mul_nonneg t0 (by linarith)
    have k2 : 0 ≤ t ^ 2 * (vx * vx + vy * vy) := by positivity
    nlinarith
  · rename_i h
    rw [not_le] at h
    split
    · rename_i h2
      rw [hpx, hpy, hb.1, hb.2]
      have k1 : 0 ≤ (1 - t) * ((wx * vx + wy * vy) - (vx * vx + vy * vy)) := mul_nonneg (by linarith) (by linarith)
      have k2 : 0 ≤ (1 - t) ^ 2 * (vx * vx + vy * vy) := by positivity
      nlinarith
    · rename_i h2
      rw [not_le] at h2
      have hp : 0 < vx * vx + vy * vy := lt_trans h h2
      rw [hpx, hpy]
      set k := (wx * vx + wy * vy) / (vx * vx + vy * vy) with hk
      have e : k * (vx * vx + vy * vy) = wx * vx + wy * vy := by rw [hk]; exact div_mul_cancel₀ _ hp.ne'
      have k2 : 0 ≤ (t - k) ^ 2 * (vx * vx + vy * vy) := by positivity
      have : (a.x + wx - (a.x + t * vx)) ^ 2 + (a.y + wy - (a.y + t * vy)) ^ 2
          - ((a.x + wx - (a.x + vx * k)) ^ 2 + (a.y + wy - (a.y + vy * k)) ^ 2) = (t - k) ^ 2 * (vx * vx + vy * vy) := by
        linear_combination (2 * t - 2 * k) * e
      linarith

example : OnSegment ⟨0, 0, 0⟩ ⟨4, 0, 0⟩ ⟨3, 0, 0⟩ := ⟨3 / 4, by norm_num⟩

theorem distance2_le {p q r s : Pt} : distance2 p q ≤ distance2 r s ↔ sq2 p q ≤ sq2 r s := by
  unfold distance2 sq2
  rw [Real.sqrt_le_sqrt_iff (by positivity)]

theorem distance2_lt {p q r s : Pt} : distance2 p q < distance2 r s ↔ sq2 p q < sq2 r s := by
  rw [← not_le, ← not_le, distance2_le]

theorem sq2_comm (p q : Pt) : sq2 p q = sq2 q p := by unfold sq2; ring

/-- The fold that keeps the closest candidate. -/
theorem fold_better (l : List (Pt × Pt)) (b : Best) :
    (∀ m, l.foldl (fun b c => better b c.1 c.2) b = some m → (m ∈ l ∨ b = some m) ∧ (∀ c ∈ l, sq2 m.1 m.2 ≤ sq2 c.1 c.2) ∧
      ∀ c, b = some c → sq2 m.1 m.2 ≤ sq2 c.1 c.2) ∧
    (l.foldl (fun b c => better b c.1 c.2) b = none → l = [] ∧ b = none) := by
  induction l generalizing b with
  | nil =>
    refine ⟨fun m h => ⟨Or.inr h, by simp, fun c hc => ?_⟩, fun h => ⟨rfl, h⟩⟩
    simp only [List.foldl_nil] at h
    rw [h] at hc; cases hc; exact le_refl _
  | cons x l ih =>
    simp only [List.foldl_cons]
    obtain ⟨i1, i2⟩ := ih (better b x.1 x.2)
    have hb : ∃ y, better b x.1 x.2 = some y ∧ (y = x ∨ b = some y) ∧ sq2 y.1 y.2 ≤ sq2 x.1 x.2 ∧
        ∀ c, b = some c → sq2 y.1 y.2 ≤ sq2 c.1 c.2 := by
      unfold better
      cases b with
      | none => exact ⟨x, rfl, Or.inl rfl, le_refl _, by simp⟩
      | some c =>
        simp only
        by_cases h : distance2 x.1 x.2 < distance2 c.1 c.2
        · rw [if_pos h]
          exact ⟨x, rfl, Or.inl rfl, le_refl _, by intro d hd; cases hd; exact (distance2_lt.mp h).le⟩
        · rw [if_neg h]
          exact ⟨c, rfl, Or.inr rfl, by rw [distance2_lt] at h; exact not_lt.mp h, by intro d hd; cases hd; exact le_refl _⟩
    obtain ⟨y, hy, hor, hx, hc⟩ := hb
    constructor
    · intro m hm
      obtain ⟨j1, j2, j3⟩ := i1 m hm
      refine ⟨?_, ?_, ?_⟩
      · rcases j1 with j1 | j1
        · exact Or.inl (List.mem_cons_of_mem _ j1)
        · rw [hy] at j1; cases j1
          rcases hor with h | h
          · left; rw [h]; exact List.mem_cons_self
          · exact Or.inr h
      · intro c hcm
        rcases List.mem_cons.mp hcm with h | h
        · rw [h]; exact le_trans (j3 y hy) hx
        · exact j2 c h
      · intro c hb; exact le_trans (j3 y hy) (hc c hb)
    · intro hn
      have := (i2 hn).2
      rw [hy] at this; cases this

/-- All pairs looked at by `nearestInPolygon`. -/
noncomputable def candidates (poly0 poly1 : List Pt) : List (Pt × Pt) :=
  (sides poly0).flatMap fun s => poly1.map fun p => (p, project p s.1 s.2)

theorem nearestInPolygon_eq (poly0 poly1 : List Pt) (b : Best) :
    nearestInPolygon poly0 poly1 b = (candidates poly0 poly1).foldl (fun b c => better b c.1 c.2) b := by
  unfold nearestInPolygon candidates nearestToSegment
  rw [List.foldl_flatMap]
  simp only [List.foldl_map]

theorem closest_eq (poly0 poly1 : List Pt) :
    closest poly0 poly1 = (candidates poly0 poly1 ++ candidates poly1 poly0).foldl (fun b c => better b c.1 c.2) none := by
  unfold closest
  rw [nearestInPolygon_eq, nearestInPolygon_eq, List.foldl_append]

theorem mem_sides {ring : List Pt} {s : Pt × Pt} : s ∈ sides ring ↔ ∃ i : Nat, ring[i]? = some s.1 ∧ ring[i + 1]? = some s.2 := by
  unfold sides
  rw [List.mem_iff_getElem?]
  constructor
  · rintro ⟨i, h⟩
    rw [List.getElem?_zip_eq_some] at h
    exact ⟨i, h.1, by rw [← List.getElem?_tail]; exact h.2⟩
  · rintro ⟨i, h1, h2⟩
    exact ⟨i, by rw [List.getElem?_zip_eq_some]; exact ⟨h1, by rw [List.getElem?_tail]; exact h2⟩⟩

theorem mem_candidates {poly0 poly1 : List Pt} {c : Pt × Pt} :
    c ∈ candidates poly0 poly1 ↔ ∃ s ∈ sides poly0, c.1 ∈ poly1 ∧ c.2 = project c.1 s.1 s.2 := by
  unfold candidates
  simp only [List.mem_flatMap, List.mem_map]
  constructor
  · rintro ⟨s, hs, p, hp, rfl⟩; exact ⟨s, hs, hp, rfl⟩
  · rintro ⟨s, hs, hp, he⟩; exact ⟨s, hs, c.1, hp, by rw [← he]⟩

/-- Way out of the unit interval: how far one can go in direction `d`. -/
theorem exit_one {s : ℝ} (d : ℝ) (s0 : 0 ≤ s) (s1 : s ≤ 1) :
    ∃ k : ℝ, 0 ≤ k ∧ k ≤ 1 ∧ (∀ m, 0 ≤ m → m ≤ k → 0 ≤ s + m * d ∧ s + m * d ≤ 1) ∧
      ((0 ≤ s + d ∧ s + d ≤ 1 ∧ k = 1) ∨ s + k * d = 0 ∨ s + k * d = 1) := by
  by_cases h1 : 1 < s + d
  · have hd : 0 < d := by linarith
    refine ⟨(1 - s) / d, div_nonneg (by linarith) hd.le, (div_le_one hd).mpr (by linarith), ?_, Or.inr (Or.inr (by field_simp; ring))⟩
    intro m m0 m1
    have : m * d ≤ 1 - s := by rw [le_div_iff₀ hd] at m1; exact m1
    exact ⟨by nlinarith, by linarith⟩
  · by_cases h0 : s + d < 0
    · have hd : 0 < -d := by linarith
      refine ⟨s / -d, div_nonneg s0 hd.le, (div_le_one hd).mpr (by linarith), ?_, Or.inr (Or.inl ?_)⟩
      · intro m m0 m1
        have : m * -d ≤ s := by rw [le_div_iff₀ hd] at m1; exact m1
        exact ⟨by linarith, by nlinarith⟩
      · have hd' : d ≠ 0 := by linarith
        field_simp; ring
    · rw [not_lt] at h0 h1
      refine ⟨1, zero_le_one, le_refl _, ?_, Or.inl ⟨h0, h1, rfl⟩⟩
      intro m m0 m1
      have e : s + m * d = (1 - m) * s + m * (s + d) := by ring
      rw [e]
      constructor
      · have := mul_nonneg (sub_nonneg.mpr m1) s0; have := mul_nonneg m0 h0; linarith
      · have := mul_le_mul_of_nonneg_left s1 (sub_nonneg.mpr m1); have := mul_le_mul_of_nonneg_left h1 m0; linarith

/-- Way out of the unit square. -/
theorem exit_square {s t : ℝ} (d e : ℝ) (s0 : 0 ≤ s) (s1 : s ≤ 1) (t0 : 0 ≤ t) (t1 : t ≤ 1)
    (hout : ¬ (0 ≤ s + d ∧ s + d ≤ 1 ∧ 0 ≤ t + e ∧ t + e ≤ 1)) :
    ∃ k : ℝ, 0 ≤ k ∧ k ≤ 1 ∧ 0 ≤ s + k * d ∧ s + k * d ≤ 1 ∧ 0 ≤ t + k * e ∧ t + k * e ≤ 1 ∧
      (s + k * d = 0 ∨ s + k * d = 1 ∨ t + k * e = 0 ∨ t + k * e = 1) := by
  obtain ⟨k1, a0, a1, ha, hb⟩ := exit_one d s0 s1
  obtain ⟨k2, c0, c1, hc, he⟩ := exit_one e t0 t1
  rcases le_total k1 k2 with h | h
  · refine ⟨k1, a0, a1, (ha k1 a0 (le_refl _)).1, (ha k1 a0 (le_refl _)).2, (hc k1 a0 h).1, (hc k1 a0 h).2, ?_⟩
    rcases hb with ⟨b0, b1, bk⟩ | hb | hb
    · have hk2 : k2 = 1 := by linarith
      have := hc 1 zero_le_one (by linarith)
      exfalso; apply hout; refine ⟨b0, b1, ?_, ?_⟩ <;> linarith [this.1, this.2]
    · exact Or.inl hb
    · exact Or.inr (Or.inl hb)
  · refine ⟨k2, c0, c1, (ha k2 c0 h).1, (ha k2 c0 h).2, (hc k2 c0 (le_refl _)).1, (hc k2 c0 (le_refl _)).2, ?_⟩
    rcases he with ⟨b0, b1, bk⟩ | he | he
    · have hk1 : k1 = 1 := by linarith
      have := ha 1 zero_le_one (by linarith)
      exfalso; apply hout; refine ⟨?_, ?_, b0, b1⟩ <;> linarith [this.1, this.2]
    · exact Or.inr (Or.inr (Or.inl he))
    · exact Or.inr (Or.inr (Or.inr he))

/-- Two segments without common point: some end of one of them is at least as close to the other as any two of their points. -/
theorem ends_closest {a b c d p q : Pt} (hp : OnSegment a b p) (hq : OnSegment c d q) (hn : ∀ r, ¬ (OnSegment a b r ∧ OnSegment c d r)) :
    (∃ e, (e = a ∨ e = b) ∧ ∃ r, OnSegment c d r ∧ sq2 e r ≤ sq2 p q) ∨
    (∃ e, (e = c ∨ e = d) ∧ ∃ r, OnSegment a b r ∧ sq2 e r ≤ sq2 p q) := by
  obtain ⟨s, s0, s1, px, py⟩ := hp
  obtain ⟨t, t0, t1, qx, qy⟩ := hq
  -- a direction that leaves the square without increasing the distance
  have key : ∃ ds dt κ : ℝ, 0 ≤ κ ∧ κ ≤ 1 ∧ ¬ (0 ≤ s + ds ∧ s + ds ≤ 1 ∧ 0 ≤ t + dt ∧ t + dt ≤ 1) ∧
      ds * (b.x - a.x) - dt * (d.x - c.x) = -κ * (p.x - q.x) ∧ ds * (b.y - a.y) - dt * (d.y - c.y) = -κ * (p.y - q.y) := by
    set D := (b.x - a.x) * (d.y - c.y) - (b.y - a.y) * (d.x - c.x) with hD
    by_cases h0 : D = 0
    · by_cases hu : b.x - a.x = 0 ∧ b.y - a.y = 0
      · exact ⟨2, 0, 0, le_refl _, zero_le_one, by intro h; linarith [h.2.1], by rw [hu.1]; ring, by rw [hu.2]; ring⟩
      · by_cases hx : b.x - a.x = 0
        · have hy : b.y - a.y ≠ 0 := fun h => hu ⟨hx, h⟩
          refine ⟨2 * ((d.y - c.y) / (b.y - a.y)), 2, 0, le_refl _, zero_le_one, by intro h; linarith [h.2.2.2], ?_, ?_⟩
          · have : (b.y - a.y) * (d.x - c.x) = 0 := by rw [h0, hx] at hD; linarith
            rw [hx]
            rcases mul_eq_zero.mp this with h | h
            · exact absurd h hy
            · rw [h]; ring
          · field_simp; ring
        · refine ⟨2 * ((d.x - c.x) / (b.x - a.x)), 2, 0, le_refl _, zero_le_one, by intro h; linarith [h.2.2.2], ?_, ?_⟩
          · field_simp; ring
          · rw [h0] at hD; field_simp; linarith
    · refine ⟨(-(p.x - q.x) * (d.y - c.y) + (p.y - q.y) * (d.x - c.x)) / D,
        (-(p.x - q.x) * (b.y - a.y) + (p.y - q.y) * (b.x - a.x)) / D, 1, zero_le_one, le_refl _, ?_, ?_, ?_⟩
      · rintro ⟨h1, h2, h3, h4⟩
        refine hn ⟨_, _, 0⟩ ⟨⟨_, h1, h2, rfl, rfl⟩, ⟨_, h3, h4, ?_, ?_⟩⟩
        · simp only
          have e : ((-(p.x - q.x) * (d.y - c.y) + (p.y - q.y) * (d.x - c.x)) / D) * (b.x - a.x)
            - ((-(p.x - q.x) * (b.y - a.y) + (p.y - q.y) * (b.x - a.x)) / D) * (d.x - c.x) = -(p.x - q.x) := by
              field_simp; rw [hD]; ring
          linear_combination e + qx - px
        · simp only
          have e : ((-(p.x - q.x) * (d.y - c.y) + (p.y - q.y) * (d.x - c.x)) / D) * (b.y - a.y)
            - ((-(p.x - q.x) * (b.y - a.y) + (p.y - q.y) * (b.x - a.x)) / D) * (d.y - c.y) = -(p.y - q.y) := by
              field_simp; rw [hD]; ring
          linear_combination e + qy - py
      · field_simp; rw [hD]; ring
      · field_simp; rw [hD]; ring
  obtain ⟨ds, dt, κ, κ0, κ1, hout, ex, ey⟩ := key
  obtain ⟨k, k0, k1, h1, h2, h3, h4, hend⟩ := exit_square ds dt s0 s1 t0 t1 hout
  have hs2 : sq2 ⟨a.x + (s + k * ds) * (b.x - a.x), a.y + (s + k * ds) * (b.y - a.y), 0⟩
      ⟨c.x + (t + k * dt) * (d.x - c.x), c.y + (t + k * dt) * (d.y - c.y), 0⟩ ≤ sq2 p q := by
    unfold sq2
    simp only
    have fx : a.x + (s + k * ds) * (b.x - a.x) - (c.x + (t + k * dt) * (d.x - c.x)) = (1 - k * κ) * (p.x - q.x) := by
      linear_combination k * ex - px + qx
    have fy : a.y + (s + k * ds) * (b.y - a.y) - (c.y + (t + k * dt) * (d.y - c.y)) = (1 - k * κ) * (p.y - q.y) := by
      linear_combination k * ey - py + qy
    rw [fx, fy]
    have kk0 : 0 ≤ k * κ := mul_nonneg k0 κ0
    have kk1 : k * κ ≤ 1 := by nlinarith
    have hle : (1 - k * κ) ^ 2 ≤ 1 := by nlinarith
    have := mul_le_mul_of_nonneg_right hle (by positivity : 0 ≤ (p.x - q.x) ^ 2 + (p.y - q.y) ^ 2)
    nlinarith
  have sqx (e r : Pt) (z : ℝ) (f : Pt) (hx : e.x = f.x) (hy : e.y = f.y) : sq2 e r = sq2 ⟨f.x, f.y, z⟩ r := by
    unfold sq2; simp only; rw [hx, hy]
  rcases hend with h | h | h | h
  · left
    refine ⟨a, Or.inl rfl, ⟨_, _, 0⟩, ⟨t + k * dt, h3, h4, rfl, rfl⟩, ?_⟩
    rw [h] at hs2; simpa [sq2] using hs2
  · left
    refine ⟨b, Or.inr rfl, ⟨_, _, 0⟩, ⟨t + k * dt, h3, h4, rfl, rfl⟩, ?_⟩
    rw [h] at hs2; simpa [sq2] using hs2
  · right
    refine ⟨c, Or.inl rfl, ⟨_, _, 0⟩, ⟨s + k * ds, h1, h2, rfl, rfl⟩, ?_⟩
    rw [sq2_comm, h] at hs2; simpa [sq2] using hs2
  · right
    refine ⟨d, Or.inr rfl, ⟨_, _, 0⟩, ⟨s + k * ds, h1, h2, rfl, rfl⟩, ?_⟩
    rw [sq2_comm, h] at hs2; simpa [sq2] using hs2

theorem onOutline_mem {ring : List Pt} (hl : 2 ≤ ring.length) {p : Pt} (hp : p ∈ ring) : OnOutline ring p := by
  obtain ⟨i, hi, he⟩ := List.mem_iff_getElem.mp hp
  by_cases h : i + 1 < ring.length
  · exact ⟨i, p, ring[i + 1], by rw [← he]; simp [hi], by simp [h], onSegment_start _ _⟩
  · have h1 : i - 1 + 1 = i := by omega
    refine ⟨i - 1, ring[i - 1], p, by simp, ?_, onSegment_stop _ _⟩
    rw [h1, ← he]; simp [hi]

/-- **C82** For outlines without common point the two poses returned are a corner of one and a point of the other outline, and no two
points of the two outlines are closer to each other. Which outline the first pose belongs to is left open: see
`boxRelative_direction_violated`. -/
theorem closest_minimal (ring0 ring1 : List Pt) (h0 : 2 ≤ ring0.length) (h1 : 2 ≤ ring1.length) (ha : Apart ring0 ring1) :
    ∃ p q, closest ring0 ring1 = some (p, q) ∧
      ((p ∈ ring1 ∧ OnOutline ring1 p ∧ OnOutline ring0 q) ∨ (p ∈ ring0 ∧ OnOutline ring0 p ∧ OnOutline ring1 q)) ∧
      ∀ x y, OnOutline ring0 x → OnOutline ring1 y → sq2 p q ≤ sq2 x y := by
  have hc := closest_eq ring0 ring1
  obtain ⟨f1, f2⟩ := fold_better (candidates ring0 ring1 ++ candidates ring1 ring0) none
  cases hm : closest ring0 ring1 with
  | none =>
    exfalso
    rw [hc] at hm
    have hnil := (f2 hm).1
    match ring0, ring1, h0, h1 with
    | a :: b :: l, c :: d :: k, _, _ =>
      have : (c, project c a b) ∈ candidates (a :: b :: l) (c :: d :: k) ++ candidates (c :: d :: k) (a :: b :: l) := by
        rw [List.mem_append]; left
        rw [mem_candidates]
        exact ⟨(a, b), mem_sides.mpr ⟨0, rfl, rfl⟩, by simp, rfl⟩
      rw [hnil] at this; simp at this
  | some m =>
    obtain ⟨p, q⟩ := m
    refine ⟨p, q, rfl, ?_, ?_⟩
    · rw [hc] at hm
      rcases (f1 _ hm).1 with h | h
      · rcases List.mem_append.mp h with h | h
        · obtain ⟨s, hs, h2, h3⟩ := mem_candidates.mp h
          left
          refine ⟨h2, onOutline_mem h1 h2, ?_⟩
          obtain ⟨i, i1, i2⟩ := mem_sides.mp hs
          simp only at h3
          exact ⟨i, s.1, s.2, i1, i2, by rw [h3]; exact project_onSegment _ _ _⟩
        · obtain ⟨s, hs, h2, h3⟩ := mem_candidates.mp h
          right
          refine ⟨h2, onOutline_mem h0 h2, ?_⟩
          obtain ⟨i, i1, i2⟩ := mem_sides.mp hs
          simp only at h3
          exact ⟨i, s.1, s.2, i1, i2, by rw [h3]; exact project_onSegment _ _ _⟩
      · cases h
    · rw [hc] at hm
      have hmin := (f1 _ hm).2.1
      rintro x y ⟨i, a, b, ia, ib, hx⟩ ⟨j, c, d, jc, jd, hy⟩
      have hno : ∀ r, ¬ (OnSegment a b r ∧ OnSegment c d r) := fun r hr =>
        ha r ⟨⟨i, a, b, ia, ib, hr.1⟩, ⟨j, c, d, jc, jd, hr.2⟩⟩
      rcases ends_closest hx hy hno with ⟨e, he, r, hr, hle⟩ | ⟨e, he, r, hr, hle⟩
      · have hmem : (e, project e c d) ∈ candidates ring1 ring0 := by
          rw [mem_candidates]
          refine ⟨(c, d), mem_sides.mpr ⟨j, jc, jd⟩, ?_, rfl⟩
          rcases he with rfl | rfl
          · exact List.mem_of_getElem? ia
          · exact List.mem_of_getElem? ib
        exact le_trans (hmin _ (List.mem_append_right _ hmem)) (le_trans (project_closest e c d r hr) hle)
      · have hmem : (e, project e a b) ∈ candidates ring0 ring1 := by
          rw [mem_candidates]
          refine ⟨(a, b), mem_sides.mpr ⟨i, ia, ib⟩, ?_, rfl⟩
          rcases he with rfl | rfl
          · exact List.mem_of_getElem? jc
          · exact List.mem_of_getElem? jd
        exact le_trans (hmin _ (List.mem_append_left _ hmem)) (le_trans (project_closest e a b r hr) hle)

theorem mem_rotate_sides {ring : List Pt} {s : Pt × Pt} :
    s ∈ ring.zip (ring.rotate 1) ↔ ∃ i : Nat, i < ring.length ∧ ring[i]? = some s.1 ∧ ring[(i + 1) % ring.length]? = some s.2 := by
  rw [List.mem_iff_getElem?]
  constructor
  · rintro ⟨i, h⟩
    rw [List.getElem?_zip_eq_some] at h
    obtain ⟨hi, _⟩ := List.getElem?_eq_some_iff.mp h.1
    refine ⟨i, hi, h.1, ?_⟩
    rw [← List.getElem?_rotate hi]; exact h.2
  · rintro ⟨i, hi, h1, h2⟩
    refine ⟨i, ?_⟩
    rw [List.getElem?_zip_eq_some]
    exact ⟨h1, by rw [List.getElem?_rotate hi]; exact h2⟩

/-- The fold of `closestOnPolygon`. -/
theorem fold_closest (q : Pt) (l : List (Pt × Pt)) (b : Option Pt) :
    let f := fun (b : Option Pt) (s : Pt × Pt) =>
      match b with
      | none => some (project q s.1 s.2)
      | some c => if distance2 q (project q s.1 s.2) < distance2 q c then some (project q s.1 s.2) else some c
    (∀ m, l.foldl f b = some m → ((∃ s ∈ l, m = project q s.1 s.2) ∨ b = some m) ∧
      (∀ s ∈ l, sq2 q m ≤ sq2 q (project q s.1 s.2)) ∧ ∀ c, b = some c → sq2 q m ≤ sq2 q c) ∧
    (l.foldl f b = none → l = [] ∧ b = none) := by
  intro f
  induction l generalizing b with
  | nil =>
    refine ⟨fun m h => ⟨Or.inr h, by simp, fun c hc => ?_⟩, fun h => ⟨rfl, h⟩⟩
    simp only [List.foldl_nil] at h
    rw [h] at hc; cases hc; exact le_refl _
  | cons x l ih =>
    simp only [List.foldl_cons]
    obtain ⟨i1, i2⟩ := ih (f b x)
    have hb : ∃ y, f b x = some y ∧ (y = project q x.1 x.2 ∨ b = some y) ∧ sq2 q y ≤ sq2 q (project q x.1 x.2) ∧
        ∀ c, b = some c → sq2 q y ≤ sq2 q c := by
      simp only [f]
      cases b with
      | none => exact ⟨_, rfl, Or.inl rfl, le_refl _, by simp⟩
      | some c =>
        simp only
        by_cases h : distance2 q (project q x.1 x.2) < distance2 q c
        · rw [if_pos h]
          exact ⟨_, rfl, Or.inl rfl, le_refl _, by intro d hd; cases hd; exact (distance2_lt.mp h).le⟩
        · rw [if_neg h]
          exact ⟨c, rfl, Or.inr rfl, by rw [distance2_lt] at h; exact not_lt.mp h, by intro d hd; cases hd; exact le_refl _⟩
    obtain ⟨y, hy, hor, hx, hc⟩ := hb
    constructor
    · intro m hm
      obtain ⟨j1, j2, j3⟩ := i1 m hm
      refine ⟨?_, ?_, ?_⟩
      · rcases j1 with ⟨s, hs, he⟩ | j1
        · exact Or.inl ⟨s, List.mem_cons_of_mem _ hs, he⟩
        · rw [hy] at j1; cases j1
          rcases hor with h | h
          · exact Or.inl ⟨x, List.mem_cons_self, h⟩
          · exact Or.inr h
      · intro c hcm
        rcases List.mem_cons.mp hcm with h | h
        · rw [h]; exact le_trans (j3 y hy) hx
        · exact j2 c h
      · intro c hb; exact le_trans (j3 y hy) (hc c hb)
    · intro hn
      have := (i2 hn).2
      rw [hy] at this; cases this

/-- **C81** The closest point on a polygon is a point of its outline, the side from the last vertex to the first included, and no point
of the outline is closer. -/
theorem closestOnPolygon_closest (q : Pt) (ring : List Pt) (h : ring ≠ []) :
    ∃ c, closestOnPolygon q ring = some c ∧
      (∃ (i : Nat) (a b : Pt), ring[i]? = some a ∧ ring[(i + 1) % ring.length]? = some b ∧ OnSegment a b c) ∧
      ∀ (i : Nat) (a b : Pt), ring[i]? = some a → ring[(i + 1) % ring.length]? = some b → ∀ r, OnSegment a b r → sq2 q c ≤ sq2 q r := by
  obtain ⟨f1, f2⟩ := fold_closest q (ring.zip (ring.rotate 1)) none
  cases hm : closestOnPolygon q ring with
  | none =>
    exfalso
    have := (f2 hm).1
    cases ring with
    | nil => exact h rfl
    | cons a l =>
      have h1 := congrArg List.length this
      rw [List.length_zip, List.length_rotate] at h1
      simp at h1
  | some c =>
    obtain ⟨g1, g2, _⟩ := f1 c hm
    refine ⟨c, rfl, ?_, ?_⟩
    · rcases g1 with ⟨s, hs, he⟩ | g1
      · obtain ⟨i, hi, h1, h2⟩ := mem_rotate_sides.mp hs
        exact ⟨i, s.1, s.2, h1, h2, by rw [he]; exact project_onSegment _ _ _⟩
      · cases g1
    · intro i a b ha hb r hr
      obtain ⟨hi, _⟩ := List.getElem?_eq_some_iff.mp ha
      exact le_trans (g2 (a, b) (mem_rotate_sides.mpr ⟨i, hi, ha, hb⟩)) (project_closest q a b r hr)

example : ([⟨0, 0, 0⟩, ⟨1, 0, 0⟩, ⟨1, 1, 0⟩] : List Pt) ≠ [] := by simp

theorem outline_length (pose : Pose) (b : BBox) : (outline pose b).length = 5 := by
  simp [outline, toRing, corners]

theorem onOutline_bound {ring : List Pt} (f : Pt → ℝ) (hf : ∀ a b p t, p.x = a.x + t * (b.x - a.x) → p.y = a.y + t * (b.y - a.y) →
    f p = f a + t * (f b - f a)) {M : ℝ} (h : ∀ p ∈ ring, f p ≤ M) {p : Pt} (hp : OnOutline ring p) : f p ≤ M := by
  obtain ⟨i, a, b, ha, hb, t, t0, t1, hx, hy⟩ := hp
  rw [hf a b p t hx hy]
  have h1 := mul_le_mul_of_nonneg_left (h a (List.mem_of_getElem? ha)) (sub_nonneg.mpr t1)
  have h2 := mul_le_mul_of_nonneg_left (h b (List.mem_of_getElem? hb)) t0
  linarith

/-- **C82** The relative pose of two bounding boxes without common point is as long as the boxes are apart: there are points of the two
outlines at this distance and none closer. The reference entity stands upright (its orientation is a turn about the vertical axis).
Missing: the direction (`boxRelative_direction_violated`). -/
theorem boxRelative_distance_partial (a : Pose) (abox : BBox) (b : Pose) (bbox : BBox)
    (hyaw : a.orientation.x = 0 ∧ a.orientation.y = 0 ∧ a.orientation.z ^ 2 + a.orientation.w ^ 2 = 1)
    (ha : Apart (outline a abox) (outline b bbox)) :
    ∃ v, boxRelative a abox b bbox = some v ∧
      (∃ x y, OnOutline (outline a abox) x ∧ OnOutline (outline b bbox) y ∧ v.x ^ 2 + v.y ^ 2 = sq2 x y) ∧
      ∀ x y, OnOutline (outline a abox) x → OnOutline (outline b bbox) y → v.x ^ 2 + v.y ^ 2 ≤ sq2 x y := by
  obtain ⟨p, q, hc, hor, hmin⟩ := closest_minimal (outline a abox) (outline b bbox)
    (by rw [outline_length]; norm_num) (by rw [outline_length]; norm_num) ha
  unfold boxRelative
  rw [hc]
  refine ⟨_, rfl, ?_⟩
  obtain ⟨hx, hy, hzw⟩ := hyaw
  have hlen : ((getRelativePose a ⟨p, ⟨0, 0, 0, 1⟩⟩).position.x - (getRelativePose a ⟨q, ⟨0, 0, 0, 1⟩⟩).position.x) ^ 2 +
      ((getRelativePose a ⟨p, ⟨0, 0, 0, 1⟩⟩).position.y - (getRelativePose a ⟨q, ⟨0, 0, 0, 1⟩⟩).position.y) ^ 2 = sq2 p q := by
    unfold getRelativePose rotate Quat.conj Pt.sub sq2
    simp only [hx, hy]
    have hz2 : a.orientation.z ^ 2 = 1 - a.orientation.w ^ 2 := by linarith
    have : ∀ z w X Y : ℝ, z ^ 2 + w ^ 2 = 1 → ((w * w - z * z) * X + 2 * (z * w) * Y) ^ 2 + (-(2 * (z * w)) * X + (w * w - z * z) * Y) ^ 2
        = X ^ 2 + Y ^ 2 := by
      intro z w X Y h
      have : ((w * w - z * z) * X + 2 * (z * w) * Y) ^ 2 + (-(2 * (z * w)) * X + (w * w - z * z) * Y) ^ 2
        = (z ^ 2 + w ^ 2) ^ 2 * (X ^ 2 + Y ^ 2) := by ring
      rw [this, h]; ring
    rw [← this _ _ (p.x - q.x) (p.y - q.y) hzw]
    ring
  simp only
  rw [hlen]
  constructor
  · rcases hor with ⟨_, h1, h2⟩ | ⟨_, h1, h2⟩
    · exact ⟨q, p, h2, h1, sq2_comm p q⟩
    · exact ⟨p, q, h1, h2, rfl⟩
  · exact hmin

/-- Outline of an unrotated box. -/
theorem outline_straight (x y : ℝ) (l w : ℝ) :
    outline ⟨⟨x, y, 0⟩, ⟨0, 0, 0, 1⟩⟩ ⟨⟨0, 0, 0⟩, ⟨l, w, 2⟩⟩ =
      [⟨l / 2 + x, w / 2 + y, 0⟩, ⟨-l / 2 + x, w / 2 + y, 0⟩, ⟨-l / 2 + x, -w / 2 + y, 0⟩, ⟨l / 2 + x, -w / 2 + y, 0⟩,
       ⟨l / 2 + x, w / 2 + y, 0⟩] := by
  unfold outline toRing corners transformPoint rotate Pt.add flat
  norm_num
  refine ⟨?_, ?_, ?_, ?_, ?_⟩ <;> (try constructor) <;> ring

/-- A box 10 m ahead of the reference entity and half a metre wider on either side: the two boxes meet the hypotheses of
`boxRelative_distance_partial`, every point of the other box is ahead of every point of the reference box, and the relative pose says
that the other box is behind. The reason is that the pair of closest points is ordered by which of them is a corner, not by the box
they belong to. -/
theorem boxRelative_direction_violated :
    ∃ (a : Pose) (abox : BBox) (b : Pose) (bbox : BBox) (v : Pt),
      a.orientation = ⟨0, 0, 0, 1⟩ ∧ Apart (outline a abox) (outline b bbox) ∧
      (∀ x y, OnOutline (outline a abox) x → OnOutline (outline b bbox) y → x.x < y.x) ∧
      boxRelative a abox b bbox = some v ∧ v.x < 0 := by
  set A := outline ⟨⟨0, 0, 0⟩, ⟨0, 0, 0, 1⟩⟩ ⟨⟨0, 0, 0⟩, ⟨4, 2, 2⟩⟩ with hA
  set B := outline ⟨⟨10, 0, 0⟩, ⟨0, 0, 0, 1⟩⟩ ⟨⟨0, 0, 0⟩, ⟨4, 3, 2⟩⟩ with hB
  have eA : A = [⟨2, 1, 0⟩, ⟨-2, 1, 0⟩, ⟨-2, -1, 0⟩, ⟨2, -1, 0⟩, ⟨2, 1, 0⟩] := by rw [hA, outline_straight]; norm_num
  have eB : B = [⟨12, 3 / 2, 0⟩, ⟨8, 3 / 2, 0⟩, ⟨8, -3 / 2, 0⟩, ⟨12, -3 / 2, 0⟩, ⟨12, 3 / 2, 0⟩] := by rw [hB, outline_straight]; norm_num
  have ax : ∀ p, OnOutline A p → p.x ≤ 2 := fun p hp =>
    onOutline_bound Pt.x (fun a b p t h _ => h) (by rw [eA]; simp only [List.forall_mem_cons]; norm_num) hp
  have ay : ∀ p, OnOutline A p → p.y ≤ 1 := fun p hp =>
    onOutline_bound Pt.y (fun a b p t _ h => h) (by rw [eA]; simp only [List.forall_mem_cons]; norm_num) hp
  have ay' : ∀ p, OnOutline A p → -p.y ≤ 1 := fun p hp =>
    onOutline_bound (fun p => -p.y) (fun a b p t _ h => by rw [h]; ring)
      (by rw [eA]; simp only [List.forall_mem_cons]; norm_num) hp
  have bx : ∀ p, OnOutline B p → -p.x ≤ -8 := fun p hp =>
    onOutline_bound (fun p => -p.x) (fun a b p t h _ => by rw [h]; ring)
      (by rw [eB]; simp only [List.forall_mem_cons]; norm_num) hp
  have hap : Apart A B := fun p hp => by have := ax p hp.1; have := bx p hp.2; linarith
  obtain ⟨p, q, hc, hor, hmin⟩ := closest_minimal A B (by rw [eA]; simp) (by rw [eB]; simp) hap
  refine ⟨⟨⟨0, 0, 0⟩, ⟨0, 0, 0, 1⟩⟩, ⟨⟨0, 0, 0⟩, ⟨4, 2, 2⟩⟩, ⟨⟨10, 0, 0⟩, ⟨0, 0, 0, 1⟩⟩, ⟨⟨0, 0, 0⟩, ⟨4, 3, 2⟩⟩, ⟨p.x - q.x, p.y - q.y, 0⟩,
    rfl, hap, ?_, ?_, ?_⟩
  · intro x y hx hy; have := ax x hx; have := bx y hy; linarith
  · unfold boxRelative
    rw [← hA, ← hB, hc]
    unfold getRelativePose rotate Quat.conj Pt.sub
    simp
  · simp only
    rcases hor with ⟨hp, h1, h2⟩ | ⟨_, h1, h2⟩
    · exfalso
      have h36 := hmin ⟨2, 1, 0⟩ ⟨8, 1, 0⟩
        ⟨0, ⟨2, 1, 0⟩, ⟨-2, 1, 0⟩, by rw [eA]; rfl, by rw [eA]; rfl, onSegment_start _ _⟩
        ⟨1, ⟨8, 3 / 2, 0⟩, ⟨8, -3 / 2, 0⟩, by rw [eB]; rfl, by rw [eB]; rfl, 1 / 6, by norm_num⟩
      unfold sq2 at h36
      have q1 := ax q h2; have q2 := ay q h2; have q3 := ay' q h2
      rw [eB] at hp
      simp at hp
      rcases hp with h | h | h | h | h <;> rw [h] at h36 <;> norm_num at h36 <;> nlinarith
    · have := ax p h1; have := bx q h2; linarith

end Verif.Geometry
