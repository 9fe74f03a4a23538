import Verif.Geometry.SplineTheorems
import Verif.Geometry.TurnTheorems
/-
C90 (points sampled along a spline), C93 (offsets and bounds).
-/
namespace Verif.Geometry
open Classical

/-! ### Sampling -/

theorem samplesUp_spaced (res stop s : ℝ) (hr : 0 < res) (h : s ≤ stop) :
    Spaced s stop res (samplesUp res stop s) ∧ (samplesUp res stop s).length = ⌈(stop - s) / res⌉₊ + 1 := by
  induction s using samplesUp.induct res stop with
  | case1 s hs ih =>
    rw [samplesUp, dif_pos hs]
    have hce : ⌈(stop - (s + res)) / res⌉₊ + 1 = ⌈(stop - s) / res⌉₊ := by
      have h1 : (stop - (s + res)) / res = (stop - s) / res - 1 := by rw [div_sub_one hr.ne']; congr 1; ring
      have h2 : 0 < (stop - s) / res := div_pos (sub_pos.mpr hs.2) hr
      rw [h1, Nat.ceil_sub_one]
      exact Nat.sub_add_cancel (Nat.ceil_pos.mpr h2)
    by_cases hn : s + res ≤ stop
    · obtain ⟨⟨g1, g2, g3, g4⟩, g5⟩ := ih hn
      refine ⟨⟨rfl, ?_, ?_, ?_⟩, by rw [List.length_cons, g5, hce]⟩
      · have hne : samplesUp res stop (s + res) ≠ [] := by intro h0; rw [h0] at g1; simp at g1
        rw [List.getLast?_cons, g2]; rfl
      · intro i a b ha hb
        cases i with
        | zero =>
          simp only [List.getElem?_cons_zero, Option.some.injEq, zero_add, List.getElem?_cons_succ] at ha hb
          rw [← List.head?_eq_getElem?, g1, Option.some.injEq] at hb
          subst ha; subst hb
          have : s + res - s = res := by ring
          rw [this, abs_of_pos hr]
          exact ⟨hr, le_rfl, fun _ => by linarith, fun h' => by linarith⟩
        | succ i =>
          obtain ⟨k1, k2, k3, -⟩ := g3 i a b (by simpa using ha) (by simpa using hb)
          exact ⟨k1, k2, fun _ => k3 hn, fun h' => by linarith⟩
      · intro i a b c ha hb hc
        cases i with
        | zero =>
          simp only [List.getElem?_cons_zero, Option.some.injEq, zero_add, List.getElem?_cons_succ] at ha hb
          rw [← List.head?_eq_getElem?, g1, Option.some.injEq] at hb
          subst ha; subst hb
          have : s + res - s = res := by ring
          rw [this, abs_of_pos hr]
        | succ i => exact g4 i a b c (by simpa using ha) (by simpa using hb) (by simpa using hc)
    · have hn' := not_le.mp hn
      have hl : samplesUp res stop (s + res) = [stop] := by
        rw [samplesUp, dif_neg (by intro h'; linarith [h'.2])]
      have hz : ⌈(stop - (s + res)) / res⌉₊ = 0 := Nat.ceil_eq_zero.mpr (div_nonpos_of_nonpos_of_nonneg (by linarith) hr.le)
      rw [hl]
      refine ⟨⟨rfl, rfl, ?_, ?_⟩, by rw [← hce, hz]; rfl⟩
      · intro i a b ha hb
        cases i with
        | zero =>
          simp only [List.getElem?_cons_zero, Option.some.injEq, zero_add, List.getElem?_cons_succ] at ha hb
          subst ha; subst hb
          rw [abs_of_pos (sub_pos.mpr hs.2)]
          exact ⟨by linarith [hs.2], by linarith, fun _ => hs.2, fun h' => by linarith⟩
        | succ i => simp at hb
      · intro i a b c ha hb hc
        simp at hc
  | case2 s hs =>
    have hse : s = stop := le_antisymm h (not_lt.mp fun h' => hs ⟨hr, h'⟩)
    subst hse
    rw [samplesUp, dif_neg hs]
    refine ⟨⟨rfl, rfl, ?_, ?_⟩, by simp⟩
    · intro i a b ha hb; simp at hb
    · intro i a b c ha hb hc; simp at hc

/-- Sampling downwards mirrors sampling upwards. -/
theorem samplesDown_mirror (res stop s : ℝ) : samplesDown res stop s = (samplesUp res (-stop) (-s)).map (fun x => -x) := by
  induction s using samplesDown.induct res stop with
  | case1 s hs ih =>
    rw [samplesDown, dif_pos hs, samplesUp, dif_pos ⟨hs.1, by linarith [hs.2]⟩, ih, List.map_cons, neg_neg]
    congr 4; ring
  | case2 s hs =>
    rw [samplesDown, dif_neg hs, samplesUp, dif_neg (by intro h; exact hs ⟨h.1, by linarith [h.2]⟩)]
    simp

/-- **C90** The places at which a trajectory is sampled start at the given start, end at the given end, and are the resolution apart, the last
step excepted, which may be shorter; this holds in both directions, and the number of places is finite. -/
theorem samples_spaced (start stop resolution : ℝ) (h : 1 / 2 ^ 52 < |resolution|) :
    ∃ l, samples start stop resolution = some l ∧ Spaced start stop |resolution| l ∧ l.length = ⌈|stop - start| / |resolution|⌉₊ + 1 := by
  have hr : 0 < |resolution| := lt_trans (by positivity) h
  unfold samples
  rw [if_neg (by unfold eps; exact not_le.mpr h)]
  by_cases hd : start > stop
  · rw [if_pos hd]
    refine ⟨_, rfl, ?_⟩
    rw [samplesDown_mirror]
    obtain ⟨⟨g1, g2, g3, g4⟩, g5⟩ := samplesUp_spaced |resolution| (-stop) (-start) hr (by linarith)
    refine ⟨⟨by rw [List.head?_map, g1]; simp, by rw [List.getLast?_map, g2]; simp, ?_, ?_⟩, ?_⟩
    · intro i a b ha hb
      rw [List.getElem?_map, Option.map_eq_some_iff] at ha hb
      obtain ⟨a', ha, rfl⟩ := ha
      obtain ⟨b', hb, rfl⟩ := hb
      obtain ⟨k1, k2, k3, -⟩ := g3 i a' b' ha hb
      rw [show -b' - -a' = -(b' - a') by ring, abs_neg]
      exact ⟨k1, k2, fun h' => by linarith, fun _ => by linarith [k3 (by linarith)]⟩
    · intro i a b c ha hb hc
      rw [List.getElem?_map, Option.map_eq_some_iff] at ha hb hc
      obtain ⟨a', ha, rfl⟩ := ha
      obtain ⟨b', hb, rfl⟩ := hb
      obtain ⟨c', hc, rfl⟩ := hc
      rw [show -b' - -a' = -(b' - a') by ring, abs_neg]
      exact g4 i a' b' c' ha hb hc
    · rw [List.length_map, g5, abs_of_neg (sub_neg.mpr hd)]
      congr 3; ring
  · rw [if_neg hd]
    have hle := not_lt.mp hd
    obtain ⟨g, g5⟩ := samplesUp_spaced |resolution| stop start hr hle
    exact ⟨_, rfl, g, by rw [g5, abs_of_nonneg (sub_nonneg.mpr hle)]⟩

/-- **C90** A resolution of zero, up to the machine epsilon, is refused. -/
theorem samples_refused (start stop resolution : ℝ) : samples start stop resolution = none ↔ |resolution| ≤ 1 / 2 ^ 52 := by
  constructor
  · intro h
    by_contra hn
    obtain ⟨l, hl, -⟩ := samples_spaced start stop resolution (not_le.mp hn)
    rw [h] at hl; cases hl
  · intro h
    unfold samples
    rw [if_pos (by unfold eps; exact h)]

example : samples 0 2 (-2) = some [0, 2] := by
  unfold samples
  rw [if_neg (by unfold eps; norm_num), if_neg (by norm_num)]
  rw [samplesUp, dif_pos (by norm_num), samplesUp, dif_neg (by norm_num)]

/-! ### Offsets -/

/-- The normal of a spline is its tangent, seen from above, turned to the left. -/
theorem spline_normal (k : Spline) (s : ℝ) : k.normal s = (k.tangent s).map fun t => ⟨-t.y, t.x, 0⟩ := by
  have hc : ∀ c : Curve, ∀ t, c.normal t = ⟨-(c.tangent t).y, (c.tangent t).x, 0⟩ := by
    intro c t
    obtain ⟨h1, h2, h3⟩ := normal_left c t
    rw [← h2, ← h3, ← h1]
  unfold Spline.normal Spline.tangent
  split
  · rfl
  · rfl
  · split
    · simp [Seg.normal, Real.cos_pi_div_two, Real.sin_pi_div_two]
    · rfl
  · unfold Spline.onCurve
    cases k.index s with
    | none => rfl
    | some iv =>
      obtain ⟨i, v⟩ := iv
      simp only
      cases k.curves[i]? with
      | none => rfl
      | some c => simp [hc]

theorem turn_offset {t : Pt} (offset : ℝ) (h : t.x ≠ 0 ∨ t.y ≠ 0) (p q : Pt)
    (hx : q.x = p.x + offset * Real.cos (atan2 t.x (-t.y))) (hy : q.y = p.y + offset * Real.sin (atan2 t.x (-t.y))) :
    LeftBy p t q offset ∧ sq2 q p = offset ^ 2 := by
  have hcos := atan2_cos (y := t.x) (x := -t.y)
  have hsin := atan2_sin (y := t.x) (x := -t.y)
  have hcs := Real.cos_sq_add_sin_sq (atan2 t.x (-t.y))
  rw [show (-t.y) ^ 2 + t.x ^ 2 = t.x ^ 2 + t.y ^ 2 by ring] at hcos hsin
  have hpos : 0 < t.x ^ 2 + t.y ^ 2 := by
    rcases h with h | h
    · have := sq_pos_of_ne_zero h; have := sq_nonneg t.y; linarith
    · have := sq_pos_of_ne_zero h; have := sq_nonneg t.x; linarith
  have hr : 0 < Real.sqrt (t.x ^ 2 + t.y ^ 2) := Real.sqrt_pos.mpr hpos
  unfold LeftBy sq2
  rw [hx, hy]
  generalize Real.sqrt (t.x ^ 2 + t.y ^ 2) = r at *
  generalize Real.cos (atan2 t.x (-t.y)) = c at *
  generalize Real.sin (atan2 t.x (-t.y)) = d at *
  have ht : t.y = -(r * c) := by linarith
  rw [ht, ← hsin]
  refine ⟨⟨by ring, ?_⟩, ?_⟩
  · linear_combination offset * r * hcs
  · linear_combination offset ^ 2 * hcs

/-- **C93** The point of a spline with an offset is straight to the left of the tangent by the offset, at the same height. -/
theorem pointOffset_left (k : Spline) (s offset : ℝ) (p t : Pt) (hp : k.point s = some p) (ht : k.tangent s = some t) (h : t.x ≠ 0 ∨ t.y ≠ 0) :
    ∃ q, k.pointOffset s offset = some q ∧ LeftBy p t q offset ∧ sq2 q p = offset ^ 2 ∧ q.z = p.z := by
  have hn : k.normal s = some ⟨-t.y, t.x, 0⟩ := by rw [spline_normal, ht]; rfl
  unfold Spline.pointOffset
  rw [hn, hp]
  obtain ⟨h1, h2⟩ := turn_offset offset h p
    ⟨p.x + offset * Real.cos (atan2 t.x (-t.y)), p.y + offset * Real.sin (atan2 t.x (-t.y)), p.z⟩ rfl rfl
  exact ⟨_, rfl, h1, h2, rfl⟩

/-- **C90** A trajectory along a spline of at least three control points exists for every resolution but zero, and has one point for each of the
evenly spaced places. -/
theorem trajectory_spaced (raw : List Pt) (k : Spline) (h : Spline.make raw = some k) (h3 : 3 ≤ k.cp.length) (start stop resolution offset : ℝ)
    (hr : 1 / 2 ^ 52 < |resolution|) :
    ∃ places points, Spaced start stop |resolution| places ∧ k.trajectory start stop resolution offset = some points ∧
      points.length = places.length ∧ places.length = ⌈|stop - start| / |resolution|⌉₊ + 1 ∧
      ∀ (i : Nat) (s : ℝ), places[i]? = some s → points[i]? = k.pointOffset s offset := by
  have hm := made_of_make h h3
  obtain ⟨c, l, hc⟩ := made_chain hm
  obtain ⟨places, h1, h2, h4⟩ := samples_spaced start stop resolution hr
  have hd : ∀ s, ∃ q, k.pointOffset s offset = some q := by
    intro s
    unfold Spline.pointOffset
    rw [normal_made hm, point_made hm, onCurve_along hc, onCurve_along hc]
    exact ⟨_, rfl⟩
  obtain ⟨points, hp⟩ := mapM_defined (f := fun s => k.pointOffset s offset) (l := places) fun s _ => hd s
  obtain ⟨e1, e2⟩ := mapM_getElem? hp
  refine ⟨places, points, h2, ?_, e1, h4, ?_⟩
  · unfold Spline.trajectory; rw [h1]; exact hp
  · intro i s hs
    have hi := (List.getElem?_eq_some_iff.mp hs).1
    rw [← e1] at hi
    have hy := List.getElem?_eq_getElem hi
    obtain ⟨x, hx, hf⟩ := e2 i _ hy
    rw [hs] at hx
    obtain rfl := Option.some.inj hx
    rw [hy, hf]

theorem mapM_range {β : Type} {f : Nat → Option β} {n : Nat} {r : List β} (h : (List.range n).mapM f = some r) (i : Nat) (hi : i < n) :
    r[i]? = f i := by
  obtain ⟨e1, e2⟩ := mapM_getElem? h
  rw [List.length_range] at e1
  have hy := List.getElem?_eq_getElem (show i < r.length by omega)
  obtain ⟨x, hx, hf⟩ := e2 i _ hy
  obtain ⟨_, rfl⟩ := List.getElem?_eq_some_iff.mp hx
  rw [List.getElem_range] at hf
  rw [hy, hf]

/-- **C93** The bounds of a spline have a point for every place, half of the width to the side of the spline: those called left are straight to
the right. -/
theorem leftBounds_side (k : Spline) (width : ℝ) (n : Nat) (z : ℝ) (l : List Pt) (h : k.leftBounds width n z = some l) :
    l.length = n + 1 ∧ ∀ i : Nat, i ≤ n → ∀ p t, k.point (k.total / n * i) = some p → k.tangent (k.total / n * i) = some t → (t.x ≠ 0 ∨ t.y ≠ 0) →
      ∃ q, l[i]? = some q ∧ LeftBy p t q (-(width / 2)) ∧ sq2 q p = (width / 2) ^ 2 ∧ q.z = p.z + z := by
  unfold Spline.leftBounds at h
  simp only at h
  refine ⟨by rw [(mapM_getElem? h).1, List.length_range], ?_⟩
  intro i hi p t hp ht hne
  have hn : k.normal (k.total / n * i) = some ⟨-t.y, t.x, 0⟩ := by rw [spline_normal, ht]; rfl
  rw [mapM_range h i (by omega), hn, hp]
  obtain ⟨h1, h2⟩ := turn_offset (-(width / 2)) hne p
    ⟨p.x - 0.5 * width * Real.cos (atan2 t.x (-t.y)), p.y - 0.5 * width * Real.sin (atan2 t.x (-t.y)), p.z + z⟩ (by ring) (by ring)
  exact ⟨_, rfl, h1, by rw [h2]; ring, rfl⟩

/-- **C93** The bounds called right are straight to the left of the spline. -/
theorem rightBounds_side (k : Spline) (width : ℝ) (n : Nat) (z : ℝ) (l : List Pt) (h : k.rightBounds width n z = some l) :
    l.length = n + 1 ∧ ∀ i : Nat, i ≤ n → ∀ p t, k.point (k.total / n * i) = some p → k.tangent (k.total / n * i) = some t → (t.x ≠ 0 ∨ t.y ≠ 0) →
      ∃ q, l[i]? = some q ∧ LeftBy p t q (width / 2) ∧ sq2 q p = (width / 2) ^ 2 ∧ q.z = p.z + z := by
  unfold Spline.rightBounds at h
  simp only at h
  refine ⟨by rw [(mapM_getElem? h).1, List.length_range], ?_⟩
  intro i hi p t hp ht hne
  have hn : k.normal (k.total / n * i) = some ⟨-t.y, t.x, 0⟩ := by rw [spline_normal, ht]; rfl
  rw [mapM_range h i (by omega), hn, hp]
  obtain ⟨h1, h2⟩ := turn_offset (width / 2) hne p
    ⟨p.x + 0.5 * width * Real.cos (atan2 t.x (-t.y)), p.y + 0.5 * width * Real.sin (atan2 t.x (-t.y)), p.z + z⟩ (by ring) (by ring)
  exact ⟨_, rfl, h1, by rw [h2], rfl⟩

/-- **C93** fails for every spline and every width above zero: no point of the right bounds is on the right. -/
theorem rightBounds_violated (k : Spline) (width : ℝ) (hw : 0 < width) (n : Nat) (z : ℝ) (l : List Pt) (h : k.rightBounds width n z = some l)
    (i : Nat) (q p t : Pt) (hq : l[i]? = some q) (hp : k.point (k.total / n * i) = some p) (ht : k.tangent (k.total / n * i) = some t)
    (hne : t.x ≠ 0 ∨ t.y ≠ 0) : 0 < area p ⟨p.x + t.x, p.y + t.y, p.z⟩ q := by
  obtain ⟨h0, h1⟩ := rightBounds_side k width n z l h
  have hi := (List.getElem?_eq_some_iff.mp hq).1
  obtain ⟨q', e1, ⟨-, e2⟩, -⟩ := h1 i (by omega) p t hp ht hne
  rw [hq] at e1
  obtain rfl := Option.some.inj e1
  have hpos : 0 < t.x ^ 2 + t.y ^ 2 := by
    rcases hne with h | h
    · have := sq_pos_of_ne_zero h; have := sq_nonneg t.y; linarith
    · have := sq_pos_of_ne_zero h; have := sq_nonneg t.x; linarith
  have hr : 0 < Real.sqrt (t.x ^ 2 + t.y ^ 2) := Real.sqrt_pos.mpr hpos
  unfold area
  have : (p.x + t.x - p.x) * (q.y - p.y) - (p.y + t.y - p.y) * (q.x - p.x) = width / 2 * Real.sqrt (t.x ^ 2 + t.y ^ 2) := by rw [← e2]; ring
  rw [this]
  positivity

/-- A spline of two control points is the straight line between them. -/
theorem two_points (p q : Pt) (h : p ≠ q) : Spline.make [p, q] = some ⟨[p, q], []⟩ ∧ (⟨[p, q], []⟩ : Spline).total = distance q p ∧ 0 < distance q p ∧
    ∀ s, 0 ≤ s → s ≤ distance q p →
      (⟨[p, q], []⟩ : Spline).point s = some ⟨p.x + (q.x - p.x) * (s / distance q p), p.y + (q.y - p.y) * (s / distance q p), p.z + (q.z - p.z) * (s / distance q p)⟩ ∧
      (⟨[p, q], []⟩ : Spline).tangent s = some ⟨q.x - p.x, q.y - p.y, q.z - p.z⟩ := by
  have hpos : 0 < distance q p := by
    unfold distance
    apply Real.sqrt_pos.mpr
    by_contra hn
    apply h
    have hx := sq_nonneg (q.x - p.x)
    have hy := sq_nonneg (q.y - p.y)
    have hz := sq_nonneg (q.z - p.z)
    have h1 : (q.x - p.x) = 0 := by apply pow_eq_zero_iff (two_ne_zero) |>.mp; linarith
    have h2 : (q.y - p.y) = 0 := by apply pow_eq_zero_iff (two_ne_zero) |>.mp; linarith
    have h3 : (q.z - p.z) = 0 := by apply pow_eq_zero_iff (two_ne_zero) |>.mp; linarith
    obtain ⟨x, y, z⟩ := p
    obtain ⟨x', y', z'⟩ := q
    simp only [Pt.mk.injEq]
    simp only at h1 h2 h3
    exact ⟨by linarith, by linarith, by linarith⟩
  refine ⟨?_, rfl, hpos, ?_⟩
  · have hu : unique [p, q] = [p, q] := by simp [unique, h]
    unfold Spline.make; rw [hu]
  · intro s h0 h1
    have hs0 : 0 ≤ s / distance q p := div_nonneg h0 hpos.le
    have hs1 : s / distance q p ≤ 1 := (div_le_one hpos).mpr h1
    constructor
    · unfold Spline.point
      simp only [Seg.getPoint, Seg.length, Seg.vector, if_true]
      rw [if_pos ⟨hs0, hs1⟩]
    · unfold Spline.tangent
      simp only [Seg.vector]
      rw [if_pos ⟨h0, h1⟩]

/-- The bounds of a spline of at least three control points exist. -/
theorem bounds_defined (raw : List Pt) (k : Spline) (h : Spline.make raw = some k) (h3 : 3 ≤ k.cp.length) (width : ℝ) (n : Nat) (z : ℝ) :
    (∃ l, k.rightBounds width n z = some l) ∧ ∃ l, k.leftBounds width n z = some l := by
  have hm := made_of_make h h3
  obtain ⟨c, l, hc⟩ := made_chain hm
  unfold Spline.rightBounds Spline.leftBounds
  constructor <;> refine mapM_defined fun i _ => ?_ <;> rw [normal_made hm, point_made hm, onCurve_along hc, onCurve_along hc] <;> exact ⟨_, rfl⟩

/-- In a bend of three points the bounds exist, and at the start the tangent is not vertical. -/
example : ∃ k l t, Spline.make [⟨0, 0, 0⟩, ⟨1, 0, 0⟩, ⟨1, 0, 0⟩, ⟨1, 1, 0⟩] = some k ∧ k.rightBounds 1 2 0 = some l ∧
    k.tangent (k.total / (2 : Nat) * (0 : Nat)) = some t ∧ (t.x ≠ 0 ∨ t.y ≠ 0) := by
  obtain ⟨k, h, e⟩ := bend_made
  have h3 : 3 ≤ k.cp.length := by rw [e]; simp
  obtain ⟨⟨l, hl⟩, -⟩ := bounds_defined _ k h h3 1 2 0
  have hm := made_of_make h h3
  obtain ⟨c, l', hc⟩ := made_chain hm
  have ha := along_local Curve.tangent c l' 0 c 0 hc.pos rfl le_rfl (Or.inl (hc.pos c (by simp)))
  refine ⟨k, l, c.tangent 0, h, hl, ?_, ?_⟩
  · rw [Nat.cast_zero, mul_zero, tangent_made hm, onCurve_along hc]
    simpa [knot] using ha
  · have hs := hm.shape 0 c (by rw [hc.curves]; rfl)
    rw [e] at hs
    simp only [curveAt, List.getElem?_cons_zero, List.getElem?_cons_succ, if_true, Option.some.injEq] at hs
    subst hs
    left
    simp only [Curve.tangent]
    norm_num

end Verif.Geometry
