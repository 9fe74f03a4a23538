import Verif.Contact.CorridorSpec
import Verif.Contact.Theorems
import Verif.Geometry.SplineUseTheorems
/-
C210 (the entity in front, found along a trajectory).
-/
namespace Verif.Contact
open Verif.Geometry Classical

theorem leftBy_unique {c t q q' : Pt} {o : ℝ} (h : t.x ≠ 0 ∨ t.y ≠ 0) (h1 : LeftBy c t q o) (h2 : LeftBy c t q' o) : q.x = q'.x ∧ q.y = q'.y := by
  have hpos : 0 < t.x ^ 2 + t.y ^ 2 := by
    rcases h with h | h
    · have := sq_pos_of_ne_zero h; have := sq_nonneg t.y; linarith
    · have := sq_pos_of_ne_zero h; have := sq_nonneg t.x; linarith
  obtain ⟨a1, a2⟩ := h1
  obtain ⟨b1, b2⟩ := h2
  have ex : (t.x ^ 2 + t.y ^ 2) * (q.x - q'.x) = 0 := by linear_combination t.x * a1 - t.y * a2 - t.x * b1 + t.y * b2
  have ey : (t.x ^ 2 + t.y ^ 2) * (q.y - q'.y) = 0 := by linear_combination t.y * a1 + t.x * a2 - t.y * b1 - t.x * b2
  rcases mul_eq_zero.mp ex with h | h
  · linarith
  rcases mul_eq_zero.mp ey with h' | h'
  · linarith
  exact ⟨by linarith, by linarith⟩

/-- The bound points at a place of the spline. -/
theorem boundPoint_spec {k : Spline} {width s d : ℝ} {c t : Pt} (hc : k.point s = some c) (ht : k.tangent s = some t) :
    boundPoint k width s d = some ⟨c.x + d * 0.5 * width * Real.cos (atan2 t.x (-t.y)), c.y + d * 0.5 * width * Real.sin (atan2 t.x (-t.y)), c.z⟩ := by
  have hn : k.normal s = some ⟨-t.y, t.x, 0⟩ := by rw [spline_normal, ht]; rfl
  unfold boundPoint
  rw [hn, hc]

theorem boundPoint_side {k : Spline} {width s d : ℝ} {c t : Pt} (hc : k.point s = some c) (ht : k.tangent s = some t) (h : t.x ≠ 0 ∨ t.y ≠ 0) (q : Pt)
    (hq : boundPoint k width s d = some q) : LeftBy c t (flat q) (d * 0.5 * width) := by
  rw [boundPoint_spec hc ht] at hq
  obtain rfl := Option.some.inj hq
  exact (turn_offset (d * 0.5 * width) h c _ rfl rfl).1

/-- A point beside the trajectory within half of the width is on the line between the two bound points. -/
theorem beside_between {k : Spline} {width s o : ℝ} {q a b : Pt} (hw : 0 ≤ width) (ho : |o| ≤ width / 2) (hq : Beside k s o q)
    (ha : boundPoint k width s 1 = some a) (hb : boundPoint k width s (-1) = some b) :
    OnSegment (flat a) (flat b) q ∧ OnSegment (flat b) (flat a) q := by
  obtain ⟨c, t, hc, ht, hne, hl⟩ := hq
  rw [boundPoint_spec hc ht] at ha hb
  obtain rfl := Option.some.inj ha
  obtain rfl := Option.some.inj hb
  obtain ⟨ex, ey⟩ := leftBy_unique hne hl (turn_offset o hne c ⟨c.x + o * Real.cos (atan2 t.x (-t.y)), c.y + o * Real.sin (atan2 t.x (-t.y)), 0⟩ rfl rfl).1
  simp only at ex ey
  obtain ⟨l1, l2⟩ := abs_le.mp ho
  obtain ⟨u, u0, u1, eu⟩ : ∃ u : ℝ, 0 ≤ u ∧ u ≤ 1 ∧ o = width / 2 - u * width := by
    obtain ⟨u, u0, u1, eu⟩ := share_exists 0 width (-o) hw (by rw [sub_zero, abs_neg]; linarith)
    exact ⟨u, u0, u1, by linarith⟩
  refine ⟨⟨u, u0, u1, ?_, ?_⟩, ⟨1 - u, by linarith, by linarith, ?_, ?_⟩⟩
  · simp only [flat]; rw [ex, eu]; ring
  · simp only [flat]; rw [ey, eu]; ring
  · simp only [flat]; rw [ex, eu]; ring
  · simp only [flat]; rw [ey, eu]; ring

theorem quads_get {k : Spline} {width : ℝ} {n : Nat} {quads : List (List Pt × ℝ)} (h : quadrilaterals k width n = some quads) (hn : 0 < n) :
    quads.length = n ∧ ∀ i : Nat, i < n → ∃ a b c d, boundPoint k width (k.total / n * i) 1 = some a ∧ boundPoint k width (k.total / n * i) (-1) = some b ∧
      boundPoint k width (k.total / n * (i + 1 : Nat)) (-1) = some c ∧ boundPoint k width (k.total / n * (i + 1 : Nat)) 1 = some d ∧
      quads[i]? = some ([flat a, flat b, flat c, flat d, flat a], k.total / n * i) := by
  unfold quadrilaterals at h
  rw [if_neg (by omega)] at h
  simp only at h
  split at h
  · rename_i right left hr hl
    refine ⟨by rw [(mapM_getElem? h).1, List.length_range], ?_⟩
    intro i hi
    have h1 := mapM_range hr i (by omega)
    have h2 := mapM_range hl i (by omega)
    have h3 := mapM_range hl (i + 1) (by omega)
    have h4 := mapM_range hr (i + 1) (by omega)
    have hq := mapM_range h i hi
    have hlen : i < quads.length := by rw [(mapM_getElem? h).1, List.length_range]; exact hi
    rw [List.getElem?_eq_getElem hlen] at hq
    split at hq
    · rename_i a b c d g1 g2 g3 g4
      rw [g1] at h1; rw [g2] at h2; rw [g3] at h3; rw [g4] at h4
      exact ⟨a, b, c, d, h1.symm, h2.symm, h3.symm, h4.symm, by rw [List.getElem?_eq_getElem hlen, hq]⟩
    · cases hq
  · cases h

/-- What the loop over the entities finds. -/
theorem nearest_spec (m : List Pt → List Pt → Bool) (quads : List (List Pt × ℝ)) (own : String) (others : List Other) (best : Option (String × ℝ)) :
    (∀ r, nearest m quads own others best = some r →
      (best = some r ∨ ∃ e ∈ others, e.name ≠ own ∧ r.1 = e.name ∧ intersectsTrajectory m quads (outline e.pose e.box) = some r.2)) ∧
    (∀ d, ((∃ b, best = some b ∧ b.2 = d) ∨ ∃ e ∈ others, e.name ≠ own ∧ intersectsTrajectory m quads (outline e.pose e.box) = some d) →
      ∃ r, nearest m quads own others best = some r ∧ r.2 ≤ d) := by
  induction others generalizing best with
  | nil =>
    refine ⟨fun r h => Or.inl h, ?_⟩
    rintro d (⟨b, rfl, rfl⟩ | ⟨e, he, -⟩)
    · exact ⟨b, rfl, le_rfl⟩
    · cases he
  | cons e l ih =>
    unfold nearest
    by_cases ho : own = e.name
    · rw [if_pos ho]
      obtain ⟨i1, i2⟩ := ih best
      refine ⟨fun r h => ?_, fun d hd => i2 d ?_⟩
      · rcases i1 r h with h | ⟨x, hx, h⟩
        · exact Or.inl h
        · exact Or.inr ⟨x, List.mem_cons_of_mem _ hx, h⟩
      · rcases hd with h | ⟨x, hx, hn, h⟩
        · exact Or.inl h
        · rcases List.mem_cons.mp hx with rfl | hx
          · exact absurd ho.symm hn
          · exact Or.inr ⟨x, hx, hn, h⟩
    · rw [if_neg ho]
      cases hs : intersectsTrajectory m quads (outline e.pose e.box) with
      | none =>
        simp only
        obtain ⟨i1, i2⟩ := ih best
        refine ⟨fun r h => ?_, fun d hd => i2 d ?_⟩
        · rcases i1 r h with h | ⟨x, hx, h⟩
          · exact Or.inl h
          · exact Or.inr ⟨x, List.mem_cons_of_mem _ hx, h⟩
        · rcases hd with h | ⟨x, hx, hn, h⟩
          · exact Or.inl h
          · rcases List.mem_cons.mp hx with rfl | hx
            · rw [hs] at h; cases h
            · exact Or.inr ⟨x, hx, hn, h⟩
      | some start =>
        simp only
        have key : ∀ best' : Option (String × ℝ), (∃ b, best' = some b ∧ b.2 ≤ start ∧ ((b.1 = e.name ∧ b.2 = start) ∨ best = some b)) →
            (∀ b, best = some b → ∃ b', best' = some b' ∧ b'.2 ≤ b.2) →
            (∀ r, nearest m quads own l best' = some r →
              (best = some r ∨ ∃ x ∈ e :: l, x.name ≠ own ∧ r.1 = x.name ∧ intersectsTrajectory m quads (outline x.pose x.box) = some r.2)) ∧
            (∀ d, ((∃ b, best = some b ∧ b.2 = d) ∨ ∃ x ∈ e :: l, x.name ≠ own ∧ intersectsTrajectory m quads (outline x.pose x.box) = some d) →
              ∃ r, nearest m quads own l best' = some r ∧ r.2 ≤ d) := by
          rintro best' ⟨b, rfl, hle, hb⟩ hbest
          obtain ⟨i1, i2⟩ := ih (some b)
          refine ⟨fun r h => ?_, fun d hd => ?_⟩
          · rcases i1 r h with h | ⟨x, hx, h⟩
            · obtain rfl := Option.some.inj h
              rcases hb with ⟨g1, g2⟩ | g
              · exact Or.inr ⟨e, List.mem_cons_self .., fun h => ho h.symm, g1, by rw [hs, g2]⟩
              · exact Or.inl g
            · exact Or.inr ⟨x, List.mem_cons_of_mem _ hx, h⟩
          · rcases hd with ⟨c, hc, rfl⟩ | ⟨x, hx, hn, h⟩
            · obtain ⟨b', e1, e2⟩ := hbest c hc
              obtain rfl := Option.some.inj e1
              obtain ⟨r, f1, f2⟩ := i2 b.2 (Or.inl ⟨b, rfl, rfl⟩)
              exact ⟨r, f1, le_trans f2 e2⟩
            · rcases List.mem_cons.mp hx with rfl | hx
              · rw [hs] at h
                obtain rfl := Option.some.inj h
                obtain ⟨r, f1, f2⟩ := i2 b.2 (Or.inl ⟨b, rfl, rfl⟩)
                exact ⟨r, f1, le_trans f2 hle⟩
              · exact i2 d (Or.inr ⟨x, hx, hn, h⟩)
        cases best with
        | none => exact key _ ⟨(e.name, start), rfl, le_rfl, Or.inl ⟨rfl, rfl⟩⟩ (fun _ h => nomatch h)
        | some b =>
          simp only
          by_cases hb : start < b.2
          · rw [if_pos hb]
            exact key _ ⟨(e.name, start), rfl, le_rfl, Or.inl ⟨rfl, rfl⟩⟩ (fun b' h => ⟨_, rfl, by obtain rfl := Option.some.inj h; exact hb.le⟩)
          · rw [if_neg hb]
            exact key _ ⟨b, rfl, not_lt.mp hb, Or.inr rfl⟩ (fun b' h => ⟨_, rfl, by obtain rfl := Option.some.inj h; exact le_rfl⟩)

theorem find_le {α : Type} (l : List α) (f : α → Bool) (i : Nat) (x : α) (h : l[i]? = some x) (hx : f x = true) :
    ∃ (j : Nat) (y : α), j ≤ i ∧ l[j]? = some y ∧ l.find? f = some y := by
  induction l generalizing i with
  | nil => simp at h
  | cons a l ih =>
    by_cases ha : f a = true
    · exact ⟨0, a, Nat.zero_le _, rfl, by simp [ha]⟩
    · match i, h with
      | 0, h =>
        simp only [List.getElem?_cons_zero, Option.some.injEq] at h
        subst h; exact absurd hx ha
      | i + 1, h =>
        obtain ⟨j, y, h1, h2, h3⟩ := ih i (by simpa using h)
        exact ⟨j + 1, y, by omega, by simpa using h2, by simp [ha, h3]⟩

theorem covers_hull {e : Other} (hu : Upright e.pose) (hp : Proper e.box) (x y : ℝ) : Covers e x y ↔ InHull (outline e.pose e.box) x y := by
  rw [hull_iff _ _ hu hp]
  constructor
  · rintro ⟨z, q, ha, hx, hy, -⟩
    obtain ⟨e1, e2, -⟩ := (at_upright hu _ _).mp ha
    exact ⟨q, hx, hy, e1, e2⟩
  · rintro ⟨q, hx, hy, e1, e2⟩
    refine ⟨e.pose.position.z + e.box.center.z, ⟨q.x, q.y, e.box.center.z⟩, (at_upright hu _ _).mpr ⟨?_, ?_, rfl⟩, hx, hy, ?_⟩
    · simp only [transformPoint, rotate, Pt.add, hu.1, hu.2.1] at e1 ⊢
      rw [e1]; ring
    · simp only [transformPoint, rotate, Pt.add, hu.1, hu.2.1] at e2 ⊢
      rw [e2]; ring
    · simp only [sub_self, abs_zero, mul_zero]; exact hp.2.2

/-- Where the spline has points and directions. -/
theorem place_defined (raw : List Pt) (k : Spline) (h : Spline.make raw = some k) (s : ℝ) (h0 : 0 ≤ s) (h1 : s ≤ k.total) :
    (2 ≤ k.cp.length → ∃ c t, k.point s = some c ∧ k.tangent s = some t) ∧ (k.cp.length ≤ 1 → k.tangent s = none) := by
  obtain ⟨m1, m2⟩ := make_points raw
  obtain ⟨-, m3⟩ := m2 k h
  constructor
  · intro h2
    by_cases h3 : 3 ≤ k.cp.length
    · have hm := made_of_make h h3
      obtain ⟨c, l, hc⟩ := made_chain hm
      rw [point_made hm, tangent_made hm, onCurve_along hc, onCurve_along hc]
      exact ⟨_, _, rfl, rfl⟩
    · match hk : k.cp, h2, h3 with
      | [p, q], _, _ =>
        have hne : p ≠ q := m3 0 p q (by rw [hk]; rfl) (by rw [hk]; rfl)
        have htot : k.total = distance q p := by unfold Spline.total; rw [hk]; rfl
        obtain ⟨-, -, -, h5⟩ := two_points p q hne
        obtain ⟨f1, f2⟩ := h5 s h0 (by rw [← htot]; exact h1)
        have g1 : k.point s = (⟨[p, q], []⟩ : Spline).point s := by unfold Spline.point; rw [hk]
        have g2 : k.tangent s = (⟨[p, q], []⟩ : Spline).tangent s := by
          unfold Spline.tangent
          rw [hk]
          simp only [htot, (two_points p q hne).2.1]
        exact ⟨_, _, g1.trans f1, g2.trans f2⟩
      | _ :: _ :: _ :: _, _, h3 => simp at h3
      | [_], h2, _ => simp at h2
  · intro h2
    unfold Spline.tangent
    match hk : k.cp, h2 with
    | [], _ => rfl
    | [p], _ => rfl

theorem step_le {L : ℝ} {n i : Nat} (hL : 0 ≤ L) (hn : 0 < n) (hi : i ≤ n) : 0 ≤ L / n * i ∧ L / n * i ≤ L := by
  have hn' : (0 : ℝ) < n := by exact_mod_cast hn
  have hi' : (i : ℝ) ≤ n := by exact_mod_cast hi
  refine ⟨by positivity, ?_⟩
  rw [div_mul_eq_mul_div, div_le_iff₀ hn']
  exact mul_le_mul_of_nonneg_left hi' hL

theorem total_nonneg (raw : List Pt) (k : Spline) (h : Spline.make raw = some k) : 0 ≤ k.total := by
  by_cases h3 : 3 ≤ k.cp.length
  · obtain ⟨c, l, hc⟩ := made_chain (made_of_make h h3)
    rw [hc.total]
    apply List.sum_nonneg
    intro y hy
    obtain ⟨z, hz, rfl⟩ := List.mem_map.mp hy
    exact (hc.pos z hz).le
  · unfold Spline.total
    split
    · exact Real.sqrt_nonneg _
    · have : k.curves = [] := by
        unfold Spline.make at h
        simp only at h
        split at h
        · cases h
        · obtain rfl := Option.some.inj h; rfl
        · obtain rfl := Option.some.inj h; rfl
        · rename_i e1 e2 e3
          obtain ⟨cs, -, rfl⟩ := Option.map_eq_some_iff.mp h
          simp only at h3
          match hu : unique raw with
          | [] => exact absurd hu e1
          | [a] => exact absurd hu (e2 a)
          | [a, b] => exact absurd hu (e3 a b)
          | _ :: _ :: _ :: _ => rw [hu] at h3; simp at h3
      rw [this]; simp

theorem quads_some (raw : List Pt) (k : Spline) (h : Spline.make raw = some k) (width : ℝ) (n : Nat) :
    (∃ quads, quadrilaterals k width n = some quads) ↔ n = 0 ∨ 2 ≤ k.cp.length := by
  by_cases hn : n = 0
  · unfold quadrilaterals; simp [hn]
  have hpos : 0 < n := Nat.pos_of_ne_zero hn
  by_cases h2 : 2 ≤ k.cp.length
  · simp only [h2, or_true, iff_true]
    have hb : ∀ i : Nat, i ≤ n → ∀ d, ∃ q, boundPoint k width (k.total / n * i) d = some q := by
      intro i hi d
      obtain ⟨s0, s1⟩ := step_le (total_nonneg raw k h) hpos hi
      obtain ⟨c, t, hc, ht⟩ := (place_defined raw k h _ s0 s1).1 h2
      exact ⟨_, boundPoint_spec hc ht⟩
    obtain ⟨right, hr⟩ := mapM_defined (f := fun i : Nat => boundPoint k width (k.total / n * i) 1) (l := List.range (n + 1))
      fun i hi => hb i (by have := List.mem_range.mp hi; omega) 1
    obtain ⟨left, hl⟩ := mapM_defined (f := fun i : Nat => boundPoint k width (k.total / n * i) (-1)) (l := List.range (n + 1))
      fun i hi => hb i (by have := List.mem_range.mp hi; omega) (-1)
    unfold quadrilaterals
    rw [if_neg hn]
    simp only [hr, hl]
    apply mapM_defined
    intro i hi
    have hi := List.mem_range.mp hi
    obtain ⟨a, ea⟩ := hb i (by omega) 1
    obtain ⟨b, eb⟩ := hb i (by omega) (-1)
    obtain ⟨c, ec⟩ := hb (i + 1) (by omega) (-1)
    obtain ⟨d, ed⟩ := hb (i + 1) (by omega) 1
    rw [mapM_range hr i (by omega), mapM_range hl i (by omega), mapM_range hl (i + 1) (by omega), mapM_range hr (i + 1) (by omega), ea, eb, ec, ed]
    exact ⟨_, rfl⟩
  · simp only [hn, h2, or_self, iff_false]
    rintro ⟨quads, hq⟩
    obtain ⟨-, g⟩ := quads_get hq hpos
    obtain ⟨a, -, -, -, ea, -⟩ := g 0 hpos
    obtain ⟨s0, s1⟩ := step_le (total_nonneg raw k h) hpos (Nat.zero_le n)
    have := (place_defined raw k h _ s0 s1).2 (by omega)
    unfold boundPoint at ea
    rw [spline_normal, this] at ea
    cases ea

/-- **C210** An upright entity that, seen from above, covers a point beside one of the places at which the trajectory is looked at, within half of the
width, is seen: some entity is reported, at that place or before it. Missing: entities between these places, and the altitude
(`C210_altitude_violated`). -/
theorem C210_seen_partial (m : List Pt → List Pt → Bool) (hm : Tells m) (waypoints : List Pt) (hw : 2 ≤ waypoints.length) (k : Spline)
    (h : Spline.make waypoints = some k) (width : ℝ) (segments : Nat) (others : List Other) (own : String) (e : Other) (he : e ∈ others)
    (hn : e.name ≠ own) (hu : Upright e.pose) (hp : Proper e.box) (i : Nat) (hi : i ≤ segments) (hpos : 0 < segments) (offset : ℝ) (q : Pt)
    (ho : 2 * |offset| ≤ width) (hq : Beside k (k.total / segments * i) offset q) (hcov : Covers e q.x q.y) :
    ∃ name d, frontByTrajectory m waypoints width segments others own = some (some (name, d)) ∧ 0 ≤ d ∧ d ≤ k.total / segments * i := by
  have h2 : 2 ≤ k.cp.length := by
    by_contra hlt
    obtain ⟨c, t, -, ht, -⟩ := hq
    obtain ⟨s0, s1⟩ := step_le (total_nonneg waypoints k h) hpos hi
    rw [(place_defined waypoints k h _ s0 s1).2 (by omega)] at ht
    cases ht
  have hw0 : 0 ≤ width := le_trans (by positivity) ho
  obtain ⟨quads, hquads⟩ := (quads_some waypoints k h (max 0 width) segments).mpr (Or.inr h2)
  obtain ⟨glen, g⟩ := quads_get hquads hpos
  rw [max_eq_right hw0] at hquads g
  -- the quadrilateral with the point on a side
  obtain ⟨j, ring, hj, hji, hring, h5, hon⟩ : ∃ (j : Nat) (ring : List Pt), j < segments ∧ j ≤ i ∧
      quads[j]? = some (ring, k.total / segments * j) ∧ ring.length = 5 ∧ OnOutline ring q := by
    by_cases hlt : i < segments
    · obtain ⟨a, b, c, d, ea, eb, ec, ed, eq⟩ := g i hlt
      refine ⟨i, _, hlt, le_rfl, eq, by simp, 0, flat a, flat b, rfl, rfl, ?_⟩
      exact (beside_between hw0 (by linarith) hq ea eb).1
    · obtain rfl : i = segments := by omega
      obtain ⟨a, b, c, d, ea, eb, ec, ed, eq⟩ := g (i - 1) (by omega)
      rw [Nat.sub_add_cancel hpos] at ec ed
      refine ⟨i - 1, _, by omega, by omega, eq, by simp, 2, flat c, flat d, rfl, rfl, ?_⟩
      exact (beside_between hw0 (by linarith) hq ed ec).2
  have hhit : m ring (outline e.pose e.box) = true := (hm _ _ h5 (outline_length ..)).1 ⟨q, hon, (covers_hull hu hp _ _).mp hcov⟩
  obtain ⟨j', y, hj', hy, hfind⟩ := find_le quads (fun q => m q.1 (outline e.pose e.box)) j _ hring hhit
  have hyj : y.2 = k.total / segments * j' := by
    obtain ⟨a, b, c, d, -, -, -, -, eq⟩ := g j' (by omega)
    rw [eq] at hy
    rw [← Option.some.inj hy]
  have hint : intersectsTrajectory m quads (outline e.pose e.box) = some (k.total / segments * j') := by
    unfold intersectsTrajectory; rw [hfind]; simp [hyj]
  obtain ⟨r, hr1, hr2⟩ := (nearest_spec m quads own others none).2 _ (Or.inr ⟨e, he, hn, hint⟩)
  have hne : quads.isEmpty = false := by
    cases quads with
    | nil => simp at glen; omega
    | cons a l => rfl
  have hstep : 0 ≤ k.total / segments := div_nonneg (total_nonneg waypoints k h) (by positivity)
  refine ⟨r.1, r.2, ?_, ?_, ?_⟩
  · unfold frontByTrajectory
    rw [if_neg (by omega), h, max_eq_right hw0]
    simp only [hquads, detectEntityCollisions, hne, hr1]
    simp
  · rcases (nearest_spec m quads own others none).1 r hr1 with h' | ⟨x, -, -, -, hx⟩
    · cases h'
    · unfold intersectsTrajectory at hx
      obtain ⟨z, hz, hz2⟩ := Option.map_eq_some_iff.mp hx
      obtain ⟨n, hn, hz3⟩ := List.getElem_of_mem (List.mem_of_find?_eq_some hz)
      obtain ⟨a, b, c, d, -, -, -, -, eq⟩ := g n (by omega)
      rw [List.getElem?_eq_getElem hn, hz3] at eq
      rw [← hz2, Option.some.inj eq]
      exact mul_nonneg hstep (by positivity)
  · refine le_trans hr2 (mul_le_mul_of_nonneg_left ?_ hstep)
    exact_mod_cast le_trans hj' hji

/-- **C210** What is reported is another entity, and one that, seen from above, covers a point that is not beyond the four corners of the piece of the
trajectory that starts at the distance reported: the points half of the width to its sides, at its start and at its end. -/
theorem C210_found (m : List Pt → List Pt → Bool) (hm : Tells m) (waypoints : List Pt) (k : Spline) (h : Spline.make waypoints = some k)
    (width : ℝ) (hw : 0 ≤ width) (segments : Nat) (others : List Other) (own : String) (hu : ∀ e ∈ others, Upright e.pose ∧ Proper e.box)
    (hv : ∀ s t, k.tangent s = some t → t.x ≠ 0 ∨ t.y ≠ 0) (name : String) (d : ℝ)
    (hr : frontByTrajectory m waypoints width segments others own = some (some (name, d))) :
    ∃ e ∈ others, e.name = name ∧ name ≠ own ∧ ∃ i : Nat, i < segments ∧ d = k.total / segments * i ∧
      ∃ q0 q1 q2 q3 : Pt, Beside k d (width / 2) q0 ∧ Beside k d (-(width / 2)) q1 ∧ Beside k (k.total / segments * (i + 1)) (-(width / 2)) q2 ∧
        Beside k (k.total / segments * (i + 1)) (width / 2) q3 ∧ ∃ x y, InHull [q0, q1, q2, q3, q0] x y ∧ Covers e x y := by
  unfold frontByTrajectory at hr
  rw [h, max_eq_right hw] at hr
  split at hr
  · cases Option.some.inj hr
  simp only at hr
  split at hr
  · cases hr
  rename_i quads hquads
  have hr := Option.some.inj hr
  unfold detectEntityCollisions at hr
  split at hr
  · cases hr
  rename_i hne
  have hpos : 0 < segments := by
    rcases Nat.eq_zero_or_pos segments with h0 | h0
    · exfalso; apply hne
      unfold quadrilaterals at hquads
      rw [if_pos h0] at hquads
      rw [← Option.some.inj hquads]; rfl
    · exact h0
  obtain ⟨glen, g⟩ := quads_get hquads hpos
  have h2 : 2 ≤ k.cp.length := by
    rcases (quads_some waypoints k h width segments).mp ⟨quads, hquads⟩ with h0 | h0
    · omega
    · exact h0
  rcases (nearest_spec m quads own others none).1 _ hr with h' | ⟨e, he, hno, hname, hx⟩
  · cases h'
  simp only at hname hx
  unfold intersectsTrajectory at hx
  obtain ⟨z, hz, hz2⟩ := Option.map_eq_some_iff.mp hx
  obtain ⟨i, hi, hz3⟩ := List.getElem_of_mem (List.mem_of_find?_eq_some hz)
  have hhit := List.find?_some hz
  rw [glen] at hi
  obtain ⟨a, b, c, f, ea, eb, ec, ef, eq⟩ := g i hi
  rw [List.getElem?_eq_getElem (by omega), hz3] at eq
  have eq := Option.some.inj eq
  have hd : d = k.total / segments * i := by rw [← hz2, eq]
  rw [eq] at hhit
  obtain ⟨x, y, i0, i1⟩ := (hm _ _ (by simp) (outline_length ..)).2 hhit
  obtain ⟨s0, s1⟩ := step_le (total_nonneg waypoints k h) hpos (show i ≤ segments by omega)
  obtain ⟨s2, s3⟩ := step_le (total_nonneg waypoints k h) hpos (show i + 1 ≤ segments by omega)
  obtain ⟨p0, t0, hp0, ht0⟩ := (place_defined waypoints k h _ s0 s1).1 h2
  obtain ⟨p1, t1, hp1, ht1⟩ := (place_defined waypoints k h _ s2 s3).1 h2
  have n0 := hv _ _ ht0
  have n1 := hv _ _ ht1
  have b0 := boundPoint_side hp0 ht0 n0 a ea
  have b1 := boundPoint_side hp0 ht0 n0 b eb
  have b2 := boundPoint_side hp1 ht1 n1 c ec
  have b3 := boundPoint_side hp1 ht1 n1 f ef
  rw [show (1 : ℝ) * 0.5 * width = width / 2 by ring] at b0 b3
  rw [show (-1 : ℝ) * 0.5 * width = -(width / 2) by ring] at b1 b2
  refine ⟨e, he, hname.symm, by rw [hname]; exact hno, i, hi, hd, flat a, flat b, flat c, flat f, ?_, ?_, ?_, ?_, x, y, i0, ?_⟩
  · rw [hd]; exact ⟨p0, t0, hp0, ht0, n0, b0⟩
  · rw [hd]; exact ⟨p0, t0, hp0, ht0, n0, b1⟩
  · rw [← Nat.cast_succ]; exact ⟨p1, t1, hp1, ht1, n1, b2⟩
  · rw [← Nat.cast_succ]; exact ⟨p1, t1, hp1, ht1, n1, b3⟩
  · exact (covers_hull (hu e he).1 (hu e he).2 x y).mpr i1

/-- **C210** The distance that is reported does not depend on the order in which the entities are kept. -/
theorem C210_order (m : List Pt → List Pt → Bool) (waypoints : List Pt) (width : ℝ) (segments : Nat) (others others' : List Other) (own : String)
    (hperm : others.Perm others') :
    (frontByTrajectory m waypoints width segments others own).map (Option.map Prod.snd) =
      (frontByTrajectory m waypoints width segments others' own).map (Option.map Prod.snd) := by
  unfold frontByTrajectory
  split
  · rfl
  split
  · rfl
  split
  · rfl
  rename_i quads _
  unfold detectEntityCollisions
  split
  · rfl
  simp only [Option.map_some, Option.some.injEq]
  have half : ∀ l l' : List Other, l.Perm l' → ∀ r, nearest m quads own l none = some r → ∃ r', nearest m quads own l' none = some r' ∧ r'.2 ≤ r.2 := by
    intro l l' hp r hr
    rcases (nearest_spec m quads own l none).1 r hr with h | ⟨e, he, hn, -, hx⟩
    · cases h
    · exact (nearest_spec m quads own l' none).2 _ (Or.inr ⟨e, hp.mem_iff.mp he, hn, hx⟩)
  rcases h1 : nearest m quads own others none with _ | r <;> rcases h2 : nearest m quads own others' none with _ | r'
  · rfl
  · obtain ⟨x, hx, -⟩ := half _ _ hperm.symm _ h2; rw [h1] at hx; cases hx
  · obtain ⟨x, hx, -⟩ := half _ _ hperm _ h1; rw [h2] at hx; cases hx
  · obtain ⟨x, hx, hx2⟩ := half _ _ hperm _ h1
    obtain ⟨y, hy, hy2⟩ := half _ _ hperm.symm _ h2
    rw [h2] at hx; rw [h1] at hy
    obtain rfl := Option.some.inj hx
    obtain rfl := Option.some.inj hy
    simp only [Option.map_some, Option.some.injEq]
    exact le_antisymm hy2 hx2

/-- **C210** The search fails with an error exactly if all of the waypoints, two or more, are the same point. -/
theorem C210_error (m : List Pt → List Pt → Bool) (waypoints : List Pt) (width : ℝ) (segments : Nat) (others : List Other) (own : String) :
    frontByTrajectory m waypoints width segments others own = none ↔
      2 ≤ waypoints.length ∧ segments ≠ 0 ∧ ∀ p ∈ waypoints, ∀ q ∈ waypoints, p = q := by
  unfold frontByTrajectory
  by_cases hl : waypoints.length < 2
  · rw [if_pos hl]; simp; omega
  rw [if_neg hl]
  obtain ⟨m1, m2⟩ := make_points waypoints
  cases hk : Spline.make waypoints with
  | none =>
    rw [m1] at hk
    subst hk; simp at hl
  | some k =>
    obtain ⟨m3, m4⟩ := m2 k hk
    have hone : 2 ≤ k.cp.length ↔ ¬ ∀ p ∈ waypoints, ∀ q ∈ waypoints, p = q := by
      simp only [← m3]
      match hc : k.cp with
      | [] => simp
      | [a] => simp
      | a :: b :: l =>
        refine ⟨fun _ hall => ?_, fun _ => by simp⟩
        exact m4 0 a b (by rw [hc]; rfl) (by rw [hc]; rfl) (hall a (by simp) b (by simp))
    have hq := quads_some waypoints k hk (max 0 width) segments
    cases hqs : quadrilaterals k (max 0 width) segments with
    | some quads =>
      simp only [hqs, Option.some.injEq, exists_eq', true_iff] at hq
      simp only [hqs, reduceCtorEq, false_iff, not_and]
      rcases hq with h0 | h0
      · intro _ h; exact absurd h0 h
      · exact fun _ _ => hone.mp h0
    | none =>
      simp only [hqs, reduceCtorEq, exists_false, false_iff, not_or] at hq
      simp only [hqs, true_iff]
      refine ⟨by omega, hq.1, ?_⟩
      by_contra hn
      exact hq.2 (hone.mpr hn)

/-- What boost promises can be kept. -/
theorem tells_exists : ∃ m, Tells m := by
  refine ⟨fun r0 r1 => decide (∃ x y, InHull r0 x y ∧ InHull r1 x y), fun r0 r1 h0 h1 => ⟨?_, by simp⟩⟩
  rintro ⟨p, ⟨i, a, b, ha, hb, t, t0, t1, ex, ey⟩, hp⟩
  simp only [decide_eq_true_eq]
  refine ⟨p.x, p.y, ?_, hp⟩
  match r0, h0 with
  | [q0, q1, q2, q3, q4], _ =>
    match i, ha, hb with
    | 0, ha, hb =>
      simp at ha hb; subst ha; subst hb
      exact ⟨[1 - t, t, 0, 0, 0], rfl, by simp [t0, t1], by simp, by simp [ex]; ring, by simp [ey]; ring⟩
    | 1, ha, hb =>
      simp at ha hb; subst ha; subst hb
      exact ⟨[0, 1 - t, t, 0, 0], rfl, by simp [t0, t1], by simp, by simp [ex]; ring, by simp [ey]; ring⟩
    | 2, ha, hb =>
      simp at ha hb; subst ha; subst hb
      exact ⟨[0, 0, 1 - t, t, 0], rfl, by simp [t0, t1], by simp, by simp [ex]; ring, by simp [ey]; ring⟩
    | 3, ha, hb =>
      simp at ha hb; subst ha; subst hb
      exact ⟨[0, 0, 0, 1 - t, t], rfl, by simp [t0, t1], by simp, by simp [ex]; ring, by simp [ey]; ring⟩
    | i + 4, ha, hb => simp at hb

/-- A straight trajectory of 10 m. -/
theorem ten_metres : ∃ k, Spline.make [⟨0, 0, 0⟩, ⟨10, 0, 0⟩] = some k ∧ k.total = 10 ∧
    (∀ s, 0 ≤ s → s ≤ 10 → Beside k s 0 ⟨s, 0, 0⟩) ∧ ∀ s t, k.tangent s = some t → t.x ≠ 0 ∨ t.y ≠ 0 := by
  have hne : (⟨0, 0, 0⟩ : Pt) ≠ ⟨10, 0, 0⟩ := by intro h; simpa using congrArg Pt.x h
  obtain ⟨e1, e2, -, e4⟩ := two_points ⟨0, 0, 0⟩ ⟨10, 0, 0⟩ hne
  have hd : distance ⟨10, 0, 0⟩ ⟨0, 0, 0⟩ = 10 := by
    unfold distance
    rw [show ((10 : ℝ) - 0) ^ 2 + (0 - 0) ^ 2 + (0 - 0) ^ 2 = 10 ^ 2 by norm_num]
    exact Real.sqrt_sq (by norm_num)
  rw [hd] at e2 e4
  refine ⟨_, e1, e2, ?_, ?_⟩
  · intro s h0 h1
    obtain ⟨f1, f2⟩ := e4 s h0 h1
    refine ⟨_, _, f1, f2, Or.inl (by norm_num), ?_, ?_⟩
    · simp only; ring
    · simp only; ring
  · intro s t ht
    simp only [Spline.tangent] at ht
    split at ht
    · obtain rfl := Option.some.inj ht
      left; norm_num [Seg.vector]
    · cases ht

/-- **C210** fails for bridges: an entity a hundred metres above a trajectory on the ground is reported as the entity in front. -/
theorem C210_altitude_violated (m : List Pt → List Pt → Bool) (hm : Tells m) : ∃ (waypoints : List Pt) (e : Other) (d : ℝ),
    (∀ p ∈ waypoints, p.z = 0) ∧ (∀ p, InBox e.pose e.box p → 99 ≤ p.z) ∧ e.name ≠ "ego" ∧
    frontByTrajectory m waypoints 2 50 [e] "ego" = some (some (e.name, d)) := by
  obtain ⟨k, hk, htot, hb, -⟩ := ten_metres
  let e : Other := ⟨"bridge", ⟨⟨5, 0, 100⟩, ⟨0, 0, 0, 1⟩⟩, ⟨⟨0, 0, 0⟩, ⟨4, 20, 2⟩⟩⟩
  have hu : Upright e.pose := by norm_num [Upright, e]
  have hs : k.total / (50 : Nat) * (25 : Nat) = 5 := by rw [htot]; norm_num
  obtain ⟨name, d, h, -, -⟩ := C210_seen_partial m hm [⟨0, 0, 0⟩, ⟨10, 0, 0⟩] (by simp) k hk 2 50 [e] "ego" e (by simp) (by simp [e])
    hu (by norm_num [Proper, e]) 25 (by norm_num) (by norm_num) 0 ⟨5, 0, 0⟩ (by norm_num) (by rw [hs]; exact hb 5 (by norm_num) (by norm_num))
    ⟨100, ⟨0, 0, 0⟩, by norm_num [At, cross, e], by norm_num [e], by norm_num [e], by norm_num [e]⟩
  refine ⟨[⟨0, 0, 0⟩, ⟨10, 0, 0⟩], e, d, by simp, ?_, by simp [e], ?_⟩
  · rintro p ⟨q, ha, -, -, hz⟩
    have := ((at_upright hu _ _).mp ha).2.2
    simp only [e] at this hz
    have hz := abs_le.mp (show |q.z - 0| ≤ 1 by linarith)
    rw [this]; linarith [hz.1]
  · rw [h]
    have hname : name = e.name := by
      unfold frontByTrajectory at h
      rw [if_neg (by simp), hk] at h
      simp only at h
      split at h
      · cases h
      · have h := Option.some.inj h
        unfold detectEntityCollisions at h
        split at h
        · cases h
        · rcases (nearest_spec _ _ _ _ _).1 _ h with h' | ⟨x, hx, -, hn, -⟩
          · cases h'
          · rw [List.mem_singleton.mp hx] at hn; exact hn
    rw [hname]

/-- **C210** fails for entities side by side: which of two entities is reported depends on the order in which they are kept. -/
theorem C210_side_violated (m : List Pt → List Pt → Bool) (hm : Tells m) : ∃ (waypoints : List Pt) (a b : Other) (d : ℝ), a.name ≠ b.name ∧
    frontByTrajectory m waypoints 2 1 [a, b] "ego" = some (some (a.name, d)) ∧
    frontByTrajectory m waypoints 2 1 [b, a] "ego" = some (some (b.name, d)) := by
  obtain ⟨k, hk, htot, hb, -⟩ := ten_metres
  let a : Other := ⟨"left", ⟨⟨5, 1, 0⟩, ⟨0, 0, 0, 1⟩⟩, ⟨⟨0, 0, 0⟩, ⟨20, 2, 2⟩⟩⟩
  let b : Other := ⟨"right", ⟨⟨5, -1, 0⟩, ⟨0, 0, 0, 1⟩⟩, ⟨⟨0, 0, 0⟩, ⟨20, 2, 2⟩⟩⟩
  obtain ⟨quads, hq⟩ := (quads_some _ k hk 2 1).mpr (Or.inr (by
    obtain ⟨c, t, -, ht, -⟩ := hb 0 le_rfl (by norm_num)
    by_contra hlt
    rw [(place_defined _ k hk 0 le_rfl (by rw [htot]; norm_num)).2 (by omega)] at ht
    cases ht))
  obtain ⟨glen, g⟩ := quads_get hq (by norm_num)
  obtain ⟨q0, q1, q2, q3, e0, e1, e2, e3, e4⟩ := g 0 (by norm_num)
  have hbes : Beside k (k.total / (1 : Nat) * (0 : Nat)) 0 ⟨0, 0, 0⟩ := by
    rw [Nat.cast_zero, mul_zero]; exact hb 0 le_rfl (by norm_num)
  have hon : OnOutline [flat q0, flat q1, flat q2, flat q3, flat q0] ⟨0, 0, 0⟩ :=
    ⟨0, flat q0, flat q1, rfl, rfl, (beside_between (by norm_num) (by norm_num) hbes e0 e1).1⟩
  have hit : ∀ x : Other, Upright x.pose → Proper x.box → Covers x 0 0 →
      intersectsTrajectory m quads (outline x.pose x.box) = some (k.total / (1 : Nat) * (0 : Nat)) := by
    intro x hu hp hc
    have hh := (hm _ _ (by simp) (outline_length x.pose x.box)).1 ⟨⟨0, 0, 0⟩, hon, (covers_hull hu hp _ _).mp hc⟩
    match quads, glen with
    | [y], _ =>
      simp only [List.getElem?_cons_zero, Option.some.injEq] at e4
      subst e4
      simp [intersectsTrajectory, hh]
  have ha := hit a (by norm_num [Upright, a]) (by norm_num [Proper, a]) ⟨0, ⟨-5, -1, 0⟩, by norm_num [At, cross, a], by norm_num [a], by norm_num [a], by norm_num [a]⟩
  have hb' := hit b (by norm_num [Upright, b]) (by norm_num [Proper, b]) ⟨0, ⟨-5, 1, 0⟩, by norm_num [At, cross, b], by norm_num [b], by norm_num [b], by norm_num [b]⟩
  have hne : quads.isEmpty = false := by
    match quads, glen with
    | [y], _ => rfl
  have run : ∀ x y : Other, "ego" ≠ x.name → "ego" ≠ y.name →
      intersectsTrajectory m quads (outline x.pose x.box) = some (k.total / (1 : Nat) * (0 : Nat)) →
      intersectsTrajectory m quads (outline y.pose y.box) = some (k.total / (1 : Nat) * (0 : Nat)) →
      frontByTrajectory m [⟨0, 0, 0⟩, ⟨10, 0, 0⟩] 2 1 [x, y] "ego" = some (some (x.name, k.total / (1 : Nat) * (0 : Nat))) := by
    intro x y nx ny hx hy
    unfold frontByTrajectory
    rw [if_neg (by simp), hk, max_eq_right (by norm_num)]
    simp only [hq, detectEntityCollisions, hne, nearest, hx, hy, nx, ny]
    simp
  exact ⟨_, a, b, _, by decide, run a b (by decide) (by decide) ha hb', run b a (by decide) (by decide) hb' ha⟩

/-- A case for `C210_seen_partial` and `C210_found`: the straight trajectory, and an entity on it. -/
example : ∃ (m : List Pt → List Pt → Bool) (k : Spline) (e : Other), Tells m ∧ Spline.make [⟨0, 0, 0⟩, ⟨10, 0, 0⟩] = some k ∧ Upright e.pose ∧ Proper e.box ∧
    Beside k (k.total / (50 : Nat) * (25 : Nat)) 0 ⟨5, 0, 0⟩ ∧ Covers e 5 0 ∧ ∀ s t, k.tangent s = some t → t.x ≠ 0 ∨ t.y ≠ 0 := by
  obtain ⟨m, hm⟩ := tells_exists
  obtain ⟨k, hk, htot, hb, hv⟩ := ten_metres
  refine ⟨m, k, ⟨"car", ⟨⟨5, 0, 0⟩, ⟨0, 0, 1, 0⟩⟩, ⟨⟨0, 0, 1⟩, ⟨4, 2, 2⟩⟩⟩, hm, hk, by norm_num [Upright], by norm_num [Proper], ?_,
    ⟨1, ⟨0, 0, 1⟩, by norm_num [At, cross], by norm_num, by norm_num, by norm_num⟩, hv⟩
  rw [show k.total / (50 : Nat) * (25 : Nat) = 5 by rw [htot]; norm_num]
  exact hb 5 (by norm_num) (by norm_num)

end Verif.Contact
