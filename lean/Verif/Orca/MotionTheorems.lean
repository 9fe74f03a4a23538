import Verif.Orca.SolverTheorems
import Verif.Orca.LineTheorems
import Verif.Orca.PluginSpec
/-
**C172**: how a pedestrian moves in a frame.
-/
namespace Verif.Orca
open Geometry Classical

/- The velocity is level. -/

theorem at_flat {c : Line} (h : c.Good) (t : ℝ) : Flat (c.at t) := by
  have h1 := h.2
  have h2 := h.1.2
  unfold Flat Line.at Pt.add Pt.smul at *
  simp only
  rw [h1, h2]; ring

theorem applyOnLine_flat {before : List Line} {c : Line} {limit : ℝ} {wish r : Pt} {align : Bool} (hp : c.Good)
    (h : applyOnLine before c limit wish align = some r) : Flat r := by
  unfold applyOnLine at h
  cases hi : interval before c limit with
  | none => rw [hi] at h; exact absurd h (by simp)
  | some b =>
    rw [hi] at h
    simp only [Option.map_some, Option.some.injEq] at h
    rw [← h]; exact at_flat hp _

theorem solveFrom_flat {limit : ℝ} {wish : Pt} {align : Bool} : ∀ {rest before : List Line} {r : Pt}, (∀ l ∈ rest, l.Good) →
    Flat r → Flat (solveFrom limit wish align before rest r).2
  | [], _, _, _, h => h
  | l :: rest, before, r, hp, h => by
    unfold solveFrom
    split
    · cases ha : applyOnLine before l limit wish align with
      | none => exact h
      | some r' => exact solveFrom_flat (fun m hm => hp m (by simp [hm])) (applyOnLine_flat (hp l (by simp)) ha)
    · exact solveFrom_flat (fun m hm => hp m (by simp [hm])) h

theorem project_good {li lj q : Line} (hi : li.Good) (hj : lj.Good) (h : project li lj = some (some q)) : q.Good := by
  refine ⟨project_proper hi.1 hj.1 h, ?_⟩
  have h1 := hi.2
  have h2 := hj.2
  have h3 := hi.1.2
  unfold Flat at h1 h2 ⊢
  unfold project at h
  simp only at h
  cases hn : normalize (lj.dir.sub li.dir) with
  | none =>
    rw [hn] at h
    split at h
    · split at h <;> exact absurd h (by simp)
    · exact absurd h (by simp)
  | some d =>
    rw [hn] at h
    split at h
    · split at h
      · exact absurd h (by simp)
      · cases h
        unfold Pt.smul Pt.add; simp only [h1, h2]; ring
    · cases h
      unfold Pt.add Pt.smul; simp only [h1, h3]; ring

theorem projections_good {li : Line} (hi : li.Good) : ∀ {before ps : List Line}, (∀ j ∈ before, j.Good) → projections li before = some ps →
    ∀ q ∈ ps, q.Good
  | [], ps, _, h => by
    unfold projections at h
    simp at h
    subst h; simp
  | j :: before, ps, hb, h => by
    unfold projections at h
    rw [List.mapM_cons] at h
    obtain ⟨q, hq⟩ := project_ok hi.1 (hb j (by simp)).1
    rw [hq] at h
    cases hm : before.mapM (project li) with
    | none => rw [hm] at h; exact absurd h (by simp)
    | some qs =>
      have ih := projections_good hi (before := before) (ps := qs.filterMap id) (fun k hk => hb k (by simp [hk]))
        (by unfold projections; rw [hm]; rfl)
      rw [hm] at h
      cases q with
      | none =>
        simp at h
        subst h
        simpa using ih
      | some q =>
        simp at h
        subst h
        intro q' hq'
        rcases List.mem_cons.mp hq' with rfl | hq'
        · exact project_good hi (hb j (by simp)) hq
        · exact ih q' (by simpa using hq')

theorem resolveFrom_flat {limit : ℝ} : ∀ {rest before : List Line} {d : ℝ} {r v : Pt}, (∀ l ∈ before ++ rest, l.Good) →
    Flat r → resolveFrom limit before rest d r = some v → Flat v
  | [], _, _, r, v, _, h, e => by unfold resolveFrom at e; cases e; exact h
  | l :: rest, before, d, r, v, hp, h, e => by
    have hl := hp l (by simp)
    have hp' : ∀ m ∈ (before ++ [l]) ++ rest, m.Good := fun m hm => hp m (by simpa using hm)
    unfold resolveFrom at e
    split at e
    · obtain ⟨ps, h1, -⟩ := projections_ok hl.1 (before := before) (fun j hj => (hp j (by simp [hj])).1)
      have h2 := projections_good hl (fun j hj => hp j (by simp [hj])) h1
      have hs : solve ps limit ⟨-l.dir.y, l.dir.x, 0⟩ true =
          some (solveFrom limit ⟨-l.dir.y, l.dir.x, 0⟩ true [] ps (Pt.smul ⟨-l.dir.y, l.dir.x, 0⟩ limit)) := rfl
      have hw : Flat (solveFrom limit ⟨-l.dir.y, l.dir.x, 0⟩ true [] ps (Pt.smul ⟨-l.dir.y, l.dir.x, 0⟩ limit)).2 :=
        solveFrom_flat h2 (by unfold Flat Pt.smul; simp)
      generalize solveFrom limit ⟨-l.dir.y, l.dir.x, 0⟩ true [] ps (Pt.smul ⟨-l.dir.y, l.dir.x, 0⟩ limit) = s at hs hw
      rw [h1] at e
      simp only [Option.bind_eq_bind, Option.bind_some] at e
      rw [hs] at e
      simp only [Option.bind_some] at e
      refine resolveFrom_flat hp' ?_ e
      split
      · exact h
      · exact hw
    · exact resolveFrom_flat hp' h e

theorem optimize_flat {lines : List Line} {limit : ℝ} {wish v : Pt} (hp : ∀ l ∈ lines, l.Good) (hw : Flat wish)
    (h : optimize lines limit wish false = some v) : Flat v := by
  unfold optimize solve at h
  cases hf : firstChoice limit wish false with
  | none => rw [hf] at h; exact absurd h (by simp)
  | some r =>
    rw [hf] at h
    simp only [Option.map_some, Option.bind_eq_bind, Option.bind_some] at h
    have hr : Flat r := by
      unfold firstChoice at hf
      rw [if_neg (by simp)] at hf
      unfold Flat at hw ⊢
      split at hf
      · cases hn : normalize wish with
        | none => rw [hn] at hf; exact absurd hf (by simp)
        | some d =>
          rw [hn] at hf
          cases hf
          obtain ⟨-, rfl⟩ := normalize_some hn
          unfold Pt.smul; simp only; rw [hw]; ring
      · cases hf; exact hw
    have := solveFrom_flat (limit := limit) (wish := wish) (align := false) (before := []) hp hr
    split at h
    · exact resolveFrom_flat (by rw [List.take_append_drop]; exact hp) this h
    · cases h; exact this

/- The lines are proper and level. -/

theorem radius_pos {b : BBox} (θ a : ℝ) (hs : Solid b) : 0 < radius b θ a := by
  obtain ⟨h1, h2⟩ := hs
  unfold radius
  simp only
  have hq : 0 < Real.sqrt 2 := Real.sqrt_pos.mpr (by norm_num)
  apply div_pos (by positivity)
  apply Real.sqrt_pos.mpr
  by_cases hc : Real.cos (θ - a) = 0
  · have hs : Real.sin (θ - a) ≠ 0 := by
      intro hs; have := Real.sin_sq_add_cos_sq (θ - a); rw [hc, hs] at this; norm_num at this
    rw [hc]
    have := mul_self_pos.mpr (mul_ne_zero (by positivity : b.dims.x * (1 / 2) * Real.sqrt 2 ≠ 0) hs)
    linarith [mul_self_nonneg (b.dims.y * (1 / 2) * Real.sqrt 2 * 0)]
  · have := mul_self_pos.mpr (mul_ne_zero (by positivity : b.dims.y * (1 / 2) * Real.sqrt 2 ≠ 0) hc)
    linarith [mul_self_nonneg (b.dims.x * (1 / 2) * Real.sqrt 2 * Real.sin (θ - a))]

theorem normal_unit {w : Pt} (hw : Flat w) (h0 : inner w w ≠ 0) :
    (w.smul (1 / Real.sqrt (inner w w))).y ^ 2 + ((w.smul (1 / Real.sqrt (inner w w))).x * -1) ^ 2 = 1 := by
  have hwi : inner w w = w.x ^ 2 + w.y ^ 2 := by unfold inner; unfold Flat at hw; rw [hw]; ring
  have hpos : 0 < inner w w := lt_of_le_of_ne (by rw [hwi]; positivity) (Ne.symm h0)
  have hq : Real.sqrt (inner w w) ^ 2 = inner w w := Real.sq_sqrt hpos.le
  have hq0 : 0 < Real.sqrt (inner w w) := Real.sqrt_pos.mpr hpos
  generalize Real.sqrt (inner w w) = q at *
  unfold Pt.smul
  simp only
  have : (w.y * (1 / q)) ^ 2 + (w.x * (1 / q) * -1) ^ 2 = (w.x ^ 2 + w.y ^ 2) * (1 / q) ^ 2 := by ring
  rw [this, ← hwi, ← hq]; field_simp

theorem orcaLine_good {own p v : Pt} {box box' : BBox} {angle angle' step : ℝ} {l : Line} (ho : Flat own) (hp : Flat p) (hv : Flat v)
    (hb : Solid box) (hb' : Solid box') (h : orcaLine own p v box angle box' angle' step = some l) : l.Good := by
  unfold orcaLine at h
  have hr : 0 < combinedRadius p box angle box' angle' := by
    unfold combinedRadius; exact add_pos (radius_pos _ _ hb) (radius_pos _ _ hb')
  generalize combinedRadius p box angle box' angle' = r at *
  cases hc : change r step p v with
  | none => rw [hc] at h; exact absurd h (by simp)
  | some c =>
    rw [hc] at h
    simp only [Option.map_some, Option.some.injEq] at h
    subst h
    have key : c.1.x ^ 2 + c.1.y ^ 2 = 1 ∧ c.1.z = 0 ∧ Flat c.2 := by
      unfold change at hc
      split at hc
      · rename_i hd
        simp only at hc
        have hwf : Flat (v.sub (p.smul (1 / 5))) := by
          unfold Flat Pt.sub Pt.smul at *; simp only [hp, hv]; ring
        generalize v.sub (p.smul (1 / 5)) = w at *
        split at hc
        · rename_i hcond
          cases hc
          have h0 : inner w w ≠ 0 := by
            intro h0
            have hwi : inner w w = w.x ^ 2 + w.y ^ 2 := by unfold inner; unfold Flat at hwf; rw [hwf]; ring
            have hx : w.x = 0 := by nlinarith [sq_nonneg w.x, sq_nonneg w.y]
            have hy : w.y = 0 := by nlinarith [sq_nonneg w.x, sq_nonneg w.y]
            rw [hx, hy] at hcond; simp at hcond
          refine ⟨?_, rfl, ?_⟩
          · unfold roundedEnd; exact normal_unit hwf h0
          · unfold roundedEnd Flat Pt.smul; simp
        · cases hc
          obtain ⟨-, h2⟩ := leg_dir (v := v) (w := w) hr hp hd
          refine ⟨h2, ?_, ?_⟩
          · unfold leg; simp only; split
            · rfl
            · unfold Pt.smul; simp
          · unfold leg Flat Pt.sub Pt.smul
            unfold Flat at hv
            simp only
            rw [hv]
            split <;> simp
      · unfold overlap at hc
        simp only at hc
        have hwf : Flat (v.sub (p.smul (1 / step))) := by
          unfold Flat Pt.sub Pt.smul at *; simp only [hp, hv]; ring
        generalize v.sub (p.smul (1 / step)) = w at *
        split at hc
        · exact absurd hc (by simp)
        · rename_i h0
          cases hc
          refine ⟨normal_unit hwf h0, rfl, ?_⟩
          unfold Flat Pt.smul at *; simp only [hwf]; ring
    refine ⟨⟨key.1, key.2.1⟩, ?_⟩
    have h3 := key.2.2
    unfold Flat Pt.add Pt.smul at *
    simp only [ho, h3]; ring

theorem occurs_iff (pattern : List Char) : ∀ s, occurs pattern s = true ↔ ∃ a b, s = a ++ pattern ++ b
  | [] => by
    unfold occurs
    rw [List.isPrefixOf_iff_prefix, List.prefix_nil]
    constructor
    · rintro rfl; exact ⟨[], [], rfl⟩
    · rintro ⟨a, b, h⟩
      have := congrArg List.length h
      simp at this
      exact List.length_eq_zero_iff.mp (by omega)
  | c :: s => by
    unfold occurs
    rw [Bool.or_eq_true, List.isPrefixOf_iff_prefix, occurs_iff pattern s]
    constructor
    · rintro (⟨b, h⟩ | ⟨a, b, h⟩)
      · exact ⟨[], b, by rw [List.nil_append]; exact h.symm⟩
      · exact ⟨c :: a, b, by rw [h]; rfl⟩
    · rintro ⟨a, b, h⟩
      cases a with
      | nil => exact .inl ⟨b, by rw [h]; rfl⟩
      | cons x a =>
        rw [List.cons_append, List.cons_append] at h
        cases h
        exact .inr ⟨a, b, rfl⟩

theorem marked_iff (name : List Char) : occurs mark name = true ↔ Marked name := occurs_iff mark name

theorem linesOf_good {own : Body} {others : List Body} {step : ℝ} (h : OneLevel (own :: others)) : ∀ l ∈ linesOf own others step, l.Good := by
  obtain ⟨z, h⟩ := h
  obtain ⟨h1, h2, h3⟩ := h own (by simp)
  intro l hl
  unfold linesOf at hl
  obtain ⟨o, ho, hl⟩ := List.mem_filterMap.mp hl
  obtain ⟨g1, g2, g3⟩ := h o (by simp only [List.mem_filter] at ho; simp [ho.1])
  refine orcaLine_good ?_ ?_ ?_ h3 g3 hl
  · exact h2
  · unfold Flat Pt.sub Body.middle; simp only; rw [h1, g1]; ring
  · unfold Flat Pt.sub Body.globalVelocity; simp only; rw [h2, g2]; ring

/-- **C172** Entities whose names have the mark make no difference. -/
theorem C172_ignored (own o : Body) (before after : List Body) (goal : Pt) (speed : Option (Option ℝ)) (step : ℝ) (h : Marked o.name) :
    move own (before ++ o :: after) goal speed step = move own (before ++ after) goal speed step := by
  have : linesOf own (before ++ o :: after) step = linesOf own (before ++ after) step := by
    unfold linesOf
    rw [List.filter_append, List.filter_cons_of_neg (by rw [(marked_iff _).mpr h]; simp), ← List.filter_append]
  unfold move
  rw [this]

theorem heading {v : Pt} (h : v.x ≠ 0 ∨ v.y ≠ 0) (hv : Flat v) : v.norm * Real.cos (atan2 v.y v.x) = v.x ∧ v.norm * Real.sin (atan2 v.y v.x) = v.y := by
  have hn : v.norm = ‖(⟨v.x, v.y⟩ : ℂ)‖ := by
    unfold Flat at hv
    unfold Pt.norm
    rw [Complex.norm_def, Complex.normSq_apply, hv]
    congr 1; simp only; ring
  have h0 : (⟨v.x, v.y⟩ : ℂ) ≠ 0 := by
    intro hx
    have h1 := congrArg Complex.re hx
    have h2 := congrArg Complex.im hx
    simp only [Complex.zero_re, Complex.zero_im] at h1 h2
    exact h.elim (· h1) (· h2)
  have hp : ‖(⟨v.x, v.y⟩ : ℂ)‖ ≠ 0 := norm_ne_zero_iff.mpr h0
  unfold atan2
  rw [Complex.cos_arg h0, Complex.sin_arg, hn]
  simp only
  constructor <;> field_simp

/-- How a pedestrian with a level velocity is moved. -/
theorem moved_spec (b : Body) (v : Pt) (step : ℝ) (hv : Flat v) :
    0 ≤ (moved b v step).velocity.x ∧ (moved b v step).velocity.x ^ 2 = v.x ^ 2 + v.y ^ 2 ∧
      (moved b v step).position.x = b.position.x + (moved b v step).velocity.x * Real.cos (moved b v step).yaw * step ∧
      (moved b v step).position.y = b.position.y + (moved b v step).velocity.x * Real.sin (moved b v step).yaw * step ∧
      ((moved b v step).velocity.x = 0 → (moved b v step).yaw = b.yaw) := by
  have hn := norm_sq v
  have hv' := hv
  unfold Flat at hv'
  rw [hv'] at hn
  unfold moved
  simp only
  refine ⟨Real.sqrt_nonneg _, by rw [hn]; ring, ?_⟩
  by_cases h : v.x ≠ 0 ∨ v.y ≠ 0
  · obtain ⟨h1, h2⟩ := heading h hv
    rw [if_pos h, h1, h2]
    refine ⟨rfl, rfl, fun h0 => ?_⟩
    rw [h0] at h1 h2
    simp only [zero_mul] at h1 h2
    exact absurd h (by rw [← h1, ← h2]; simp)
  · rw [if_neg h]
    rw [not_or, not_not, not_not] at h
    have h0 : v.norm = 0 := by
      rw [h.1, h.2] at hn
      have : v.norm ^ 2 = 0 := by rw [hn]; ring
      exact pow_eq_zero_iff (by norm_num) |>.mp this
    rw [h.1, h.2, h0]
    simp

theorem wish_flat {own : Body} {goal : Pt} (h : goal.z = own.position.z) : Flat (goal.sub own.middle) := by
  unfold Flat Pt.sub Body.middle; simp only; rw [h]; ring

/-- **C172** In a frame the pedestrian moves straight on in its new heading, at the speed that it then reports, and this is at most the speed
planned. Partial: on one level. -/
theorem C172_moves_partial (own own' : Body) (others : List Body) (goal : Pt) (limit step : ℝ) (hl : OneLevel (own :: others)) (h0 : 0 ≤ limit)
    (hg : goal.z = own.position.z) (h : move own others goal (some (some limit)) step = some own') :
    0 ≤ own'.velocity.x ∧ own'.velocity.x ≤ limit ∧
      own'.position.x = own.position.x + own'.velocity.x * Real.cos own'.yaw * step ∧
      own'.position.y = own.position.y + own'.velocity.x * Real.sin own'.yaw * step ∧ own'.position.z = own.position.z ∧
      own'.box = own.box ∧ own'.name = own.name := by
  unfold move velocityFor at h
  simp only at h
  cases hv : optimize (linesOf own others step) limit (goal.sub own.middle) false with
  | none => rw [hv] at h; exact absurd h (by simp)
  | some v =>
    rw [hv] at h
    simp only [Option.map_some, Option.some.injEq] at h
    subst h
    have hgood := linesOf_good (step := step) hl
    have hf := optimize_flat hgood (wish_flat hg) hv
    have hw := C169_speed _ _ _ _ _ (fun l hl => (hgood l hl).1) (by simp) hv
    obtain ⟨m1, m2, m3, m4, -⟩ := moved_spec own v step hf
    refine ⟨m1, ?_, m3, m4, rfl, rfl, rfl⟩
    unfold Within at hw
    unfold Flat at hf
    rw [hf] at hw
    nlinarith

/-- **C172** Without a speed to walk at, or at the speed zero, the pedestrian stays where it is and keeps its heading. Partial: on one level. -/
theorem C172_stands_partial (own own' : Body) (others : List Body) (goal : Pt) (speed : Option (Option ℝ)) (step : ℝ)
    (hl : OneLevel (own :: others)) (hs : speed = none ∨ speed = some (some 0)) (hg : goal.z = own.position.z)
    (h : move own others goal speed step = some own') : own'.position = own.position ∧ own'.yaw = own.yaw ∧ own'.velocity.x = 0 := by
  have h' : (optimize (linesOf own others step) 0 (goal.sub own.middle) false).map (moved own · step) = some own' := by
    rcases hs with rfl | rfl <;> exact h
  cases hv : optimize (linesOf own others step) 0 (goal.sub own.middle) false with
  | none => rw [hv] at h'; exact absurd h' (by simp)
  | some v =>
    rw [hv] at h'
    simp only [Option.map_some, Option.some.injEq] at h'
    subst h'
    have hgood := linesOf_good (step := step) hl
    have hf := optimize_flat hgood (wish_flat hg) hv
    have hw := C169_speed _ _ _ _ _ (fun l hl => (hgood l hl).1) (by simp) hv
    obtain ⟨m1, m2, m3, m4, m5⟩ := moved_spec own v step hf
    unfold Within at hw
    have h0 : (moved own v step).velocity.x = 0 := by nlinarith [sq_nonneg v.z]
    rw [h0] at m3 m4
    refine ⟨?_, m5 h0, h0⟩
    ext
    · rw [m3]; ring
    · rw [m4]; ring
    · rfl

/-- **C172** With no other entity to mind, the pedestrian moves straight towards the goal, at the speed planned, or slower: it would be there in one
second. -/
theorem C172_free (own : Body) (others : List Body) (goal : Pt) (limit step : ℝ) (h0 : 0 ≤ limit) (ho : ∀ o ∈ others, Marked o.name)
    (hc : Centered own) (hg : goal.z = own.position.z)
    (hw : ¬ Near (1 / 2 ^ 51) own.position goal) :
    ∃ own' k, move own others goal (some (some limit)) step = some own' ∧ 0 ≤ k ∧ k ≤ 1 ∧
      own'.position.x = own.position.x + (goal.x - own.position.x) * k * step ∧
      own'.position.y = own.position.y + (goal.y - own.position.y) * k * step ∧
      (k = 1 ∨ k ^ 2 * ((goal.x - own.position.x) ^ 2 + (goal.y - own.position.y) ^ 2) = limit ^ 2) := by
  have hl : linesOf own others step = [] := by
    unfold linesOf
    rw [List.filter_eq_nil_iff.mpr (fun o h => by rw [(marked_iff _).mpr (ho o h)]; simp)]
    rfl
  have hwish : goal.sub own.middle = ⟨goal.x - own.position.x, goal.y - own.position.y, 0⟩ := by
    unfold Pt.sub Body.middle
    rw [hc.1, hc.2, hg]
    ext <;> simp
  unfold move velocityFor
  simp only
  rw [hl, hwish]
  generalize hx : goal.x - own.position.x = x at *
  generalize hy : goal.y - own.position.y = y at *
  have hn : Pt.norm ⟨x, y, 0⟩ ^ 2 = x ^ 2 + y ^ 2 := by rw [norm_sq]; simp
  have hn0 : 0 ≤ Pt.norm ⟨x, y, 0⟩ := Real.sqrt_nonneg _
  have hbig : (1 / 2 ^ 51) ^ 2 ≤ x ^ 2 + y ^ 2 := by
    unfold Near at hw
    rw [not_lt] at hw
    rw [← hx, ← hy]
    nlinarith
  have hno : ¬ |Pt.norm ⟨x, y, 0⟩| ≤ eps := by
    rw [abs_of_nonneg hn0, not_le]
    have : (1 : ℝ) / 2 ^ 51 ≤ Pt.norm ⟨x, y, 0⟩ := by
      apply le_of_sq_le_sq _ hn0
      rw [hn]; exact hbig
    unfold eps
    refine lt_of_lt_of_le ?_ this
    norm_num
  unfold optimize solve firstChoice
  rw [if_neg (by simp)]
  by_cases hlt : limit * limit < inner ⟨x, y, 0⟩ ⟨x, y, 0⟩
  · rw [if_pos hlt]
    unfold Geometry.normalize
    rw [if_neg hno]
    have hpos : 0 < Pt.norm ⟨x, y, 0⟩ := by
      rcases hn0.lt_or_eq with h | h
      · exact h
      · rw [← h] at hno; simp [eps] at hno
    unfold inner at hlt
    simp only at hlt
    refine ⟨_, limit / Pt.norm ⟨x, y, 0⟩, by simp [solveFrom]; rfl, by positivity, ?_, ?_, ?_, .inr ?_⟩
    · rw [div_le_one hpos]
      apply le_of_sq_le_sq _ hn0
      rw [hn]; nlinarith
    · unfold moved Pt.smul; simp only; field_simp
    · unfold moved Pt.smul; simp only; field_simp
    · rw [← hn]; field_simp
  · rw [if_neg hlt]
    refine ⟨_, 1, by simp [solveFrom]; rfl, by norm_num, le_refl _, ?_, ?_, .inl rfl⟩
    · unfold moved; simp
    · unfold moved; simp

/-- **C172 is violated** on a trajectory without times, where the speed planned is not a number: whatever the speed asked for, the pedestrian moves
as if to be at the goal in one second. -/
theorem C172_unlimited_violated (own : Body) (goal : Pt) (step : ℝ) (hc : Centered own) (hg : goal.z = own.position.z) :
    ∃ own', move own [] goal (some none) step = some own' ∧ own'.position.x = own.position.x + (goal.x - own.position.x) * step ∧
      own'.position.y = own.position.y + (goal.y - own.position.y) * step ∧
      own'.velocity.x ^ 2 = (goal.x - own.position.x) ^ 2 + (goal.y - own.position.y) ^ 2 := by
  refine ⟨moved own (goal.sub own.middle) step, rfl, ?_, ?_, ?_⟩
  · unfold moved Pt.sub Body.middle; simp [hc.1, hc.2]
  · unfold moved Pt.sub Body.middle; simp [hc.1, hc.2]
  · rw [(moved_spec _ _ _ (wish_flat hg)).2.1]
    unfold Pt.sub Body.middle; simp [hc.1, hc.2]

/-- **C172** Two of these pedestrians who are apart, and whose relative velocity is beside the near end, are still apart after a frame, and would be so
for all time if they went on, whatever other entities are around. Partial: on one level; both find a velocity that all their lines allow; every two
lines are parallel or clearly not so. -/
theorem C172_pair_partial (a b a' b' : Body) (othersA othersB : List Body) (goalA goalB : Pt) (limitA limitB step direction r r' t : ℝ)
    (ha : OneLevel (a :: othersA)) (hb : OneLevel (b :: othersB)) (hab : b ∈ othersA) (hba : a ∈ othersB) (ma : ¬ Marked a.name) (mb : ¬ Marked b.name)
    (ca : Centered a) (cb : Centered b) (ga : goalA.z = a.position.z) (gb : goalB.z = b.position.z) (la : 0 ≤ limitA) (lb : 0 ≤ limitB)
    (ht : Towards (b.position.sub a.position) direction) (h : Reaches a.box a.yaw direction r) (h' : Reaches b.box b.yaw direction r')
    (apart : (r + r') ^ 2 ≤ apartAfter (b.position.sub a.position) (onMap a) (onMap b) 0)
    (beside : Beside (r + r') (b.position.sub a.position) (onMap a) (onMap b))
    (fa : AllClear (linesOf a othersA step)) (fb : AllClear (linesOf b othersB step))
    (pa : ∃ u, Possible (linesOf a othersA step) limitA u) (pb : ∃ u, Possible (linesOf b othersB step) limitB u)
    (mva : move a othersA goalA (some (some limitA)) step = some a') (mvb : move b othersB goalB (some (some limitB)) step = some b')
    (h0 : 0 ≤ t) (hstep : 0 ≤ step) :
    (r + r') ^ 2 ≤ (b'.position.x - a'.position.x) ^ 2 + (b'.position.y - a'.position.y) ^ 2 ∧
      (r + r') ^ 2 ≤ apartAfter (b.position.sub a.position) (onMap { a' with velocity := ⟨a'.velocity.x, 0, 0⟩ })
        (onMap { b' with velocity := ⟨b'.velocity.x, 0, 0⟩ }) t := by
  have ha' := ha
  obtain ⟨z, haz⟩ := ha'
  obtain ⟨z1, z2, z3⟩ := haz a (by simp)
  obtain ⟨w1, w2, w3⟩ := haz b (by simp [hab])
  unfold move velocityFor at mva mvb
  simp only at mva mvb
  cases hva : optimize (linesOf a othersA step) limitA (goalA.sub a.middle) false with
  | none => rw [hva] at mva; exact absurd mva (by simp)
  | some v =>
    cases hvb : optimize (linesOf b othersB step) limitB (goalB.sub b.middle) false with
    | none => rw [hvb] at mvb; exact absurd mvb (by simp)
    | some o =>
      rw [hva] at mva
      rw [hvb] at mvb
      simp only [Option.map_some, Option.some.injEq] at mva mvb
      obtain ⟨ua, hua⟩ := pa
      obtain ⟨ub, hub⟩ := pb
      obtain ⟨⟨v1, v2, v3⟩, -⟩ := C169_best_partial _ _ _ _ _ (linesOf_good ha) fa la (wish_flat ga) hua hva
      obtain ⟨⟨o1, o2, o3⟩, -⟩ := C169_best_partial _ _ _ _ _ (linesOf_good hb) fb lb (wish_flat gb) hub hvb
      have ea : a.middle = a.position := by unfold Body.middle; rw [ca.1, ca.2]; ext <;> simp
      have eb : b.middle = b.position := by unfold Body.middle; rw [cb.1, cb.2]; ext <;> simp
      have hp : Flat (b.position.sub a.position) := by unfold Flat Pt.sub; simp only; rw [z1, w1]; ring
      have hop : opposite (b.position.sub a.position) = a.position.sub b.position := by unfold opposite Pt.sub; simp
      -- the two lines
      have key : ∀ s, 0 ≤ s → (r + r') ^ 2 ≤ apartAfter (b.position.sub a.position) v o s := by
        intro s hs
        have hrr : 0 < r + r' := add_pos h.1 h'.1
        have hd : (r + r') * (r + r') ≤ inner (b.position.sub a.position) (b.position.sub a.position) := by
          unfold apartAfter at apart
          unfold Flat at hp
          unfold inner
          rw [hp]
          nlinarith
        have hd' : (r + r') * (r + r') ≤ inner (opposite (b.position.sub a.position)) (opposite (b.position.sub a.position)) := by
          have : ∀ p : Pt, inner (opposite p) (opposite p) = inner p p := by intro p; unfold inner opposite; simp only; ring
          rw [this]; exact hd
        obtain ⟨own, hown⟩ : ∃ own, orcaLine a.globalVelocity (b.position.sub a.position) (a.globalVelocity.sub b.globalVelocity) a.box a.yaw b.box b.yaw step = some own := by
          unfold orcaLine
          rw [combined_eq z3 w3 ht h h', change_leg (v := a.globalVelocity) (o := b.globalVelocity) hp z2 w2 hd beside]
          exact ⟨_, rfl⟩
        obtain ⟨other, hother⟩ : ∃ other, orcaLine b.globalVelocity (opposite (b.position.sub a.position)) (b.globalVelocity.sub a.globalVelocity) b.box b.yaw a.box a.yaw step = some other := by
          unfold orcaLine
          rw [combined_opposite z3 w3 ht h h', change_leg (v := b.globalVelocity) (o := a.globalVelocity) (flat_opposite hp) w2 z2 hd' (beside_opposite (v := a.globalVelocity) (o := b.globalVelocity) beside)]
          exact ⟨_, rfl⟩
        refine C171_apart_partial _ a.globalVelocity b.globalVelocity v o a.box b.box a.yaw b.yaw direction r r' step z3 w3 hp z2 w2 ht h h' apart beside own other hown hother
          (v3 own ?_) (o3 other ?_) s hs
        · unfold linesOf
          refine List.mem_filterMap.mpr ⟨b, List.mem_filter.mpr ⟨hab, ?_⟩, by rw [ea, eb]; exact hown⟩
          simpa using fun hx => mb ((marked_iff _).mp hx)
        · unfold linesOf
          refine List.mem_filterMap.mpr ⟨a, List.mem_filter.mpr ⟨hba, ?_⟩, by rw [ea, eb, ← hop]; exact hother⟩
          simpa using fun hx => ma ((marked_iff _).mp hx)
      have va := moved_spec a v step v1
      have vb := moved_spec b o step o1
      rw [mva] at va
      rw [mvb] at vb
      have pax : a'.position.x = a.position.x + v.x * step ∧ a'.position.y = a.position.y + v.y * step := by rw [← mva]; exact ⟨rfl, rfl⟩
      have pbx : b'.position.x = b.position.x + o.x * step ∧ b'.position.y = b.position.y + o.y * step := by rw [← mvb]; exact ⟨rfl, rfl⟩
      constructor
      · have := key step hstep
        unfold apartAfter Pt.sub at this
        simp only at this
        rw [pax.1, pax.2, pbx.1, pbx.2]
        refine this.trans (le_of_eq ?_)
        ring
      · have hdir : ∀ (c c' : Body) (u : Pt), Flat u → moved c u step = c' → c'.velocity.x * Real.cos c'.yaw = u.x ∧ c'.velocity.x * Real.sin c'.yaw = u.y := by
          intro c c' u hu hm
          rw [← hm]
          unfold moved
          simp only
          by_cases hq : u.x ≠ 0 ∨ u.y ≠ 0
          · rw [if_pos hq]; exact heading hq hu
          · rw [if_neg hq]
            rw [not_or, not_not, not_not] at hq
            have : u.norm = 0 := by
              unfold Pt.norm; unfold Flat at hu; rw [hq.1, hq.2, hu]; simp
            rw [this, hq.1, hq.2]; simp
        obtain ⟨d1, d2⟩ := hdir a a' v v1 mva
        obtain ⟨d3, d4⟩ := hdir b b' o o1 mvb
        have := key t h0
        unfold apartAfter onMap at *
        simp only [zero_mul, sub_zero, add_zero]
        rw [d1, d2, d3, d4]
        exact this

/-- A cart in the middle of its box, on the level zero, which heads east. -/
noncomputable def cartAt (name : String) (x speed : ℝ) : Body := ⟨name.toList, ⟨x, 0, 0⟩, 0, ⟨speed, 0, 0⟩, cart⟩

theorem cartAt_level (l : List (String × ℝ × ℝ)) : OneLevel (l.map fun c => cartAt c.1 c.2.1 c.2.2) :=
  ⟨0, by intro b hb; obtain ⟨c, -, rfl⟩ := List.mem_map.mp hb; exact ⟨rfl, rfl, cart_solid⟩⟩

/-- `C172_free`, `C172_moves_partial` and `C172_stands_partial` on a cart alone with the goal 10 m ahead. -/
example : ∃ own' k, move (cartAt "a" 0 1) [] ⟨10, 0, 0⟩ (some (some 1)) (1 / 30) = some own' ∧ own'.velocity.x ≤ 1 ∧
    own'.position.x = 0 + (10 - 0) * k * (1 / 30) ∧ (k = 1 ∨ k ^ 2 * 100 = 1) := by
  obtain ⟨own', k, h, -, -, h1, -, h2⟩ := C172_free (cartAt "a" 0 1) [] ⟨10, 0, 0⟩ 1 (1 / 30) (by norm_num) (by simp) ⟨rfl, rfl⟩ rfl
    (by unfold Near cartAt; norm_num)
  have := C172_moves_partial (cartAt "a" 0 1) own' [] ⟨10, 0, 0⟩ 1 (1 / 30) (cartAt_level [("a", 0, 1)]) (by norm_num) rfl h
  refine ⟨own', k, h, this.2.1, h1, h2.imp id fun h2 => ?_⟩
  unfold cartAt at h2
  norm_num at h2 ⊢
  linarith

example : ∃ own', move (cartAt "a" 0 1) [] ⟨10, 0, 0⟩ none (1 / 30) = some own' ∧ own'.position = ⟨0, 0, 0⟩ := by
  obtain ⟨v, hv⟩ := C169_returns (linesOf (cartAt "a" 0 1) [] (1 / 30)) 0 (Pt.sub ⟨10, 0, 0⟩ (cartAt "a" 0 1).middle) false (by simp [linesOf])
    (.inr (.inr (by unfold Pt.sub Body.middle cartAt cart; norm_num)))
  have h : move (cartAt "a" 0 1) [] ⟨10, 0, 0⟩ none (1 / 30) = some (moved (cartAt "a" 0 1) v (1 / 30)) := by
    unfold move velocityFor; simp only; rw [hv]; rfl
  exact ⟨_, h, (C172_stands_partial (cartAt "a" 0 1) _ [] ⟨10, 0, 0⟩ none (1 / 30) (cartAt_level [("a", 0, 1)]) (.inl rfl) rfl h).1⟩

/-- A name with the mark. -/
example : Marked "goal__CONTEXT_GAMMA_IGNORE__1".toList := ⟨"goal".toList, "1".toList, by decide +kernel⟩

theorem one_line {own o : Body} {step : ℝ} : AllClear (linesOf own [o] step) := by
  have : ∀ a ∈ linesOf own [o] step, ∀ b ∈ linesOf own [o] step, a = b := by
    unfold linesOf
    cases hm : occurs mark o.name with
    | true => rw [List.filter_cons_of_neg (by simp [hm])]; simp
    | false =>
      rw [List.filter_cons_of_pos (by simp [hm]), List.filter_nil]
      intro a ha b hb
      simp only [List.mem_filterMap, List.mem_singleton, exists_eq_left] at ha hb
      rw [ha] at hb
      exact Option.some.inj hb
  intro a ha b hb
  rw [this a ha b hb]
  exact .inl (by ring)

theorem one_possible {own o : Body} {step : ℝ} (h : OneLevel [own, o]) : ∃ limit, 0 ≤ limit ∧ ∃ u, Possible (linesOf own [o] step) limit u := by
  have hg := linesOf_good (step := step) h
  cases hl : linesOf own [o] step with
  | nil => exact ⟨0, le_refl _, ⟨0, 0, 0⟩, rfl, by unfold Within; norm_num, by simp⟩
  | cons l rest =>
    have all : ∀ b ∈ l :: rest, b = l := by
      unfold linesOf at hl
      intro b hb
      have h1 : b ∈ linesOf own [o] step := by unfold linesOf; rw [hl]; exact hb
      have h2 : l ∈ linesOf own [o] step := by unfold linesOf; rw [hl]; simp
      unfold linesOf at h1 h2
      obtain ⟨c, hc, h1⟩ := List.mem_filterMap.mp h1
      obtain ⟨d, hd, h2⟩ := List.mem_filterMap.mp h2
      have ec := List.mem_singleton.mp (List.mem_filter.mp hc).1
      have ed := List.mem_singleton.mp (List.mem_filter.mp hd).1
      rw [ec] at h1
      rw [ed, h1] at h2
      exact Option.some.inj h2
    refine ⟨l.point.norm, Real.sqrt_nonneg _, l.point, (hg l (by rw [hl]; simp)).2, ?_, ?_⟩
    · unfold Within; rw [norm_sq]
    · intro b hb
      rw [all b hb]
      unfold Allows excess
      exact le_of_eq (by ring)

/-- `C172_pair_partial` on two carts that drive towards each other: with high enough limits both find velocities, and stay apart. -/
example : ∃ limitA limitB a' b', move (cartAt "a" 0 6) [cartAt "b" 10 (-6)] ⟨20, 0, 0⟩ (some (some limitA)) (1 / 30) = some a' ∧
    move (cartAt "b" 10 (-6)) [cartAt "a" 0 6] ⟨-10, 0, 0⟩ (some (some limitB)) (1 / 30) = some b' ∧
    18 ≤ (b'.position.x - a'.position.x) ^ 2 + (b'.position.y - a'.position.y) ^ 2 := by
  have hl : OneLevel [cartAt "a" 0 6, cartAt "b" 10 (-6)] := cartAt_level [("a", 0, 6), ("b", 10, -6)]
  have hl' : OneLevel [cartAt "b" 10 (-6), cartAt "a" 0 6] := cartAt_level [("b", 10, -6), ("a", 0, 6)]
  obtain ⟨limitA, la, pa⟩ := one_possible (step := 1 / 30) hl
  obtain ⟨limitB, lb, pb⟩ := one_possible (step := 1 / 30) hl'
  obtain ⟨v, hv⟩ := C169_returns (linesOf (cartAt "a" 0 6) [cartAt "b" 10 (-6)] (1 / 30)) limitA (Pt.sub ⟨20, 0, 0⟩ (cartAt "a" 0 6).middle) false
    (fun l h => (linesOf_good hl l h).1) (.inr (.inr (by unfold Pt.sub Body.middle cartAt cart; norm_num)))
  obtain ⟨o, ho⟩ := C169_returns (linesOf (cartAt "b" 10 (-6)) [cartAt "a" 0 6] (1 / 30)) limitB (Pt.sub ⟨-10, 0, 0⟩ (cartAt "b" 10 (-6)).middle) false
    (fun l h => (linesOf_good hl' l h).1) (.inr (.inr (by unfold Pt.sub Body.middle cartAt cart; norm_num)))
  have ha : move (cartAt "a" 0 6) [cartAt "b" 10 (-6)] ⟨20, 0, 0⟩ (some (some limitA)) (1 / 30) = some (moved (cartAt "a" 0 6) v (1 / 30)) := by
    unfold move velocityFor; simp only; rw [hv]; rfl
  have hb : move (cartAt "b" 10 (-6)) [cartAt "a" 0 6] ⟨-10, 0, 0⟩ (some (some limitB)) (1 / 30) = some (moved (cartAt "b" 10 (-6)) o (1 / 30)) := by
    unfold move velocityFor; simp only; rw [ho]; rfl
  have hr : (3 * Real.sqrt 2 / 2 + 3 * Real.sqrt 2 / 2) ^ 2 = 18 := by
    have : (3 * Real.sqrt 2 / 2 + 3 * Real.sqrt 2 / 2) ^ 2 = 9 * Real.sqrt 2 ^ 2 := by ring
    rw [this, sqrt2_sq]; norm_num
  refine ⟨limitA, limitB, _, _, ha, hb, ?_⟩
  rw [← hr]
  have hsub : (cartAt "b" 10 (-6)).position.sub (cartAt "a" 0 6).position = ⟨10, 0, 0⟩ := by unfold cartAt Pt.sub; simp
  refine (C172_pair_partial (cartAt "a" 0 6) (cartAt "b" 10 (-6)) _ _ [cartAt "b" 10 (-6)] [cartAt "a" 0 6] ⟨20, 0, 0⟩ ⟨-10, 0, 0⟩ limitA limitB (1 / 30) 0 _ _ 0 hl hl'
    (by simp) (by simp) (by unfold Marked cartAt; rintro ⟨a, b, h⟩; have := congrArg List.length h; simp at this; omega)
    (by unfold Marked cartAt; rintro ⟨a, b, h⟩; have := congrArg List.length h; simp at this; omega) ⟨rfl, rfl⟩ ⟨rfl, rfl⟩ rfl rfl la lb
    (by rw [hsub]; exact east_towards 10 (by norm_num)) cart_reaches cart_reaches ?_ ?_ one_line one_line pa pb ha hb (by norm_num) (by norm_num)).1
  · rw [hr, hsub]; unfold apartAfter; norm_num
  · rw [hsub]; left; unfold onMap cartAt; norm_num

end Verif.Orca
