import Verif.Follow.LimitTheorems
/-
C110 and C111: the accelerations of the controller keep the limits, and the limits never contradict each other while nothing but the controller changes the
speed and both rates are the same.
-/
namespace Verif.Follow
open Classical Spec

/-! ### The result of the controller lies between its limits -/

/-- Between two numbers, in whatever order. -/
def Hull (lo hi x : ℝ) : Prop := min lo hi ≤ x ∧ x ≤ max lo hi

theorem hull_clamp (lo hi x : ℝ) : Hull lo hi (min (max x lo) hi) := by
  unfold Hull
  rcases le_total lo hi with h | h
  · rw [min_eq_left h, max_eq_right h]
    exact ⟨le_min (le_max_right _ _) h, min_le_right _ _⟩
  · have : min (max x lo) hi = hi := min_eq_right (h.trans (le_max_right _ _))
    rw [this, min_eq_right h, max_eq_left h]
    exact ⟨le_refl _, h⟩

theorem hull_candidate (lo hi : ℝ) (i : ℕ) (h : i ≤ 30) : Hull lo hi (candidate lo hi i) := by
  unfold Hull candidate
  have h0 : (0 : ℝ) ≤ i := Nat.cast_nonneg _
  have h1 : (i : ℝ) ≤ 30 := by exact_mod_cast h
  rcases le_total lo hi with h | h
  · rw [min_eq_left h, max_eq_right h]
    constructor <;> nlinarith
  · rw [min_eq_right h, max_eq_left h]
    constructor <;> nlinarith

theorem hull_left (lo hi : ℝ) : Hull lo hi lo := ⟨min_le_left _ _, le_max_left _ _⟩
theorem hull_right (lo hi : ℝ) : Hull lo hi hi := ⟨min_le_right _ _, le_max_right _ _⟩

/-- The result of a fold over candidates is one of them. -/
theorem foldlM_from {β : Type} (f : Option ℝ × β → ℝ → Option (Option ℝ × β)) (hf : ∀ b a r, f b a = some r → r.1 = some a ∨ r = b) (P : ℝ → Prop) (l : List ℝ) :
    ∀ b r, (∀ x, b.1 = some x → P x) → (∀ x ∈ l, P x) → l.foldlM f b = some r → ∀ x, r.1 = some x → P x := by
  induction l with
  | nil =>
    intro b r hb _ h
    simp only [List.foldlM_nil] at h
    cases h
    exact hb
  | cons a l ih =>
    intro b r hb hl h
    simp only [List.foldlM_cons] at h
    cases hfa : f b a with
    | none => rw [hfa] at h; cases h
    | some b' =>
      rw [hfa] at h
      refine ih b' r ?_ (fun x hx => hl x (List.mem_cons_of_mem _ hx)) h
      intro x hx
      rcases hf b a b' hfa with h1 | h1
      · rw [h1] at hx; cases hx
        exact hl a (List.mem_cons_self ..)
      · rw [h1] at hx
        exact hb x hx

theorem considerStop_from (c : Ctrl) (dist acc speed : ℝ) (b : Option ℝ × ℝ) (a : ℝ) (r : Option ℝ × ℝ) (h : considerStop c dist acc speed b a = some r) :
    r.1 = some a ∨ r = b := by
  unfold considerStop at h
  cases hp : predictStop c a dist acc speed with
  | none => rw [hp] at h; cases h
  | some p =>
    rw [hp] at h
    cases p with
    | none => cases h; exact Or.inr rfl
    | some p =>
      simp only [Option.bind_eq_bind, Option.bind_some] at h
      split at h
      · split at h <;> cases h
        · exact Or.inl rfl
        · exact Or.inr rfl
      · split at h
        · cases h; exact Or.inl rfl
        · split at h
          · split at h <;> cases h
            · exact Or.inl rfl
            · exact Or.inr rfl
          · cases h; exact Or.inr rfl

theorem considerTime_from (c : Ctrl) (time dist acc speed : ℝ) (b : Option ℝ × ℝ × ℝ) (a : ℝ) (r : Option ℝ × ℝ × ℝ)
    (h : considerTime c time dist acc speed b a = some r) : r.1 = some a ∨ r = b := by
  unfold considerTime at h
  cases hp : predictArrival c a time dist acc speed with
  | none => rw [hp] at h; cases h
  | some p =>
    rw [hp] at h
    cases p with
    | none => cases h; exact Or.inr rfl
    | some p =>
      simp only [Option.bind_eq_bind, Option.bind_some] at h
      split at h <;> cases h
      · exact Or.inl rfl
      · exact Or.inr rfl

theorem accelerationNoTime_hull (c : Ctrl) (dist acc speed lo hi a : ℝ) (hl : limits c acc speed = some (lo, hi))
    (h : accelerationNoTime c dist acc speed = some a) : Hull lo hi a := by
  unfold accelerationNoTime at h
  rw [hl] at h
  simp only [Option.bind_eq_bind, Option.bind_some] at h
  cases hf : (List.range 31).foldlM (fun best i => considerStop c dist acc speed best (candidate lo hi i)) (none, -huge) with
  | none => rw [hf] at h; cases h
  | some r =>
    rw [hf] at h
    simp only [Option.bind_some] at h
    have hf' : ((List.range 31).map (candidate lo hi)).foldlM (considerStop c dist acc speed) (none, -huge) = some r := by
      rw [List.foldlM_map]; exact hf
    refine foldlM_from _ (fun b a r => considerStop_from c dist acc speed b a r) (Hull lo hi) _ _ r (by simp) ?_ hf' a h
    intro x hx
    simp only [List.mem_map, List.mem_range] at hx
    obtain ⟨i, hi', rfl⟩ := hx
    exact hull_candidate lo hi i (by omega)

theorem candidates_hull (lo hi : ℝ) : ∀ x ∈ candidates lo hi, Hull lo hi x := by
  intro x hx
  unfold candidates at hx
  simp only [List.mem_append, List.mem_singleton, or_assoc] at hx
  rcases hx with rfl | hx | rfl | hx
  · exact hull_left _ _
  · split at hx
    · rename_i h
      simp only [List.mem_singleton] at hx
      subst hx
      exact ⟨(min_le_left _ _).trans h.1.le, le_trans (le_of_lt h.2) (le_max_right _ _)⟩
    · simp at hx
  · exact hull_right _ _
  · split at hx
    · simp only [List.mem_map, List.mem_range] at hx
      obtain ⟨i, hi', rfl⟩ := hx
      exact hull_candidate lo hi (i + 1) (by omega)
    · simp at hx

theorem accelerationByTime_hull (c : Ctrl) (time dist acc speed lo hi a : ℝ) (h : accelerationByTime c time dist acc speed lo hi = some a) : Hull lo hi a := by
  unfold accelerationByTime at h
  cases hf : (candidates lo hi).foldlM (fun best a => considerTime c time dist acc speed best a) (none, huge, huge) with
  | none => rw [hf] at h; cases h
  | some r =>
    rw [hf] at h
    simp only [Option.bind_eq_bind, Option.bind_some] at h
    cases hr : r.1 with
    | none => rw [hr] at h; cases h
    | some b =>
      rw [hr] at h
      simp only [Option.bind_some] at h
      have hb := foldlM_from _ (fun b a r => considerTime_from c time dist acc speed b a r) (Hull lo hi) _ _ r (by simp) (candidates_hull lo hi) hf b hr
      split at h
      · cases h; exact hull_right _ _
      · split at h
        · cases h; exact hull_left _ _
        · split at h <;> cases h
          exact hb

theorem clampAcc_hull (c : Ctrl) (x acc speed lo hi a : ℝ) (h1 : ¬ speed + (acc + c.maxAccRate * c.dt) * c.dt < 0)
    (h2 : ¬ speed + (acc - c.maxDecRate * c.dt) * c.dt > c.target) (hl : limits c acc speed = some (lo, hi)) (h : clampAcc c x acc speed = some a) : Hull lo hi a := by
  unfold clampAcc at h
  rw [if_neg h1, if_neg h2, hl] at h
  simp only [Option.map_some, Option.some.injEq] at h
  subst h
  exact hull_clamp _ _ _

theorem lastSteps_hull (c : Ctrl) (time dist acc speed lo hi a : ℝ) (h1 : ¬ speed + (acc + c.maxAccRate * c.dt) * c.dt < 0)
    (h2 : ¬ speed + (acc - c.maxDecRate * c.dt) * c.dt > c.target) (hl : limits c acc speed = some (lo, hi)) (h : lastSteps c time dist acc speed = some a) :
    Hull lo hi a := by
  unfold lastSteps at h
  split at h
  · split at h
    · exact clampAcc_hull c _ acc speed lo hi a h1 h2 hl h
    · cases h
  · split at h
    · split at h <;> exact clampAcc_hull c _ acc speed lo hi a h1 h2 hl h
    · split at h
      · split at h
        · exact clampAcc_hull c _ acc speed lo hi a h1 h2 hl h
        · cases h
      · cases h

/-- The result of the controller away from its two special cases. -/
theorem acceleration_hull (c : Ctrl) (time : Option ℝ) (dist acc speed a : ℝ) (h1 : ¬ speed + (acc + c.maxAccRate * c.dt) * c.dt < 0)
    (h2 : ¬ speed + (acc - c.maxDecRate * c.dt) * c.dt > c.target) (h : acceleration c time dist acc speed = some a) :
    ∃ lo hi, limits c acc speed = some (lo, hi) ∧ Hull lo hi a := by
  unfold acceleration at h
  rw [if_neg h1, if_neg h2] at h
  cases hl : limits c acc speed with
  | none => rw [hl] at h; cases h
  | some l =>
    obtain ⟨lo, hi⟩ := l
    refine ⟨lo, hi, rfl, ?_⟩
    rw [hl] at h
    simp only [Option.bind_eq_bind, Option.bind_some] at h
    split at h
    · cases h; exact hull_left _ _
    · split at h
      · cases h; exact hull_left _ _
      · cases time with
        | none => exact accelerationNoTime_hull c dist acc speed lo hi a hl h
        | some t =>
          simp only [] at h
          cases hr : roundTime c.dt t timeTol with
          | none => rw [hr] at h; cases h
          | some t' =>
            rw [hr] at h
            simp only [Option.bind_some] at h
            split at h
            · exact lastSteps_hull c t' dist acc speed lo hi a h1 h2 hl h
            · split at h
              · exact lastSteps_hull c t' dist acc speed lo hi a h1 h2 hl h
              · exact accelerationByTime_hull c t' dist acc speed lo hi a h

theorem limits_some (c : Ctrl) (acc speed lo hi : ℝ) (h : limits c acc speed = some (lo, hi)) :
    lo = lowest c acc speed ∧ hi = highest c acc speed ∧ lo - 2 * ε ≤ hi ∧ -ε ≤ speed + lo * c.dt ∧ -ε ≤ speed + hi * c.dt ∧
      speed + lo * c.dt ≤ c.target + ε ∧ speed + hi * c.dt ≤ c.target + ε := by
  unfold limits at h
  simp only [] at h
  split at h
  · cases h
  · rename_i h1
    split at h
    · cases h
    · rename_i h2
      simp only [Option.some.injEq, Prod.mk.injEq] at h
      obtain ⟨rfl, rfl⟩ := h
      push Not at h1 h2
      obtain ⟨h3, h4, h5, h6⟩ := h2
      exact ⟨rfl, rfl, by linarith, h5, h3, h6.trans (by linarith [min_le_right (speed + highest c acc speed * c.dt) c.target]),
        h4.trans (by linarith [min_le_right (speed + highest c acc speed * c.dt) c.target])⟩

/-- C110. Unless even the strongest change of the acceleration leaves the speed negative, or above the target speed, the acceleration of the controller is
within the acceleration, the deceleration and both rates of the vehicle, and the next speed is neither negative nor above the target speed, up to 1e-12. -/
theorem C110_partial (c : Ctrl) (time : Option ℝ) (dist acc speed a : ℝ) (hdt : 0 < c.dt) (h1 : 0 ≤ speed + (acc + c.maxAccRate * c.dt) * c.dt)
    (h2 : speed + (acc - c.maxDecRate * c.dt) * c.dt ≤ c.target) (h : acceleration c time dist acc speed = some a) :
    (-c.maxDec - 2 / 10 ^ 12 ≤ a ∧ a ≤ c.maxAcc + 2 / 10 ^ 12) ∧
      (acc - c.maxDecRate * c.dt - 2 / 10 ^ 12 ≤ a ∧ a ≤ acc + c.maxAccRate * c.dt + 2 / 10 ^ 12) ∧
      (-(1 / 10 ^ 12) ≤ speed + a * c.dt ∧ speed + a * c.dt ≤ c.target + 1 / 10 ^ 12) := by
  obtain ⟨lo, hi, hl, ⟨g1, g2⟩⟩ := acceleration_hull c time dist acc speed a (not_lt.2 h1) (not_lt.2 h2) h
  obtain ⟨e1, e2, l1, l2, l3, l4, l5⟩ := limits_some c acc speed lo hi hl
  have p1 : -c.maxDec ≤ lo := by rw [e1]; exact (le_max_right _ _).trans (le_max_left _ _)
  have p2 : acc - c.maxDecRate * c.dt ≤ lo := by rw [e1]; exact le_max_right _ _
  have p3 : hi ≤ c.maxAcc := by rw [e2]; exact (min_le_left _ _).trans (min_le_right _ _)
  have p4 : hi ≤ acc + c.maxAccRate * c.dt := by rw [e2]; exact min_le_right _ _
  have he : (2 : ℝ) / 10 ^ 12 = 2 * ε := by rw [ε]; ring
  have he' : (1 : ℝ) / 10 ^ 12 = ε := rfl
  have hε : 0 < ε := by rw [ε]; positivity
  rw [he, he']
  have q1 : lo - 2 * ε ≤ a := le_trans (le_min (by linarith) l1) g1
  have q2 : a ≤ hi + 2 * ε := le_trans g2 (max_le (by linarith) (by linarith))
  refine ⟨⟨by linarith, by linarith⟩, ⟨by linarith, by linarith⟩, ?_, ?_⟩
  · have : min lo hi * c.dt ≤ a * c.dt := by gcongr
    rcases min_choice lo hi with hm | hm <;> rw [hm] at this <;> linarith
  · have : a * c.dt ≤ max lo hi * c.dt := by gcongr
    rcases max_choice lo hi with hm | hm <;> rw [hm] at this <;> linarith

/-- The hypotheses of `C110_partial` hold for a vehicle at rest with the default parameters, close to its waypoint. -/
example : ∃ a, acceleration ⟨1 / 20, true, 10, 3, 10, 3, 30⟩ none (-1 / 10) 0 0 = some a ∧ 0 ≤ (0 : ℝ) + (0 + 3 * (1 / 20)) * (1 / 20) ∧
    (0 : ℝ) + (0 - 3 * (1 / 20)) * (1 / 20) ≤ 30 := by
  have h0 : jerkAcc (1 / 20) 0 0 3 = 0 := by
    rw [jerkAcc_small _ _ _ _ (by norm_num) (by norm_num) (le_refl _) (by norm_num)]; norm_num
  have h1 : (0 : ℝ) ≤ jerkAcc (1 / 20) 0 30 3 := by
    obtain ⟨n, g1, -, -, g4⟩ := jerkAcc_up (1 / 20) 0 30 3 (by norm_num) (by norm_num) (by norm_num)
    have : (1 : ℝ) ≤ n := by exact_mod_cast g1
    rw [g4]
    have : (0 : ℝ) ≤ |3| * (1 / 20) * (n - 1) / 2 := by
      have : (0 : ℝ) ≤ (n : ℝ) - 1 := by linarith
      positivity
    positivity
  have hlo : lowest ⟨1 / 20, true, 10, 3, 10, 3, 30⟩ 0 0 = 0 := by
    simp only [lowest, h0]; norm_num
  have hhi : 0 ≤ highest ⟨1 / 20, true, 10, 3, 10, 3, 30⟩ 0 0 ∧ highest ⟨1 / 20, true, 10, 3, 10, 3, 30⟩ 0 0 ≤ 3 / 20 := by
    simp only [highest]
    exact ⟨le_min (le_min h1 (by norm_num)) (by norm_num), (min_le_right _ _).trans (by norm_num)⟩
  have hl : limits ⟨1 / 20, true, 10, 3, 10, 3, 30⟩ 0 0 = some (0, highest ⟨1 / 20, true, 10, 3, 10, 3, 30⟩ 0 0) := by
    simp only [limits, hlo]
    have hε : 0 < ε := by rw [ε]; positivity
    rw [if_neg (by linarith [hhi.1]), if_neg]
    push Not
    have hm : min (0 + highest ⟨1 / 20, true, 10, 3, 10, 3, 30⟩ 0 0 * (1 / 20)) (30 : ℝ) = 0 + highest ⟨1 / 20, true, 10, 3, 10, 3, 30⟩ 0 0 * (1 / 20) :=
      min_eq_left (by linarith [hhi.2])
    simp only [hm]
    refine ⟨?_, ?_, ?_, ?_⟩ <;> linarith [hhi.1]
  refine ⟨0, ?_, by norm_num, by norm_num⟩
  simp only [acceleration]
  rw [if_neg (by norm_num), if_neg (by norm_num), hl]
  simp only [Option.bind_eq_bind, Option.bind_some]
  rw [if_pos (by norm_num)]
  rfl

/-! ### C111: the limits stay consistent -/

/-- `n` is the number of steps for a change of speed by `d`. -/
def Fit (q d : ℝ) (n : ℕ) : Prop := 1 ≤ n ∧ (n = 1 ∨ (2 * (n : ℝ) - 1) ^ 2 * q ≤ 8 * d) ∧ 8 * d < (2 * (n : ℝ) + 1) ^ 2 * q

/-- The change of speed in the first of `n` steps. -/
noncomputable def first (q d : ℝ) (n : ℕ) : ℝ := d / n + q * (n - 1) / 2

theorem first_nonneg (q d : ℝ) (n : ℕ) (hq : 0 < q) (hd : 0 ≤ d) (h : Fit q d n) : 0 ≤ first q d n := by
  have hn : (1 : ℝ) ≤ n := by exact_mod_cast h.1
  have : 0 ≤ (n : ℝ) - 1 := by linarith
  unfold first
  positivity

theorem first_le (q d : ℝ) (n : ℕ) (hq : 0 < q) (h : Fit q d n) : first q d n ≤ d := by
  obtain ⟨h1, h2, h3⟩ := h
  have hn : (1 : ℝ) ≤ n := by exact_mod_cast h1
  unfold first
  rcases h2 with h2 | h2
  · subst h2; norm_num
  · rcases Nat.lt_or_ge 1 n with h4 | h4
    · have h4' : (2 : ℝ) ≤ n := by exact_mod_cast h4
      rw [div_add' _ _ _ (by linarith), div_le_iff₀ (by linarith)]
      have h5 : q * n ≤ 2 * d := by nlinarith [mul_nonneg (by linarith : 0 ≤ (n : ℝ) - 2) (by linarith : 0 ≤ (n : ℝ))]
      nlinarith
    · have : n = 1 := by omega
      subst this; norm_num

/-- The number of steps gives the smallest first change, but for the next larger number. -/
theorem first_min (q d : ℝ) (n k : ℕ) (hq : 0 < q) (h : Fit q d n) (hk : 1 ≤ k) (hne : k ≠ n + 1) : first q d n ≤ first q d k := by
  obtain ⟨h1, h2, h3⟩ := h
  have hn : (1 : ℝ) ≤ n := by exact_mod_cast h1
  have hk' : (1 : ℝ) ≤ k := by exact_mod_cast hk
  have hdiff : first q d k - first q d n = ((k : ℝ) - n) * (q * (n * k) - 2 * d) / (2 * (n * k)) := by
    unfold first
    field_simp
    ring
  have hpos : 0 ≤ ((k : ℝ) - n) * (q * (n * k) - 2 * d) := by
    rcases Nat.lt_trichotomy k n with h4 | h4 | h4
    · have h5 : (k : ℝ) + 1 ≤ n := by exact_mod_cast h4
      rcases h2 with h2 | h2
      · omega
      · apply mul_nonneg_of_nonpos_of_nonpos (by linarith)
        have : q * ((n : ℝ) * k) ≤ q * (n * (n - 1)) := by
          have : (n : ℝ) * k ≤ n * (n - 1) := by nlinarith
          nlinarith
        nlinarith
    · subst h4; simp
    · have h5 : (n : ℝ) + 2 ≤ k := by exact_mod_cast (by omega : n + 2 ≤ k)
      apply mul_nonneg (by linarith)
      have : q * ((n : ℝ) * (n + 2)) ≤ q * (n * k) := by
        have : (n : ℝ) * (n + 2) ≤ n * k := by nlinarith
        nlinarith
      nlinarith
  have := div_nonneg hpos (by positivity : (0 : ℝ) ≤ 2 * (n * k))
  linarith

/-- After a change `w` of at most the first one, the change can be reduced by `q` to at most the new first one, or it then passes the wanted speed. -/
theorem first_next (q d w : ℝ) (n m : ℕ) (hq : 0 < q) (h : Fit q d n) (hw : w ≤ first q d n) (h' : Fit q (d - w) m) : w - q ≤ first q (d - w) m ∨ d - w < w - q := by
  rcases Nat.lt_or_ge 1 m with hm | hm
  · left
    have hm' : (2 : ℝ) ≤ m := by exact_mod_cast hm
    obtain ⟨-, h2, h3⟩ := h'
    have h2 : (2 * (m : ℝ) - 1) ^ 2 * q ≤ 8 * (d - w) := by
      rcases h2 with h2 | h2
      · omega
      · exact h2
    have hlow : (m - 1) * q ≤ first q (d - w) m := by
      unfold first
      have : q * (m - 1) / 2 ≤ (d - w) / m := by
        rw [le_div_iff₀ (by linarith)]
        nlinarith
      linarith
    by_cases hne : m = n
    · subst hne
      have : w < m * q := by nlinarith [h.2.2]
      linarith
    · have hmin := first_min q d n (m + 1) hq h (by omega) (by omega)
      have hw' : w ≤ d / ((m : ℝ) + 1) + q * m / 2 := by
        have := hw.trans hmin
        unfold first at this
        push_cast at this
        linarith
      have h6 : w * m ≤ (d - w) + q * m * (m + 1) / 2 := by
        have : d / ((m : ℝ) + 1) + q * m / 2 = (d + q * m * (m + 1) / 2) / (m + 1) := by field_simp
        rw [this, le_div_iff₀ (by linarith)] at hw'
        linarith
      unfold first
      have h7 : w - q * (m + 1) / 2 ≤ (d - w) / m := by
        rw [le_div_iff₀ (by linarith)]
        linarith
      linarith
  · have hm1 : m = 1 := by have := h'.1; omega
    subst hm1
    rcases le_or_gt (w - q) (d - w) with h6 | h6
    · left; unfold first; norm_num; linarith
    · right; exact h6

/-- If the reduced change passes the wanted speed, it is small. -/
theorem first_pass (q d w : ℝ) (n : ℕ) (hq : 0 < q) (h : Fit q d n) (hw : w ≤ first q d n) (hp : d - w < w - q) : w - q < q / 8 := by
  obtain ⟨h1, h2, h3⟩ := h
  have hn : (1 : ℝ) ≤ n := by exact_mod_cast h1
  unfold first at hw
  rcases Nat.lt_or_ge 1 n with h4 | h4
  · exfalso
    have h2 : (2 * (n : ℝ) - 1) ^ 2 * q ≤ 8 * d := by
      rcases h2 with h2 | h2
      · omega
      · exact h2
    have hw2 : w * n ≤ d + q * (n * (n - 1)) / 2 := by
      have : d / (n : ℝ) + q * (n - 1) / 2 = (d + q * (n * (n - 1)) / 2) / n := by field_simp
      rw [this, le_div_iff₀ (by linarith)] at hw
      linarith
    rcases Nat.lt_or_ge 2 n with h5 | h5
    · have hn3 : (3 : ℝ) ≤ n := by exact_mod_cast h5
      have h6 : (d + q) / 2 * n < d + q * (n * (n - 1)) / 2 := by nlinarith
      have h7 : d * (n - 2) < q * n * (n - 2) := by nlinarith
      have h8 : d < q * n := lt_of_mul_lt_mul_right h7 (by linarith)
      nlinarith
    · have : n = 2 := by omega
      subst this
      norm_num at hw2
      linarith
  · have : n = 1 := by omega
    subst this
    norm_num at hw h3
    linarith

/-- The acceleration for a higher speed, as change of speed. -/
theorem up_first (dt v t r : ℝ) (hdt : 0 < dt) (hr : 0 < r) (h : v ≤ t) : ∃ n, Fit (r * dt ^ 2) (t - v) n ∧ jerkAcc dt v t r * dt = first (r * dt ^ 2) (t - v) n := by
  obtain ⟨n, h1, h2, h3, h4⟩ := jerkAcc_up dt v t r hdt hr.ne' h
  rw [abs_of_pos hr] at h2 h3 h4
  have hn : (1 : ℝ) ≤ n := by exact_mod_cast h1
  refine ⟨n, ⟨h1, h2, h3⟩, ?_⟩
  rw [h4, first]
  field_simp

/-- The acceleration for a lower speed, as change of speed. -/
theorem down_first (dt v t r : ℝ) (hdt : 0 < dt) (hr : 0 < r) (h : t ≤ v) : ∃ n, Fit (r * dt ^ 2) (v - t) n ∧ jerkAcc dt v t r * dt = -first (r * dt ^ 2) (v - t) n := by
  rcases h.eq_or_lt with h | h
  · subst h
    obtain ⟨n, h1, h2⟩ := up_first dt t t r hdt hr (le_refl _)
    refine ⟨n, h1, ?_⟩
    have h3 := first_nonneg _ _ n (by positivity) (by linarith) h1
    have h4 := first_le _ _ n (by positivity) h1
    rw [h2]
    linarith
  · obtain ⟨n, h1, h2, h3, h4⟩ := jerkAcc_down dt v t r hdt hr.ne' h
    rw [abs_of_pos hr] at h2 h3 h4
    have hn : (1 : ℝ) ≤ n := by exact_mod_cast h1
    refine ⟨n, ⟨h1, h2, h3⟩, ?_⟩
    rw [h4, first]
    field_simp

/-- The first of the steps is not smaller than a small part of the change. -/
theorem first_ge (q d o : ℝ) (n : ℕ) (hq : 0 < q) (h : Fit q d n) (ho : o ≤ d) (ho' : o < q / 8) (hd : 0 ≤ d) : o ≤ first q d n := by
  obtain ⟨h1, h2, h3⟩ := h
  have hn : (1 : ℝ) ≤ n := by exact_mod_cast h1
  unfold first
  rcases Nat.lt_or_ge 1 n with h4 | h4
  · have h4' : (2 : ℝ) ≤ n := by exact_mod_cast h4
    have : 0 ≤ d / (n : ℝ) := by positivity
    nlinarith
  · have : n = 1 := by omega
    subst this; norm_num; exact ho

/-- What holds of every speed `v` and change of speed `w` of a run: either the speed is between zero and the target speed `T`, and the change can be reduced in
time; or the speed is a little above the target speed; or a little below zero. -/
def Inv (q T v w : ℝ) : Prop :=
  (0 ≤ v ∧ v ≤ T ∧
    ((∀ m, Fit q (T - v) m → w - q ≤ first q (T - v) m) ∨ (T - v < w - q ∧ w - q < q / 8)) ∧
    ((∀ m, Fit q v m → -w - q ≤ first q v m) ∨ (v < -w - q ∧ -w - q < q / 8))) ∨
  (T < v ∧ v < T + q / 8 ∧ 0 < w ∧ w < q / 8) ∨
  (v < 0 ∧ -(q / 8) < v ∧ w < 0 ∧ -(q / 8) < w)

theorem inv_upper (q d w : ℝ) (n : ℕ) (hq : 0 < q) (h : Fit q d n) (hw : w ≤ first q d n) :
    (∀ m, Fit q (d - w) m → w - q ≤ first q (d - w) m) ∨ (d - w < w - q ∧ w - q < q / 8) := by
  rcases le_or_gt (w - q) (d - w) with h1 | h1
  · left
    intro m hm
    rcases first_next q d w n m hq h hw hm with h2 | h2
    · exact h2
    · linarith
  · exact Or.inr ⟨h1, first_pass q d w n hq h hw h1⟩

theorem inv_zero (q T v : ℝ) (hq : 0 < q) (h0 : 0 ≤ v) (h1 : v ≤ T) : Inv q T v 0 :=
  Or.inl ⟨h0, h1, Or.inl fun m hm => by linarith [first_nonneg q (T - v) m hq (by linarith) hm], Or.inl fun m hm => by linarith [first_nonneg q v m hq h0 hm]⟩

/-- The limits as changes of speed. -/
theorem limits_ok (c : Ctrl) (acc speed : ℝ) (hdt : 0 < c.dt) (h1 : lowest c acc speed ≤ highest c acc speed) (h2 : 0 ≤ speed + lowest c acc speed * c.dt)
    (h3 : speed + highest c acc speed * c.dt ≤ c.target) : limits c acc speed = some (lowest c acc speed, highest c acc speed) := by
  have hε : 0 < ε := by rw [ε]; positivity
  have h4 : lowest c acc speed * c.dt ≤ highest c acc speed * c.dt := by gcongr
  simp only [limits]
  rw [if_neg (by linarith), if_neg]
  push Not
  rw [min_eq_left h3]
  refine ⟨?_, ?_, ?_, ?_⟩ <;> linarith

theorem inv_normal (c : Ctrl) (r : ℝ) (hr : 0 < r) (hr1 : c.maxAccRate = r) (hr2 : c.maxDecRate = r) (hdt : 0 < c.dt) (hT : 0 ≤ c.target)
    (hA : r * c.dt / 8 ≤ c.maxAcc) (hD : r * c.dt / 8 ≤ c.maxDec) (v a : ℝ) (hi : Inv (r * c.dt ^ 2) c.target v (a * c.dt)) (ha1 : -c.maxDec ≤ a) (ha2 : a ≤ c.maxAcc)
    (n1 : ¬ v + (a + c.maxAccRate * c.dt) * c.dt < 0) (n2 : ¬ v + (a - c.maxDecRate * c.dt) * c.dt > c.target) :
    lowest c a v ≤ highest c a v ∧ 0 ≤ v + lowest c a v * c.dt ∧ v + highest c a v * c.dt ≤ c.target ∧
      ∀ b, lowest c a v ≤ b → b ≤ highest c a v → Inv (r * c.dt ^ 2) c.target (v + b * c.dt) (b * c.dt) := by
  have hq : 0 < r * c.dt ^ 2 := by positivity
  rw [hr1] at n1
  rw [hr2] at n2
  set q := r * c.dt ^ 2 with hqd
  have n1 : -(a * c.dt) - q ≤ v := by rw [hqd]; nlinarith
  have n2 : a * c.dt - q ≤ c.target - v := by rw [hqd]; nlinarith
  have hAq : q / 8 ≤ c.maxAcc * c.dt := by
    have := mul_le_mul_of_nonneg_right hA hdt.le
    rw [hqd]; linarith
  have hDq : q / 8 ≤ c.maxDec * c.dt := by
    have := mul_le_mul_of_nonneg_right hD hdt.le
    rw [hqd]; linarith
  have ha1q : -(c.maxDec * c.dt) ≤ a * c.dt := by
    have := mul_le_mul_of_nonneg_right ha1 hdt.le
    linarith
  have ha2q : a * c.dt ≤ c.maxAcc * c.dt := mul_le_mul_of_nonneg_right ha2 hdt.le
  have cancel : ∀ x y : ℝ, x * c.dt ≤ y * c.dt → x ≤ y := fun x y h => le_of_mul_le_mul_right h hdt
  have e1 : (a - c.maxDecRate * c.dt) * c.dt = a * c.dt - q := by rw [hr2, hqd]; ring
  have e2 : (a + c.maxAccRate * c.dt) * c.dt = a * c.dt + q := by rw [hr1, hqd]; ring
  have e3 : -c.maxDec * c.dt = -(c.maxDec * c.dt) := by ring
  -- the parts of the limits
  have lo1 : jerkAcc c.dt v 0 c.maxDecRate ≤ lowest c a v := (le_max_left _ _).trans (le_max_left _ _)
  have hi1 : highest c a v ≤ jerkAcc c.dt v c.target c.maxAccRate := (min_le_left _ _).trans (min_le_left _ _)
  -- it is enough to compare the parts
  have order : ∀ B : ℝ, jerkAcc c.dt v 0 c.maxDecRate * c.dt ≤ B → B ≤ jerkAcc c.dt v c.target c.maxAccRate * c.dt → -(c.maxDec * c.dt) ≤ B → B ≤ c.maxAcc * c.dt →
      jerkAcc c.dt v 0 c.maxDecRate * c.dt ≤ a * c.dt + q → a * c.dt - q ≤ jerkAcc c.dt v c.target c.maxAccRate * c.dt → lowest c a v ≤ highest c a v := by
    intro B b1 b2 b3 b4 b5 b6
    refine max_le (max_le ?_ ?_) ?_ <;> refine le_min (le_min ?_ ?_) ?_ <;> apply cancel <;> (try rw [e1]) <;> (try rw [e2]) <;> (try rw [e3]) <;> linarith
  have step : ∀ b, lowest c a v ≤ b → b ≤ highest c a v → jerkAcc c.dt v 0 c.maxDecRate * c.dt ≤ b * c.dt ∧ b * c.dt ≤ jerkAcc c.dt v c.target c.maxAccRate * c.dt := by
    intro b hb1 hb2
    exact ⟨mul_le_mul_of_nonneg_right (lo1.trans hb1) hdt.le, mul_le_mul_of_nonneg_right (hb2.trans hi1) hdt.le⟩
  rcases hi with ⟨i0, i1, i2, i3⟩ | ⟨i0, i1, i2, i3⟩ | ⟨i0, i1, i2, i3⟩
  · obtain ⟨m, hm, hme⟩ := up_first c.dt v c.target r hdt hr i1
    obtain ⟨k, hk, hke⟩ := down_first c.dt v 0 r hdt hr i0
    rw [← hqd] at hm hme hk hke
    rw [← hr1] at hme
    rw [← hr2] at hke
    rw [sub_zero] at hk hke
    have fm0 := first_nonneg q _ m hq (by linarith) hm
    have fm1 := first_le q _ m hq hm
    have fk0 := first_nonneg q _ k hq i0 hk
    have fk1 := first_le q _ k hq hk
    have c1 : a * c.dt - q ≤ first q (c.target - v) m := by
      rcases i2 with i2 | i2
      · exact i2 m hm
      · linarith
    have c2 : -(a * c.dt) - q ≤ first q v k := by
      rcases i3 with i3 | i3
      · exact i3 k hk
      · linarith
    have hord := order 0 (by rw [hke]; linarith) (by rw [hme]; linarith) (by linarith) (by linarith) (by rw [hke]; linarith) (by rw [hme]; linarith)
    refine ⟨hord, ?_, ?_, ?_⟩
    · have := (step _ (le_refl _) hord).1
      rw [hke] at this; linarith
    · have := (step _ hord (le_refl _)).2
      rw [hme] at this; linarith
    · intro b hb1 hb2
      obtain ⟨s1, s2⟩ := step b hb1 hb2
      rw [hke] at s1
      rw [hme] at s2
      have u1 := inv_upper q (c.target - v) (b * c.dt) m hq hm s2
      have u2 := inv_upper q v (-(b * c.dt)) k hq hk (by linarith)
      rw [sub_sub] at u1
      rw [sub_neg_eq_add] at u2
      exact Or.inl ⟨by linarith, by linarith, u1, u2⟩
  · have hv : 0 ≤ v := by linarith
    obtain ⟨k, hk, hke⟩ := down_first c.dt v 0 r hdt hr hv
    rw [← hqd] at hk hke
    rw [← hr2] at hke
    rw [sub_zero] at hk hke
    have hme : jerkAcc c.dt v c.target c.maxAccRate * c.dt = -(v - c.target) := by
      rw [jerkAcc_small_down c.dt v c.target c.maxAccRate hdt (by rw [hr1]; exact hr.ne') i0 (by rw [hr1, abs_of_pos hr, ← hqd]; linarith)]
      field_simp
    have fk0 := first_ge q v (v - c.target) k hq hk (by linarith) (by linarith) hv
    have fk1 := first_le q _ k hq hk
    have hord := order (-(v - c.target)) (by rw [hke]; linarith) (by rw [hme]) (by linarith) (by linarith) (by rw [hke]; linarith) (by rw [hme]; linarith)
    refine ⟨hord, ?_, ?_, ?_⟩
    · have := (step _ (le_refl _) hord).1
      rw [hke] at this; linarith
    · have := (step _ hord (le_refl _)).2
      rw [hme] at this; linarith
    · intro b hb1 hb2
      obtain ⟨s1, s2⟩ := step b hb1 hb2
      rw [hke] at s1
      rw [hme] at s2
      have u2 := inv_upper q v (-(b * c.dt)) k hq hk (by linarith)
      rw [sub_neg_eq_add] at u2
      refine Or.inl ⟨by linarith, by linarith, Or.inl fun m hm => ?_, u2⟩
      have := first_nonneg q _ m hq (by linarith) hm
      linarith
  · have hv : v ≤ c.target := by linarith
    obtain ⟨m, hm, hme⟩ := up_first c.dt v c.target r hdt hr hv
    rw [← hqd] at hm hme
    rw [← hr1] at hme
    have hke : jerkAcc c.dt v 0 c.maxDecRate * c.dt = -v := by
      rw [jerkAcc_small c.dt v 0 c.maxDecRate hdt (by rw [hr2]; exact hr.ne') i0.le (by rw [hr2, abs_of_pos hr, ← hqd]; linarith)]
      field_simp
      ring
    have fm0 := first_ge q (c.target - v) (-v) m hq hm (by linarith) (by linarith) (by linarith)
    have fm1 := first_le q _ m hq hm
    have hord := order (-v) (by rw [hke]) (by rw [hme]; linarith) (by linarith) (by linarith) (by rw [hke]; linarith) (by rw [hme]; linarith)
    refine ⟨hord, ?_, ?_, ?_⟩
    · have := (step _ (le_refl _) hord).1
      rw [hke] at this; linarith
    · have := (step _ hord (le_refl _)).2
      rw [hme] at this; linarith
    · intro b hb1 hb2
      obtain ⟨s1, s2⟩ := step b hb1 hb2
      rw [hke] at s1
      rw [hme] at s2
      have u1 := inv_upper q (c.target - v) (b * c.dt) m hq hm s2
      rw [sub_sub] at u1
      refine Or.inl ⟨by linarith, by linarith, u1, Or.inl fun k hk => ?_⟩
      have := first_nonneg q _ k hq (by linarith) hk
      linarith

/-- The result of the controller from a state of a run. -/
theorem inv_step (c : Ctrl) (r : ℝ) (hr : 0 < r) (hr1 : c.maxAccRate = r) (hr2 : c.maxDecRate = r) (hdt : 0 < c.dt) (hT : 0 ≤ c.target)
    (hA : r * c.dt / 8 ≤ c.maxAcc) (hD : r * c.dt / 8 ≤ c.maxDec) (v a : ℝ) (hi : Inv (r * c.dt ^ 2) c.target v (a * c.dt)) (ha1 : -c.maxDec ≤ a) (ha2 : a ≤ c.maxAcc)
    (time : Option ℝ) (dist b : ℝ) (h : acceleration c time dist a v = some b) :
    Inv (r * c.dt ^ 2) c.target (v + b * c.dt) (b * c.dt) ∧ -c.maxDec ≤ b ∧ b ≤ c.maxAcc ∧ a - r * c.dt ≤ b ∧ b ≤ a + r * c.dt := by
  have hq : 0 < r * c.dt ^ 2 := by positivity
  have hrd : 0 < r * c.dt := by positivity
  by_cases n1 : v + (a + c.maxAccRate * c.dt) * c.dt < 0
  · unfold acceleration at h
    rw [if_pos n1] at h
    cases h
    rw [hr1] at n1 ⊢
    have e : (a + r * c.dt) * c.dt = a * c.dt + r * c.dt ^ 2 := by ring
    rw [e] at n1 ⊢
    rcases hi with ⟨i0, i1, i2, i3⟩ | ⟨i0, i1, i2, i3⟩ | ⟨i0, i1, i2, i3⟩
    · have i3 : v < -(a * c.dt) - r * c.dt ^ 2 ∧ -(a * c.dt) - r * c.dt ^ 2 < r * c.dt ^ 2 / 8 := by
        rcases i3 with i3 | i3
        · obtain ⟨k, hk, -⟩ := down_first c.dt v 0 r hdt hr i0
          rw [sub_zero] at hk
          have := i3 k hk
          have := first_le _ _ k hq hk
          linarith
        · exact i3
      refine ⟨Or.inr (Or.inr ⟨by linarith, by linarith, by linarith, by linarith⟩), by linarith, ?_, by linarith, le_refl _⟩
      have : a + r * c.dt < 0 := by
        by_contra hc
        have := mul_nonneg (not_lt.1 hc) hdt.le
        linarith
      linarith
    · linarith
    · linarith
  · by_cases n2 : v + (a - c.maxDecRate * c.dt) * c.dt > c.target
    · unfold acceleration at h
      rw [if_neg n1, if_pos n2] at h
      cases h
      rw [hr2] at n2 ⊢
      have e : (a - r * c.dt) * c.dt = a * c.dt - r * c.dt ^ 2 := by ring
      rw [e] at n2 ⊢
      rcases hi with ⟨i0, i1, i2, i3⟩ | ⟨i0, i1, i2, i3⟩ | ⟨i0, i1, i2, i3⟩
      · have i2 : c.target - v < a * c.dt - r * c.dt ^ 2 ∧ a * c.dt - r * c.dt ^ 2 < r * c.dt ^ 2 / 8 := by
          rcases i2 with i2 | i2
          · obtain ⟨k, hk, -⟩ := up_first c.dt v c.target r hdt hr i1
            have := i2 k hk
            have := first_le _ _ k hq hk
            linarith
          · exact i2
        refine ⟨Or.inr (Or.inl ⟨by linarith, by linarith, by linarith, by linarith⟩), ?_, by linarith, le_refl _, by linarith⟩
        have : 0 < a - r * c.dt := by
          by_contra hc
          have := mul_nonneg (by linarith : 0 ≤ -(a - r * c.dt)) hdt.le
          linarith
        linarith
      · linarith
      · linarith
    · obtain ⟨lo, hi', hl, g1, g2⟩ := acceleration_hull c time dist a v b n1 n2 h
      obtain ⟨p1, p2, p3, p4⟩ := inv_normal c r hr hr1 hr2 hdt hT hA hD v a hi ha1 ha2 n1 n2
      have hl' := limits_ok c a v hdt p1 p2 p3
      rw [hl'] at hl
      simp only [Option.some.injEq, Prod.mk.injEq] at hl
      obtain ⟨rfl, rfl⟩ := hl
      rw [min_eq_left p1] at g1
      rw [max_eq_right p1] at g2
      refine ⟨p4 b g1 g2, ?_, ?_, ?_, ?_⟩
      · exact ((le_max_right _ _).trans (le_max_left _ _)).trans g1
      · exact g2.trans ((min_le_left _ _).trans (min_le_right _ _))
      · rw [← hr2]; exact (le_max_right _ _).trans g1
      · rw [← hr1]; exact g2.trans (min_le_right _ _)

theorem run_inv (c : Ctrl) (r : ℝ) (hr : 0 < r) (hr1 : c.maxAccRate = r) (hr2 : c.maxDecRate = r) (hdt : 0 < c.dt) (hA : r * c.dt / 8 ≤ c.maxAcc)
    (hD : r * c.dt / 8 ≤ c.maxDec) (v₀ : ℝ) (h0 : 0 ≤ v₀) (h1 : v₀ ≤ c.target) (v a : ℝ)
    (h : Run c.dt (fun acc speed next => ∃ time dist, acceleration c time dist acc speed = some next) v₀ v a) :
    Inv (r * c.dt ^ 2) c.target v (a * c.dt) ∧ -c.maxDec ≤ a ∧ a ≤ c.maxAcc := by
  have hrd : 0 < r * c.dt := by positivity
  induction h with
  | start =>
    rw [zero_mul]
    exact ⟨inv_zero _ _ _ (by positivity) h0 h1, by linarith, by linarith⟩
  | step _ hs ih =>
    obtain ⟨time, dist, hs⟩ := hs
    obtain ⟨g1, g2, g3, -, -⟩ := inv_step c r hr hr1 hr2 hdt (h0.trans h1) hA hD _ _ ih.1 ih.2.1 ih.2.2 time dist _ hs
    exact ⟨g1, g2, g3⟩

/-- C111. Let a vehicle with the same rate for accelerating and for braking start with a speed between zero and the target speed, without acceleration, and
let the controller alone move it, whatever the remaining times and distances. Then in every step the speed is between zero and the target speed up to an
eighth of `r * dt ^ 2`, the acceleration is within the limits of the vehicle, it changes by at most the rate, and the limits never contradict each other. -/
theorem C111_partial (c : Ctrl) (r : ℝ) (hr : 0 < r) (hr1 : c.maxAccRate = r) (hr2 : c.maxDecRate = r) (hdt : 0 < c.dt) (hA : r * c.dt / 8 ≤ c.maxAcc)
    (hD : r * c.dt / 8 ≤ c.maxDec) (v₀ : ℝ) (h0 : 0 ≤ v₀) (h1 : v₀ ≤ c.target) (v a : ℝ)
    (h : Run c.dt (fun acc speed next => ∃ time dist, acceleration c time dist acc speed = some next) v₀ v a) :
    (-(r * c.dt ^ 2 / 8) ≤ v ∧ v ≤ c.target + r * c.dt ^ 2 / 8) ∧ (-c.maxDec ≤ a ∧ a ≤ c.maxAcc) ∧
      (0 ≤ v + (a + r * c.dt) * c.dt → v + (a - r * c.dt) * c.dt ≤ c.target → limits c a v ≠ none) ∧
      (∀ time dist b, acceleration c time dist a v = some b → a - r * c.dt ≤ b ∧ b ≤ a + r * c.dt) := by
  have hq : 0 < r * c.dt ^ 2 := by positivity
  obtain ⟨g1, g2, g3⟩ := run_inv c r hr hr1 hr2 hdt hA hD v₀ h0 h1 v a h
  refine ⟨?_, ⟨g2, g3⟩, ?_, ?_⟩
  · rcases g1 with ⟨i0, i1, -⟩ | ⟨i0, i1, -⟩ | ⟨i0, i1, -⟩ <;> constructor <;> linarith
  · intro n1 n2
    obtain ⟨p1, p2, p3, -⟩ := inv_normal c r hr hr1 hr2 hdt (h0.trans h1) hA hD v a g1 g2 g3 (by rw [hr1]; exact not_lt.2 n1) (by rw [hr2]; exact not_lt.2 n2)
    rw [limits_ok c a v hdt p1 p2 p3]
    exact Option.some_ne_none _
  · intro time dist b hb
    obtain ⟨-, -, -, q1, q2⟩ := inv_step c r hr hr1 hr2 hdt (h0.trans h1) hA hD v a g1 g2 g3 time dist b hb
    exact ⟨q1, q2⟩

end Verif.Follow
