import Verif.Vehicle.Spec
import Mathlib.Tactic.Linarith
import Mathlib.Tactic.Ring
import Mathlib.Tactic.FieldSimp
import Mathlib.Tactic.Positivity
/-
Lemmas about one step of integration.
-/
namespace Verif.Vehicle
open Classical

/-- The sum of the four slopes of a step. -/
noncomputable def mixed (s k1 k2 k3 k4 : State) (dt : ℝ) : State :=
  s.add ((((k1.add (k2.scale 2)).add (k3.scale 2)).add k4).scale (1 / 6 * dt))

theorem rungeKutta_inv {f : State → Option State} {dt : ℝ} {s s' : State} (h : rungeKutta f dt s = some s') :
    ∃ k1 k2 k3 k4, f s = some k1 ∧ f (s.add (k1.scale (0.5 * dt))) = some k2 ∧ f (s.add (k2.scale (0.5 * dt))) = some k3 ∧
      f (s.add (k3.scale dt)) = some k4 ∧ s' = mixed s k1 k2 k3 k4 dt := by
  unfold rungeKutta at h
  simp only [Option.bind_eq_bind, Option.bind_eq_some_iff, Option.pure_def, Option.some.injEq] at h
  obtain ⟨k1, h1, k2, h2, k3, h3, k4, h4, h5⟩ := h
  exact ⟨k1, k2, k3, k4, h1, h2, h3, h4, h5.symm⟩

theorem mixed_bound {a k1 k2 k3 k4 B dt : ℝ} (hd : 0 ≤ dt) (h1 : |k1| ≤ B) (h2 : |k2| ≤ B) (h3 : |k3| ≤ B) (h4 : |k4| ≤ B) :
    |a + (k1 + k2 * 2 + k3 * 2 + k4) * (1 / 6 * dt) - a| ≤ B * dt := by
  have : a + (k1 + k2 * 2 + k3 * 2 + k4) * (1 / 6 * dt) - a = ((k1 + k2 * 2 + k3 * 2 + k4) / 6) * dt := by ring
  rw [this, abs_mul, abs_of_nonneg hd]
  apply mul_le_mul_of_nonneg_right _ hd
  rw [abs_le] at *
  constructor <;> linarith [h1.1, h1.2, h2.1, h2.2, h3.1, h3.2, h4.1, h4.2]

theorem sat_eq (v l : ℝ) : sat v l (-l) = limited v l := by
  unfold sat limited; rw [max_comm]

theorem clamp_eq {v l : ℝ} (hl : 0 ≤ l) : clamp v (-l) l = limited v l := by
  unfold clamp limited
  split
  · rw [min_eq_left (by linarith), max_eq_left (by linarith)]
  · split
    · rw [min_eq_right (by linarith), max_eq_right (by linarith)]
    · rw [min_eq_left (by linarith), max_eq_right (by linarith)]

theorem limited_abs {v l : ℝ} (hl : 0 ≤ l) : |limited v l| ≤ l := by
  unfold limited
  rw [abs_le]
  exact ⟨le_max_left _ _, max_le (by linarith) (min_le_right _ _)⟩

theorem limited_self {v l : ℝ} (h : |v| ≤ l) : limited v l = v := by
  unfold limited
  rw [abs_le] at h
  rw [min_eq_left h.2, max_eq_right h.1]

theorem limited_mono {a b l : ℝ} (h : a ≤ b) : limited a l ≤ limited b l := by
  unfold limited
  exact max_le_max (le_refl _) (min_le_min h (le_refl _))

theorem limited_sub {a b l : ℝ} : |limited a l - limited b l| ≤ |a - b| := by
  unfold limited
  rcases le_total a b with h | h
  · rw [abs_sub_comm, abs_sub_comm a b, abs_of_nonneg (by linarith [limited_mono (l := l) h, show limited a l = max (-l) (min a l) from rfl, show limited b l = max (-l) (min b l) from rfl]), abs_of_nonneg (by linarith)]
    rcases max_cases (-l) (min b l) with ⟨e, _⟩ | ⟨e, _⟩ <;> rcases max_cases (-l) (min a l) with ⟨e', _⟩ | ⟨e', _⟩ <;>
      rcases min_cases a l with ⟨e1, _⟩ | ⟨e1, _⟩ <;> rcases min_cases b l with ⟨e2, _⟩ | ⟨e2, _⟩ <;> linarith
  · rw [abs_of_nonneg (by linarith [limited_mono (l := l) h, show limited a l = max (-l) (min a l) from rfl, show limited b l = max (-l) (min b l) from rfl]), abs_of_nonneg (by linarith)]
    rcases max_cases (-l) (min b l) with ⟨e, _⟩ | ⟨e, _⟩ <;> rcases max_cases (-l) (min a l) with ⟨e', _⟩ | ⟨e', _⟩ <;>
      rcases min_cases a l with ⟨e1, _⟩ | ⟨e1, _⟩ <;> rcases min_cases b l with ⟨e2, _⟩ | ⟨e2, _⟩ <;> linarith

theorem throughQueue_fst (q : List ℝ) (u : ℝ) : (throughQueue q u).1 = (q ++ [u]).headD 0 := by
  unfold throughQueue
  cases q <;> rfl

theorem mem_forwardList {g : Gear} : g ∈ forwardList ↔ Forward g := by
  unfold Forward
  constructor
  · intro h
    simp only [forwardList, List.mem_cons, List.not_mem_nil, or_false] at h
    rcases h with h | h | h | h | h | h | h | h | h | h | h | h | h | h | h | h | h | h | h | h <;> subst h <;> simp
  · rintro (⟨k, rfl⟩ | rfl | rfl)
    · revert k; decide
    · decide
    · decide

end Verif.Vehicle
