import Verif.Traffic.Model
import Verif.Registry.Lemmas
/-
Lemmas about the spawn loop, names and sinks.
-/
namespace Verif.Traffic
set_option linter.unusedSectionVars false

/-- What the loop returns, if it returns. -/
theorem loop_sound (late fails : Nat → Bool) (k : Nat) (r : Nat × Bool × List Nat) (h : loop late fails k = some r) :
    k ≤ r.1 ∧ (∀ j, k ≤ j → j < r.1 → late j = true) ∧ r.2.2 = List.range' k (r.1 - k) ∧
    (r.2.1 = false → late r.1 = false) ∧ (r.2.1 = true → late r.1 = true ∧ fails r.1 = true) ∧
    (∀ j, k ≤ j → j < r.1 → fails j = false) := by
  refine loop.partial_correctness late fails (motive := fun k r => k ≤ r.1 ∧ (∀ j, k ≤ j → j < r.1 → late j = true) ∧
    r.2.2 = List.range' k (r.1 - k) ∧ (r.2.1 = false → late r.1 = false) ∧
    (r.2.1 = true → late r.1 = true ∧ fails r.1 = true) ∧ (∀ j, k ≤ j → j < r.1 → fails j = false)) ?_ k r h
  intro loop' ih k r h
  by_cases c : late k = true
  · by_cases f : fails k = true
    · simp only [c, if_true, f, Option.some.injEq] at h
      subst h
      exact ⟨Nat.le_refl k, fun j h1 h2 => absurd h2 (by simp; omega), by simp, by simp, fun _ => ⟨c, f⟩,
        fun j h1 h2 => absurd h2 (by simp; omega)⟩
    · simp only [c, if_true, f, Bool.false_eq_true, if_false] at h
      cases hl : loop' (k + 1) with
      | none => rw [hl] at h; cases h
      | some r' =>
        rw [hl] at h
        simp only [Option.bind_eq_bind, Option.bind_some, Option.some.injEq] at h
        subst h
        obtain ⟨i1, i2, i3, i4, i5, i6⟩ := ih _ _ hl
        refine ⟨by simp; omega, ?_, ?_, i4, i5, ?_⟩
        · intro j h1 h2
          by_cases e : j = k
          · rw [e]; exact c
          · exact i2 j (by omega) h2
        · simp only [i3]
          have : r'.1 - k = (r'.1 - (k + 1)) + 1 := by omega
          rw [this, List.range'_succ]
        · intro j h1 h2
          by_cases e : j = k
          · rw [e]; simpa using f
          · exact i6 j (by omega) h2
  · have c' : late k = false := by simpa using c
    simp only [c', Bool.false_eq_true, if_false, Option.some.injEq] at h
    subst h
    exact ⟨Nat.le_refl k, fun j h1 h2 => absurd h2 (by simp; omega), by simp, fun _ => c', by simp,
      fun j h1 h2 => absurd h2 (by simp; omega)⟩

/-- The loop ends if some later entity is not due, or cannot be spawned. -/
theorem loop_terminates (late fails : Nat → Bool) (k n : Nat) (hk : k ≤ n) (h : late n = false ∨ fails n = true) :
    (loop late fails k).isSome = true := by
  obtain ⟨d, rfl⟩ := Nat.exists_eq_add_of_le hk
  induction d generalizing k with
  | zero =>
    rw [loop.eq_def]
    rw [Nat.add_zero] at h
    by_cases c : late k = true
    · rcases h with h | h
      · rw [h] at c; cases c
      · simp [c, h]
    · simp [c]
  | succ d ih =>
    rw [loop.eq_def]
    split
    · split
      · rfl
      · have e : k + 1 + d = k + (d + 1) := by omega
        have := ih (k + 1) (by omega) (by rw [e]; exact h)
        obtain ⟨r, hr⟩ := Option.isSome_iff_exists.mp this
        rw [hr]; rfl
    · rfl

theorem loop_diverges (late fails : Nat → Bool) (k : Nat) (h : ∀ n, k ≤ n → late n = true ∧ fails n = false) :
    loop late fails k = none := by
  cases hl : loop late fails k with
  | none => rfl
  | some r =>
    obtain ⟨h1, _, _, h4, h5, _⟩ := loop_sound late fails k r hl
    have := h r.1 h1
    cases hb : r.2.1 with
    | false => rw [h4 hb] at this; cases this.1
    | true => rw [(h5 hb).2] at this; cases this.2

/-! Names -/

theorem digits_inj {a b : Nat} (h : Nat.toDigits 10 a = Nat.toDigits 10 b) : a = b := by
  have ha := Nat.ofDigitChars_toDigits (b := 10) (n := a) (by omega) (by omega)
  have hb := Nat.ofDigitChars_toDigits (b := 10) (n := b) (by omega) (by omega)
  rw [← ha, ← hb, h]

/-- Digits followed by an underscore determine where the number ends. -/
theorem digits_split {x y u v : List Char} (hx : ∀ c ∈ x, c.isDigit = true) (hy : ∀ c ∈ y, c.isDigit = true)
    (h : x ++ '_' :: u = y ++ '_' :: v) : x = y ∧ u = v := by
  induction x generalizing y with
  | nil =>
    cases y with
    | nil => simp at h; exact ⟨rfl, h⟩
    | cons c y =>
      simp at h
      have := hy c (by simp)
      rw [← h.1] at this
      exact absurd this (by decide)
  | cons a x ih =>
    cases y with
    | nil =>
      simp at h
      have := hx a (by simp)
      rw [h.1] at this
      exact absurd this (by decide)
    | cons c y =>
      simp at h
      have := ih (fun c hc => hx c (by simp [hc])) (y := y) (fun c hc => hy c (by simp [hc])) h.2
      exact ⟨by rw [h.1, this.1], this.2⟩

theorem name_inj {i k i' k' : Nat} (h : name i k = name i' k') : i = i' ∧ k = k' := by
  have h' := congrArg String.toList h
  have tl : ∀ n : Nat, (toString n).toList = Nat.toDigits 10 n := by
    intro n; show (Nat.repr n).toList = _; simp [Nat.repr]
  unfold name at h'
  simp only [String.toList_append, tl] at h'
  have e1 : "TrafficSource_".toList = ['T','r','a','f','f','i','c','S','o','u','r','c','e','_'] := by decide
  have e2 : "_Entity_".toList = '_' :: ['E','n','t','i','t','y','_'] := by decide
  rw [e1, e2] at h'
  simp only [List.append_assoc, List.cons_append] at h'
  have d : ∀ n : Nat, ∀ c ∈ Nat.toDigits 10 n, c.isDigit = true := fun n c hc =>
    Nat.isDigit_of_mem_toDigits (by omega) (by omega) hc
  simp only [List.cons.injEq, true_and] at h'
  obtain ⟨h1, h2⟩ := digits_split (d i) (d i') h'
  simp only [List.nil_append, List.cons.injEq, true_and] at h2
  exact ⟨digits_inj h1, digits_inj h2⟩

end Verif.Traffic
