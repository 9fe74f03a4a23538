import Verif.Parameter.Model
import Mathlib.Data.String.Basic
import Mathlib.Algebra.Order.Group.Int
import Mathlib.Data.Nat.Basic
import Mathlib.Data.Rat.Floor
/-
C46: parameter arithmetic and comparison rules. C56: constraint groups.
-/
namespace Verif.Parameter

/-! ### Specification -/

/-- `r` is `x` rounded toward zero: the integer nearest to zero's side, without reference to how it is computed. -/
def TowardZero (x : Rat) (r : Int) : Prop :=
  (0 ≤ x → (r : Rat) ≤ x ∧ x < r + 1 ∧ 0 ≤ r) ∧ (x ≤ 0 → x ≤ r ∧ (r : Rat) - 1 < x ∧ r ≤ 0)

/-- The six rules of one comparison are consistent: exactly one of less, equal and greater holds, and the three others
are what they are called. -/
structure Consistent (c : Rule → Bool) : Prop where
  one : (c .lessThan = true ∧ c .equalTo = false ∧ c .greaterThan = false) ∨
        (c .lessThan = false ∧ c .equalTo = true ∧ c .greaterThan = false) ∨
        (c .lessThan = false ∧ c .equalTo = false ∧ c .greaterThan = true)
  notEqual : c .notEqualTo = !c .equalTo
  lessOrEqual : c .lessOrEqual = (c .lessThan || c .equalTo)
  greaterOrEqual : c .greaterOrEqual = (c .greaterThan || c .equalTo)

/-! ### Arithmetic -/

theorem trunc_towardZero (x : Rat) : TowardZero x (trunc x) := by
  have hd : (0 : Rat) < x.den := by exact_mod_cast x.den_pos
  have hx : x * x.den = x.num := Rat.mul_den_eq_num x
  have hdi : (0 : Int) < x.den := by exact_mod_cast x.den_pos
  have key := Int.mul_tdiv_add_tmod x.num x.den
  have keyR : (x.den : Rat) * (trunc x : Int) + (Int.tmod x.num x.den : Int) = x.num := by
    have := congrArg (fun z : Int => (z : Rat)) key
    push_cast at this
    exact this
  constructor
  · intro h
    have hn : 0 ≤ x.num := Rat.num_nonneg.mpr h
    have h1 : (0 : Int) ≤ Int.tmod x.num x.den := Int.tmod_nonneg _ hn
    have h2 : Int.tmod x.num x.den < x.den := Int.tmod_lt_of_pos _ hdi
    have h1' : (0 : Rat) ≤ (Int.tmod x.num x.den : Int) := by exact_mod_cast h1
    have h2' : ((Int.tmod x.num x.den : Int) : Rat) < x.den := by exact_mod_cast h2
    refine ⟨?_, ?_, Int.tdiv_nonneg hn (by omega)⟩
    · by_contra hc; nlinarith
    · by_contra hc; nlinarith
  · intro h
    have hn : x.num ≤ 0 := Rat.num_nonpos.mpr h
    have h1 : Int.tmod x.num x.den ≤ 0 := by
      have := Int.tmod_nonneg (a := -x.num) (x.den : Int) (by omega)
      rw [Int.neg_tmod] at this; omega
    have h2 : -(x.den : Int) < Int.tmod x.num x.den := by
      have := Int.tmod_lt_of_pos (-x.num) hdi
      rw [Int.neg_tmod] at this; omega
    have h1' : ((Int.tmod x.num x.den : Int) : Rat) ≤ 0 := by exact_mod_cast h1
    have h2' : -(x.den : Rat) < (Int.tmod x.num x.den : Int) := by exact_mod_cast h2
    refine ⟨?_, ?_, ?_⟩
    · by_contra hc; nlinarith
    · by_contra hc; nlinarith
    · have := Int.tdiv_nonneg (a := -x.num) (b := x.den) (by omega) (by omega)
      rw [Int.neg_tdiv] at this
      unfold trunc; omega

/-- C46, first part. Adding a finite value to, or multiplying, an integer parameter gives the exact result rounded
toward zero, whenever the double arithmetic involved is exact and the result can be stored; otherwise it is undefined. -/
theorem C46_integer (round : Rat → Rat) (o : Op) (i : Int) (x : Rat) (h1 : round i = i) (h2 : round (o.rat i x) = o.rat i x) :
    (∃ r, modify round o (.integer i) (.fin x) = .value (.integer r) ∧ TowardZero (o.rat i x) r ∧ minI64 ≤ r ∧ r ≤ maxI64) ∨
    (modify round o (.integer i) (.fin x) = .undefined ∧ ∀ r, TowardZero (o.rat i x) r → ¬ (minI64 ≤ r ∧ r ≤ maxI64)) := by
  have ht := trunc_towardZero (o.rat i x)
  simp only [modify, Op.dbl, h1, h2, convert]
  by_cases hr : minI64 ≤ trunc (o.rat i x) ∧ trunc (o.rat i x) ≤ maxI64
  · rw [if_pos hr]
    exact .inl ⟨_, rfl, ht, hr.1, hr.2⟩
  · rw [if_neg hr]
    refine .inr ⟨rfl, fun r hr' hrange => hr ?_⟩
    have : r = trunc (o.rat i x) := by
      rcases le_total 0 (o.rat i x) with h | h
      · obtain ⟨a, b, _⟩ := hr'.1 h
        obtain ⟨c, d, _⟩ := ht.1 h
        have e1 : (r : Rat) < trunc (o.rat i x) + 1 := by linarith
        have e2 : ((trunc (o.rat i x) : Int) : Rat) < r + 1 := by linarith
        have e1 : r < trunc (o.rat i x) + 1 := by exact_mod_cast e1
        have e2 : trunc (o.rat i x) < r + 1 := by exact_mod_cast e2
        omega
      · obtain ⟨a, b, _⟩ := hr'.2 h
        obtain ⟨c, d, _⟩ := ht.2 h
        have e1 : (r : Rat) - 1 < trunc (o.rat i x) := by linarith
        have e2 : ((trunc (o.rat i x) : Int) : Rat) - 1 < r := by linarith
        have e1 : r - 1 < trunc (o.rat i x) := by exact_mod_cast e1
        have e2 : trunc (o.rat i x) - 1 < r := by exact_mod_cast e2
        omega
    rw [← this]; exact hrange

example : modify id .mul (.integer (-7)) (.fin (1 / 2)) = .value (.integer (-3)) := by decide +kernel

/-- C46 is not true where the conversion of the integer to a double is not exact: adding zero to 2^53 + 1 changes it. -/
theorem C46_large_integer_violated (round : Rat → Rat) (h1 : round (((2 ^ 53 + 1 : Int)) : Rat) = ((2 ^ 53 : Int) : Rat))
    (h2 : round (((2 ^ 53 : Int)) : Rat) = ((2 ^ 53 : Int) : Rat)) :
    modify round .add (.integer (2 ^ 53 + 1)) (.fin 0) = .value (.integer (2 ^ 53)) := by
  have e : ((2 ^ 53 : Int) : Rat) + 0 = ((2 ^ 53 : Int) : Rat) := by norm_num
  have : Op.dbl round .add (.fin (round (((2 ^ 53 + 1 : Int)) : Rat))) (.fin 0) = .fin ((2 ^ 53 : Int) : Rat) := by
    simp only [Op.dbl, Op.rat, h1]
    rw [e, h2]
  unfold modify
  simp only [this]
  decide +kernel

/-- C46 for an unsigned parameter, if the operand is a natural number and the result can be stored: it is exact. Missing:
all other operands. -/
theorem C46_unsigned_partial (round : Rat → Rat) (o : Op) (n k : Nat) (hk : k ≤ maxU64)
    (hr : (o.int n k) ≤ maxU64) :
    modify round o (.unsignedInteger n) (.fin k) = .value (.unsignedInteger (o.int n k).toNat) := by
  have ht : trunc (k : Rat) = k := by simp [trunc]
  simp only [modify, convert, ht]
  rw [if_pos ⟨by omega, by omega⟩]
  simp only
  rw [Nat.mod_eq_of_lt]
  have : (maxU64 : Int) = 2 ^ 64 - 1 := by decide
  have h0 : 0 ≤ o.int n k := by
    cases o with
    | add => simp only [Op.int]; omega
    | mul => simp only [Op.int]; exact Int.mul_nonneg (by omega) (by omega)
  omega

/-- The same for a short unsigned parameter; the product must also fit into an `int`, which follows. -/
theorem C46_short_partial (round : Rat → Rat) (o : Op) (n k : Nat) (hk : k ≤ maxU16) (hr : (o.int n k) ≤ maxU16) :
    modify round o (.unsignedShort n) (.fin k) = .value (.unsignedShort (o.int n k).toNat) := by
  have ht : trunc (k : Rat) = k := by simp [trunc]
  simp only [modify, convert, ht]
  rw [if_pos ⟨by omega, by omega⟩]
  simp only
  have h1 : (maxU16 : Int) = 2 ^ 16 - 1 := by decide
  have h2 : maxInt = 2 ^ 31 - 1 := rfl
  rw [if_pos (by omega), Nat.mod_eq_of_lt]
  have h0 : 0 ≤ o.int n k := by
    cases o with
    | add => simp only [Op.int]; omega
    | mul => simp only [Op.int]; positivity
  omega

example : modify id .mul (.unsignedShort 10) (.fin 3) = .value (.unsignedShort 30) := by decide +kernel

/-- The operations are addition and multiplication. -/
theorem C46_operations (a b : Rat) (i j : Int) :
    Op.rat .add a b = a + b ∧ Op.rat .mul a b = a * b ∧ Op.int .add i j = i + j ∧ Op.int .mul i j = i * j :=
  ⟨rfl, rfl, rfl, rfl⟩

example : modify id .mul (.unsignedInteger 10) (.fin 3) = .value (.unsignedInteger 30) := by decide +kernel

/-- C46 is false for unsigned parameters: the operand is truncated before the operation, so that half of ten is zero,
one and a half times ten is ten, and subtracting one is undefined. -/
theorem C46_unsigned_violated :
    modify id .mul (.unsignedInteger 10) (.fin (1 / 2)) = .value (.unsignedInteger 0) ∧
    modify id .mul (.unsignedInteger 10) (.fin (3 / 2)) = .value (.unsignedInteger 10) ∧
    modify id .add (.unsignedInteger 10) (.fin (-1)) = .undefined ∧
    modify id .mul (.unsignedShort 65535) (.fin 65535) = .undefined := by
  decide +kernel

/-- C46: a double parameter follows double arithmetic, and what is not a number is refused and unchanged. -/
theorem C46_other_types (round : Rat → Rat) (o : Op) (a x : Rat) (b : Bool) (s : String) (y : Dbl) :
    modify round o (.double (.fin a)) (.fin x) = .value (.double (.fin (round (o.rat a x)))) ∧
    modify round o (.boolean b) y = .error ∧ modify round o (.string s) y = .error :=
  ⟨rfl, rfl, rfl⟩

/-! ### Comparison -/

theorem exact_linear {α : Type} [LinearOrder α] (a b : α) :
    Consistent (fun r => r.exact (fun a b : α => decide (a = b)) (fun a b => decide (a < b)) (fun a b => decide (a ≤ b)) a b) := by
  rcases lt_trichotomy a b with h | h | h
  · exact ⟨.inl ⟨by simp [Rule.exact, h], by simp [Rule.exact, h.ne], by simp [Rule.exact, h.le]⟩, rfl,
      by simp [Rule.exact, h, h.le], by simp [Rule.exact, h.ne, not_le.mpr h, not_lt.mpr h.le]⟩
  · subst h
    exact ⟨.inr (.inl ⟨by simp [Rule.exact], by simp [Rule.exact], by simp [Rule.exact]⟩), rfl,
      by simp [Rule.exact], by simp [Rule.exact]⟩
  · exact ⟨.inr (.inr ⟨by simp [Rule.exact, h.le], by simp [Rule.exact, h.ne'], by simp [Rule.exact, h]⟩), rfl,
      by simp [Rule.exact, h.ne', not_le.mpr h, not_lt.mpr h.le], by simp [Rule.exact, h, h.le]⟩

theorem exact_dbl (a b : Dbl) (ha : a ≠ .nan) (hb : b ≠ .nan) : Consistent (fun r => r.exact Dbl.eq Dbl.lt Dbl.le a b) := by
  cases a with
  | nan => exact absurd rfl ha
  | inf p =>
    cases b with
    | nan => exact absurd rfl hb
    | inf q => cases p <;> cases q <;> exact ⟨by simp [Rule.exact, Dbl.eq, Dbl.lt], rfl, by decide, by decide⟩
    | fin y => cases p <;> exact ⟨by simp [Rule.exact, Dbl.eq, Dbl.lt], rfl, by simp [Rule.exact, Dbl.le, Dbl.eq, Dbl.lt],
        by simp [Rule.exact, Dbl.le, Dbl.eq, Dbl.lt]⟩
  | fin x =>
    cases b with
    | nan => exact absurd rfl hb
    | inf q => cases q <;> exact ⟨by simp [Rule.exact, Dbl.eq, Dbl.lt], rfl, by simp [Rule.exact, Dbl.le, Dbl.eq, Dbl.lt],
        by simp [Rule.exact, Dbl.le, Dbl.eq, Dbl.lt]⟩
    | fin y =>
      have := exact_linear x y
      exact ⟨this.one, this.notEqual, this.lessOrEqual, this.greaterOrEqual⟩

/-- What a comparison with a parameter yields under each rule; `false` if it throws. -/
def comparison (read : Value → String → Option Value) (v : Value) (text : String) (r : Rule) : Bool :=
  (compare read v r text).getD false

/-- C46, second part: comparisons of a parameter with a text that can be read as its type are consistent, for
parameters of every type and all values other than not-a-number. -/
theorem C46_rules (read : Value → String → Option Value) (v w : Value) (text : String) (h : read v text = some w)
    (hread : match v, w with
      | .boolean _, .boolean _ | .double _, .double _ | .integer _, .integer _ | .string _, .string _
      | .unsignedInteger _, .unsignedInteger _ | .unsignedShort _, .unsignedShort _ => True
      | _, _ => False)
    (hv : v ≠ .double .nan) (hw : w ≠ .double .nan) : Consistent (comparison read v text) := by
  cases v <;> cases w <;> simp only at hread <;> unfold comparison compare <;> rw [h]
  · next a b => cases a <;> cases b <;> exact ⟨by simp [Rule.exact], rfl, by decide, by decide⟩
  · next a b => exact exact_dbl a b (fun e => hv (by rw [e])) (fun e => hw (by rw [e]))
  · next a b => exact exact_linear a b
  · next a b => exact exact_linear a b
  · next a b => exact exact_linear a b
  · next a b => exact exact_linear a b

/-- C46: what `lessThan` and `equalTo` mean for the types of parameters; with `C46_rules` this settles the other rules. -/
theorem C46_meaning (read : Value → String → Option Value) (text : String) :
    (∀ a b, read (.integer a) text = some (.integer b) →
      (comparison read (.integer a) text .lessThan = true ↔ a < b) ∧ (comparison read (.integer a) text .equalTo = true ↔ a = b)) ∧
    (∀ a b, read (.unsignedInteger a) text = some (.unsignedInteger b) →
      (comparison read (.unsignedInteger a) text .lessThan = true ↔ a < b) ∧ (comparison read (.unsignedInteger a) text .equalTo = true ↔ a = b)) ∧
    (∀ a b, read (.unsignedShort a) text = some (.unsignedShort b) →
      (comparison read (.unsignedShort a) text .lessThan = true ↔ a < b) ∧ (comparison read (.unsignedShort a) text .equalTo = true ↔ a = b)) ∧
    (∀ a b, read (.string a) text = some (.string b) →
      (comparison read (.string a) text .lessThan = true ↔ a < b) ∧ (comparison read (.string a) text .equalTo = true ↔ a = b)) ∧
    (∀ a b, read (.boolean a) text = some (.boolean b) →
      (comparison read (.boolean a) text .lessThan = true ↔ a = false ∧ b = true) ∧ (comparison read (.boolean a) text .equalTo = true ↔ a = b)) ∧
    (∀ a b, read (.double (.fin a)) text = some (.double (.fin b)) →
      (comparison read (.double (.fin a)) text .lessThan = true ↔ a < b) ∧ (comparison read (.double (.fin a)) text .equalTo = true ↔ a = b)) ∧
    (∀ a p, read (.double (.fin a)) text = some (.double (.inf p)) →
      (comparison read (.double (.fin a)) text .lessThan = true ↔ p = true) ∧ comparison read (.double (.fin a)) text .equalTo = false) := by
  refine ⟨?_, ?_, ?_, ?_, ?_, ?_, ?_⟩ <;> intro a b h <;> unfold comparison compare <;> rw [h] <;> simp [Rule.exact, Dbl.lt, Dbl.eq]

example : Consistent (comparison (fun _ _ => some (.integer 3)) (.integer 2) "3") :=
  C46_rules _ _ (.integer 3) _ rfl trivial (by simp) (by simp)

/-- C46 for measurements of entities: consistent if both values are finite and are equal or at least epsilon apart.
Missing: all other values. -/
theorem C46_measured_partial (a b : Rat) (h : a = b ∨ epsilon ≤ a - b ∨ epsilon ≤ b - a) :
    Consistent (fun r => r.measured (.fin a) (.fin b)) ∧ (Rule.measured .lessThan (.fin a) (.fin b) = true ↔ a < b) := by
  refine ⟨?_, by simp [Rule.measured, Rule.exact, Dbl.lt]⟩
  have heps : (0 : Rat) < epsilon := by decide +kernel
  have he : Dbl.near (.fin a) (.fin b) = Dbl.eq (.fin a) (.fin b) := by
    simp only [Dbl.near, Dbl.eq]
    rcases h with h | h | h
    · subst h; simp [heps]
    · have : ¬ a - b < epsilon := not_lt.mpr h
      have hne : a ≠ b := by rintro rfl; simp at h; linarith
      simp [this, hne]
    · have : ¬ b - a < epsilon := not_lt.mpr h
      have hne : a ≠ b := by rintro rfl; simp at h; linarith
      simp [this, hne]
  have := exact_dbl (.fin a) (.fin b) (by simp) (by simp)
  have e : ∀ r : Rule, r.measured (.fin a) (.fin b) = r.exact Dbl.eq Dbl.lt Dbl.le (.fin a) (.fin b) := by
    intro r
    cases r <;> first | exact he | rfl
  simp only [e]
  exact this

example : (3 : Rat) = 5 ∨ epsilon ≤ (3 : Rat) - 5 ∨ epsilon ≤ (5 : Rat) - 3 := by decide +kernel

/-- C46 is false for measurements: two values closer than epsilon are at once less, equal and not equal; and of two equal
infinities neither "equal" nor "not equal" holds. -/
theorem C46_measured_violated :
    (Rule.measured .lessThan (.fin 0) (.fin (1 / 2 ^ 60)) = true ∧ Rule.measured .equalTo (.fin 0) (.fin (1 / 2 ^ 60)) = true ∧
      Rule.measured .notEqualTo (.fin 0) (.fin (1 / 2 ^ 60)) = true) ∧
    (Rule.measured .equalTo (.inf true) (.inf true) = false ∧ Rule.measured .notEqualTo (.inf true) (.inf true) = false) := by
  decide +kernel

/-! ### C56 -/

/-- What a constraint asks of a value. -/
def Satisfies (read : Value → String → Option Value) (v : Value) (c : Constraint) : Prop := compare read v c.rule c.text = some true

theorem allOf_true (read : Value → String → Option Value) (v : Value) (g : List Constraint) :
    allOf read v g = some true ↔ ∀ c ∈ g, Satisfies read v c := by
  induction g with
  | nil => simp [allOf]
  | cons c l ih =>
    unfold allOf
    simp only [List.mem_cons, forall_eq_or_imp]
    unfold Satisfies
    cases h : compare read v c.rule c.text with
    | none => simp
    | some b =>
      cases b with
      | false => simp
      | true => simpa [Satisfies] using ih

theorem allOf_defined (read : Value → String → Option Value) (v : Value) (g : List Constraint)
    (h : ∀ c ∈ g, (compare read v c.rule c.text).isSome = true) : ∃ b, allOf read v g = some b := by
  induction g with
  | nil => exact ⟨true, rfl⟩
  | cons c l ih =>
    unfold allOf
    obtain ⟨b, hb⟩ := Option.isSome_iff_exists.mp (h c (by simp))
    rw [hb]
    cases b with
    | false => exact ⟨false, rfl⟩
    | true => exact ih (fun c hc => h c (by simp [hc]))

theorem anyOf_true (read : Value → String → Option Value) (v : Value) (gs : List (List Constraint))
    (h : ∀ g ∈ gs, ∀ c ∈ g, (compare read v c.rule c.text).isSome = true) :
    anyOf read v gs = some true ↔ ∃ g ∈ gs, ∀ c ∈ g, Satisfies read v c := by
  induction gs with
  | nil => simp [anyOf]
  | cons g l ih =>
    unfold anyOf
    have := allOf_true read v g
    obtain ⟨b, hb⟩ := allOf_defined read v g (fun c hc => h g (by simp) c hc)
    rw [hb] at this ⊢
    cases b with
    | true => simp only [Option.bind_some, if_true, true_iff]; exact ⟨g, by simp, this.mp rfl⟩
    | false =>
      have hg : ¬ ∀ c ∈ g, Satisfies read v c := fun hc => by simpa using this.mpr hc
      rw [Option.bind_some, if_neg (by simp), ih (fun g hg => h g (by simp [hg]))]
      constructor
      · rintro ⟨g', h1, h2⟩; exact ⟨g', by simp [h1], h2⟩
      · rintro ⟨g', h1, h2⟩
        rcases List.mem_cons.mp h1 with rfl | h1
        · exact absurd h2 hg
        · exact ⟨g', h1, h2⟩

/-- C56. A declaration with constraints that can be read as its type is accepted exactly if its name is not reserved
and there are no constraint groups or all constraints of at least one group hold; then the parameter has the declared value. -/
theorem C56_constraints (read : Value → String → Option Value) (name : String) (v : Value) (gs : List (List Constraint))
    (h : ∀ g ∈ gs, ∀ c ∈ g, (compare read v c.rule c.text).isSome = true) :
    (declare read name v gs = some v ↔
      ¬ (['O', 'S', 'C'] <+: name.toList) ∧ (gs = [] ∨ ∃ g ∈ gs, ∀ c ∈ g, Satisfies read v c)) ∧
    (∀ w, declare read name v gs = some w → w = v) := by
  have hpre : (name.toList.take 3 = ['O', 'S', 'C']) ↔ ['O', 'S', 'C'] <+: name.toList := by
    rw [List.prefix_iff_eq_take]; exact eq_comm
  constructor
  · unfold declare
    cases gs with
    | nil =>
      simp only [List.isEmpty_nil, if_true]
      by_cases hp : name.toList.take 3 = ['O', 'S', 'C']
      · rw [if_pos hp]; simp [hpre.mp hp]
      · rw [if_neg hp]; simp only [true_or, and_true, true_iff]; exact fun h => hp (hpre.mpr h)
    | cons g l =>
      rw [if_neg (by simp)]
      have ha := anyOf_true read v (g :: l) h
      cases hx : anyOf read v (g :: l) with
      | none => rw [hx] at ha; simp only [reduceCtorEq, false_iff] at ha ⊢; rintro ⟨_, h1 | h1⟩; · cases h1
                exact ha h1
      | some b =>
        rw [hx] at ha
        cases b with
        | false => simp only [reduceCtorEq, Option.some.injEq, Bool.false_eq_true, false_iff] at ha ⊢; rintro ⟨_, h1 | h1⟩; · cases h1
                   exact ha h1
        | true =>
          by_cases hp : name.toList.take 3 = ['O', 'S', 'C']
          · simp only [if_pos hp, reduceCtorEq, false_iff]; exact fun h => h.1 (hpre.mp hp)
          · simp only [if_neg hp, true_iff]; exact ⟨fun h => hp (hpre.mpr h), .inr (ha.mp rfl)⟩
  · intro w hw
    unfold declare at hw
    split at hw
    · split at hw <;> cases hw; rfl
    · split at hw
      · split at hw <;> cases hw; rfl
      · cases hw

/-- Constraints between 0 and 10, or equal to 20. -/
def readInt (_ : Value) (s : String) : Option Value :=
  if s = "0" then some (.integer 0) else if s = "10" then some (.integer 10) else if s = "20" then some (.integer 20) else none
example : declare readInt "speed" (.integer 5) [[⟨.greaterOrEqual, "0"⟩, ⟨.lessThan, "10"⟩], [⟨.equalTo, "20"⟩]] = some (.integer 5) ∧
    declare readInt "speed" (.integer 15) [[⟨.greaterOrEqual, "0"⟩, ⟨.lessThan, "10"⟩], [⟨.equalTo, "20"⟩]] = none := by
  decide +kernel

end Verif.Parameter
