import Verif.Report.Spec
import Mathlib.Algebra.Order.Archimedean.Basic

/-!
# C193-C196: the result file, the start of a scenario, the statistics, the frame rate
-/
namespace Verif.Report

/-! ## Maps -/

section
variable {α : Type}

theorem at_lookup_same (new : α) (f : α → α) (n : String) (m : Map α) :
    (Map.at new f n m).lookup n = some (f ((m.lookup n).getD new)) := by
  induction m with
  | nil => simp [Map.at, List.lookup]
  | cons e m ih =>
    obtain ⟨k, v⟩ := e
    by_cases h : k = n
    · subst h; simp [Map.at, List.lookup]
    · have h' : (n == k) = false := beq_eq_false_iff_ne.2 (Ne.symm h)
      simp [Map.at, List.lookup, h, h', ih]

theorem at_lookup_other (new : α) (f : α → α) (n k : String) (hk : k ≠ n) (m : Map α) :
    (Map.at new f n m).lookup k = m.lookup k := by
  induction m with
  | nil => simp [Map.at, List.lookup, beq_eq_false_iff_ne.2 hk]
  | cons e m ih =>
    obtain ⟨j, v⟩ := e
    by_cases h : j = n
    · subst h; simp [Map.at, List.lookup, beq_eq_false_iff_ne.2 hk]
    · simp only [Map.at, h, if_false, List.lookup]
      split
      · rfl
      · exact ih

theorem at_keys (new : α) (f : α → α) (n : String) (m : Map α) :
    (Map.at new f n m).map (·.1) = if n ∈ m.map (·.1) then m.map (·.1) else m.map (·.1) ++ [n] := by
  induction m with
  | nil => simp [Map.at]
  | cons e m ih =>
    by_cases h : e.1 = n
    · subst h; simp [Map.at]
    · simp only [Map.at, h, if_false, List.map_cons, ih, List.mem_cons]
      by_cases hm : n ∈ m.map (·.1)
      · simp [hm]
      · simp [hm, Ne.symm h]

theorem at_nodup (new : α) (f : α → α) (n : String) (m : Map α) (h : (m.map (·.1)).Nodup) :
    ((Map.at new f n m).map (·.1)).Nodup := by
  rw [at_keys]
  split
  · exact h
  · rename_i hn
    exact List.nodup_append.2 ⟨h, by simp, by
      intro a ha b hb hab
      simp only [List.mem_singleton] at hb
      exact hn (by rw [← hb, ← hab]; exact ha)⟩

theorem at_sum (new : α) (f : α → α) (g : α → Nat) (δ : Nat) (hf : ∀ x, g (f x) = g x + δ)
    (hn : g new = 0) (n : String) (m : Map α) :
    ((Map.at new f n m).map fun e => g e.2).sum = (m.map fun e => g e.2).sum + δ := by
  induction m with
  | nil => simp [Map.at, hf, hn]
  | cons e m ih =>
    by_cases h : e.1 = n
    · simp only [Map.at, h, if_true, List.map_cons, List.sum_cons, hf]; omega
    · simp only [Map.at, h, if_false, List.map_cons, List.sum_cons, ih]; omega

theorem mem_lookup (m : Map α) (h : (m.map (·.1)).Nodup) (e : String × α) :
    e ∈ m ↔ m.lookup e.1 = some e.2 := by
  induction m with
  | nil => simp
  | cons d m ih =>
    obtain ⟨k, v⟩ := d
    obtain ⟨j, w⟩ := e
    simp only [List.map_cons, List.nodup_cons] at h
    have ih := ih h.2
    by_cases hk : j = k
    · subst hk
      simp only [List.mem_cons, Prod.mk.injEq, true_and, List.lookup, beq_self_eq_true,
        Option.some.injEq]
      constructor
      · rintro (h' | h')
        · exact h'.symm
        · exact absurd (List.mem_map.2 ⟨_, h', rfl⟩) h.1
      · intro h'; exact Or.inl h'.symm
    · simp only [List.mem_cons, Prod.mk.injEq, hk, false_and, false_or, List.lookup,
        beq_eq_false_iff_ne.2 hk]
      exact ih

end

/-! ## The results -/

/-- The cases of one suite. -/
def casesOf (vs : List (Path × Verdict)) : Map Case :=
  vs.foldl (fun m v => Map.at Case.new (·.add v.2) v.1.stem m) []

def caseOf (vs : List (Path × Verdict)) : Case := vs.foldl (fun c v => c.add v.2) Case.new

theorem record_concat (vs : List (Path × Verdict)) (v : Path × Verdict) :
    record (vs ++ [v]) = (record vs).set v.1 v.2 := by
  simp [record]

theorem casesOf_concat (vs : List (Path × Verdict)) (v : Path × Verdict) :
    casesOf (vs ++ [v]) = Map.at Case.new (·.add v.2) v.1.stem (casesOf vs) := by
  simp [casesOf]

theorem caseOf_concat (vs : List (Path × Verdict)) (v : Path × Verdict) :
    caseOf (vs ++ [v]) = (caseOf vs).add v.2 := by
  simp [caseOf]

/-- Induction from the end. -/
theorem fromEnd {β : Type} {p : List β → Prop} (h0 : p []) (h1 : ∀ l x, p l → p (l ++ [x]))
    (l : List β) : p l := by
  have : ∀ l : List β, p l.reverse := by
    intro l
    induction l with
    | nil => exact h0
    | cons x l ih => rw [List.reverse_cons]; exact h1 _ _ ih
  have h := this l.reverse
  rwa [List.reverse_reverse] at h

theorem caseOf_eq (vs : List (Path × Verdict)) :
    (caseOf vs).failures = failuresOf vs ∧ (caseOf vs).errors = errorsOf vs := by
  induction vs using fromEnd with
  | h0 => exact ⟨rfl, rfl⟩
  | h1 l v ih =>
    rw [caseOf_concat, failuresOf, errorsOf, List.filterMap_append, List.filterMap_append,
      ← failuresOf, ← errorsOf, ← ih.1, ← ih.2]
    obtain ⟨p, v⟩ := v
    cases v <;> simp [Case.add, Verdict.asFailure, Verdict.asError]

theorem casesOf_nodup (vs : List (Path × Verdict)) : ((casesOf vs).map (·.1)).Nodup := by
  induction vs using fromEnd with
  | h0 => simp [casesOf]
  | h1 l v ih => rw [casesOf_concat]; exact at_nodup _ _ _ _ ih

theorem casesOf_lookup (vs : List (Path × Verdict)) (n : String) :
    (casesOf vs).lookup n =
      if (vs.filter fun v => v.1.stem = n) = [] then none
      else some (caseOf (vs.filter fun v => v.1.stem = n)) := by
  induction vs using fromEnd with
  | h0 => simp [casesOf]
  | h1 l v ih =>
    rw [casesOf_concat, List.filter_append]
    by_cases h : v.1.stem = n
    · subst h
      have hf : List.filter (fun w : Path × Verdict => decide (w.1.stem = v.1.stem)) [v] = [v] := by
        simp
      rw [at_lookup_same, hf, caseOf_concat, ih, if_neg (c := _ ++ [v] = []) (by simp)]
      by_cases he : (l.filter fun w => w.1.stem = v.1.stem) = []
      · rw [if_pos he, he]; rfl
      · rw [if_neg he]; rfl
    · have hf : List.filter (fun w : Path × Verdict => decide (w.1.stem = n)) [v] = [] := by
        simp [h]
      rw [at_lookup_other _ _ _ _ (Ne.symm h), ih, hf, List.append_nil]

theorem suites_nodup (vs : List (Path × Verdict)) : ((record vs).suites.map (·.1)).Nodup := by
  induction vs using fromEnd with
  | h0 => simp [record, Results.new]
  | h1 l v ih => rw [record_concat]; exact at_nodup _ _ _ _ ih

theorem suites_lookup (vs : List (Path × Verdict)) (d : String) :
    (record vs).suites.lookup d =
      if inSuite d vs = [] then none else some (casesOf (inSuite d vs)) := by
  induction vs using fromEnd with
  | h0 => simp [record, Results.new, inSuite]
  | h1 l v ih =>
    rw [record_concat, inSuite, List.filter_append, ← inSuite, Results.set]
    by_cases h : v.1.directory = d
    · subst h
      have hf : List.filter (fun w : Path × Verdict => decide (w.1.directory = v.1.directory)) [v]
          = [v] := by simp
      simp only
      rw [at_lookup_same, hf, casesOf_concat, ih, if_neg (c := _ ++ [v] = []) (by simp)]
      by_cases he : inSuite v.1.directory l = []
      · rw [if_pos he, he]; rfl
      · rw [if_neg he]; rfl
    · have hf : List.filter (fun w : Path × Verdict => decide (w.1.directory = d)) [v] = [] := by
        simp [h]
      simp only
      rw [at_lookup_other _ _ _ _ (Ne.symm h), ih, hf, List.append_nil]

theorem mem_suites (vs : List (Path × Verdict)) (e : String × Map Case) :
    e ∈ (record vs).suites ↔ inSuite e.1 vs ≠ [] ∧ e.2 = casesOf (inSuite e.1 vs) := by
  rw [mem_lookup _ (suites_nodup vs), suites_lookup]
  split
  · rename_i h; simp [h]
  · rename_i h; simp only [Option.some.injEq, ne_eq, h, not_false_eq_true, true_and]; exact eq_comm

theorem mem_cases (vs : List (Path × Verdict)) (e : String × Case) :
    e ∈ casesOf vs ↔ (vs.filter fun v => v.1.stem = e.1) ≠ [] ∧
      e.2 = caseOf (vs.filter fun v => v.1.stem = e.1) := by
  rw [mem_lookup _ (casesOf_nodup vs), casesOf_lookup]
  split
  · rename_i h; simp only [reduceCtorEq, ne_eq, h, not_true, false_and]
  · rename_i h; simp only [Option.some.injEq, ne_eq, h, not_false_eq_true, true_and]; exact eq_comm

/-! ## Counting -/

theorem tally_foldl (m : List (String × Case)) (t : Nat × Nat × Nat) :
    m.foldl tally t = (t.1 + (m.map fun e => e.2.passes).sum,
      t.2.1 + (m.map fun e => e.2.failures.length).sum,
      t.2.2 + (m.map fun e => e.2.errors.length).sum) := by
  induction m generalizing t with
  | nil => simp
  | cons e m ih => rw [List.foldl_cons, ih]; simp only [tally, List.map_cons, List.sum_cons]; ext <;> simp only <;> omega

/-- Passes, failures or errors of a map of cases. -/
def total (g : Case → Nat) (m : Map Case) : Nat := (m.map fun e => g e.2).sum

theorem tally_order (σ : ∀ α : Type, List α → List α) (hσ : Order σ) (m : Map Case)
    (t : Nat × Nat × Nat) :
    (σ _ m).foldl tally t = (t.1 + total (·.passes) m, t.2.1 + total (·.failures.length) m,
      t.2.2 + total (·.errors.length) m) := by
  rw [tally_foldl]
  have h : ∀ g : Case → Nat, ((σ _ m).map fun e => g e.2).sum = total g m := fun g =>
    ((hσ _ m).map _).sum_eq
  rw [h, h (·.failures.length), h (·.errors.length)]

theorem suites_foldl (σ : ∀ α : Type, List α → List α) (hσ : Order σ) (m : List (String × Map Case))
    (t : Nat × Nat × Nat) :
    m.foldl (tallySuite σ) t = (t.1 + (m.map fun e => total (·.passes) e.2).sum,
      t.2.1 + (m.map fun e => total (·.failures.length) e.2).sum,
      t.2.2 + (m.map fun e => total (·.errors.length) e.2).sum) := by
  induction m generalizing t with
  | nil => simp
  | cons e m ih =>
    rw [List.foldl_cons, ih, tallySuite, tally_order σ hσ]
    simp only [List.map_cons, List.sum_cons]; ext <;> simp only <;> omega

theorem total_casesOf (g : Case → Nat) (δ : Verdict → Nat) (hg : ∀ c v, g (c.add v) = g c + δ v)
    (h0 : g Case.new = 0) (vs : List (Path × Verdict)) :
    total g (casesOf vs) = (vs.map fun v => δ v.2).sum := by
  induction vs using fromEnd with
  | h0 => rfl
  | h1 l v ih =>
    rw [casesOf_concat, total, at_sum Case.new (·.add v.2) g (δ v.2) (fun c => hg c v.2) h0, ← total,
      ih]
    simp

theorem total_record (g : Case → Nat) (δ : Verdict → Nat) (hg : ∀ c v, g (c.add v) = g c + δ v)
    (h0 : g Case.new = 0) (vs : List (Path × Verdict)) :
    ((record vs).suites.map fun e => total g e.2).sum = (vs.map fun v => δ v.2).sum := by
  induction vs using fromEnd with
  | h0 => rfl
  | h1 l v ih =>
    rw [record_concat, Results.set]
    rw [at_sum [] (Map.at Case.new (·.add v.2) v.1.stem) (total g) (δ v.2)
      (fun m => at_sum Case.new (·.add v.2) g (δ v.2) (fun c => hg c v.2) h0 _ m) rfl, ih]
    simp

def isPass : Verdict → Nat
  | .pass => 1
  | _ => 0

def isFailure : Verdict → Nat
  | .failure _ _ => 1
  | _ => 0

def isError : Verdict → Nat
  | .error _ _ => 1
  | _ => 0

theorem add_passes (c : Case) (v : Verdict) : (c.add v).passes = c.passes + isPass v := by
  cases v <;> rfl

theorem add_failures (c : Case) (v : Verdict) :
    (c.add v).failures.length = c.failures.length + isFailure v := by
  cases v <;> simp [Case.add, isFailure]

theorem add_errors (c : Case) (v : Verdict) :
    (c.add v).errors.length = c.errors.length + isError v := by
  cases v <;> simp [Case.add, isError]

theorem sum_failures (vs : List (Path × Verdict)) :
    (vs.map fun v => isFailure v.2).sum = (failuresOf vs).length := by
  induction vs with
  | nil => rfl
  | cons v vs ih =>
    obtain ⟨p, v⟩ := v
    rw [List.map_cons, List.sum_cons, ih]
    cases v with
    | pass => exact Nat.zero_add _
    | failure t m => exact Nat.add_comm _ _
    | error t m => exact Nat.zero_add _

theorem sum_errors (vs : List (Path × Verdict)) :
    (vs.map fun v => isError v.2).sum = (errorsOf vs).length := by
  induction vs with
  | nil => rfl
  | cons v vs ih =>
    obtain ⟨p, v⟩ := v
    rw [List.map_cons, List.sum_cons, ih]
    cases v with
    | pass => exact Nat.zero_add _
    | failure t m => exact Nat.zero_add _
    | error t m => exact Nat.add_comm _ _

theorem sum_all (vs : List (Path × Verdict)) :
    (vs.map fun v => isPass v.2).sum + (vs.map fun v => isFailure v.2).sum
      + (vs.map fun v => isError v.2).sum = vs.length := by
  induction vs with
  | nil => rfl
  | cons v vs ih =>
    obtain ⟨p, v⟩ := v
    have h : isPass v + isFailure v + isError v = 1 := by cases v <;> rfl
    simp only [List.map_cons, List.sum_cons, List.length_cons]
    omega

/-- **C193.** The result file says how many verdicts there were, and how many failures and errors,
whatever the order of the scenarios and of the maps. -/
theorem C193_totals (σ : ∀ α : Type, List α → List α) (hσ : Order σ) (vs : List (Path × Verdict)) :
    (write σ (record vs)).tests = vs.length ∧
    (write σ (record vs)).failures = (failuresOf vs).length ∧
    (write σ (record vs)).errors = (errorsOf vs).length := by
  have h : ∀ g : Map Case → Nat, ((σ _ (record vs).suites).map fun e => g e.2).sum
      = ((record vs).suites.map fun e => g e.2).sum := fun g => ((hσ _ _).map _).sum_eq
  have hp := total_record (·.passes) isPass add_passes rfl vs
  have hf := total_record (·.failures.length) isFailure add_failures rfl vs
  have he := total_record (·.errors.length) isError add_errors rfl vs
  have ha := sum_all vs
  simp only [write, suites_foldl σ hσ, h (total _), hp, hf, he, Nat.zero_add]
  refine ⟨by omega, sum_failures vs, sum_errors vs⟩

/-- **C193.** There is one suite for each directory with a verdict, with as many tests, failures and
errors as there were verdicts, failures and errors in that directory. -/
theorem C193_suites (σ : ∀ α : Type, List α → List α) (hσ : Order σ) (vs : List (Path × Verdict)) :
    ((write σ (record vs)).suites.map (·.name)).Nodup ∧
    (∀ d, (∃ x ∈ (write σ (record vs)).suites, x.name = d) ↔ ∃ v ∈ vs, v.1.directory = d) ∧
    ∀ x ∈ (write σ (record vs)).suites,
      x.tests = (inSuite x.name vs).length ∧
      x.failures = (failuresOf (inSuite x.name vs)).length ∧
      x.errors = (errorsOf (inSuite x.name vs)).length := by
  refine ⟨?_, ?_, ?_⟩
  · have hm : (write σ (record vs)).suites.map (·.name) = (σ _ (record vs).suites).map (·.1) := by
      simp [write, writeSuite]
    rw [hm]
    exact (((hσ _ _).map _).nodup_iff).2 (suites_nodup vs)
  · intro d
    constructor
    · rintro ⟨x, hx, rfl⟩
      obtain ⟨e, he, rfl⟩ := List.mem_map.1 hx
      obtain ⟨h1, _⟩ := (mem_suites vs e).1 ((hσ _ _).mem_iff.1 he)
      obtain ⟨v, hv⟩ := List.exists_mem_of_ne_nil _ h1
      have := List.mem_filter.1 hv
      exact ⟨v, this.1, by simpa [writeSuite] using this.2⟩
    · rintro ⟨v, hv, rfl⟩
      refine ⟨writeSuite σ (v.1.directory, casesOf (inSuite v.1.directory vs)),
        List.mem_map.2 ⟨_, (hσ _ _).mem_iff.2 ((mem_suites vs _).2 ⟨?_, rfl⟩), rfl⟩, rfl⟩
      exact List.ne_nil_of_mem (List.mem_filter.2 ⟨hv, by simp⟩)
  · intro x hx
    obtain ⟨e, he, rfl⟩ := List.mem_map.1 hx
    obtain ⟨_, h2⟩ := (mem_suites vs e).1 ((hσ _ _).mem_iff.1 he)
    have hp := total_casesOf (·.passes) isPass add_passes rfl (inSuite e.1 vs)
    have hf := total_casesOf (·.failures.length) isFailure add_failures rfl (inSuite e.1 vs)
    have he := total_casesOf (·.errors.length) isError add_errors rfl (inSuite e.1 vs)
    have ha := sum_all (inSuite e.1 vs)
    simp only [writeSuite, tally_order σ hσ, h2, hp, hf, he, Nat.zero_add]
    exact ⟨ha, sum_failures _, sum_errors _⟩

/-- **C193.** Each suite has one case for each name with a verdict in that directory, and the case has
exactly the failures and errors of the verdicts with that directory and name, in the order in which they
came, with their types and messages. -/
theorem C193_cases (σ : ∀ α : Type, List α → List α) (hσ : Order σ) (vs : List (Path × Verdict))
    (x : XSuite) (hx : x ∈ (write σ (record vs)).suites) :
    (x.cases.map (·.name)).Nodup ∧
    (∀ n, (∃ y ∈ x.cases, y.name = n) ↔ ∃ v ∈ vs, v.1.directory = x.name ∧ v.1.stem = n) ∧
    ∀ y ∈ x.cases,
      y.failures = failuresOf (inCase x.name y.name vs) ∧
      y.errors = errorsOf (inCase x.name y.name vs) := by
  obtain ⟨e, he, rfl⟩ := List.mem_map.1 hx
  obtain ⟨_, h2⟩ := (mem_suites vs e).1 ((hσ _ _).mem_iff.1 he)
  have hcase : ∀ n, (inSuite e.1 vs).filter (fun v => v.1.stem = n) = inCase e.1 n vs := by
    intro n
    rw [inSuite, inCase, List.filter_filter]
    congr 1
    funext v
    simp [Bool.and_comm]
  refine ⟨?_, ?_, ?_⟩
  · have hm : (writeSuite σ e).cases.map (·.name) = (σ _ e.2).map (·.1) := by
      simp [writeSuite, writeCase]
    rw [hm, h2]
    exact (((hσ _ _).map _).nodup_iff).2 (casesOf_nodup _)
  · intro n
    constructor
    · rintro ⟨y, hy, rfl⟩
      obtain ⟨c, hc, rfl⟩ := List.mem_map.1 hy
      have hc := (hσ _ _).mem_iff.1 hc
      rw [h2] at hc
      obtain ⟨h1, _⟩ := (mem_cases _ c).1 hc
      rw [hcase] at h1
      obtain ⟨v, hv⟩ := List.exists_mem_of_ne_nil _ h1
      have := List.mem_filter.1 hv
      exact ⟨v, this.1, by simpa [writeSuite, writeCase] using this.2⟩
    · rintro ⟨v, hv, hd, rfl⟩
      refine ⟨writeCase (v.1.stem, caseOf ((inSuite e.1 vs).filter fun w => w.1.stem = v.1.stem)),
        List.mem_map.2 ⟨_, (hσ _ _).mem_iff.2 ?_, rfl⟩, rfl⟩
      rw [h2]
      refine (mem_cases _ _).2 ⟨?_, rfl⟩
      rw [hcase]
      exact List.ne_nil_of_mem (List.mem_filter.2 ⟨hv, by simpa [writeSuite] using hd⟩)
  · intro y hy
    obtain ⟨c, hc, rfl⟩ := List.mem_map.1 hy
    have hc := (hσ _ _).mem_iff.1 hc
    rw [h2] at hc
    obtain ⟨_, h3⟩ := (mem_cases _ c).1 hc
    rw [hcase] at h3
    have := caseOf_eq (inCase e.1 c.1 vs)
    rw [← h3] at this
    exact this

/-- **C193.** A case shows neither failure nor error if and only if all its verdicts were passes. -/
theorem C193_passed (σ : ∀ α : Type, List α → List α) (hσ : Order σ) (vs : List (Path × Verdict))
    (x : XSuite) (hx : x ∈ (write σ (record vs)).suites) (y : XCase) (hy : y ∈ x.cases) :
    (y.failures = [] ∧ y.errors = []) ↔
      ∀ v ∈ vs, v.1.directory = x.name → v.1.stem = y.name → v.2 = .pass := by
  obtain ⟨h1, h2⟩ := (C193_cases σ hσ vs x hx).2.2 y hy
  rw [h1, h2, failuresOf, errorsOf, List.filterMap_eq_nil_iff, List.filterMap_eq_nil_iff]
  constructor
  · rintro ⟨hf, he⟩ v hv hd hn
    have hm : v ∈ inCase x.name y.name vs := List.mem_filter.2 ⟨hv, by simp [hd, hn]⟩
    have hf := hf v hm
    have he := he v hm
    cases hv : v.2 with
    | pass => rfl
    | failure t m => simp [hv, Verdict.asFailure] at hf
    | error t m => simp [hv, Verdict.asError] at he
  · intro h
    constructor <;> intro v hv <;>
    · have hm := List.mem_filter.1 hv
      have := h v hm.1 (by simpa using (by simpa using hm.2 : _ ∧ _).1)
        (by simpa using (by simpa using hm.2 : _ ∧ _).2)
      simp [this, Verdict.asFailure, Verdict.asError]

/-- **C193.** The file is called after what the directory of the scenario of the last verdict is in. -/
theorem C193_name (σ : ∀ α : Type, List α → List α) (vs : List (Path × Verdict))
    (v : Path × Verdict) : (write σ (record (vs ++ [v]))).name = v.1.above := by
  rw [record_concat]; rfl

def demoVerdicts : List (Path × Verdict) :=
  [(⟨"/tmp", "a", "x", ".xosc"⟩, .pass), (⟨"/tmp", "b", "y", ".xosc"⟩, .failure "F" "no"),
   (⟨"/tmp", "a", "z", ".xosc"⟩, .error "E" "bad")]

example : Order (fun _ l => l.reverse) := fun _ l => List.reverse_perm l

example : write (fun _ l => l) (record demoVerdicts) = ⟨"/tmp",
    [⟨"a", [⟨"x", [], []⟩, ⟨"z", [("E", "bad")], []⟩], 0, 1, 2⟩,
     ⟨"b", [⟨"y", [], [("F", "no")]⟩], 1, 0, 1⟩], 1, 1, 3⟩ := by decide +kernel

/-- **C193.** Two scenarios whose directories and files are called the same are one case: if one passes
and the other one does not, the file does not say which. -/
theorem C193_same_name_violated :
    ∃ (p q : Path) (v : Verdict), p ≠ q ∧ v ≠ .pass ∧
      (write (fun _ l => l) (record [(p, .pass), (q, v)])).suites
        = (write (fun _ l => l) (record [(q, .pass), (p, v)])).suites :=
  ⟨⟨"/m", "a", "x", ".xosc"⟩, ⟨"/n", "a", "x", ".xosc"⟩, .failure "F" "no", by decide, by decide,
    by decide +kernel⟩

/-! ## The start -/

/-- Every entity that is added, and whose controller is Autoware, is engaged. -/
def Ready (es : List Seen) : Prop :=
  ∀ s ∈ es, s.scenarioObject = true → s.added = true → s.autoware = true → s.engaged = true

theorem ready_iff (es : List Seen) : es.all Seen.ready = true ↔ Ready es := by
  rw [List.all_eq_true, Ready]
  refine forall₂_congr fun s _ => ?_
  obtain ⟨a, b, c, d⟩ := s
  cases a <;> cases b <;> cases c <;> cases d <;> decide

theorem frames_wait (n : Nat) (before rest : List (List Seen)) (h : ∀ e ∈ before, ¬ Ready e) :
    frames ⟨n, none⟩ (before ++ rest)
      = List.replicate before.length none ++ frames ⟨n + before.length, none⟩ rest := by
  induction before generalizing n with
  | nil => simp
  | cons e before ih =>
    have he : ¬ (e.all Seen.ready = true) := fun hc => h e (by simp) ((ready_iff e).1 hc)
    have hf : frame ⟨n, none⟩ e = (⟨n + 1, none⟩, none) := by
      simp only [frame, Clock.time, Option.map_none, he, Bool.false_eq_true, if_false]
    rw [List.cons_append, frames, hf]
    simp only [List.length_cons, List.replicate_succ, List.cons_append]
    rw [ih (n + 1) fun e' h' => h e' (by simp [h'])]
    congr 4
    omega

theorem frames_go (n s : Nat) (after : List (List Seen)) :
    frames ⟨n + s, some n⟩ after = (List.range' s after.length).map some := by
  induction after generalizing s with
  | nil => rfl
  | cons e after ih =>
    have hf : frame ⟨n + s, some n⟩ e = (⟨n + (s + 1), some n⟩, some s) := by
      simp [frame, Clock.time]; omega
    rw [frames, hf, ih, List.length_cons, List.range'_succ]
    simp

/-- **C194.** As long as some Autoware is not engaged the storyboard is not evaluated. -/
theorem C194_waits (es : List (List Seen)) (h : ∀ e ∈ es, ¬ Ready e) :
    frames activated es = List.replicate es.length none := by
  have := frames_wait 1 es [] h
  simpa [frames, activated] using this

/-- **C194.** Once all are engaged, the storyboard is evaluated in every frame after that one, at times
that go up by one step from one step on, whether or not some Autoware is no longer engaged. -/
theorem C194_starts (before after : List (List Seen)) (e : List Seen) (h : ∀ e ∈ before, ¬ Ready e)
    (he : Ready e) :
    frames activated (before ++ e :: after)
      = List.replicate (before.length + 1) none ++ (List.range' 1 after.length).map some := by
  rw [activated, frames_wait 1 before (e :: after) h, frames]
  have hf : frame ⟨1 + before.length, none⟩ e
      = (⟨1 + before.length + 1, some (1 + before.length)⟩, none) := by
    simp only [frame, Clock.time, Option.map_none, (ready_iff e).2 he, if_true]
  rw [hf]
  simp only
  rw [frames_go, List.replicate_succ', List.append_assoc]
  rfl

example : frames activated
    [[⟨true, true, true, false⟩], [⟨true, true, true, true⟩], [⟨true, true, true, false⟩], []]
    = [none, none, some 1, some 2] := by decide

/-- **C194.** Without Autoware the scenario starts with the first frame. -/
theorem C194_at_once (es : List (List Seen)) (e : List Seen)
    (h : ∀ s ∈ e, s.autoware = false) :
    frames activated (e :: es) = none :: (List.range' 1 es.length).map some := by
  refine (C194_starts [] es e (by simp) ?_)
  intro s hs _ _ ha
  rw [h s hs] at ha; cases ha

/-- **C194.** The storyboard is never evaluated at time zero. -/
theorem C194_zero_violated (es : List (List Seen)) : some 0 ∉ frames activated es := by
  by_cases h : ∀ e ∈ es, ¬ Ready e
  · rw [C194_waits es h]
    intro hm
    exact absurd (List.eq_of_mem_replicate hm) (by simp)
  · -- the first frame that is ready
    have key : ∀ l : List (List Seen), (∃ e ∈ l, Ready e) →
        ∃ b e a, l = b ++ e :: a ∧ (∀ e ∈ b, ¬ Ready e) ∧ Ready e := by
      intro l
      induction l with
      | nil => rintro ⟨e, he, _⟩; simp at he
      | cons d l ih =>
        rintro ⟨e, he, hr⟩
        by_cases hd : Ready d
        · exact ⟨[], d, l, rfl, by simp, hd⟩
        · rcases List.mem_cons.1 he with rfl | he
          · exact absurd hr hd
          · obtain ⟨b, e', a, h1, h2, h3⟩ := ih ⟨e, he, hr⟩
            refine ⟨d :: b, e', a, by rw [h1]; rfl, ?_, h3⟩
            intro x hx
            rcases List.mem_cons.1 hx with rfl | hx
            · exact hd
            · exact h2 x hx
    simp only [not_forall, not_not] at h
    obtain ⟨e, he, hr⟩ := h
    obtain ⟨b, e', a, rfl, h2, h3⟩ := key es ⟨e, he, hr⟩
    rw [C194_starts b a e' h2 h3]
    intro hm
    rcases List.mem_append.1 hm with hm | hm
    · exact absurd (List.eq_of_mem_replicate hm) (by simp)
    · obtain ⟨i, hi, h0⟩ := List.mem_map.1 hm
      have := (List.mem_range'_1.1 hi).1
      simp only [Option.some.injEq] at h0
      omega

/-! ## The statistics -/

/-- What the statistics say of a list of times. -/
structure Says (s : Stat) (l : List Int) : Prop where
  count : s.count = l.length
  least : s.least ∈ l ∧ ∀ x ∈ l, s.least ≤ x
  greatest : s.greatest ∈ l ∧ ∀ x ∈ l, x ≤ s.greatest
  sum : s.sum = l.sum
  squares : s.squares = (l.map fun x => x * x).sum

theorem says_one (x : Int) : Says (Stat.add none x) [x] := by
  constructor <;> simp [Stat.add]

theorem says_add (s : Stat) (l : List Int) (x : Int) (h : Says s l) :
    Says (Stat.add (some s) x) (l ++ [x]) := by
  constructor
  · simp [Stat.add, h.count]
  · simp only [Stat.add]
    constructor
    · rcases le_total s.least x with hx | hx
      · rw [min_eq_left hx]; simp [h.least.1]
      · rw [min_eq_right hx]; simp
    · intro y hy
      rcases List.mem_append.1 hy with hy | hy
      · exact le_trans (min_le_left _ _) (h.least.2 y hy)
      · simp only [List.mem_singleton] at hy
        rw [hy]; exact min_le_right _ _
  · simp only [Stat.add]
    constructor
    · rcases le_total s.greatest x with hx | hx
      · rw [max_eq_right hx]; simp
      · rw [max_eq_left hx]; simp [h.greatest.1]
    · intro y hy
      rcases List.mem_append.1 hy with hy | hy
      · exact le_trans (h.greatest.2 y hy) (le_max_left _ _)
      · simp only [List.mem_singleton] at hy
        rw [hy]; exact le_max_right _ _
  · simp [Stat.add, h.sum]
  · simp [Stat.add, h.squares]

theorem put_same (tag : String) (x : Int) (m : List (String × Stat)) :
    (put tag x m).lookup tag = some (Stat.add (m.lookup tag) x) := by
  induction m with
  | nil => simp [put, List.lookup]
  | cons e m ih =>
    obtain ⟨k, v⟩ := e
    by_cases h : k = tag
    · subst h; simp [put, List.lookup]
    · have h' : (tag == k) = false := beq_eq_false_iff_ne.2 (Ne.symm h)
      simp [put, List.lookup, h, h', ih]

theorem put_other (tag k : String) (hk : k ≠ tag) (x : Int) (m : List (String × Stat)) :
    (put tag x m).lookup k = m.lookup k := by
  induction m with
  | nil => simp [put, List.lookup, beq_eq_false_iff_ne.2 hk]
  | cons e m ih =>
    obtain ⟨j, v⟩ := e
    by_cases h : j = tag
    · subst h; simp [put, List.lookup, beq_eq_false_iff_ne.2 hk]
    · simp only [put, h, if_false, List.lookup]
      split
      · rfl
      · exact ih

theorem run_concat (t : Timer) (us : List Use) (u : Use) :
    t.run (us ++ [u]) = (t.run us).step u := by simp [Timer.run]

theorem timed_concat (tag : String) (us : List Use) (u : Use) :
    timed tag (us ++ [u]) = timed tag us ++ timed tag [u] := by simp [timed]

/-- **C195.** After the statistics were cleared and any uses since then, there are statistics under a tag
if and only if something was timed under it to its end since then. -/
theorem C195_there (t : Timer) (past us : List Use) (hc : .clear ∉ us) (tag : String) :
    (t.run (past ++ .clear :: us)).stats.lookup tag = none ↔ timed tag us = [] := by
  induction us using fromEnd with
  | h0 =>
    rw [run_concat]
    simp [Timer.step, timed]
  | h1 l u ih =>
    have ih := ih fun h => hc (by simp [h])
    have hl : past ++ Use.clear :: (l ++ [u]) = (past ++ Use.clear :: l) ++ [u] := by simp
    rw [hl, run_concat, timed_concat]
    cases u with
    | clear => exact absurd (by simp) hc
    | save => simpa [Timer.step, timed] using ih
    | invoke k x b =>
      cases b with
      | true => simpa [Timer.step, timed] using ih
      | false =>
        by_cases h : k = tag
        · subst h
          simp [Timer.step, put_same, timed]
        · have : timed tag [Use.invoke k x false] = [] := by simp [timed, h]
          rw [this, List.append_nil]
          simp only [Timer.step, Bool.false_eq_true, if_false]
          rw [put_other k tag (Ne.symm h)]
          exact ih

/-- **C195.** They say of exactly the times measured under the tag since then, not those of what ended
with an exception, how many, which was the least, which the greatest, their sum and that of their
squares. -/
theorem C195_says (t : Timer) (past us : List Use) (hc : .clear ∉ us) (tag : String) (s : Stat)
    (h : (t.run (past ++ .clear :: us)).stats.lookup tag = some s) : Says s (timed tag us) := by
  induction us using fromEnd generalizing s with
  | h0 =>
    rw [run_concat] at h
    simp [Timer.step] at h
  | h1 l u ih =>
    have hcl : Use.clear ∉ l := fun h => hc (by simp [h])
    have ih := ih hcl
    have hl : past ++ Use.clear :: (l ++ [u]) = (past ++ Use.clear :: l) ++ [u] := by simp
    rw [hl, run_concat] at h
    rw [timed_concat]
    cases u with
    | clear => exact absurd (by simp) hc
    | save => simpa [timed] using ih s (by simpa [Timer.step] using h)
    | invoke k x b =>
      cases b with
      | true => simpa [timed] using ih s (by simpa [Timer.step] using h)
      | false =>
        simp only [Timer.step, Bool.false_eq_true, if_false] at h
        by_cases hk : k = tag
        · subst hk
          have hx : timed k [Use.invoke k x false] = [x] := by simp [timed]
          rw [put_same] at h
          simp only [Option.some.injEq] at h
          subst h
          rw [hx]
          cases hs : (t.run (past ++ Use.clear :: l)).stats.lookup k with
          | none =>
            rw [(C195_there t past l hcl k).1 hs]
            exact says_one x
          | some s => exact says_add s _ x (ih s hs)
        · have hx : timed tag [Use.invoke k x false] = [] := by simp [timed, hk]
          rw [put_other k tag (Ne.symm hk)] at h
          rw [hx, List.append_nil]
          exact ih s h

example : (Timer.run ⟨[], []⟩ [.clear, .invoke "update" 5 false, .invoke "update" 2 false,
    .invoke "evaluate" 9 true, .save]).file = [("update", ⟨2, 2, 5, 7, 29⟩)] := by decide +kernel

/-- **C195.** What is written at a verdict are the statistics of that moment. -/
theorem C195_written (t : Timer) (us : List Use) :
    (t.run (us ++ [.save])).file = (t.run us).stats := by
  rw [run_concat]; rfl

theorem says_pos {s : Stat} {l : List Int} (h : Says s l) : 0 < (s.count : ℚ) := by
  have : 0 < s.count := by rw [h.count]; exact List.length_pos_of_mem h.least.1
  exact_mod_cast this

/-- **C195.** The mean, in seconds, is between the least and the greatest. -/
theorem C195_mean (s : Stat) (l : List Int) (h : Says s l) :
    (s.least : ℚ) * (1 / 1000000000) ≤ s.mean ∧ s.mean ≤ (s.greatest : ℚ) * (1 / 1000000000) := by
  have hpos := says_pos h
  have lo : ∀ l : List Int, ∀ m : Int, (∀ x ∈ l, m ≤ x) → (m : ℚ) * l.length ≤ (l.sum : Int) := by
    intro l m hl
    induction l with
    | nil => simp
    | cons x l ih =>
      have h1 := ih fun y hy => hl y (by simp [hy])
      have h2 : (m : ℚ) ≤ x := by exact_mod_cast hl x (by simp)
      push_cast [List.sum_cons, List.length_cons] at h1 ⊢
      linarith
  have hi : ∀ l : List Int, ∀ m : Int, (∀ x ∈ l, x ≤ m) → ((l.sum : Int) : ℚ) ≤ (m : ℚ) * l.length := by
    intro l m hl
    induction l with
    | nil => simp
    | cons x l ih =>
      have h1 := ih fun y hy => hl y (by simp [hy])
      have h2 : (x : ℚ) ≤ m := by exact_mod_cast hl x (by simp)
      push_cast [List.sum_cons, List.length_cons] at h1 ⊢
      linarith
  have h1 := lo l s.least h.least.2
  have h2 := hi l s.greatest h.greatest.2
  rw [← h.sum, ← h.count] at h1 h2
  unfold Stat.mean
  constructor
  · exact mul_le_mul_of_nonneg_right ((le_div_iff₀ hpos).2 h1) (by norm_num)
  · exact mul_le_mul_of_nonneg_right ((div_le_iff₀ hpos).2 h2) (by norm_num)

/-- **C195.** The variance is not negative, so that there is a standard deviation. -/
theorem C195_variance (s : Stat) (l : List Int) (h : Says s l) : 0 ≤ s.variance := by
  have hpos := says_pos h
  have key : ∀ l : List Int, ∀ y : ℚ,
      0 ≤ (((l.map fun x => x * x).sum : Int) : ℚ) - 2 * (l.sum : Int) * y + l.length * y ^ 2 := by
    intro l y
    induction l with
    | nil => simp
    | cons x l ih =>
      have := sq_nonneg ((x : ℚ) - y)
      push_cast [List.sum_cons, List.length_cons, List.map_cons] at ih ⊢
      nlinarith
  have h1 := key l ((s.sum : ℚ) / s.count)
  rw [← h.sum, ← h.count, ← h.squares] at h1
  unfold Stat.variance
  have h2 : (s.squares : ℚ) - 2 * s.sum * ((s.sum : ℚ) / s.count)
      + s.count * ((s.sum : ℚ) / s.count) ^ 2 = s.squares - (s.sum : ℚ) ^ 2 / s.count := by
    field_simp; ring
  rw [h2] at h1
  have h3 : (s.squares : ℚ) / s.count - ((s.sum : ℚ) / s.count) ^ 2
      = (s.squares - (s.sum : ℚ) ^ 2 / s.count) / s.count := by
    field_simp
  rw [h3]
  exact div_nonneg h1 hpos.le

/-- **C195.** The statistics are not cleared before the next scenario is activated: the file of one that
could not be configured has the times of the scenario before it. -/
theorem C195_stale_violated (t : Timer) (us : List Use) :
    (t.run (us ++ [.save] ++ [.save])).file = (t.run us).stats := by
  rw [run_concat, run_concat]; rfl

/-! ## The frame rate -/

/-- **C196.** The time between two frames is the one asked for, less a part of a millisecond. Partial:
see `C196_drift_violated`. -/
theorem C196_period_partial (rate : ℚ) (h : 0 < rate) :
    (period rate : ℚ) ≤ 1000 / rate ∧ 1000 / rate < period rate + 1 := by
  have h1 : (1 : ℚ) / rate * 1000 = 1000 / rate := by ring
  have h0 : (0 : ℚ) ≤ 1000 / rate := by positivity
  unfold period
  rw [h1]
  exact ⟨Nat.floor_le h0, Nat.lt_floor_add_one _⟩

/-- **C196.** It is exact if and only if it is a whole number of milliseconds. -/
theorem C196_exact (rate : ℚ) (h : 0 < rate) :
    (period rate : ℚ) = simulated 1 rate ↔ ∃ k : ℕ, rate * k = 1000 := by
  have hs : simulated 1 rate = 1000 / rate := by unfold simulated; ring
  have hp : period rate = ⌊(1000 : ℚ) / rate⌋₊ := by
    unfold period; rw [div_mul_eq_mul_div, one_mul]
  rw [hs, hp]
  constructor
  · intro hk
    refine ⟨⌊(1000 : ℚ) / rate⌋₊, ?_⟩
    rw [hk]; field_simp
  · rintro ⟨k, hk⟩
    have : (1000 : ℚ) / rate = k := by rw [← hk]; field_simp
    rw [this, Nat.floor_natCast]

example : period 20 = 50 ∧ period 30 = 33 := by
  constructor
  · unfold period; norm_num
  · rw [period, Nat.floor_eq_iff (by norm_num)]; norm_num

/-- **C196.** At 30 frames a second, which is the default, the simulated time runs away from the real
time even on a machine that is fast enough: for any time there is a number of frames after which it is
ahead by more. -/
theorem C196_drift_violated (b : ℚ) :
    ∃ n : ℕ, b < n * simulated 1 30 - n * (period 30 : ℕ) := by
  have hp : period 30 = 33 := by
    rw [period, Nat.floor_eq_iff (by norm_num)]; norm_num
  obtain ⟨n, hn⟩ := exists_nat_gt (3 * b)
  refine ⟨n, ?_⟩
  rw [hp]
  have : simulated 1 30 = 100 / 3 := by unfold simulated; norm_num
  rw [this]
  push_cast
  linarith

/-- **C196.** Above a thousand frames a second there is no time between two frames. -/
theorem C196_fast_violated (rate : ℚ) (h : 1000 < rate) : period rate = 0 := by
  unfold period
  rw [Nat.floor_eq_zero]
  have h0 : 0 < rate := by linarith
  rw [div_mul_eq_mul_div, div_lt_one h0]
  linarith

end Verif.Report
