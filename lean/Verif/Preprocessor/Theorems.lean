import Verif.Preprocessor.Model
/-
C44: the queue of the preprocessor, and C54: overriding of parameters.
-/
namespace Verif.Preprocessor

/-! ### Specification -/

/-- The scenarios handed out. -/
def handed (l : List Response) : List Scenario :=
  l.filterMap fun | .derived d => d | _ => none

/-- A plain scenario that can be processed. -/
def Good (f : File) : Prop :=
  f.valid = true ∧ f.parses = true ∧ f.distribution = false ∧ f.movable = true ∧ f.writable = true

instance (f : File) : Decidable (Good f) := by unfold Good; infer_instance

/-- A load that fails. -/
def Bad (f : File) : Prop := f.valid = false ∨ f.parses = false ∨ (f.distribution = true ∧ f.baseOk = false) ∨
  (f.distribution = false ∧ (f.movable = false ∨ f.writable = false))

/-- The value an override gives a name: the latest one set. -/
def wanted (past : List Request) (name : String) : Option String :=
  past.foldl (fun a r => match r with | .setParameter n v => if n = name then some v else a | _ => a) none

/-- The paths and rates of the plain scenarios loaded, in order. -/
def loaded (rs : List Request) : List (String × Nat) :=
  rs.filterMap fun | .load p r f => if Good f then some (p, r) else none | _ => none

theorem preprocess_good (s : State) (p : String) (r : Nat) (f : File) (h : Good f) :
    preprocess s p r f = some { s with queue := s.queue ++ [⟨p, r, override s.overrides f.declarations⟩] } := by
  obtain ⟨a, b, c, d, e⟩ := h
  simp [preprocess, a, b, c, d, e]

theorem preprocess_bad (s : State) (p : String) (r : Nat) (f : File) (h : Bad f) : preprocess s p r f = none := by
  unfold preprocess
  rcases h with h | h | ⟨h, h'⟩ | ⟨h, h' | h'⟩
  · simp [h]
  · simp [h]
  · simp [h, h']
  · simp [h, h']
  · simp [h, h']

theorem preprocess_other (s : State) (p : String) (r : Nat) (f : File) (h : ¬ Good f) (h' : ¬ Bad f) :
    preprocess s p r f = some s := by
  obtain ⟨v, q, d, b, m, w, ds⟩ := f
  unfold Good Bad at *
  unfold preprocess
  cases v <;> cases q <;> cases d <;> cases b <;> cases m <;> cases w <;> simp_all

/-! ### C44 -/

theorem run_queue (rs : List Request) (h : ∀ r ∈ rs, ∀ p n f, r = .load p n f → ¬ Bad f) (s : State) :
    (s.queue.map (fun d => (d.path, d.rate))) ++ loaded rs =
      (handed (run s rs).2 ++ (run s rs).1.queue).map (fun d => (d.path, d.rate)) := by
  induction rs generalizing s with
  | nil => simp [run, loaded, handed]
  | cons r rs ih =>
    have ih := ih (fun r hr => h r (by simp [hr]))
    simp only [run]
    cases r with
    | load p n f =>
      have hb := h _ (by simp) p n f rfl
      by_cases hg : Good f
      · simp only [step, preprocess_good s p n f hg]
        have := ih { s with queue := s.queue ++ [⟨p, n, override s.overrides f.declarations⟩] }
        simp only [loaded, List.filterMap_cons, if_pos hg]
        simp only [handed, List.filterMap_cons] at this ⊢
        rw [← this]
        simp [loaded]
      · simp only [step, preprocess_other s p n f hg hb]
        simp only [loaded, List.filterMap_cons, if_neg hg]
        exact ih s
    | derive =>
      simp only [step]
      cases hq : s.queue with
      | nil =>
        have := ih s
        rw [hq] at this
        simpa [loaded, handed] using this
      | cons d q =>
        have := ih { s with queue := q }
        simp only [loaded, handed, List.filterMap_cons, List.map_cons, List.cons_append] at this ⊢
        rw [this]
    | check => exact ih s
    | setParameter n v => exact ih (step s (.setParameter n v)).1

/-- C44, for histories in which no load fails: the scenarios handed out, followed by those still queued, are the
plain scenarios loaded, each once and in the order of loading. Missing: histories with a failing load. -/
theorem C44_queue_partial (rs : List Request) (h : ∀ r ∈ rs, ∀ p n f, r = .load p n f → ¬ Bad f) :
    (handed (run .new rs).2 ++ (run .new rs).1.queue).map (fun d => (d.path, d.rate)) = loaded rs := by
  rw [← run_queue rs h .new]; rfl

/-- C44 in general: after the last failing load everything is as if the preprocessor had been started anew. -/
theorem C44_after_failure_partial (s : State) (p : String) (n : Nat) (f : File) (hf : Bad f) (rs : List Request)
    (h : ∀ r ∈ rs, ∀ p n f, r = .load p n f → ¬ Bad f) :
    let s' := (step s (.load p n f)).1
    (handed (run s' rs).2 ++ (run s' rs).1.queue).map (fun d => (d.path, d.rate)) = loaded rs := by
  intro s'
  rw [← run_queue rs h s']
  have : s'.queue = [] := by simp only [s', step, preprocess_bad s p n f hf]
  rw [this]; rfl

/-- C44: a load request is answered with success exactly if it does not fail. -/
theorem C44_answer (s : State) (p : String) (n : Nat) (f : File) : (step s (.load p n f)).2 = .loaded true ↔ ¬ Bad f := by
  by_cases hb : Bad f
  · simp [step, preprocess_bad s p n f hb, hb]
  · by_cases hg : Good f
    · simp [step, preprocess_good s p n f hg, hb]
    · simp [step, preprocess_other s p n f hg hb, hb]

/-- C44: "no output" is answered exactly if nothing is queued, and `check` tells just that. -/
theorem C44_no_output (s : State) :
    ((step s .derive).2 = .derived none ↔ s.queue = []) ∧
    ((step s .check).2 = .remained true ↔ s.queue ≠ []) := by
  cases h : s.queue with
  | nil => simp [step, h]
  | cons d q => simp [step, h]

/-- A good file. -/
def plainFile : File :=
  { valid := true, parses := true, distribution := false, baseOk := true, movable := true, writable := true,
    declarations := [("speed", "10"), ("lane", "34")] }

example : Good plainFile ∧ ¬ Bad plainFile := by unfold Good Bad; decide

example : (run .new [.load "a.xosc" 30 plainFile, .load "b.xosc" 30 plainFile, .derive, .check, .derive, .derive]).2.map
    (fun r => match r with | .derived (some d) => d.path | .derived none => "no output" | _ => "") =
    ["", "", "a.xosc", "", "b.xosc", "no output"] := by decide

/-- C44 is false if a load fails: the scenario loaded before it is never handed out. -/
theorem C44_violated :
    loaded [.load "a.xosc" 30 plainFile, .load "b.xosc" 30 { plainFile with valid := false }] = [("a.xosc", 30)] ∧
    (run .new [.load "a.xosc" 30 plainFile, .load "b.xosc" 30 { plainFile with valid := false }, .derive]).2 =
      [.loaded true, .loaded false, .derived none] := by
  decide

/-- Loading a parameter value distribution succeeds and yields no scenario. -/
theorem C44_distribution_violated (s : State) (p : String) (r : Nat) (f : File)
    (h1 : f.valid = true) (h2 : f.parses = true) (h3 : f.distribution = true) (h4 : f.baseOk = true) :
    step s (.load p r f) = (s, .loaded true) := by
  simp [step, preprocess, h1, h2, h3, h4]

/-! ### C54: overriding of parameters -/

/-- The value of a parameter: of its first declaration. -/
def value (ds : List Declaration) (name : String) : Option String := (ds.find? (·.1 = name)).map (·.2)

theorem setFirst_names (n v : String) (ds : List Declaration) : (setFirst n v ds).map (·.1) = ds.map (·.1) := by
  induction ds with
  | nil => rfl
  | cons d l ih =>
    unfold setFirst
    split
    · rfl
    · simp [ih]

theorem value_setFirst (n v m : String) (ds : List Declaration) :
    value (setFirst n v ds) m = if m = n then (value ds m).map (fun _ => v) else value ds m := by
  induction ds with
  | nil => simp [setFirst, value]
  | cons d l ih =>
    unfold setFirst
    unfold value at ih ⊢
    by_cases hd : d.1 = n
    · rw [if_pos hd]
      by_cases hm : m = n
      · subst hm; simp [hd]
      · rw [if_neg hm]
        have : ¬ d.1 = m := fun e => hm (e.symm.trans hd)
        simp [this]
    · rw [if_neg hd]
      by_cases hm : d.1 = m
      · have : ¬ m = n := fun e => hd (hm.trans e)
        simp [hm, this]
      · rw [List.find?_cons_of_neg (by simpa using hm), List.find?_cons_of_neg (by simpa using hm)]
        exact ih

def lookup (os : List (String × String)) (name : String) : Option String := (os.find? (·.1 = name)).map (·.2)

theorem value_override (os : List (String × String)) (hn : (os.map (·.1)).Nodup) (ds : List Declaration) (m : String) :
    value (override os ds) m = (value ds m).map (fun old => (lookup os m).getD old) := by
  induction os generalizing ds with
  | nil => simp [override, lookup]
  | cons o os ih =>
    simp only [List.map_cons, List.nodup_cons] at hn
    have := ih hn.2 (setFirst o.1 o.2 ds)
    unfold override at this ⊢
    rw [List.foldl_cons, this, value_setFirst]
    unfold lookup
    by_cases hm : m = o.1
    · subst hm
      have hnone : os.find? (fun x => decide (x.1 = o.1)) = none := by
        rw [List.find?_eq_none]
        intro x hx e
        exact hn.1 (by simpa using ⟨x.2, by rw [← of_decide_eq_true e]; exact hx⟩)
      rw [if_pos rfl, hnone]
      cases value ds o.1 <;> simp
    · rw [if_neg hm, List.find?_cons_of_neg (by simpa using fun e => hm e.symm)]

theorem overrides_spec (rs : List Request) (s : State) (past : List Request)
    (h : (s.overrides.map (·.1)).Nodup ∧ ∀ n, lookup s.overrides n = wanted past n) :
    ((run s rs).1.overrides.map (·.1)).Nodup ∧ ∀ n, lookup (run s rs).1.overrides n = wanted (past ++ rs) n := by
  induction rs generalizing s past with
  | nil => simpa [run] using h
  | cons r rs ih =>
    simp only [run]
    rw [show past ++ r :: rs = (past ++ [r]) ++ rs by simp]
    apply ih
    have keep : ∀ r' : Request, (∀ n v, r' ≠ .setParameter n v) → ∀ n, wanted (past ++ [r']) n = wanted past n := by
      intro r' hr n
      unfold wanted
      rw [List.foldl_append]
      cases r' with
      | setParameter a b => exact absurd rfl (hr a b)
      | load _ _ _ => rfl
      | derive => rfl
      | check => rfl
    cases r with
    | load p n f =>
      have : (step s (.load p n f)).1.overrides = s.overrides := by
        simp only [step]
        cases hp : preprocess s p n f with
        | none => rfl
        | some s' =>
          unfold preprocess at hp
          repeat' split at hp
          all_goals first | cases hp; rfl | cases hp
      rw [this]
      exact ⟨h.1, fun m => (h.2 m).trans (keep _ (by simp) m).symm⟩
    | derive =>
      have : (step s .derive).1.overrides = s.overrides := by
        simp only [step]; split <;> rfl
      rw [this]
      exact ⟨h.1, fun m => (h.2 m).trans (keep _ (by simp) m).symm⟩
    | check => exact ⟨h.1, fun m => (h.2 m).trans (keep _ (by simp) m).symm⟩
    | setParameter n v =>
      simp only [step]
      constructor
      · simp only [List.map_cons, List.nodup_cons]
        refine ⟨by simp, ?_⟩
        exact List.Sublist.nodup (List.Sublist.map _ List.filter_sublist) h.1
      · intro m
        unfold wanted
        rw [List.foldl_append]
        simp only [List.foldl_cons, List.foldl_nil]
        unfold lookup
        by_cases hm : n = m
        · simp [hm]
        · rw [if_neg hm, List.find?_cons_of_neg (by simpa using hm), List.find?_filter]
          have := h.2 m
          unfold lookup wanted at this
          rw [← this]
          congr 2
          funext x
          by_cases hx : x.1 = m
          · simp [hx, Ne.symm hm]
          · simp [hx]

/-- C54. The scenario written for a load request declares the same parameters, and each has the value last set
for its name by an earlier `set_parameter` request, if any, otherwise the value in the file. Overrides of names
not declared change nothing. -/
theorem C54_overrides (past : List Request) (p : String) (r : Nat) (f : File) (h : Good f) :
    ∃ d, (step (run .new past).1 (.load p r f)).1.queue = (run .new past).1.queue ++ [d] ∧ d.path = p ∧ d.rate = r ∧
      d.declarations.map (·.1) = f.declarations.map (·.1) ∧
      ∀ n, value d.declarations n = (value f.declarations n).map (fun old => (wanted past n).getD old) := by
  obtain ⟨h1, h2⟩ := overrides_spec past .new [] ⟨by simp [State.new], fun n => rfl⟩
  simp only [step, preprocess_good _ p r f h]
  refine ⟨_, rfl, rfl, rfl, ?_, fun n => ?_⟩
  · have : ∀ (os : List (String × String)) ds, (override os ds).map (·.1) = ds.map (·.1) := by
      intro os
      induction os with
      | nil => intro ds; rfl
      | cons o os ih => intro ds; exact (ih _).trans (setFirst_names _ _ _)
    exact this _ _
  · rw [value_override _ h1, h2 n]; rfl

example : (run .new [.setParameter "speed" "20", .setParameter "x" "1", .setParameter "speed" "30",
      .load "a.xosc" 30 plainFile]).1.queue = [⟨"a.xosc", 30, [("speed", "30"), ("lane", "34")]⟩] := by decide

end Verif.Preprocessor
