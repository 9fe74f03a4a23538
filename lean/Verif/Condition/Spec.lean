import Verif.Condition.Model
/-
What the value of a condition should be, given all samples ever taken (oldest first).
-/
namespace Verif.Condition

variable {T : Type} [LinearOrder T]

/-- Time stamps never decrease. -/
def Sorted (xs : List (Sample T)) : Prop := xs.Pairwise (fun a b => a.time ≤ b.time)

/-- The raw values whose time stamp is at most `c`, newest first. -/
def visible (c : T) (xs : List (Sample T)) : List Bool :=
  ((xs.filter fun x => x.time ≤ c).map Sample.result).reverse

/-- Value of an edge given the visible raw values, newest first (not used for sticky). -/
def edgeOf : Edge → List Bool → Bool
  | .none, a :: _ => a
  | .rising, a :: b :: _ => a && !b
  | .falling, a :: b :: _ => !a && b
  | .risingOrFalling, a :: b :: _ => a != b
  | _, _ => false

/-- The newest raw value visible at the time of the last sample of `xs`. -/
def newestVisible (cutoff : T → T) (xs : List (Sample T)) : Option Bool :=
  match xs.getLast? with
  | none => none
  | some x => (visible (cutoff x.time) xs).head?

/-- The specified value of a condition after the samples `xs`. -/
def specValue (cutoff : T → T) (e : Edge) (xs : List (Sample T)) : Prop :=
  match e with
  | .sticky => ∃ p, p <+: xs ∧ newestVisible cutoff p = some true
  | e => ∃ x, xs.getLast? = some x ∧ edgeOf e (visible (cutoff x.time) xs) = true

/-! ### Triggers as the user writes them -/

/-- A condition as declared: the raw condition it samples, its edge, and `now ↦ now - delay`. -/
structure Decl (T : Type) where
  id : Nat
  edge : Edge
  cutoff : T → T

/-- One evaluation of a trigger: the time and the raw value of every condition at that time. -/
structure Frame (T : Type) where
  now : T
  raw : Nat → Bool

/-- The freshly constructed trigger for a declared list of groups. -/
def Trigger.fresh (gs : List (List (Decl T))) : Trigger T :=
  { cur := false
    groups := gs.map fun g =>
      { cur := false, conds := g.map fun d => ⟨d.id, d.edge, d.cutoff, .initial⟩ } }

/-- The trigger after the given evaluations. -/
def Trigger.after (gs : List (List (Decl T))) (fs : List (Frame T)) : Trigger T :=
  fs.foldl (fun t f => (t.eval f.raw f.now).1) (Trigger.fresh gs)

/-- The samples condition `i` would have if it were sampled in every evaluation. -/
def samples (i : Nat) (fs : List (Frame T)) : List (Sample T) :=
  fs.map fun f => ⟨f.now, f.raw i⟩

end Verif.Condition
