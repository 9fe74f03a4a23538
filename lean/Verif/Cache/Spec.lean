import Verif.Cache.Model
/-
What an answer should be, without caches.
-/
namespace Verif.Cache.Spec

variable {A E B C I R P Q L : Type}

/-- The right answers to a call: what the computation gives, or what is made of it. If only a known value is wished for, it may also be missing. -/
def Right (f : A → Except E B) (make : B → C) (k : A) : Wish → Answer E (B ⊕ C) → Prop
  | .value, r => r = match f k with | .ok b => .value (.inl b) | .error e => .thrown e
  | .made, r => r = match f k with | .ok b => .value (.inr (make b)) | .error e => .thrown e
  | .known, r => r = .missing ∨ ∃ b, f k = .ok b ∧ r = .value (.inl b)

/-- What the map itself says to a query. -/
def fresh (m : Map I E R P Q L) : Query I → Reply E R P Q L
  | .route g a b c => match m.route g a b c with | .ok r => .route r | .error e => .thrown e
  | .points i => match m.points i with | .ok p => .points p | .error e => .thrown e
  | .spline i => match m.points i with | .ok p => .spline (m.spline p) | .error e => .thrown e
  | .length i => match m.length i with | .ok l => .length l | .error e => .thrown e

/-- What a user does with the map: choose one, or ask. -/
inductive Op (I : Type) where
  | activate (path : String)
  | query (q : Query I)

/-- The answers to the queries, each about the map that was chosen last before it. -/
def answers (load : String → Map I E R P Q L) : Option String → List (Op I) → List (Reply E R P Q L)
  | _, [] => []
  | _, .activate p :: ops => answers load (if p = "" then none else some p) ops
  | none, .query _ :: ops => .noMap :: answers load none ops
  | some p, .query q :: ops => fresh (load p) q :: answers load (some p) ops

end Verif.Cache.Spec
