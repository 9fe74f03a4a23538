import Verif.Maps.Model
/-! What is said about the files of the map. -/
namespace Verif.Maps

/-- The name consists of a stem, which is not empty, and the ending. -/
def EndsIn (ending name : Text) : Prop := ∃ stem, stem ≠ [] ∧ name = stem ++ ending

/-- One text comes before another one in a dictionary: it is a proper beginning of it, or it has the smaller character at the first place
where they differ. -/
def Before (s t : Text) : Prop :=
  (∃ c r, t = s ++ c :: r) ∨ ∃ p a b r r', s = p ++ a :: r ∧ t = p ++ b :: r' ∧ a.toNat < b.toNat

end Verif.Maps
