import Verif.Spec.Schema

/-!
# Names that are not used twice

Whether the configuration of something gives a name to two items that may be in the same group at the same time.
-/

namespace Metrix

mutual
/-- No group in the slot uses a name twice. -/
def Slot.Distinct : Slot → Prop
  | .group _ slots => Distinct slots
  | .either a b => Distinct a ∧ Distinct b
  | .value _ _ => True
  | .fixed _ _ => True
  | .any _ => True

/-- No name is used twice, neither here nor in a group. Alternatives may use the same names. -/
def Distinct : List Slot → Prop
  | [] => True
  | x :: xs => x.Distinct ∧ Distinct xs ∧ ∀ n ∈ x.names, n ∉ namesIn xs
end

/-- The path leads into a group of the schema, and not into a value that somebody provided and that happens to be a group. -/
def IntoGroups : List Slot → List String → Prop
  | _, [] => True
  | slots, n :: path => ∀ x ∈ flatSlots slots, n ∈ x.names → ∃ sub, x = .group n sub ∧ IntoGroups sub path

/-- A name that can be a part of a path. -/
def PathName (sep : Char) (n : String) : Prop := n.toList ≠ [] ∧ sep ∉ n.toList

end Metrix
