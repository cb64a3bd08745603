import Verif.Model.Convert

/-! # Which number a value is -/

namespace Metrix

/-- The number in a value of a snapshot. -/
def ItemKind.number? : ItemKind → Option Int
  | .uint n => some n
  | .int i => some i
  | _ => none

/-- The kind of integer says whether it can be negative. -/
def ItemKind.IsSigned : ItemKind → Prop
  | .int _ => True
  | _ => False

/-- The value is one of the Rust type (`u64`, `i64`). -/
def ItemKind.Proper : ItemKind → Prop
  | .uint n => U64 n
  | .int i => I64 i
  | _ => True

/-- A user observes the integer `v` of type `t`: `x` is what is sent. -/
def Observes (v : Int) (t : IntType) (x : ObservedValue) : Prop := t.Holds v ∧ ObservedValue.ofInt v t = some x

instance (v : Int) (t : IntType) (x : ObservedValue) : Decidable (Observes v t x) := by
  unfold Observes; infer_instance

end Metrix
