import Verif.Model.Building
import Verif.Model.Transmitter

/-!
# Conversions of primitive values: `src/observation.rs:117-181`, `src/snapshot.rs:409-503`

`usize` and `isize` have 64 bits here.
-/

namespace Metrix

/-- Rust's integer types. -/
inductive IntType
  | i8 | i16 | i32 | i64 | isize | u8 | u16 | u32 | u64 | usize
  deriving DecidableEq

def IntType.bits : IntType → Nat
  | .i8 | .u8 => 8
  | .i16 | .u16 => 16
  | .i32 | .u32 => 32
  | .i64 | .u64 => 64
  | .isize | .usize => 64

def IntType.signed : IntType → Bool
  | .i8 | .i16 | .i32 | .i64 | .isize => true
  | .u8 | .u16 | .u32 | .u64 | .usize => false

/-- The values of the type. -/
def IntType.Holds (t : IntType) (v : Int) : Prop :=
  if t.signed then -2 ^ (t.bits - 1) ≤ v ∧ v < 2 ^ (t.bits - 1) else 0 ≤ v ∧ v < 2 ^ t.bits

instance (t : IntType) (v : Int) : Decidable (t.Holds v) := by unfold IntType.Holds; infer_instance

/-- `src/observation.rs:117-175` (`From<i64>` .. `From<usize>` for `ObservedValue`). There is none for `isize`. `v.into()` from a
smaller type keeps the number; `usize` is cast with `as u64`. -/
def ObservedValue.ofInt (v : Int) : IntType → Option ObservedValue
  | .i64 => some (.signedInteger v)
  | .i32 => some (.signedInteger v)
  | .i16 => some (.signedInteger v)
  | .i8 => some (.signedInteger v)
  | .u64 => some (.unsignedInteger v.toNat)
  | .u32 => some (.unsignedInteger v.toNat)
  | .u16 => some (.unsignedInteger v.toNat)
  | .u8 => some (.unsignedInteger v.toNat)
  | .usize => some (.unsignedInteger (wrapU64 v))
  | .isize => none

/-- `src/snapshot.rs:409-467` (`From<u64>` .. `From<isize>` for `ItemKind`): `as u64` and `as i64` but for `u64` and `i64`. -/
def ItemKind.ofInt (v : Int) : IntType → ItemKind
  | .u64 => .uint v.toNat
  | .u32 => .uint (wrapU64 v)
  | .u16 => .uint (wrapU64 v)
  | .u8 => .uint (wrapU64 v)
  | .usize => .uint (wrapU64 v)
  | .i64 => .int v
  | .i32 => .int (wrapI64 v)
  | .i16 => .int (wrapI64 v)
  | .i8 => .int (wrapI64 v)
  | .isize => .int (wrapI64 v)

/-- `src/snapshot.rs:376-387` (`From<ObservedValue> for Option<ItemKind>`). -/
def ItemKind.ofObserved : ObservedValue → Option ItemKind
  | .signedInteger v => some (.ofInt v .i64)
  | .unsignedInteger v => some (.ofInt v .u64)
  | .float v => some (.float v)
  | .bool v => some (.boolean v)
  | .duration _ _ => none
  | .changedBy _ => none

/-- `src/observation.rs:177-181` (`From<bool>`). -/
def ObservedValue.ofBool (v : Bool) : ObservedValue := .bool v

/-- `src/observation.rs:190-194` (`From<(u64, TimeUnit)>`). -/
def ObservedValue.ofTime (v : Nat) (unit : TimeUnit) : ObservedValue := .duration v unit

end Metrix
