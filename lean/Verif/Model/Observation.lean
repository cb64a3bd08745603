import Verif.Model.Snapshot

/-!
# Observations and updates: `src/observation.rs`, `src/instruments/mod.rs`
-/

namespace Metrix

/-- `src/observation.rs:6-11` (`TimeUnit`). -/
inductive TimeUnit
  | nanoseconds
  | microseconds
  | milliseconds
  | seconds
  deriving DecidableEq, Repr

/-- `src/observation.rs:83-90` (`ObservedValue`). -/
inductive ObservedValue
  | signedInteger (v : Int)
  | unsignedInteger (v : Nat)
  | float (v : F64)
  | bool (v : Bool)
  | duration (v : Nat) (unit : TimeUnit)
  | changedBy (v : Int)
  deriving DecidableEq, Repr

/-- The payload is a value of the Rust type (`i64`, `u64`). -/
def ObservedValue.InRange : ObservedValue → Prop
  | .signedInteger v => I64 v
  | .unsignedInteger v => U64 v
  | .float _ => True
  | .bool _ => True
  | .duration v _ => U64 v
  | .changedBy v => I64 v

instance (v : ObservedValue) : Decidable v.InRange := by
  cases v <;> unfold ObservedValue.InRange <;> infer_instance

namespace ObservedValue

/-- `src/observation.rs:93-102` (`to_item_kind`). -/
def toItemKind : ObservedValue → Option ItemKind
  | .signedInteger v => some (.int v)
  | .unsignedInteger v => some (.uint v)
  | .float v => some (.float v)
  | .bool v => some (.boolean v)
  | .duration _ _ => none
  | .changedBy _ => none

/-- `src/observation.rs:105-114` (`ObservedValue::is_delta`). -/
def isDelta : ObservedValue → Bool
  | .signedInteger _ => false
  | .unsignedInteger _ => false
  | .float _ => false
  | .bool _ => false
  | .duration _ _ => false
  | .changedBy _ => true

/-- `src/observation.rs:249-271` (`convert_to_i64`). `i64::MAX as f64` is 2^63. -/
def convertToI64 : ObservedValue → Option Int
  | .signedInteger v => some v
  | .unsignedInteger v => if (v : Int) ≤ i64Max then some v else none
  | .float v => if F64.le v (.fin (2 ^ 63)) then some v.roundToI64 else none
  | .bool _ => none
  | .duration _ _ => none
  | .changedBy _ => none

/-- `src/observation.rs:273-295` (`convert_to_u64`). `u64::MAX as f64` is 2^64. -/
def convertToU64 : ObservedValue → Option Nat
  | .signedInteger v => if 0 ≤ v then some v.toNat else none
  | .unsignedInteger v => some v
  | .float v => if F64.le v (.fin (2 ^ 64)) then some v.roundToU64 else none
  | .bool _ => none
  | .duration _ _ => none
  | .changedBy _ => none

/-- `src/observation.rs:297-306` (`convert_to_bool`). -/
def convertToBool : ObservedValue → Option Bool
  | .signedInteger v => some (decide (v ≠ 0))
  | .unsignedInteger v => some (decide (v ≠ 0))
  | .float _ => none
  | .bool v => some v
  | .duration _ _ => none
  | .changedBy _ => none

/-- `src/observation.rs:183-188` (`From<Duration>`); `d` is the duration in nanoseconds, so
`as_secs` is `d / 10^9` and `subsec_nanos` is `d % 10^9`. -/
def ofDuration (d : Nat) : M ObservedValue := do
  let s ← arithU64 (d / 1000000000 * 1000000000)
  let n ← arithU64 (s + d % 1000000000)
  return .duration n .nanoseconds

/-- `src/observation.rs:196-215` (`From<(Duration, TimeUnit)>`). -/
def ofDurationIn (d : Nat) : TimeUnit → M ObservedValue
  | .nanoseconds => do
    let s ← arithU64 (d / 1000000000 * 1000000000)
    let n ← arithU64 (s + d % 1000000000)
    return .duration n .nanoseconds
  | .microseconds => do
    let s ← arithU64 (d / 1000000000 * 1000000)
    let n ← arithU64 (s + d % 1000000000 / 1000)
    return .duration n .microseconds
  | .milliseconds => do
    let s ← arithU64 (d / 1000000000 * 1000)
    let n ← arithU64 (s + d % 1000000000 / 1000000)
    return .duration n .milliseconds
  | .seconds => return .duration (d / 1000000000) .seconds

end ObservedValue

/-- What users pass to transmit a change: `src/lib.rs:147-161`
(`Increment`, `Decrement`, `IncrementBy(u32)`, `DecrementBy(u32)`, `ChangeBy(i64)`). -/
inductive ChangeRequest
  | increment
  | decrement
  | incrementBy (n : Nat)
  | decrementBy (n : Nat)
  | changeBy (n : Int)
  deriving DecidableEq

/-- `src/observation.rs:217-246` (`From<Increment>` .. `From<ChangeBy>`). The payloads of
`IncrementBy`/`DecrementBy` are `u32`, so `-v` on `i64` cannot overflow. -/
def ChangeRequest.toValue : ChangeRequest → ObservedValue
  | .increment => .changedBy 1
  | .decrement => .changedBy (-1)
  | .incrementBy n => .changedBy n
  | .decrementBy n => .changedBy (-n)
  | .changeBy n => .changedBy n

/-- `src/observation.rs:27-42` (`Observation`). Timestamps in nanoseconds. -/
inductive Observation (L : Type)
  | observed (label : L) (count : Nat) (timestamp : Int)
  | observedOne (label : L) (timestamp : Int)
  | observedOneValue (label : L) (value : ObservedValue) (timestamp : Int)
  deriving DecidableEq

namespace Observation
variable {L : Type}

/-- `src/observation.rs:311-317` (`Observation::label`). -/
def label : Observation L → L
  | .observed l _ _ => l
  | .observedOne l _ => l
  | .observedOneValue l _ _ => l

/-- `src/observation.rs:320-328, 337-343` (`timestamp`). -/
def timestamp : Observation L → Int
  | .observed _ _ t => t
  | .observedOne _ t => t
  | .observedOneValue _ _ t => t

/-- `src/observation.rs:345-351` (`ObservationLike::is_delta`). -/
def isDelta : Observation L → Bool
  | .observedOneValue _ v _ => v.isDelta
  | .observed _ _ _ => false
  | .observedOne _ _ => false

end Observation

/-- `src/instruments/mod.rs:35-42` (`Update`). -/
inductive Update
  | observations (n : Nat) (t : Int)
  | observation (t : Int)
  | withValue (v : ObservedValue) (t : Int)
  deriving DecidableEq, Repr

/-- The payload is a value of the Rust type. -/
def Update.InRange : Update → Prop
  | .observations n _ => U64 n
  | .observation _ => True
  | .withValue v _ => v.InRange

/-- `src/instruments/mod.rs:44-51` (`Update::observed_value`). -/
def Update.observedValue : Update → Option ObservedValue
  | .withValue v _ => some v
  | .observation _ => none
  | .observations _ _ => none

/-- `src/instruments/mod.rs:58-105` (`LabelAndUpdate::from`, `BorrowedLabelAndUpdate::from`): the update. -/
def Observation.toUpdate {L : Type} : Observation L → Update
  | .observed _ n t => .observations n t
  | .observedOne _ t => .observation t
  | .observedOneValue _ v t => .withValue v t

/-- `src/instruments/mod.rs:125-145` (`duration_to_display_value`). -/
def durationToDisplayValue (time : Nat) (current target : TimeUnit) : M Nat :=
  match current, target with
  | .nanoseconds, .nanoseconds => pure time
  | .nanoseconds, .microseconds => pure (time / 1000)
  | .nanoseconds, .milliseconds => pure (time / 1000000)
  | .nanoseconds, .seconds => pure (time / 1000000000)
  | .microseconds, .nanoseconds => arithU64 (time * 1000)
  | .microseconds, .microseconds => pure time
  | .microseconds, .milliseconds => pure (time / 1000)
  | .microseconds, .seconds => pure (time / 1000000)
  | .milliseconds, .nanoseconds => arithU64 (time * 1000000)
  | .milliseconds, .microseconds => arithU64 (time * 1000)
  | .milliseconds, .milliseconds => pure time
  | .milliseconds, .seconds => pure (time / 1000)
  | .seconds, .nanoseconds => arithU64 (time * 1000000000)
  | .seconds, .microseconds => arithU64 (time * 1000000)
  | .seconds, .milliseconds => arithU64 (time * 1000)
  | .seconds, .seconds => pure time

end Metrix
