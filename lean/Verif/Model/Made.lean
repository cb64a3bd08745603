import Verif.Model.Transmitter

/-! # Observations made by hand: `src/observation.rs` -/

namespace Metrix
namespace Observation
variable {L : Type}

/-- `src/observation.rs:45-51` (`Observation::observed`). -/
def makeObserved (label : L) (count : Nat) (timestamp : Int) : Observation L := .observed label count timestamp

/-- `src/observation.rs:53-55` (`Observation::observed_now`). -/
def makeObservedNow (label : L) (count : Nat) : M (Observation L) := do return makeObserved label count (← M.now)

/-- `src/observation.rs:57-59` (`Observation::observed_one`). -/
def makeObservedOne (label : L) (timestamp : Int) : Observation L := .observedOne label timestamp

/-- `src/observation.rs:61-63` (`Observation::observed_one_now`). -/
def makeObservedOneNow (label : L) : M (Observation L) := do return makeObservedOne label (← M.now)

/-- `src/observation.rs:65-75` (`Observation::observed_one_value`), after `value.into()`. -/
def makeObservedOneValue (label : L) (value : ObservedValue) (timestamp : Int) : Observation L :=
  .observedOneValue label value timestamp

/-- `src/observation.rs:77-79` (`Observation::observed_one_value_now`), after `value.into()`. -/
def makeObservedOneValueNow (label : L) (value : ObservedValue) : M (Observation L) := do
  return makeObservedOneValue label value (← M.now)

end Observation

/-- A call of one of the functions above, with its arguments. -/
inductive ObservationCall (L : Type)
  | observed (label : L) (count : Nat) (timestamp : Int)
  | observedNow (label : L) (count : Nat)
  | observedOne (label : L) (timestamp : Int)
  | observedOneNow (label : L)
  | observedOneValue (label : L) (value : ObservedValue) (timestamp : Int)
  | observedOneValueNow (label : L) (value : ObservedValue)

/-- `src/observation.rs:44-80`. -/
def ObservationCall.make {L : Type} : ObservationCall L → M (Observation L)
  | .observed label count timestamp => return Observation.makeObserved label count timestamp
  | .observedNow label count => Observation.makeObservedNow label count
  | .observedOne label timestamp => return Observation.makeObservedOne label timestamp
  | .observedOneNow label => Observation.makeObservedOneNow label
  | .observedOneValue label value timestamp => return Observation.makeObservedOneValue label value timestamp
  | .observedOneValueNow label value => Observation.makeObservedOneValueNow label value

end Metrix
