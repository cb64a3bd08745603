import Verif.Model.Processor

/-!
# What transmitters send: `src/lib.rs`

The functions of `TransmitsTelemetryData` as implemented by `TelemetryTransmitter`. Each of them is given by the messages
it hands to `TelemetryTransmitter::send`, in order. What happens to a message there is modelled by `Channel.send`.
-/

namespace Metrix
namespace Transmitter
variable {σ L : Type}

/-- `src/lib.rs:339-341` (`transmit`). -/
def transmit (o : Observation L) : List (Message σ L) := [.observation o]

/-- `src/lib.rs:175-181` (`observed`). -/
def observed (label : L) (count : Nat) (timestamp : Int) : List (Message σ L) :=
  transmit (.observed label count timestamp)

/-- `src/lib.rs:186-188` (`observed_one`). -/
def observedOne (label : L) (timestamp : Int) : List (Message σ L) := transmit (.observedOne label timestamp)

/-- `src/lib.rs:193-204` (`observed_one_value`), after `value.into()`. -/
def observedOneValue (label : L) (value : ObservedValue) (timestamp : Int) : List (Message σ L) :=
  transmit (.observedOneValue label value timestamp)

/-- `src/lib.rs:208-210` (`observed_duration`). `duration` in nanoseconds. -/
def observedDuration (label : L) (duration : Nat) (timestamp : Int) : M (List (Message σ L)) := do
  return observedOneValue label (← ObservedValue.ofDuration duration) timestamp

/-- `src/lib.rs:216-218` (`observed_now`). -/
def observedNow (label : L) (count : Nat) : M (List (Message σ L)) := do
  return observed label count (← M.now)

/-- `src/lib.rs:224-226` (`observed_one_now`). -/
def observedOneNow (label : L) : M (List (Message σ L)) := do
  return observedOne label (← M.now)

/-- `src/lib.rs:232-234` (`observed_one_value_now`), after `value.into()`. -/
def observedOneValueNow (label : L) (value : ObservedValue) : M (List (Message σ L)) := do
  return observedOneValue label value (← M.now)

/-- `src/lib.rs:240-242` (`observed_one_duration_now`). -/
def observedOneDurationNow (label : L) (duration : Nat) : M (List (Message σ L)) := do
  observedDuration label duration (← M.now)

/-- `src/lib.rs:248-255` (`measure_time`). -/
def measureTime (label : L) (start : Int) : M (List (Message σ L)) := do
  let now ← M.now
  if start ≤ now then observedDuration label (sinceNs now start) now
  else return []

/-- `src/lib.rs:343-345` (`add_handler`). -/
def addHandler (h : Handler σ L) : List (Message σ L) := [.addHandler h]

/-- `src/lib.rs:347-349` (`add_cockpit`). -/
def addCockpit (c : Cockpit σ L) : List (Message σ L) := [.addCockpit c]

/-- `src/lib.rs:351-353` (`remove_cockpit`). -/
def removeCockpit (name : String) : List (Message σ L) := [.removeCockpit name]

/-- `src/lib.rs:355-360` (`add_panel_to_cockpit`). -/
def addPanelToCockpit (cockpitName : String) (p : Panel σ L) : List (Message σ L) := [.addPanelToCockpit cockpitName p]

/-- `src/lib.rs:362-371` (`remove_panel_from_cockpit`). -/
def removePanelFromCockpit (cockpitName panelName : String) : List (Message σ L) :=
  [.removePanelFromCockpit cockpitName panelName]

end Transmitter

variable {σ L : Type}

/-- A call of a transmitter by its user: a function of `TransmitsTelemetryData` (`src/lib.rs:167-283`) and its arguments. -/
inductive TransmitCall (σ L : Type)
  | transmit (o : Observation L)
  | observed (label : L) (count : Nat) (timestamp : Int)
  | observedOne (label : L) (timestamp : Int)
  | observedOneValue (label : L) (value : ObservedValue) (timestamp : Int)
  | observedDuration (label : L) (duration : Nat) (timestamp : Int)
  | observedNow (label : L) (count : Nat)
  | observedOneNow (label : L)
  | observedOneValueNow (label : L) (value : ObservedValue)
  | observedOneDurationNow (label : L) (duration : Nat)
  | measureTime (label : L) (start : Int)
  | addHandler (h : Handler σ L)
  | addCockpit (c : Cockpit σ L)
  | removeCockpit (name : String)
  | addPanelToCockpit (cockpitName : String) (p : Panel σ L)
  | removePanelFromCockpit (cockpitName panelName : String)

/-- The messages that a call hands to `TelemetryTransmitter::send`, in order (`src/lib.rs:167-283, 338-372`). -/
def TransmitCall.messages : TransmitCall σ L → M (List (Message σ L))
  | .transmit o => return Transmitter.transmit o
  | .observed label count timestamp => return Transmitter.observed label count timestamp
  | .observedOne label timestamp => return Transmitter.observedOne label timestamp
  | .observedOneValue label value timestamp => return Transmitter.observedOneValue label value timestamp
  | .observedDuration label duration timestamp => Transmitter.observedDuration label duration timestamp
  | .observedNow label count => Transmitter.observedNow label count
  | .observedOneNow label => Transmitter.observedOneNow label
  | .observedOneValueNow label value => Transmitter.observedOneValueNow label value
  | .observedOneDurationNow label duration => Transmitter.observedOneDurationNow label duration
  | .measureTime label start => Transmitter.measureTime label start
  | .addHandler h => return Transmitter.addHandler h
  | .addCockpit c => return Transmitter.addCockpit c
  | .removeCockpit name => return Transmitter.removeCockpit name
  | .addPanelToCockpit cockpitName p => return Transmitter.addPanelToCockpit cockpitName p
  | .removePanelFromCockpit cockpitName panelName => return Transmitter.removePanelFromCockpit cockpitName panelName

end Metrix
