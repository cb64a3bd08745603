import Verif.Model.Observation
import Verif.Model.Util

/-!
# `DataDisplay` and `LastOccurrenceTracker`: `src/instruments/other_instruments/`
-/

namespace Metrix

/-- `src/instruments/other_instruments/display.rs:18-26` (`DataDisplay`); defaults from `new` (29-39). -/
structure DataDisplay where
  name : String
  descr : Descr := {}
  value : Option ItemKind := none
  resetAfter : Option Nat := none
  stayOnUntil : Option Int := none
  resetValue : Option ItemKind := none

namespace DataDisplay

/-- `src/instruments/other_instruments/display.rs:79-81` (`set_reset_after`). -/
def setResetAfter (d : DataDisplay) (ns : Nat) : DataDisplay := { d with resetAfter := some ns }

/-- `src/instruments/other_instruments/display.rs:100-103` (`set_reset_value`). -/
def setResetValue (d : DataDisplay) (v : ItemKind) : DataDisplay :=
  { d with resetValue := some v, value := some v }

/-- `src/instruments/other_instruments/display.rs:165-175` (`value`). -/
def shown (d : DataDisplay) : M (Option ItemKind) :=
  match d.stayOnUntil with
  | some u => do
    let now ← M.now
    return if u ≥ now then d.value else d.resetValue
  | none => return d.value

/-- `src/instruments/other_instruments/display.rs:180-188` (`PutsSnapshot for DataDisplay`). -/
def putSnapshot (d : DataDisplay) (into : Snapshot) (descriptive : Bool) : M Snapshot := do
  let into := putPostfixedDescriptives d.descr d.name into descriptive
  match ← d.shown with
  | some value => return into.push d.name value
  | none => return into

/-- `src/instruments/other_instruments/display.rs:190-202` (`Updates for DataDisplay`). -/
def update (d : DataDisplay) (u : Update) : M (DataDisplay × Nat) :=
  match u.observedValue.bind ObservedValue.toItemKind with
  | some value =>
    match d.resetAfter with
    | some resetAfter => do
      let t ← addDur (← M.now) resetAfter
      return ({ d with stayOnUntil := some t, value := some value }, 1)
    | none => return ({ d with value := some value }, 1)
  | none => return (d, 0)

end DataDisplay

/-- `src/instruments/other_instruments/last_occurrence_tracker.rs:11-18` (`LastOccurrenceTracker`). -/
structure LastOccurrenceTracker where
  name : String
  descr : Descr := {}
  happenedLast : Option Int := none
  invert : Bool := false
  makeNoneZero : Bool := false

namespace LastOccurrenceTracker

/-- `src/instruments/other_instruments/last_occurrence_tracker.rs:162-165`
(`elapsed_since_last_occurrence`): in seconds. -/
def elapsed (t : LastOccurrenceTracker) : M (Option Nat) :=
  match t.happenedLast with
  | some last => do return some (sinceNs (← M.now) last / nanosPerSec)
  | none => return none

/-- `src/instruments/other_instruments/last_occurrence_tracker.rs:170-180`
(`PutsSnapshot for LastOccurrenceTracker`). The literal `0` is an `i32`, so it becomes
`ItemKind::Int`. -/
def putSnapshot (t : LastOccurrenceTracker) (into : Snapshot) (descriptive : Bool) : M Snapshot := do
  let into := putPostfixedDescriptives t.descr t.name into descriptive
  match ← t.elapsed with
  | some v => return into.push t.name (.uint v)
  | none => if t.makeNoneZero then return into.push t.name (.int 0) else return into

/-- `src/instruments/other_instruments/last_occurrence_tracker.rs:182-187`
(`Updates for LastOccurrenceTracker`). -/
def update (t : LastOccurrenceTracker) (_ : Update) : M (LastOccurrenceTracker × Nat) := do
  return ({ t with happenedLast := some (← M.now) }, 1)

end LastOccurrenceTracker
end Metrix
