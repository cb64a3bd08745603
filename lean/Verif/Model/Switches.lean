import Verif.Model.Observation
import Verif.Model.Util

/-!
# Switches: `src/instruments/switches/`
-/

namespace Metrix

/-- `src/instruments/switches/mod.rs:19-26` (`NameAlternation`). -/
inductive NameAlternation
  | pre (s : String)
  | post (s : String)
  | rename (s : String)
  deriving DecidableEq

/-- `src/instruments/switches/mod.rs:28-36` (`adjust_name`). -/
def NameAlternation.adjustName (a : NameAlternation) (original : String) : String :=
  match a with
  | .rename s => s
  | .pre s => s ++ original
  | .post s => original ++ s

/-- `src/instruments/switches/flag.rs:15-21` (`Flag`). -/
structure Flag where
  name : String
  descr : Descr := {}
  state : Option Bool := none
  showInverted : Option NameAlternation := none

namespace Flag

/-- `src/instruments/switches/flag.rs:169-181` (`PutsSnapshot for Flag`). -/
def putSnapshot (f : Flag) (into : Snapshot) (descriptive : Bool) : Snapshot :=
  let into := putPostfixedDescriptives f.descr f.name into descriptive
  match f.state with
  | none => into
  | some state =>
    let into := into.push f.name (.boolean state)
    match f.showInverted with
    | none => into
    | some alternation => into.push (alternation.adjustName f.name) (.boolean (!state))

/-- `src/instruments/switches/flag.rs:183-201` (`Updates for Flag`). -/
def update (f : Flag) (u : Update) : Flag × Nat :=
  match u with
  | .withValue (.bool v) _ => ({ f with state := some v }, 1)
  | .withValue (.signedInteger v) _ => ({ f with state := some (decide (v ≠ 0)) }, 1)
  | .withValue (.unsignedInteger v) _ => ({ f with state := some (decide (v ≠ 0)) }, 1)
  | _ => (f, 0)

end Flag

/-- The statements that `StaircaseTimer`, `OccurrenceIndicator` and `NonOccurrenceIndicator` share:
`src/instruments/switches/staircase_timer.rs:227-234`, `occurrence_indicator.rs:221-228`,
`non_occurrence_indicator.rs:226-233`. `state` is called once for each item. -/
def putTimedSwitch (name : String) (descr : Descr) (showInverted : Option NameAlternation)
    (state : M Bool) (into : Snapshot) (descriptive : Bool) : M Snapshot := do
  let into := putPostfixedDescriptives descr name into descriptive
  let s ← state
  let into := into.push name (.boolean s)
  match showInverted with
  | none => return into
  | some alternation =>
    let s ← state
    return into.push (alternation.adjustName name) (.boolean (!s))

/-- `src/instruments/switches/staircase_timer.rs:24-32` (`StaircaseTimer`); the default of
`switch_off_after` from `new` (35-45). -/
structure StaircaseTimer where
  name : String
  descr : Descr := {}
  switchOffAfter : Nat := 60 * nanosPerSec
  invert : Bool := false
  stayOnUntil : Option Int := none
  showInverted : Option NameAlternation := none

namespace StaircaseTimer

/-- `src/instruments/switches/staircase_timer.rs:208-220` (`state`). -/
def state (t : StaircaseTimer) : M Bool :=
  match t.stayOnUntil with
  | some u => do
    let now ← M.now
    let value := decide (u ≥ now)
    return if t.invert then !value else value
  | none =>
    let value := false
    return if t.invert then !value else value

/-- `src/instruments/switches/staircase_timer.rs:225-235` (`PutsSnapshot for StaircaseTimer`). -/
def putSnapshot (t : StaircaseTimer) (into : Snapshot) (descriptive : Bool) : M Snapshot :=
  putTimedSwitch t.name t.descr t.showInverted t.state into descriptive

/-- `src/instruments/switches/staircase_timer.rs:237-242` (`Updates for StaircaseTimer`). -/
def update (t : StaircaseTimer) (_ : Update) : M (StaircaseTimer × Nat) := do
  let u ← addDur (← M.now) t.switchOffAfter
  return ({ t with stayOnUntil := some u }, 1)

end StaircaseTimer

/-- `src/instruments/switches/occurrence_indicator.rs:17-25` (`OccurrenceIndicator`). -/
structure OccurrenceIndicator where
  name : String
  descr : Descr := {}
  ifHappenedWithin : Nat := 60 * nanosPerSec
  happenedLast : Int
  invert : Bool := false
  showInverted : Option NameAlternation := none

namespace OccurrenceIndicator

/-- `src/instruments/switches/occurrence_indicator.rs:28-38` (`new`). -/
def new (name : String) : M OccurrenceIndicator := do
  return { name, happenedLast := ← subDur (← M.now) (60 * nanosPerSec) }

/-- `src/instruments/switches/occurrence_indicator.rs:103-106` (`set_if_happened_within`). -/
def setIfHappenedWithin (i : OccurrenceIndicator) (d : Nat) : M OccurrenceIndicator := do
  let t ← subDur (← M.now) d
  return { i with ifHappenedWithin := d, happenedLast := t }

/-- `src/instruments/switches/occurrence_indicator.rs:205-214` (`state`). -/
def state (i : OccurrenceIndicator) : M Bool := do
  let mustHaveHappenedAfter ← subDur (← M.now) i.ifHappenedWithin
  let currentState := decide (i.happenedLast > mustHaveHappenedAfter)
  return if i.invert then !currentState else currentState

/-- `src/instruments/switches/occurrence_indicator.rs:219-229` (`PutsSnapshot for OccurrenceIndicator`). -/
def putSnapshot (i : OccurrenceIndicator) (into : Snapshot) (descriptive : Bool) : M Snapshot :=
  putTimedSwitch i.name i.descr i.showInverted i.state into descriptive

/-- `src/instruments/switches/occurrence_indicator.rs:231-236` (`Updates for OccurrenceIndicator`). -/
def update (i : OccurrenceIndicator) (_ : Update) : M (OccurrenceIndicator × Nat) := do
  return ({ i with happenedLast := ← M.now }, 1)

end OccurrenceIndicator

/-- `src/instruments/switches/non_occurrence_indicator.rs:23-31` (`NonOccurrenceIndicator`). -/
structure NonOccurrenceIndicator where
  name : String
  descr : Descr := {}
  ifNotHappenedWithin : Nat := 60 * nanosPerSec
  happenedLast : Int
  invert : Bool := false
  showInverted : Option NameAlternation := none

namespace NonOccurrenceIndicator

/-- `src/instruments/switches/non_occurrence_indicator.rs:34-44` (`new`). -/
def new (name : String) : M NonOccurrenceIndicator := do
  return { name, happenedLast := ← M.now }

/-- `src/instruments/switches/non_occurrence_indicator.rs:109-111` (`set_if_not_happened_within`). -/
def setIfNotHappenedWithin (i : NonOccurrenceIndicator) (d : Nat) : NonOccurrenceIndicator :=
  { i with ifNotHappenedWithin := d }

/-- `src/instruments/switches/non_occurrence_indicator.rs:210-219` (`state`). -/
def state (i : NonOccurrenceIndicator) : M Bool := do
  let mustNotHaveHappenedAfter ← subDur (← M.now) i.ifNotHappenedWithin
  let currentState := decide (i.happenedLast ≤ mustNotHaveHappenedAfter)
  return if i.invert then !currentState else currentState

/-- `src/instruments/switches/non_occurrence_indicator.rs:224-234`
(`PutsSnapshot for NonOccurrenceIndicator`). -/
def putSnapshot (i : NonOccurrenceIndicator) (into : Snapshot) (descriptive : Bool) : M Snapshot :=
  putTimedSwitch i.name i.descr i.showInverted i.state into descriptive

/-- `src/instruments/switches/non_occurrence_indicator.rs:236-241`
(`Updates for NonOccurrenceIndicator`). -/
def update (i : NonOccurrenceIndicator) (_ : Update) : M (NonOccurrenceIndicator × Nat) := do
  return ({ i with happenedLast := ← M.now }, 1)

end NonOccurrenceIndicator
end Metrix
