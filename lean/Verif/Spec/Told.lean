import Verif.Model.Made
import Verif.Spec.Totals

/-! # What the users of transmitters say -/

namespace Metrix
variable {σ L : Type}

/-- Something was observed: so many occurrences at this moment, or one with a value. -/
structure Told (L : Type) where
  label : L
  occurrences : Nat
  value : Option ObservedValue
  moment : Int

/-- What an observation says. -/
def Observation.told : Observation L → Told L
  | .observed label n t => ⟨label, n, none, t⟩
  | .observedOne label t => ⟨label, 1, none, t⟩
  | .observedOneValue label v t => ⟨label, 1, some v, t⟩

namespace TransmitCall

/-- What a call is to report if the clock shows `now`. -/
def told (now : Int) : TransmitCall σ L → Option (Told L)
  | .transmit o => some o.told
  | .observed label n t => some ⟨label, n, none, t⟩
  | .observedOne label t => some ⟨label, 1, none, t⟩
  | .observedOneValue label v t => some ⟨label, 1, some v, t⟩
  | .observedDuration label d t => some ⟨label, 1, some (.duration d .nanoseconds), t⟩
  | .observedNow label n => some ⟨label, n, none, now⟩
  | .observedOneNow label => some ⟨label, 1, none, now⟩
  | .observedOneValueNow label v => some ⟨label, 1, some v, now⟩
  | .observedOneDurationNow label d => some ⟨label, 1, some (.duration d .nanoseconds), now⟩
  | .measureTime label start =>
    if start ≤ now then some ⟨label, 1, some (.duration (now - start).toNat .nanoseconds), now⟩ else none
  | _ => none

/-- Durations of less than 2^64 nanoseconds, more than 584 years. -/
def Short (now : Int) : TransmitCall σ L → Prop
  | .observedDuration _ d _ => d < 2 ^ 64
  | .observedOneDurationNow _ d => d < 2 ^ 64
  | .measureTime _ start => now - start < 2 ^ 64
  | _ => True

/-- The calls that are meant to change the configuration of the processor. -/
def IsConfig : TransmitCall σ L → Prop
  | .addHandler _ | .addCockpit _ | .removeCockpit _ | .addPanelToCockpit _ _ | .removePanelFromCockpit _ _ => True
  | _ => False

/-- What a call is to do with the configuration of the processor. -/
def configures (s : ProcessorState σ L) : TransmitCall σ L → ProcessorState σ L
  | .addHandler h => { s with handlers := s.handlers ++ [h] }
  | .addCockpit c => if c.name ≠ none ∧ c.name ∈ s.cockpits.map (·.name) then s else { s with cockpits := s.cockpits ++ [c] }
  | .removeCockpit name => { s with cockpits := s.cockpits.filter (·.name ≠ some name) }
  | .addPanelToCockpit cockpitName p =>
    match s.cockpits.findIdx? (·.name = some cockpitName) with
    | some i => { s with cockpits := s.cockpits.modify i (·.addPanel p) }
    | none => s
  | .removePanelFromCockpit cockpitName panelName =>
    match s.cockpits.findIdx? (·.name = some cockpitName) with
    | some i => { s with cockpits := s.cockpits.modify i (·.removePanel panelName) }
    | none => s
  | _ => s

end TransmitCall

/-- What an observation made by hand is to say if the clock shows `now`. -/
def ObservationCall.told (now : Int) : ObservationCall L → Told L
  | .observed label n t => ⟨label, n, none, t⟩
  | .observedNow label n => ⟨label, n, none, now⟩
  | .observedOne label t => ⟨label, 1, none, t⟩
  | .observedOneNow label => ⟨label, 1, none, now⟩
  | .observedOneValue label v t => ⟨label, 1, some v, t⟩
  | .observedOneValueNow label v => ⟨label, 1, some v, now⟩

/-- The call of a transmitter with the same name and the same arguments. -/
def ObservationCall.direct : ObservationCall L → TransmitCall σ L
  | .observed label n t => .observed label n t
  | .observedNow label n => .observedNow label n
  | .observedOne label t => .observedOne label t
  | .observedOneNow label => .observedOneNow label
  | .observedOneValue label v t => .observedOneValue label v t
  | .observedOneValueNow label v => .observedOneValueNow label v

/-- `Performs e calls ms`: a thread makes these calls, one after the other, each at some reading of the clock, and `ms` are the
messages they hand over. -/
inductive Performs (e : Env) : List (Nat × TransmitCall σ L) → List (Message σ L) → Prop
  | nil : Performs e [] []
  | cons {k k' c ms cs ms'} : c.Short (e.clock k) → c.messages e k = some (ms, k') → Performs e cs ms' →
      Performs e ((k, c) :: cs) (ms ++ ms')

/-- Everything that is reported by calls. -/
def toldBy (e : Env) (calls : List (Nat × TransmitCall σ L)) : List (Told L) :=
  calls.filterMap fun c => c.2.told (e.clock c.1)

end Metrix
