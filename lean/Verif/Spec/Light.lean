import Verif.Spec.Observation
import Verif.Spec.SafeRun
import Verif.Spec.Totals

/-!
# How much can be observed before something overflows

Builds with overflow checks panic when a number becomes too large. Here it is said how much was observed so far, and how large the
numbers in the instruments can be after that.
-/

namespace Metrix
variable {σ L μ : Type}

/-- How much was observed: how many observations, of how many occurrences in total, and by how much the changes among them have
changed things in total. -/
structure Load where
  observations : Nat
  occurrences : Nat
  changes : Nat

namespace Load

instance : Zero Load := ⟨⟨0, 0, 0⟩⟩

instance : Add Load := ⟨fun a b => ⟨a.observations + b.observations, a.occurrences + b.occurrences, a.changes + b.changes⟩⟩

instance : LE Load := ⟨fun a b => a.observations ≤ b.observations ∧ a.occurrences ≤ b.occurrences ∧ a.changes ≤ b.changes⟩

/-- The largest value a gauge can show, if all values are at most `peak`. Gauges on labels are changed by one with an observation. -/
def reach (peak : Nat) (l : Load) : Nat := peak + l.changes + l.observations

/-- No number becomes too large: neither the number of occurrences, nor the sum of all values a gauge has shown. -/
def Small (peak : Nat) (l : Load) : Prop := l.occurrences < 2 ^ 63 ∧ l.observations * l.reach peak < 2 ^ 63

end Load

/-- How many nanoseconds a unit has. -/
def TimeUnit.nanos : TimeUnit → Nat
  | .nanoseconds => 1
  | .microseconds => 1000
  | .milliseconds => 1000000
  | .seconds => 1000000000

/-- By how much a value changes things, if it is a change. -/
def ObservedValue.changing : ObservedValue → Nat
  | .changedBy d => d.natAbs
  | _ => 0

/-- The number that is observed is at most `peak`; a duration is counted in nanoseconds. -/
def ObservedValue.AtMost (peak : Nat) : ObservedValue → Prop
  | .duration t u => t * u.nanos ≤ peak
  | v => ∀ x, v.convertToI64 = some x → x.natAbs ≤ peak

def Update.changing : Update → Nat
  | .withValue v _ => v.changing
  | _ => 0

def Update.AtMost (peak : Nat) : Update → Prop
  | .withValue v _ => v.AtMost peak
  | _ => True

/-- What an observation adds. -/
def Observation.load (o : Observation L) : Load := ⟨1, o.content.occurrences, o.content.changing⟩

/-- A modification of updates that makes nothing larger. It may turn an update into a change by one. -/
def UpdateModifier.Tame (peak : Nat) (m : UpdateModifier L) : Prop :=
  ∀ f, m = some f → ∀ l u, u.AtMost peak →
    (f l u).AtMost peak ∧ (f l u).occurrences ≤ u.occurrences ∧ (f l u).changing ≤ u.changing + 1

/-- The numbers in a gauge are what they can be at most. -/
structure Gauge.Within (peak : Nat) (l : Load) (g : Gauge) : Prop where
  value : ∀ v, g.value = some v → v.natAbs ≤ l.reach peak
  index : ∀ r, g.tracking = some r → r.currentIdx < r.buckets.length
  sums : ∀ r, g.tracking = some r → (r.buckets.map fun b => b.sum.natAbs).sum ≤ l.observations * l.reach peak
  counts : ∀ r, g.tracking = some r → (r.buckets.map fun b => b.count).sum ≤ l.observations
  values : ∀ r, g.tracking = some r → ∀ b ∈ r.buckets, b.min.natAbs ≤ l.reach peak ∧ b.max.natAbs ≤ l.reach peak

/-- It was started less than 584 years ago. -/
def StdMeter.Recent (e : Env) (m : StdMeter) : Prop := ∀ k, e.clock k - m.start < 2 ^ 64

/-- The numbers in an instrument are what they can be at most after so many observations, and configured durations fit. `safe` tells
which user defined instruments are fine. -/
def Instrument.Within (e : Env) (safe : σ → Prop) (peak : Nat) (l : Load) : Instrument σ → Prop
  | .counter c => c.count ≤ l.occurrences
  | .gauge g => g.Within peak l
  | .meter m => m.inner.count.natAbs ≤ l.occurrences ∧ m.inner.Recent e
  | .valueMeter m => m.meter.inner.count.natAbs ≤ l.observations * l.reach peak ∧ m.meter.inner.Recent e
  | .staircaseTimer t => Fits e t.switchOffAfter
  | .occurrenceIndicator i => Fits e i.ifHappenedWithin
  | .nonOccurrenceIndicator i => Fits e i.ifNotHappenedWithin
  | .dataDisplay d => ∀ r, d.resetAfter = some r → Fits e r
  | .custom s => safe s
  | .histogram _ => True
  | .flag _ => True
  | .lastOccurrenceTracker _ => True

/-- An instrument and the modification of what it is told. -/
structure Tuned (σ L : Type) where
  instrument : Instrument σ
  modify : UpdateModifier L := none

/-- The instruments in the four slots of a panel. -/
def PanelHead.parts (h : PanelHead L) : List (Tuned σ L) :=
  h.counter.toList.map (fun a => ⟨.counter a.instrument, a.modifyUpdate⟩) ++
    (h.gauge.toList.map (fun a => ⟨.gauge a.gauge, a.modifyUpdate⟩) ++
      (h.meter.toList.map (fun a => ⟨.meter a.instrument, a.modifyUpdate⟩) ++
        h.histogram.toList.map (fun a => ⟨.histogram a.instrument, a.modifyUpdate⟩)))

mutual
/-- All instruments and user defined components anywhere in a panel. -/
def Panel.parts : Panel σ L → List (Tuned σ L)
  | .mk h ps hs ss => h.parts ++ (partsOfPanels ps ++ (partsOfHandlers hs ++ partsOfSnapshooters ss))

def partsOfPanels : List (Panel σ L) → List (Tuned σ L)
  | [] => []
  | p :: ps => p.parts ++ partsOfPanels ps

/-- All instruments and user defined components anywhere in a handler. -/
def Handler.parts : Handler σ L → List (Tuned σ L)
  | .instrument a => [⟨a.instrument, a.modifyUpdate⟩]
  | .gauge a => [⟨.gauge a.gauge, a.modifyUpdate⟩]
  | .panel p => p.parts
  | .cockpit _ ps hs ss => partsOfPanels ps ++ (partsOfHandlers hs ++ partsOfSnapshooters ss)
  | .custom s => [⟨.custom s, none⟩]

def partsOfHandlers : List (Handler σ L) → List (Tuned σ L)
  | [] => []
  | h :: hs => h.parts ++ partsOfHandlers hs

/-- All instruments and user defined components anywhere in a snapshooter. -/
def Snapshooter.parts : Snapshooter σ L → List (Tuned σ L)
  | .constant _ _ _ => []
  | .polling _ _ _ poll => poll.parts
  | .instrument i => [⟨i, none⟩]
  | .handler h => h.parts
  | .custom s => [⟨.custom s, none⟩]

def partsOfSnapshooters : List (Snapshooter σ L) → List (Tuned σ L)
  | [] => []
  | s :: ss => s.parts ++ partsOfSnapshooters ss
end

/-- All instruments and user defined components anywhere in a cockpit. -/
def Cockpit.parts (c : Cockpit σ L) : List (Tuned σ L) :=
  partsOfPanels c.panels ++ (partsOfHandlers c.handlers ++ partsOfSnapshooters c.snapshooters)

/-- All of them are within their limits. -/
def AllWithin (e : Env) (safe : σ → Prop) (peak : Nat) (l : Load) (ps : List (Tuned σ L)) : Prop :=
  ∀ p ∈ ps, p.instrument.Within e safe peak l ∧ p.modify.Tame peak

/-! ## Processors, mounts and drivers -/

/-- What a list of observations adds up to. -/
def loadOf (os : List (Observation L)) : Load := os.foldr (fun o l => o.load + l) 0

def Observation.AtMost (peak : Nat) (o : Observation L) : Prop := o.content.AtMost peak

/-- The instruments in a message. -/
def Message.parts : Message σ L → List (Tuned σ L)
  | .addCockpit c => c.parts
  | .addHandler h => h.parts
  | .addPanelToCockpit _ p => p.parts
  | _ => []

def partsOfCockpits : List (Cockpit σ L) → List (Tuned σ L)
  | [] => []
  | c :: cs => c.parts ++ partsOfCockpits cs

/-- All instruments and user defined components anywhere in a processor. -/
def ProcessorState.parts (s : ProcessorState σ L) : List (Tuned σ L) :=
  partsOfCockpits s.cockpits ++ (partsOfHandlers s.handlers ++ partsOfSnapshooters s.snapshooters)

/-- The observations that wait in the queue or are still going to be sent. -/
def Channel.observations (c : Channel (Message σ L)) : List (Observation L) := c.pending.filterMap Message.observation?

/-- A processor is within its limits, and will still be when it has received everything that is going to be sent. -/
def Processor.Within (e : Env) (safe : σ → Prop) (peak : Nat) (p : Processor σ L) : Prop :=
  ∃ l : Load, AllWithin e safe peak l p.state.parts ∧ (∀ m ∈ p.receiver.chan.pending, AllWithin e safe peak l m.parts) ∧
    (∀ o ∈ p.receiver.chan.observations, o.AtMost peak) ∧ (l + loadOf p.receiver.chan.observations).Small peak

/-- What is in a call is within its limits; instruments are new. -/
def Call.Within (e : Env) (safe : σ → Prop) (peak : Nat) : Call σ L → Prop
  | .process _ strategy => strategy.Safe e
  | .addCockpit c => AllWithin e safe peak 0 c.parts
  | .addHandler h => AllWithin e safe peak 0 h.parts
  | .addSnapshooter x => AllWithin e safe peak 0 x.parts
  | _ => True

/-- A snapshooter is within its limits. -/
def Snapshooter.Within (e : Env) (safe : σ → Prop) (peak : Nat) (s : Snapshooter σ L) : Prop :=
  ∃ l : Load, l.Small peak ∧ AllWithin e safe peak l s.parts

/-- Snapshooters are within their limits. -/
def SnapshootersWithin (e : Env) (safe : σ → Prop) (peak : Nat) (ss : List (Snapshooter σ L)) : Prop :=
  ∀ s ∈ ss, s.Within e safe peak

mutual
/-- All processors and snapshooters anywhere in a node are within their limits, also those it is still going to receive. -/
def Node.Within (e : Env) (safe : σ → Prop) (peak : Nat) : Node σ L → Prop
  | .processor p => p.Within e safe peak
  | .mount _ ns ss => NodesWithin e safe peak ns ∧ SnapshootersWithin e safe peak ss
  | .attached _ ns ss inbox =>
    NodesWithin e safe peak ns ∧ SnapshootersWithin e safe peak ss ∧ InboxWithin e safe peak inbox
  | .driver _ => True
  | .custom s => safe s

def NodesWithin (e : Env) (safe : σ → Prop) (peak : Nat) : List (Node σ L) → Prop
  | [] => True
  | n :: ns => n.Within e safe peak ∧ NodesWithin e safe peak ns

def InboxWithin (e : Env) (safe : σ → Prop) (peak : Nat) : List (Arrivals (Node σ L) (Snapshooter σ L)) → Prop
  | [] => True
  | ⟨ps, ss, _⟩ :: inbox => NodesWithin e safe peak ps ∧ SnapshootersWithin e safe peak ss ∧ InboxWithin e safe peak inbox
end

/-- What is in a message for a driver is within its limits. -/
def DriverMsg.Within (e : Env) (safe : σ → Prop) (peak : Nat) : DriverMsg σ L → Prop
  | .addProcessor n => n.Within e safe peak
  | .addSnapshooter s => s.Within e safe peak
  | .setStrategy s => s.Safe e
  | _ => True

end Metrix
