import Verif.Spec.Driver
import Verif.Spec.Safe

/-!
# What processors, mounts and drivers need so as not to panic

Everything that is in them, or that is still going to be sent to them, has durations that fit.
-/

namespace Metrix
variable {σ L μ : Type}

/-- All messages that are in the queue, or that some thread is still going to send. -/
def Channel.pending (c : Channel μ) : List μ := c.queue.map (·.2) ++ c.threads.flatMap (·.todo)

/-- The instruments in a message. -/
def Message.instruments : Message σ L → List (Instrument σ)
  | .addCockpit c => c.instruments
  | .addHandler h => h.instruments
  | .addPanelToCockpit _ p => p.instruments
  | _ => []

/-- The instruments in cockpits. -/
def instrumentsOfCockpits : List (Cockpit σ L) → List (Instrument σ)
  | [] => []
  | c :: cs => c.instruments ++ instrumentsOfCockpits cs

/-- All instruments and user defined components anywhere in a processor. -/
def ProcessorState.instruments (s : ProcessorState σ L) : List (Instrument σ) :=
  instrumentsOfCockpits s.cockpits ++ (instrumentsOfHandlers s.handlers ++ instrumentsOfSnapshooters s.snapshooters)

/-- Also those it is still going to receive. -/
def Processor.instruments (p : Processor σ L) : List (Instrument σ) :=
  p.state.instruments ++ p.receiver.chan.pending.flatMap Message.instruments

mutual
/-- All instruments and user defined components anywhere in a node, also those it is still going to receive. -/
def Node.instruments : Node σ L → List (Instrument σ)
  | .processor p => p.instruments
  | .mount _ ns ss => instrumentsOfNodes ns ++ instrumentsOfSnapshooters ss
  | .attached _ ns ss inbox => instrumentsOfNodes ns ++ (instrumentsOfSnapshooters ss ++ instrumentsOfInbox inbox)
  | .driver _ => []
  | .custom s => [.custom s]

def instrumentsOfNodes : List (Node σ L) → List (Instrument σ)
  | [] => []
  | n :: ns => n.instruments ++ instrumentsOfNodes ns

def instrumentsOfInbox : List (Arrivals (Node σ L) (Snapshooter σ L)) → List (Instrument σ)
  | [] => []
  | ⟨ps, ss, _⟩ :: inbox => instrumentsOfNodes ps ++ (instrumentsOfSnapshooters ss ++ instrumentsOfInbox inbox)
end

/-- The duration in a strategy fits. -/
def Strategy.Safe (e : Env) : Strategy → Prop
  | .dropOlderThan maxAge _ => Fits e maxAge
  | _ => True

/-- User defined processors do not panic in states that satisfy `safe`, and stay in such states. -/
structure CustomProcessorSafe [CustomProcessor σ] (e : Env) (safe : σ → Prop) : Prop where
  process : ∀ s max strategy k, safe s →
    ∃ s' o k', CustomProcessor.process s max strategy e k = some ((s', o), k') ∧ safe s'
  putSnapshot : ∀ s into d k, safe s →
    ∃ s' into' k', CustomProcessor.putSnapshot s into d e k = some ((s', into'), k') ∧ safe s'

/-- What is in a call fits. -/
def Call.Safe (e : Env) (safe : σ → Prop) : Call σ L → Prop
  | .process _ strategy => strategy.Safe e
  | .addCockpit c => AllSafe e safe c.instruments
  | .addHandler h => AllSafe e safe h.instruments
  | .addSnapshooter x => AllSafe e safe x.instruments
  | _ => True

/-- Make one call after the other. -/
def Processor.calls [DecidableEq L] [Custom σ L] (p : Processor σ L) : List (Call σ L) → M (Processor σ L × List Reply)
  | [] => return (p, [])
  | c :: cs => do
    let (p, r) ← p.call c
    let (p, rs) ← p.calls cs
    return (p, r :: rs)

/-- What the owner of a mount can do with it: let it process its messages, or take a snapshot. -/
inductive NodeCall
  | process (max : Nat) (strategy : Strategy)
  | snapshot (into : Snapshot) (descriptive : Bool)

def NodeCall.Safe (e : Env) : NodeCall → Prop
  | .process _ strategy => strategy.Safe e
  | .snapshot _ _ => True

/-- Make one call after the other. -/
def Node.calls [DecidableEq L] [Custom σ L] [CustomProcessor σ] (n : Node σ L) : List NodeCall → M (Node σ L × List Reply)
  | [] => return (n, [])
  | .process max strategy :: cs => do
    let (n, o) ← n.process max strategy
    let (n, rs) ← n.calls cs
    return (n, .outcome o :: rs)
  | .snapshot into d :: cs => do
    let (n, s) ← n.putSnapshot d into
    let (n, rs) ← n.calls cs
    return (n, .snapshot s :: rs)

/-- What is in a message for a driver fits. -/
def DriverMsg.Safe (e : Env) (safe : σ → Prop) : DriverMsg σ L → Prop
  | .addProcessor n => AllSafe e safe n.instruments
  | .addSnapshooter s => AllSafe e safe s.instruments
  | .setStrategy s => s.Safe e
  | _ => True

end Metrix
