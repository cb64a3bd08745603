import Verif.Spec.Light

/-!
# How much a run can report

Drivers measure themselves. What they add up for that is limited by what is going to be sent to their processors, and by the number
of instruments there.
-/

namespace Metrix
variable {σ L : Type}

/-- Every number in the outcome of a run is at most `n`. -/
def Outcome.AtMost (n : Nat) (o : Outcome) : Prop :=
  o.processed ≤ n ∧ o.dropped ≤ n ∧ o.instrumentsUpdated ≤ n ∧ o.observationsEnqueued ≤ n

/-- User defined components never report more than `b` updates at once. -/
structure CustomModest (σ L : Type) [Custom σ L] (b : Nat) : Prop where
  update : ∀ (s : σ) (u : Update) e k r k', Custom.update L s u e k = some (r, k') → r.2 ≤ b
  handle : ∀ (s : σ) (o : Observation L) e k r k', Custom.handle s o e k = some (r, k') → r.2 ≤ b

/-- User defined processors never report a number above `b`. -/
def CustomProcessorModest (σ : Type) [CustomProcessor σ] (b : Nat) : Prop :=
  ∀ (s : σ) max st e k r k', CustomProcessor.process s max st e k = some (r, k') → r.2.AtMost b

/-- How many instruments a processor has, and how many it is still going to receive. -/
def Processor.size (p : Processor σ L) : Nat :=
  p.state.parts.length + (p.receiver.chan.pending.map fun m => m.parts.length).sum

/-- The most that a processor can report: `b` updates of each instrument with every message that waits or is still going to be sent.
It also limits the number of these messages. -/
def Processor.most (b : Nat) (p : Processor σ L) : Nat := p.receiver.chan.pending.length * (1 + b * p.size)

mutual
/-- The most that everything in a node can report in one run, now or later. -/
def Node.most (b : Nat) : Node σ L → Nat
  | .processor p => p.most b
  | .mount _ ns _ => mostOfNodes b ns
  | .attached _ ns _ inbox => mostOfNodes b ns + mostOfInbox b inbox
  | .driver _ => 0
  | .custom _ => b

def mostOfNodes (b : Nat) : List (Node σ L) → Nat
  | [] => 0
  | n :: ns => n.most b + mostOfNodes b ns

def mostOfInbox (b : Nat) : List (Arrivals (Node σ L) (Snapshooter σ L)) → Nat
  | [] => 0
  | ⟨ps, _, _⟩ :: inbox => mostOfNodes b ps + mostOfInbox b inbox
end

/-- The most that is added by a message to a driver. -/
def DriverMsg.most (b : Nat) : DriverMsg σ L → Nat
  | .addProcessor n => n.most b
  | _ => 0

/-- The most that everything in messages to a driver can report in one run. -/
def mostOfMessages (b : Nat) (ms : List (DriverMsg σ L)) : Nat := (ms.map fun m => m.most b).sum

/-- The program runs for less than 584 years. -/
def Env.Short (e : Env) : Prop := ∀ j k, e.clock k - e.clock j < 2 ^ 64

end Metrix
