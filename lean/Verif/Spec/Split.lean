import Verif.Spec.Reorder
import Verif.Spec.Happening
import Verif.Spec.Undisturbed

/-!
# One processor or several

The parts of one processor are distributed to several processors, which get the same observations.
-/

namespace Metrix
variable {σ L : Type}

/-- A processor without name and limit makes no group of its own, and shows its parts at any time. -/
structure ProcessorState.Plain (s : ProcessorState σ L) : Prop where
  name : s.name = none
  limit : s.activity.maxInactivity = none

/-- The processor with the parts of all the others. -/
def ProcessorState.gather (s : ProcessorState σ L) (ss : List (ProcessorState σ L)) : ProcessorState σ L :=
  { s with
    cockpits := ss.flatMap (·.cockpits)
    handlers := ss.flatMap (·.handlers)
    snapshooters := ss.flatMap (·.snapshooters) }

/-- An observation was taken from the queue. -/
def Happening.Observes : Happening σ L → Prop
  | .message _ _ (.observation _) => True
  | _ => False

/-- One of several processors: before, the calls and after. -/
structure Share (σ L : Type) where
  before : Processor σ L
  log : List (Nat × Call σ L × Reply)
  after : Processor σ L

/-- All this happened to the share at moments up to `n`. -/
structure Share.Lived [DecidableEq L] [Custom σ L] (e : Env) (hs : List (Happening σ L)) (n : Nat) (x : Share σ L) : Prop where
  happened : Happened e x.before x.log hs x.after
  plain : x.before.state.Plain
  rings : RingsOk x.before.state.instruments
  order : MomentsInOrder x.log
  bound : ∀ c ∈ x.log, c.1 ≤ n

end Metrix
