import Verif.Spec.Parts
import Verif.Spec.Channel
import Verif.Spec.Meter
import Verif.Spec.Gauge

/-! # What threads send altogether -/

namespace Metrix
variable {σ L : Type}

/-- How many occurrences an observation stands for. -/
def Observation.occurrences : Observation L → Nat
  | .observed _ n _ => n
  | .observedOne _ _ => 1
  | .observedOneValue _ _ _ => 1

/-- The value of an observation in whole display units, for a histogram or a value meter. -/
def Observation.inUnit (unit : TimeUnit) : Observation L → Option Int
  | .observedOneValue _ (.duration v u) _ => some (wrapI64 (displayed v u unit))
  | .observedOneValue _ v _ => v.convertToI64
  | .observedOne _ _ => none
  | .observed _ _ _ => none

/-- By how much an observation changes a value. -/
def Observation.delta : Observation L → Option Int
  | .observedOneValue _ (.changedBy d) _ => some d
  | _ => none

/-- The observation in a message. -/
def Message.observation? : Message σ L → Option (Observation L)
  | .observation o => some o
  | _ => none

/-- Everything that threads are going to observe. -/
def observationsOf (programs : List (SendThread (Message σ L))) : List (Observation L) :=
  (programs.flatMap (·.todo)).filterMap Message.observation?

/-- Those observations for an instrument that is behind panels with the filters `path` and has the filter `f` itself. -/
def observationsFor [DecidableEq L] (path : List (LabelFilter L)) (f : LabelFilter L)
    (programs : List (SendThread (Message σ L))) : List (Observation L) :=
  (observationsOf programs).filter fun o => path.all (·.accepts o.label) && f.accepts o.label

end Metrix
