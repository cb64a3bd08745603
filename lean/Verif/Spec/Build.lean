import Verif.Spec.History
import Verif.Spec.Observation
import Verif.Model.Build

/-! # What an instrument behind an adapter is meant to hear -/

namespace Metrix
variable {L I : Type}

/-- The labels a user means. -/
def Labels.Meant [DecidableEq L] : Labels L → L → Prop
  | .label a, l | .wrapped a, l | .acceptOneLabel a, l => l = a
  | .acceptAllLabels, _ => True
  | .acceptNoLabel, _ => False
  | .labelPredicate p, l | .lp p, l => p l = true
  | .list ls, l => l ∈ ls
  | .pair a b, l => l ∈ [a, b]
  | .triple a b c, l => l ∈ [a, b, c]
  | .quad a b c d, l => l ∈ [a, b, c, d]
  | .quint a b c d e, l => l ∈ [a, b, c, d, e]
  | .filter f, l => f.accepts l = true

instance [DecidableEq L] (labels : Labels L) (l : L) : Decidable (labels.Meant l) := by
  cases labels <;> unfold Labels.Meant <;> infer_instance

/-- What the instrument behind an adapter experiences of an event, if `sel` tells which update (if any) each observation is
for it: the same operation at the same moment with the same result. -/
def heard (sel : Observation L → Option Update) (ev : Event (Observation L)) : Option (Event Update) :=
  match ev.op with
  | .input o => (sel o).map fun u => { ev with op := .input u }
  | .snapshot s d => some { ev with op := .snapshot s d }

/-- The observations in a log that are nothing for the instrument were reported as no update. -/
def IgnoredSilently (sel : Observation L → Option Update) (log : List (Event (Observation L))) : Prop :=
  ∀ ev ∈ log, ∀ o, ev.op = .input o → sel o = none → ev.out = .updated 0

/-- Whatever happens to the adapter: it is as if exactly the selected observations and all snapshot requests were given to
the instrument `i` alone. Reports and snapshots are the same, too; all other observations are reported as no update. -/
def Hears [DecidableEq L] [IsInstrument I] (a : InstrumentAdapter L I) (i : I) (sel : Observation L → Option Update) : Prop :=
  ∀ (e : Env) (k k' : Nat) (a' : InstrumentAdapter L I) (log : List (Event (Observation L))), History e k a log k' a' →
    History e k i (log.filterMap (heard sel)) k' a'.instrument ∧ IgnoredSilently sel log

/-- The same for a gauge. -/
def GaugeHears [DecidableEq L] (a : GaugeAdapter L) (g : Gauge) (sel : Observation L → Option Update) : Prop :=
  ∀ (e : Env) (k k' : Nat) (a' : GaugeAdapter L) (log : List (Event (Observation L))), History e k a log k' a' →
    History e k g (log.filterMap (heard sel)) k' a'.gauge ∧ IgnoredSilently sel log

/-- Everything with a label of a set. -/
def onLabels (P : L → Prop) [DecidablePred P] (o : Observation L) : Option Update :=
  if P o.label then some o.content else none

/-- Everything with a label of a set, modified by a function. -/
def onLabelsModified (P : L → Prop) [DecidablePred P] (f : L → Update → Update) (o : Observation L) : Option Update :=
  if P o.label then some (f o.label o.content) else none

/-- Only the changes with a label of a set. -/
def changesOn (P : L → Prop) [DecidablePred P] : Observation L → Option Update
  | .observedOneValue l (.changedBy d) t => if P l then some (.withValue (.changedBy d) t) else none
  | _ => none

/-- Plus one for each observation with a label of the one set, otherwise minus one for each with a label of the other. -/
def upAndDownOn (P Q : L → Prop) [DecidablePred P] [DecidablePred Q] (o : Observation L) : Option Update :=
  if P o.label then some (.withValue (.changedBy 1) o.madeAt)
  else if Q o.label then some (.withValue (.changedBy (-1)) o.madeAt)
  else none

end Metrix
