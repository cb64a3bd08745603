import Verif.Spec.Dispatch
import Verif.Spec.History

/-! # The history of a single thing within a tree -/

namespace Metrix
variable {σ L : Type}

/-- A leaf puts its own snapshot. -/
def Leaf.putSnapshot [Custom σ L] (d : Bool) : Leaf σ L → Snapshot → M (Leaf σ L × Snapshot)
  | .instrument a, into => do
    let (a, into) ← a.putSnapshot (Instrument.putSnapshot L) into d
    return (.instrument a, into)
  | .gauge a, into => do
    let (a, into) ← a.putSnapshot into d
    return (.gauge a, into)
  | .custom s, into => do
    let (s, into) ← Custom.putSnapshot L s into d
    return (.custom s, into)
  | .lastActivity t, into => return (.lastActivity t, into)

/-- A leaf on its own. -/
instance [DecidableEq L] [Custom σ L] : Component (Leaf σ L) (Observation L) where
  take x o := x.react o
  putSnapshot x s d := x.putSnapshot d s

/-- The label gets through all the filters. -/
def passes [DecidableEq L] (path : List (LabelFilter L)) (o : Observation L) : Bool := path.all (·.accepts o.label)

end Metrix
