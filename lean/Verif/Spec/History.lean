import Verif.Model.Tree

/-!
# Histories of instruments and of other components

What users can do to an instrument: update it and take snapshots of it, in any order and at any
moments. The same for panels, cockpits and adapters, which take observations instead of updates.
Between two such operations the thread may read the clock any number of times, because other
components are used as well.
-/

namespace Metrix

/-- Something that takes inputs of type `A` and reports how many instruments it updated, and that can
put a snapshot. -/
class Component (C : Type) (A : outParam Type) where
  take : C → A → M (C × Nat)
  putSnapshot : C → Snapshot → Bool → M (C × Snapshot)

instance {I : Type} [IsInstrument I] : Component I Update where
  take := IsInstrument.update
  putSnapshot := IsInstrument.putSnapshot

instance {L : Type} [DecidableEq L] : Component (GaugeAdapter L) (Observation L) where
  take := GaugeAdapter.handle
  putSnapshot := GaugeAdapter.putSnapshot

instance {L I : Type} [DecidableEq L] [IsInstrument I] :
    Component (InstrumentAdapter L I) (Observation L) where
  take := InstrumentAdapter.handle IsInstrument.update
  putSnapshot := InstrumentAdapter.putSnapshot IsInstrument.putSnapshot

instance {σ L : Type} [DecidableEq L] [Custom σ L] : Component (Panel σ L) (Observation L) where
  take p o := p.handle o
  putSnapshot p s d := p.putSnapshot d s

instance {σ L : Type} [DecidableEq L] [Custom σ L] : Component (Handler σ L) (Observation L) where
  take h o := h.handle o
  putSnapshot h s d := h.putSnapshot d s

instance {σ L : Type} [DecidableEq L] [Custom σ L] : Component (Cockpit σ L) (Observation L) where
  take c o := c.handle o
  putSnapshot c s d := c.putSnapshot s d

/-- An operation on a component. -/
inductive Op (A : Type)
  | input (a : A)
  | snapshot (into : Snapshot) (descriptive : Bool)

/-- What the caller of an operation gets: the number of updated instruments, or the snapshot. -/
inductive Out
  | updated (n : Nat)
  | snapshot (s : Snapshot)

/-- Do an operation. -/
def step {C A : Type} [Component C A] (c : C) : Op A → M (C × Out)
  | .input a => do
    let (c, n) ← Component.take c a
    return (c, .updated n)
  | .snapshot into d => do
    let (c, s) ← Component.putSnapshot c into d
    return (c, .snapshot s)

/-- An operation that was made, with what it returned. It read the clock for the `start`-th,
`start + 1`-th, ..., `stop - 1`-th time. -/
structure Event (A : Type) where
  start : Nat
  op : Op A
  out : Out
  stop : Nat

/-- `History e k c log k' c'`: `c` was used as recorded in `log` (oldest event first), then it was `c'`.
The clock had been read `k` times before and `k'` times at the end. -/
inductive History {C A : Type} [Component C A] (e : Env) : Nat → C → List (Event A) → Nat → C → Prop
  | nil {k k' : Nat} {c : C} : k ≤ k' → History e k c [] k' c
  | cons {k k₁ k₂ k' : Nat} {c c₁ c' : C} {op : Op A} {out : Out} {log : List (Event A)} :
      k ≤ k₁ → step c op e k₁ = some ((c₁, out), k₂) → History e k₂ c₁ log k' c' →
      History e k c (⟨k₁, op, out, k₂⟩ :: log) k' c'

/-- The inputs (updates or observations) of a log, oldest first. -/
def inputs {A : Type} : List (Event A) → List A
  | [] => []
  | ⟨_, .input a, _, _⟩ :: log => a :: inputs log
  | ⟨_, .snapshot _ _, _, _⟩ :: log => inputs log

/-- What the inputs of a log reported. -/
def reports {A : Type} : List (Event A) → List Nat
  | [] => []
  | ⟨_, _, .updated n, _⟩ :: log => n :: reports log
  | ⟨_, _, .snapshot _, _⟩ :: log => reports log

/-- The number of occurrences an update stands for. -/
def Update.occurrences : Update → Nat
  | .observations n _ => n
  | .observation _ => 1
  | .withValue _ _ => 1

end Metrix
