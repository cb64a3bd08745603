import Verif.Model.Fleet
import Mathlib.Logic.Relation

/-! # What it means that drivers answer -/

namespace Metrix.Fleet
variable {n : Nat}

/-- The drivers after the first `k` actions. At first nothing is mounted, and nobody has asked for anything. -/
def state (acts : Nat → Act n) : Nat → Net n
  | 0 => {}
  | k + 1 => (state acts k).act (acts k)

/-- Every thread gets its turn again and again. -/
def Fair (acts : Nat → Act n) : Prop := ∀ i k, ∃ m, k ≤ m ∧ ∃ order, acts m = .turn i order

/-- A handle of driver `j` is added to driver `i` at some time. -/
def MountedIn (acts : Nat → Act n) (j i : Fin n) : Prop :=
  ∃ k js, j ∈ js ∧ (acts k = .mount i js ∨ acts k = .attach i js)

/-- No driver is mounted in itself, directly or via others. -/
def Acyclic (acts : Nat → Act n) : Prop := ∀ i, ¬ Relation.TransGen (MountedIn acts) i i

/-- The call `id` got its answer between the `k`-th and the `m`-th action. `ok` tells whether it was a snapshot. -/
def AnsweredWithin (acts : Nat → Act n) (k m : Nat) (id : Nat) (ok : Bool) : Prop :=
  ∃ new, (state acts m).answers = (state acts k).answers ++ new ∧ (id, ok) ∈ new

/-- For whom a driver's thread waits. -/
def Peer.waitingOn (p : Peer n) : Option (Fin n) :=
  match p.job with
  | some { todo := j :: _, waiting := true, .. } => some j
  | _ => none

end Metrix.Fleet
