import Verif.Model.Observation
import Verif.Model.Util

/-!
# Counter: `src/instruments/counter.rs`
-/

namespace Metrix

/-- `src/instruments/counter.rs:28-33` (`Counter`). -/
structure Counter where
  name : String
  descr : Descr := {}
  count : Nat := 0

namespace Counter

/-- `src/instruments/counter.rs:80-82` (`inc`). -/
def inc (c : Counter) : M Counter := do
  return { c with count := ← arithU64 (c.count + 1) }

/-- `src/instruments/counter.rs:85-87` (`inc_by`). -/
def incBy (c : Counter) (n : Nat) : M Counter := do
  return { c with count := ← arithU64 (c.count + n) }

/-- `src/instruments/counter.rs:147-164` (`Updates for Counter`). -/
def update (c : Counter) (u : Update) : M (Counter × Nat) :=
  match u with
  | .observation _ => do return (← c.inc, 1)
  | .observations n _ => do return (← c.incBy n, 1)
  | .withValue _ _ => do return (← c.inc, 1)

/-- `src/instruments/counter.rs:140-145` (`PutsSnapshot for Counter`). -/
def putSnapshot (c : Counter) (into : Snapshot) (descriptive : Bool) : Snapshot :=
  (putPostfixedDescriptives c.descr c.name into descriptive).push c.name (.uint c.count)

end Counter
end Metrix
