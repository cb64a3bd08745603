import Verif.Spec.DriverMetrics

/-! # When a driver is to rest, and for how long -/

namespace Metrix
variable {σ L : Type}

/-- There was a run that dropped observations or processed more than 100 of them: there may be more to do. -/
def Iteration.Busy (i : Iteration σ L) : Prop := ∃ o, i.outcome = some o ∧ (0 < o.dropped ∨ 100 < o.processed)

/-- There was a run, and it found little to do. -/
def Iteration.Idle (i : Iteration σ L) : Prop := ∃ o, i.outcome = some o ∧ o.dropped = 0 ∧ o.processed ≤ 100

instance (i : Iteration σ L) : Decidable i.Idle :=
  match h : i.outcome with
  | none => .isFalse fun ⟨_, h', _⟩ => by rw [h] at h'; cases h'
  | some o =>
    if ho : o.dropped = 0 ∧ o.processed ≤ 100 then .isTrue ⟨o, h, ho⟩
    else .isFalse fun ⟨o', h', h''⟩ => ho (by rw [h] at h'; cases h'; exact h'')

/-- A call of `thread::sleep` takes at least as long as it says: between the last reading of the clock before it and the first
one afterwards at least that time passes. -/
def Nap.Takes (e : Env) (n : Nap) : Prop := e.clock (n.readings - 1) + n.length ≤ e.clock n.readings

/-- All calls of `thread::sleep` do so. -/
def SleepsTake (e : Env) (tl : List (TimedIteration σ L)) : Prop := ∀ x ∈ tl, ∀ n, x.what.rest = some n → n.Takes e

end Metrix
