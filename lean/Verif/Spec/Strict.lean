import Verif.Spec.Processing

/-!
# Strategies that are more or less strict
-/

namespace Metrix
variable {σ L : Type}

/-- The first strategy is at least as strict as the second: it allows no higher age, and it makes an exception for changes of values only if the
second does so too. Nothing is stricter than dropping everything, and everything is at least as strict as processing everything. -/
def Strategy.AsStrictAs : Strategy → Strategy → Prop
  | .dropAll, _ => True
  | _, .processAll => True
  | .dropOlderThan age deltas, .dropOlderThan age' deltas' => age ≤ age' ∧ (deltas = false → deltas' = false)
  | _, _ => False

/-- Two calls of the owner, of processors that see different clocks. They are the same, except that the first, if it is a run, has a strategy
that is at least as strict, and begins no earlier. -/
inductive Called.AsStrictAs (e₁ e₂ : Env) : Called σ L → Called σ L → Prop
  | run (k₁ k₂ max : Nat) (a b : Strategy) (r₁ r₂ : Reply) : a.AsStrictAs b → e₂.clock k₂ ≤ e₁.clock k₁ →
      AsStrictAs e₁ e₂ ⟨k₁, .process max a, r₁⟩ ⟨k₂, .process max b, r₂⟩
  | other (k₁ k₂ : Nat) (c : Call σ L) (r₁ r₂ : Reply) : (∀ max s, c ≠ .process max s) → AsStrictAs e₁ e₂ ⟨k₁, c, r₁⟩ ⟨k₂, c, r₂⟩

/-- The outcome of a run that consumed the same as another and was at least as strict. -/
structure Outcome.AsStrictAs (o₁ o₂ : Outcome) : Prop where
  processed : o₁.processed ≤ o₂.processed
  dropped : o₂.dropped ≤ o₁.dropped
  all : o₁.processed + o₁.dropped = o₂.processed + o₂.dropped
  enqueued : o₁.observationsEnqueued = o₂.observationsEnqueued

end Metrix
