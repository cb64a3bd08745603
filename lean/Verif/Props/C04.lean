import Verif.Proof.Arith

/-! # C04: increments, decrements and changes are deltas, everything else is not -/

namespace Metrix

/-- The payload is a value of the Rust type: `u32` for `IncrementBy`/`DecrementBy`, `i64` for
`ChangeBy`. -/
def ChangeRequest.InRange : ChangeRequest → Prop
  | .increment => True
  | .decrement => True
  | .incrementBy n => n < 2 ^ 32
  | .decrementBy n => n < 2 ^ 32
  | .changeBy n => I64 n

/-- The change a request asks for. -/
def ChangeRequest.delta : ChangeRequest → Int
  | .increment => 1
  | .decrement => -1
  | .incrementBy n => n
  | .decrementBy n => -n
  | .changeBy n => n

/-- An observation is a delta iff it was made with one of the change requests (every value that
carries a change can be made that way). -/
theorem C04_delta_iff {L : Type} (o : Observation L) :
    o.isDelta = true ↔ ∃ l t, ∃ r : ChangeRequest, o = .observedOneValue l r.toValue t := by
  constructor
  · intro h
    match o with
    | .observed l n t => cases h
    | .observedOne l t => cases h
    | .observedOneValue l v t =>
      cases v <;> simp [Observation.isDelta, ObservedValue.isDelta] at h
      rename_i d
      exact ⟨l, t, .changeBy d, rfl⟩
  · rintro ⟨l, t, r, rfl⟩
    cases r <;> rfl

/-- The change carried is the one asked for, and it is always an `i64`. -/
theorem C04_carried (r : ChangeRequest) (h : r.InRange) :
    r.toValue = .changedBy r.delta ∧ I64 r.delta := by
  refine ⟨by cases r <;> rfl, ?_⟩
  cases r <;> simp only [ChangeRequest.InRange, ChangeRequest.delta, I64, i64Min, i64Max] at * <;> omega

example : ChangeRequest.toValue (.decrementBy 7) = .changedBy (-7) :=
  (C04_carried (.decrementBy 7) (by show 7 < 2 ^ 32; decide)).1

/-- Occurrences and other values are not deltas. -/
theorem C04_not_delta {L : Type} (l : L) (n : Nat) (t : Int) (v : ObservedValue)
    (hv : ∀ d, v ≠ .changedBy d) :
    (Observation.observed l n t).isDelta = false ∧ (Observation.observedOne l t).isDelta = false ∧
    (Observation.observedOneValue l v t).isDelta = false := by
  refine ⟨rfl, rfl, ?_⟩
  cases v <;> simp_all [Observation.isDelta, ObservedValue.isDelta]

example := C04_not_delta 1 5 0 (.signedInteger (-3)) (fun _ h => nomatch h)

example : (ChangeRequest.decrementBy (2 ^ 32 - 1)).InRange ∧
    (ChangeRequest.decrementBy (2 ^ 32 - 1)).toValue = .changedBy (-4294967295) := by
  refine ⟨by simp [ChangeRequest.InRange], rfl⟩

end Metrix
