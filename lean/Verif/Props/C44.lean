import Verif.Proof.Snapshot
import Verif.Proof.Arith

/-! # C44: snapshot values as durations -/

namespace Metrix

/-- A found non-negative integer is exactly that many units (durations are in nanoseconds here). -/
theorem C44_exact (v : Nat) :
    FindItem.toDurationNanoseconds (.found (.uint v)) = .duration v ∧
    FindItem.toDurationMicroseconds (.found (.uint v)) = .duration (v * 10 ^ 3) ∧
    FindItem.toDurationMilliseconds (.found (.uint v)) = .duration (v * 10 ^ 6) ∧
    FindItem.toDurationSeconds (.found (.uint v)) = .duration (v * 10 ^ 9) ∧
    (v < 2 ^ 63 →
      FindItem.toDurationNanoseconds (.found (.int v)) = .duration v ∧
      FindItem.toDurationMicroseconds (.found (.int v)) = .duration (v * 10 ^ 3) ∧
      FindItem.toDurationMilliseconds (.found (.int v)) = .duration (v * 10 ^ 6) ∧
      FindItem.toDurationSeconds (.found (.int v)) = .duration (v * 10 ^ 9)) := by
  refine ⟨by simp [FindItem.toDurationNanoseconds, FindItem.toDuration], rfl, rfl, rfl, fun h => ?_⟩
  have : wrapU64 (v : Int) = v := by unfold wrapU64; omega
  simp [FindItem.toDurationNanoseconds, FindItem.toDurationMicroseconds, FindItem.toDurationMilliseconds,
    FindItem.toDurationSeconds, FindItem.toDuration, this]

/-- Everything else is an error. -/
theorem C44_errors (u : Nat) :
    FindItem.toDuration u .notFound = .notFound ∧
    (∀ v, (∀ n, v ≠ .uint n) → (∀ i, v ≠ .int i) → FindItem.toDuration u (.found v) = .notADuration) ∧
    (∀ f, (FindItem.toDuration u f).opt = none ↔
      f = .notFound ∨ ∃ v, f = .found v ∧ (∀ n, v ≠ .uint n) ∧ (∀ i, v ≠ .int i)) := by
  refine ⟨rfl, fun v h h' => ?_, fun f => ?_⟩
  · cases v with
    | uint n => exact absurd rfl (h n)
    | int i => exact absurd rfl (h' i)
    | _ => rfl
  · cases f with
    | notFound => simp [FindItem.toDuration, FindDurationItem.opt]
    | found v => cases v <;> simp [FindItem.toDuration, FindDurationItem.opt]

/-- Finding: a negative value yields a huge duration instead of an error. -/
theorem C44_finding_negative : FindItem.toDurationSeconds (.found (.int (-1))) = .duration ((2 ^ 64 - 1) * 10 ^ 9) := by
  decide

example : (Snapshot.find [("a", .snapshot [("t", .int 1500)])] "a/t").toDurationMilliseconds =
    .duration 1500000000 := by decide +kernel

end Metrix
