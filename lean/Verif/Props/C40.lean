import Verif.Model.Transmitter
import Verif.Props.C03
import Verif.Props.C25

/-! # C40: time measurement -/

namespace Metrix
open Transmitter
variable {σ L : Type}

/-- Measuring reads the clock once. If the start is not in the future, exactly one message is sent: the time elapsed, in
nanoseconds and without any loss, observed at the moment of the reading. (2^64 nanoseconds are more than 584 years.) -/
theorem C40_measured (label : L) (start : Int) (e : Env) (k : Nat) (h : start ≤ e.clock k)
    (hlong : e.clock k - start < 2 ^ 64) :
    measureTime (σ := σ) label start e k =
      some ([.observation (.observedOneValue label (.duration (e.clock k - start).toNat .nanoseconds) (e.clock k))], k + 1) := by
  unfold measureTime
  refine (M.run_bind_some (M.run_now e k)).trans ?_
  rw [if_pos h]
  unfold observedDuration
  refine (M.run_bind_some (C03_of_duration_exact e (k + 1) (sinceNs (e.clock k) start) ?_)).trans rfl
  unfold sinceNs U64 u64Bound; omega

/-- A start in the future: nothing is sent. -/
theorem C40_future (label : L) (start : Int) (e : Env) (k : Nat) (h : e.clock k < start) :
    measureTime (σ := σ) label start e k = some ([], k + 1) := by
  unfold measureTime
  refine (M.run_bind_some (M.run_now e k)).trans ?_
  rw [if_neg (by omega)]
  rfl

/-- So nothing is sent if and only if the start is in the future. -/
theorem C40_iff (label : L) (start : Int) (e : Env) (k k' : Nat) (ms : List (Message σ L))
    (h : measureTime label start e k = some (ms, k')) : ms = [] ↔ e.clock k < start := by
  constructor
  · intro hm
    by_contra hn
    unfold measureTime at h
    rw [M.run_bind_some (M.run_now e k), if_pos (by omega)] at h
    simp only [observedDuration, M.bind_eq_some, M.run_pure, Option.some.injEq, Prod.mk.injEq] at h
    obtain ⟨v, _, _, h, _⟩ := h
    rw [hm] at h; cases h
  · intro hf
    rw [C40_future label start e k hf] at h
    simp at h; exact h.1

/-- The duration of zero counts. -/
example : measureTime (σ := Empty) "l" 700000000 ticking 1 =
    some ([.observation (.observedOneValue "l" (.duration 0 .nanoseconds) 700000000)], 2) :=
  C40_measured "l" 700000000 ticking 1 (by decide) (by decide)

example : measureTime (σ := Empty) "l" 200000001 ticking 1 =
    some ([.observation (.observedOneValue "l" (.duration 499999999 .nanoseconds) 700000000)], 2) :=
  C40_measured "l" 200000001 ticking 1 (by decide) (by decide)

example : measureTime (σ := Empty) "l" 700000001 ticking 1 = some ([], 2) := rfl

example := C40_future (σ := Empty) "l" 700000001 ticking 1 (by decide)
example := C40_iff (σ := Empty) "l" 700000001 ticking 1 _ _ rfl

end Metrix
