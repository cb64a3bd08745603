import Verif.Proof.Values

/-! # C03: duration values are displayed in the chosen unit, rounded down -/

namespace Metrix

/-- Whenever the displayed duration fits into 64 bits, it is what is shown. -/
theorem C03_displayed_rounded_down (e : Env) (k v : Nat) (unit display : TimeUnit)
    (fits : U64 (displayed v unit display)) :
    durationToDisplayValue v unit display e k = some (displayed v unit display, k) := by
  rcases durationToDisplayValue_cases v unit display with h | h <;> rw [h]
  · rfl
  · exact arithU64_inRange fits

example (e : Env) (k : Nat) : durationToDisplayValue 1999 .microseconds .milliseconds e k = some (1, k) :=
  C03_displayed_rounded_down e k 1999 .microseconds .milliseconds (by decide)

/-- If it does not fit, debug builds panic and release builds show it modulo 2^64. -/
theorem C03_overflow (e : Env) (k v : Nat) (unit display : TimeUnit) (hv : U64 v)
    (big : ¬ U64 (displayed v unit display)) :
    durationToDisplayValue v unit display e k =
      match e.profile with
      | .debug => none
      | .release => some (displayed v unit display % 2 ^ 64, k) := by
  rcases durationToDisplayValue_cases v unit display with h | h
  · exfalso
    have hle : displayed v unit display ≤ v ∨
        durationToDisplayValue v unit display = arithU64 (displayed v unit display) := by
      cases unit <;> cases display <;>
        simp only [durationToDisplayValue, displayed, TimeUnit.ns, Nat.reducePow] <;>
        first
        | (left; omega)
        | (right; congr 1; omega)
    rcases hle with hle | h2
    · unfold U64 at *; omega
    · rw [h] at h2
      have := congrFun (congrFun h2 ⟨.debug, fun _ => 0, 0, 0, id, 0, 0, 0,
        fun _ _ => ⟨0, 0, .nan, .nan, 0, 0, 0, 0, 0, 0, 0⟩⟩) 0
      simp [arithU64, big] at this
  · rw [h]; unfold arithU64; rw [if_neg big]; rfl

example (e : Env) (k : Nat) := C03_overflow e k (2 ^ 60) .seconds .nanoseconds (by decide) (by decide)

/-- A longer duration is never displayed as less. -/
theorem C03_monotone (v w : Nat) (unit display : TimeUnit) (h : v ≤ w) :
    displayed v unit display ≤ displayed w unit display :=
  Nat.div_le_div_right (Nat.mul_le_mul_right _ h)

example : displayed 1999 .microseconds .milliseconds ≤ displayed 2000 .microseconds .milliseconds :=
  C03_monotone _ _ _ _ (by decide)

/-- The displayed value is the exact duration rounded down. -/
theorem C03_exact (v : Nat) (unit display : TimeUnit) :
    displayed v unit display * display.ns ≤ v * unit.ns ∧
    v * unit.ns < (displayed v unit display + 1) * display.ns := by
  have hd : 0 < display.ns := by cases display <;> decide
  exact ⟨Nat.div_mul_le_self _ _, by
    unfold displayed; rw [Nat.mul_comm _ display.ns]; exact Nat.lt_mul_div_succ _ hd⟩

/-- To another unit and back again: less than one unit of the coarser of the two is lost, and nothing
is gained. -/
theorem C03_there_and_back (v : Nat) (unit display : TimeUnit) :
    displayed (displayed v unit display) display unit ≤ v ∧
    v * unit.ns <
      displayed (displayed v unit display) display unit * unit.ns + max unit.ns display.ns := by
  cases unit <;> cases display <;> simp only [displayed, TimeUnit.ns] <;> omega

/-- Observing a `std::time::Duration` of `d` nanoseconds in a unit: rounded down. -/
theorem C03_of_duration (e : Env) (k d : Nat) (unit : TimeUnit) (fits : U64 (d / unit.ns)) :
    ObservedValue.ofDurationIn d unit e k = some (.duration (d / unit.ns) unit, k) := by
  unfold U64 u64Bound at fits
  cases unit <;> simp only [TimeUnit.ns, Nat.reducePow] at fits ⊢ <;>
    simp only [ObservedValue.ofDurationIn]
  case seconds => rfl
  all_goals
    rw [M.run_bind_some (arithU64_inRange (by unfold U64 u64Bound; omega)),
      M.run_bind_some (arithU64_inRange (by unfold U64 u64Bound; omega))]
    simp only [M.run_pure, Option.some.injEq, Prod.mk.injEq, ObservedValue.duration.injEq, and_true]
    omega

example (e : Env) (k : Nat) : ObservedValue.ofDurationIn 1999999 .milliseconds e k = some (.duration 1 .milliseconds, k) :=
  C03_of_duration e k 1999999 .milliseconds (by decide)

/-- Observing a `std::time::Duration` directly: exact in nanoseconds. -/
theorem C03_of_duration_exact (e : Env) (k d : Nat) (fits : U64 d) :
    ObservedValue.ofDuration d e k = some (.duration d .nanoseconds, k) := by
  have := C03_of_duration e k d .nanoseconds (by simpa [TimeUnit.ns] using fits)
  simpa [TimeUnit.ns, ObservedValue.ofDurationIn, ObservedValue.ofDuration] using this

example (e : Env) (k : Nat) := C03_of_duration_exact e k 1999999 (by decide)

/-- Finding: a `Duration` of more than about 584 years makes the conversion panic in debug builds. -/
theorem C03_finding_duration_overflow (e : Env) (k : Nat) (h : e.profile = .debug) :
    ObservedValue.ofDuration (2 ^ 64 * nanosPerSec) e k = none := by
  unfold ObservedValue.ofDuration
  rw [M.run_bind_none]
  rw [arithU64_debug_none h]; decide

example (k : Nat) := C03_finding_duration_overflow ⟨.debug, fun _ => 0, 0, 0, id, 0, 0, 0,
  fun _ _ => ⟨0, 0, .nan, .nan, 0, 0, 0, 0, 0, 0, 0⟩⟩ k rfl

example : displayed 1999 .microseconds .milliseconds = 1 ∧ U64 (displayed 1999 .microseconds .milliseconds) := by
  decide
example : U64 (2 ^ 60) ∧ ¬ U64 (displayed (2 ^ 60) .seconds .nanoseconds) := by decide
example : U64 (1500000000 / TimeUnit.ns .seconds) := by decide

end Metrix
