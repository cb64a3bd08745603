import Verif.Proof.Values

/-! # C02: integer conversion of observed values never invents a number -/

namespace Metrix
open ObservedValue

/-- Whatever converts is in range. -/
theorem C02_converted_is_in_range (v : ObservedValue) (h : v.InRange) :
    (∀ n, v.convertToI64 = some n → I64 n) ∧ (∀ n, v.convertToU64 = some n → U64 n) := by
  constructor
  · intro n hn
    cases v with
    | signedInteger v => simp [convertToI64] at hn; subst hn; exact h
    | unsignedInteger v =>
      simp only [convertToI64] at hn; split at hn
      · simp at hn; subst hn; unfold I64 i64Min; omega
      · cases hn
    | float v =>
      simp only [convertToI64] at hn; split at hn
      · simp at hn; subst hn
        cases v <;> simp [F64.roundToI64, I64, i64Min, i64Max]
      · cases hn
    | bool v => simp [convertToI64] at hn
    | duration v u => simp [convertToI64] at hn
    | changedBy v => simp [convertToI64] at hn
  · intro n hn
    cases v with
    | signedInteger v =>
      simp only [convertToU64] at hn; split at hn
      · simp at hn; subst hn; unfold InRange I64 i64Max at h; unfold U64 u64Bound; omega
      · cases hn
    | unsignedInteger v => simp [convertToU64] at hn; subst hn; exact h
    | float v =>
      simp only [convertToU64] at hn; split at hn
      · simp at hn; subst hn
        cases v <;> simp [F64.roundToU64, U64, u64Bound]
      · cases hn
    | bool v => simp [convertToU64] at hn
    | duration v u => simp [convertToU64] at hn
    | changedBy v => simp [convertToU64] at hn

example := C02_converted_is_in_range (.unsignedInteger (2 ^ 64 - 1)) (by decide)

/-- Integers convert to themselves iff they are in the target range, otherwise they do not convert. -/
theorem C02_integers (i : Int) (n : Nat) :
    (signedInteger i).convertToI64 = some i ∧
    (unsignedInteger n).convertToU64 = some n ∧
    (unsignedInteger n).convertToI64 = (if (n : Int) ≤ i64Max then some (n : Int) else none) ∧
    (∀ m, (signedInteger i).convertToU64 = some m ↔ (m : Int) = i) ∧
    ((signedInteger i).convertToU64 = none ↔ i < 0) := by
  refine ⟨rfl, rfl, rfl, fun m => ?_, ?_⟩
  · simp only [convertToU64]; split <;> simp <;> omega
  · simp only [convertToU64]; split <;> simp <;> omega

/-- A finite float converts to the nearest integer whenever that is in the target range. -/
theorem C02_float_nearest (q : Rat) (n : Int) (hn : Nearest q n) :
    (I64 n → (float (.fin q)).convertToI64 = some n) ∧
    (0 ≤ n → U64 n.toNat → (float (.fin q)).convertToU64 = some n.toNat) := by
  have hr : roundHalfAway q = n := nearest_unique (roundHalfAway_nearest q) hn
  have hq : q ≤ n + 1 / 2 := by have := (abs_le.mp hn.1).2; linarith
  constructor
  · intro hI
    have hle : F64.le (.fin q) (.fin (2 ^ 63)) = true := by
      simp only [F64.le, decide_eq_true_eq]
      have : (n : Rat) ≤ 2 ^ 63 - 1 := by
        have := hI.2; unfold i64Max at this; exact_mod_cast this
      linarith
    simp only [convertToI64, hle, if_true, F64.roundToI64, hr]
    unfold I64 at hI; congr 1; omega
  · intro h0 hU
    have hU' : n ≤ 2 ^ 64 - 1 := by unfold U64 u64Bound at hU; omega
    have hle : F64.le (.fin q) (.fin (2 ^ 64)) = true := by
      simp only [F64.le, decide_eq_true_eq]
      have : (n : Rat) ≤ 2 ^ 64 - 1 := by exact_mod_cast hU'
      linarith
    simp only [convertToU64, hle, if_true, F64.roundToU64, hr]
    unfold U64 at hU; congr 1; omega

/-- NaN and positive infinity never convert, nor do bools, durations and deltas. -/
theorem C02_no_number (b : Bool) (d : Nat) (u : TimeUnit) (c : Int) :
    ∀ v ∈ [float .nan, float .posInf, bool b, duration d u, changedBy c],
      v.convertToI64 = none ∧ v.convertToU64 = none := by
  simp [convertToI64, convertToU64, F64.le]

example : (duration 5 .seconds).convertToI64 = none := (C02_no_number true 5 .seconds 7 (duration 5 .seconds) (by simp)).1

/-- `convert_to_bool` is "non-zero" on integers, the bool itself on bools, and nothing else converts. -/
theorem C02_bool (v : ObservedValue) (b : Bool) :
    v.convertToBool = some b ↔
      (v = .bool b) ∨ (∃ i, v = signedInteger i ∧ (b = true ↔ i ≠ 0)) ∨
      (∃ n, v = unsignedInteger n ∧ (b = true ↔ n ≠ 0)) := by
  cases v <;> cases b <;> simp [convertToBool]

/-- What happens to all other floats. Above 2^63 (for `u64`: 2^64) nothing is returned. Otherwise the bound of the range is returned
that is next to the float. -/
theorem C02_float_outside (q : Rat) (n : Int) (hn : Nearest q n) :
    (n < i64Min → (float (.fin q)).convertToI64 = some i64Min) ∧
    (i64Max < n → q ≤ 2 ^ 63 → (float (.fin q)).convertToI64 = some i64Max) ∧
    (2 ^ 63 < q → (float (.fin q)).convertToI64 = none) ∧
    (n < 0 → (float (.fin q)).convertToU64 = some 0) ∧
    (2 ^ 64 ≤ n → q ≤ 2 ^ 64 → (float (.fin q)).convertToU64 = some (2 ^ 64 - 1)) ∧
    (2 ^ 64 < q → (float (.fin q)).convertToU64 = none) ∧
    (float .negInf).convertToI64 = some i64Min ∧ (float .negInf).convertToU64 = some 0 := by
  have hr : roundHalfAway q = n := nearest_unique (roundHalfAway_nearest q) hn
  have hq : q ≤ n + 1 / 2 := by have := (abs_le.mp hn.1).2; linarith
  refine ⟨fun h => ?_, fun h hle => ?_, fun h => ?_, fun h => ?_, fun h hle => ?_, fun h => ?_, by decide +kernel, by decide +kernel⟩
  · have hle : F64.le (.fin q) (.fin (2 ^ 63)) = true := by
      simp only [F64.le, decide_eq_true_eq]
      have h' : n ≤ 0 := by unfold i64Min at h; omega
      have : (n : Rat) ≤ 0 := by exact_mod_cast h'
      linarith
    simp only [convertToI64, hle, if_true, F64.roundToI64, hr]
    unfold i64Min i64Max at *; congr 1; omega
  · simp only [convertToI64, F64.le, hle, decide_true, if_true, F64.roundToI64, hr]
    unfold i64Min i64Max at *; congr 1; omega
  · simp only [convertToI64, F64.le, not_le.mpr h, decide_false, Bool.false_eq_true, if_false]
  · have hle : F64.le (.fin q) (.fin (2 ^ 64)) = true := by
      simp only [F64.le, decide_eq_true_eq]
      have : (n : Rat) ≤ 0 := by exact_mod_cast h.le
      linarith
    simp only [convertToU64, hle, if_true, F64.roundToU64, hr]
    congr 1; omega
  · simp only [convertToU64, F64.le, hle, decide_true, if_true, F64.roundToU64, hr]
    unfold u64Bound; congr 1; omega
  · simp only [convertToU64, F64.le, not_le.mpr h, decide_false, Bool.false_eq_true, if_false]

/-- Finding: floats beyond the target range are not refused but replaced by a bound of the range; a
negative float converts to the `u64` 0, and everything below -2^63 to `i64::MIN`. -/
theorem C02_finding_floats_saturate :
    (float (.fin (-5))).convertToU64 = some 0 ∧
    (float .negInf).convertToI64 = some i64Min ∧
    (float (.fin (-(2 ^ 70)))).convertToI64 = some i64Min ∧
    (float (.fin (2 ^ 63))).convertToI64 = some i64Max := by
  decide +kernel

example : Nearest (2 ^ 64 - 1 / 4) (2 ^ 64) ∧ (2 ^ 64 - 1 / 4 : Rat) ≤ 2 ^ 64 := by
  refine ⟨⟨?_, fun h => absurd h ?_⟩, by norm_num⟩ <;> norm_num [abs_le, abs_of_pos, abs_of_neg]
example : Nearest (5 / 2) 3 ∧ I64 3 := by
  refine ⟨⟨?_, fun _ => ?_⟩, by decide⟩ <;> norm_num [abs_le, abs_of_pos, abs_of_neg]
example : Nearest (-5 / 2) (-3) ∧ (float (.fin (-5 / 2))).convertToI64 = some (-3) := by
  refine ⟨⟨?_, fun _ => ?_⟩, by decide +kernel⟩ <;> norm_num [abs_le, abs_of_pos, abs_of_neg]
example : (unsignedInteger (2 ^ 63)).InRange ∧ (unsignedInteger (2 ^ 63)).convertToI64 = none := by
  decide

/-- The theorems for these floats. -/
example := C02_float_nearest (5 / 2) 3 (by refine ⟨?_, fun _ => ?_⟩ <;> norm_num [abs_le, abs_of_pos, abs_of_neg])
example := C02_float_outside (2 ^ 64 - 1 / 4) (2 ^ 64)
  (by refine ⟨?_, fun h => absurd h ?_⟩ <;> norm_num [abs_le, abs_of_pos, abs_of_neg])

end Metrix
