import Verif.Spec.Values
import Verif.Proof.Arith
import Mathlib.Tactic.Linarith
import Mathlib.Tactic.NormNum
import Mathlib.Algebra.Order.Floor.Ring
import Mathlib.Data.Rat.Floor

/-! Lemmas about rounding and unit conversion. -/

namespace Metrix

theorem roundHalfAway_nearest (q : Rat) : Nearest q (roundHalfAway q) := by
  unfold roundHalfAway Nearest
  split
  · rename_i hq
    have h1 : ((q + 1 / 2).floor : Rat) ≤ q + 1 / 2 := Int.floor_le (q + 1 / 2)
    have h2 : q + 1 / 2 < ((q + 1 / 2).floor : Rat) + 1 := Int.lt_floor_add_one (q + 1 / 2)
    set n := (q + 1 / 2).floor
    have hn : (0 : Rat) ≤ (n : Rat) := by
      have : -1 < n := by
        by_contra hc
        have : (n : Rat) ≤ -1 := by exact_mod_cast (not_lt.mp hc)
        linarith
      exact_mod_cast (by omega : (0 : Int) ≤ n)
    refine ⟨abs_le.mpr ⟨by linarith, by linarith⟩, fun h => ?_⟩
    rw [abs_of_nonneg hq, abs_of_nonneg hn]
    rcases abs_eq (by norm_num : (0 : Rat) ≤ 1 / 2) |>.mp h with h | h <;> linarith
  · rename_i hq
    have hq : q < 0 := not_le.mp hq
    have hc : (q - 1 / 2).ceil = ⌈q - 1 / 2⌉ := by
      rw [Rat.ceil_eq_neg_floor_neg]; rfl
    have h1 : q - 1 / 2 ≤ ((q - 1 / 2).ceil : Rat) := by rw [hc]; exact Int.le_ceil (q - 1 / 2)
    have h2 : ((q - 1 / 2).ceil : Rat) < q - 1 / 2 + 1 := by
      rw [hc]; exact Int.ceil_lt_add_one (q - 1 / 2)
    set n := (q - 1 / 2).ceil
    have hn : (n : Rat) ≤ 0 := by
      have : n < 1 := by
        by_contra hc
        have : (1 : Rat) ≤ (n : Rat) := by exact_mod_cast (not_lt.mp hc)
        linarith
      exact_mod_cast (by omega : n ≤ (0 : Int))
    refine ⟨abs_le.mpr ⟨by linarith, by linarith⟩, fun h => ?_⟩
    rw [abs_of_neg hq, abs_of_nonpos hn]
    rcases abs_eq (by norm_num : (0 : Rat) ≤ 1 / 2) |>.mp h with h | h <;> linarith

theorem nearest_unique {q : Rat} {m n : Int} (hm : Nearest q m) (hn : Nearest q n) : m = n := by
  obtain ⟨hm1, hm2⟩ := hm
  obtain ⟨hn1, hn2⟩ := hn
  rw [abs_le] at hm1 hn1
  by_contra hne
  have key : ∀ a b : Int, a < b → -(1 / 2) ≤ q - a ∧ q - a ≤ 1 / 2 → -(1 / 2) ≤ q - b ∧ q - b ≤ 1 / 2 →
      (|q - a| = 1 / 2 → |q| < |(a : Rat)|) → (|q - b| = 1 / 2 → |q| < |(b : Rat)|) → False := by
    intro a b hab ha hb ha2 hb2
    have hab' : (a : Rat) + 1 ≤ b := by exact_mod_cast hab
    have e1 : q - a = 1 / 2 := by linarith [ha.2, hb.1]
    have e2 : q - b = -(1 / 2) := by linarith [ha.2, hb.1]
    have l1 := ha2 (by rw [e1]; norm_num)
    have l2 := hb2 (by rw [e2]; norm_num)
    rcases le_or_gt 0 a with h0 | h0
    · have h0' : (0 : Rat) ≤ a := by exact_mod_cast h0
      rw [abs_of_nonneg h0', abs_of_nonneg (by linarith)] at l1; linarith
    · have h0' : (b : Rat) ≤ 0 := by
        have : (a : Rat) ≤ -1 := by exact_mod_cast (by omega : a ≤ -1)
        linarith
      rw [abs_of_nonpos h0', abs_of_nonpos (by linarith)] at l2; linarith
  rcases lt_or_gt_of_ne hne with h | h
  · exact key m n h hm1 hn1 hm2 hn2
  · exact key n m h hn1 hm1 hn2 hm2

theorem durationToDisplayValue_cases (v : Nat) (unit display : TimeUnit) :
    durationToDisplayValue v unit display = pure (displayed v unit display) ∨
    durationToDisplayValue v unit display = arithU64 (displayed v unit display) := by
  cases unit <;> cases display <;>
    simp only [durationToDisplayValue, displayed, TimeUnit.ns, Nat.reducePow, Nat.div_one, Nat.mul_one,
      Nat.mul_div_cancel _ (Nat.succ_pos _), true_or, or_true] <;>
    first
    | (left; congr 1; omega)
    | (right; congr 1; omega)

end Metrix
