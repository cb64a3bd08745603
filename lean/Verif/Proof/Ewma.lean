import Verif.Proof.Meter
import Verif.Spec.Float
import Mathlib.Tactic.Linarith
import Mathlib.Tactic.Positivity
import Mathlib.Tactic.FieldSimp

/-! Moving averages stay between the old average and the new rate. -/

namespace Metrix

/-- The next average. -/
def ewmaNext (rnd : Rat → Rat) (alpha r i : Rat) : Rat := rnd (r + rnd (alpha * rnd (i - r)))

theorem ewmaAfter_step (rnd : Rat → Rat) (alpha : Rat) (count : Nat → Nat) (m : Nat) :
    ewmaAfter rnd alpha count (m + 2) =
      ewmaNext rnd alpha (ewmaAfter rnd alpha count (m + 1)) (instantRate rnd (count (m + 1))) := rfl

/-- What is needed of rounding and weight: the next average lies between, and rates are rounded numbers. -/
structure Averaging (rnd : Rat → Rat) (alpha : Rat) : Prop where
  mono : Monotone rnd
  zero : rnd 0 = 0
  idem : ∀ x, rnd (rnd x) = rnd x
  up : ∀ r i, rnd r = r → rnd i = i → r ≤ i → r ≤ ewmaNext rnd alpha r i ∧ ewmaNext rnd alpha r i ≤ i
  down : ∀ r i, rnd r = r → rnd i = i → i ≤ r → i ≤ ewmaNext rnd alpha r i ∧ ewmaNext rnd alpha r i ≤ r

theorem Averaging.exact {alpha : Rat} (h0 : 0 ≤ alpha) (h1 : alpha ≤ 1) : Averaging id alpha := by
  refine ⟨monotone_id, rfl, fun _ => rfl, ?_, ?_⟩
  · intro r i _ _ h
    simp only [ewmaNext, id_eq]
    constructor <;> nlinarith
  · intro r i _ _ h
    simp only [ewmaNext, id_eq]
    constructor <;> nlinarith

theorem IsSymmetricRounding.zero {rnd : Rat → Rat} (h : IsSymmetricRounding rnd) : rnd 0 = 0 := by
  have := h.odd 0
  simp at this; linarith

theorem Averaging.of_rounding {rnd : Rat → Rat} (h : IsSymmetricRounding rnd) {alpha : Rat} (h0 : 0 ≤ alpha)
    (h1 : alpha ≤ 1 / 4) : Averaging rnd alpha := by
  have nonneg : ∀ x, 0 ≤ x → 0 ≤ rnd x := fun x hx => by rw [← h.zero]; exact h.mono hx
  have key : ∀ d, 0 ≤ d → 0 ≤ rnd (alpha * rnd d) ∧ rnd (alpha * rnd d) ≤ d := by
    intro d hd
    have a := h.double d hd
    have b := nonneg d hd
    have c : 0 ≤ alpha * rnd d := by positivity
    have d' := h.double _ c
    refine ⟨nonneg _ c, ?_⟩
    nlinarith
  refine ⟨h.mono, h.zero, h.idem, ?_, ?_⟩
  · intro r i hr hi hle
    obtain ⟨a, b⟩ := key (i - r) (by linarith)
    unfold ewmaNext
    constructor
    · calc r = rnd r := hr.symm
        _ ≤ _ := h.mono (by linarith)
    · calc _ ≤ rnd i := h.mono (by linarith)
        _ = i := hi
  · intro r i hr hi hle
    obtain ⟨a, b⟩ := key (r - i) (by linarith)
    have e : rnd (alpha * rnd (i - r)) = -rnd (alpha * rnd (r - i)) := by
      rw [← h.odd, show i - r = -(r - i) by ring, h.odd]; congr 1; ring
    unfold ewmaNext
    rw [e]
    constructor
    · calc i = rnd i := hi.symm
        _ ≤ _ := h.mono (by linarith)
    · calc _ ≤ rnd r := h.mono (by linarith)
        _ = r := hr

namespace Averaging
variable {rnd : Rat → Rat} {alpha : Rat} (h : Averaging rnd alpha)
include h

theorem instantRate_nonneg (n : Nat) : 0 ≤ instantRate rnd n := by
  have nonneg : ∀ x, 0 ≤ x → 0 ≤ rnd x := fun x hx => by rw [← h.zero]; exact h.mono hx
  unfold instantRate
  exact nonneg _ (div_nonneg (nonneg _ (by positivity)) (by unfold tickNs; norm_num))

theorem instantRate_rounded (n : Nat) : rnd (instantRate rnd n) = instantRate rnd n := h.idem _

theorem instantRate_zero : instantRate rnd 0 = 0 := by
  unfold instantRate; simp [h.zero]

theorem rounded (count : Nat → Nat) : ∀ m, rnd (ewmaAfter rnd alpha count m) = ewmaAfter rnd alpha count m
  | 0 => h.zero
  | 1 => h.idem _
  | _ + 2 => h.idem _

theorem nonneg (count : Nat → Nat) : ∀ m, 0 ≤ ewmaAfter rnd alpha count m
  | 0 => le_rfl
  | 1 => h.instantRate_nonneg _
  | m + 2 => by
    rw [ewmaAfter_step]
    have ih := nonneg count (m + 1)
    have hi := h.instantRate_nonneg (count (m + 1))
    rcases le_total (ewmaAfter rnd alpha count (m + 1)) (instantRate rnd (count (m + 1))) with hle | hle
    · exact le_trans ih (h.up _ _ (h.rounded _ _) (h.instantRate_rounded _) hle).1
    · exact le_trans hi (h.down _ _ (h.rounded _ _) (h.instantRate_rounded _) hle).1

theorem highest (count : Nat → Nat) : ∀ m, 0 < m →
    ∃ i, i < m ∧ ewmaAfter rnd alpha count m ≤ instantRate rnd (count i)
  | 1, _ => ⟨0, by omega, le_rfl⟩
  | m + 2, _ => by
    obtain ⟨i, hi, hle⟩ := highest count (m + 1) (by omega)
    rw [ewmaAfter_step]
    rcases le_total (ewmaAfter rnd alpha count (m + 1)) (instantRate rnd (count (m + 1))) with hle' | hle'
    · exact ⟨m + 1, by omega, (h.up _ _ (h.rounded _ _) (h.instantRate_rounded _) hle').2⟩
    · exact ⟨i, by omega, le_trans (h.down _ _ (h.rounded _ _) (h.instantRate_rounded _) hle').2 hle⟩

theorem idle_step (count : Nat → Nat) (m : Nat) (h0 : count m = 0) :
    ewmaAfter rnd alpha count (m + 1) ≤ ewmaAfter rnd alpha count m := by
  cases m with
  | zero => simp only [ewmaAfter, h0, h.instantRate_zero, le_refl]
  | succ m =>
    rw [ewmaAfter_step]
    refine (h.down _ _ (h.rounded _ _) (h.instantRate_rounded _) ?_).2
    rw [h0, h.instantRate_zero]; exact h.nonneg _ _

theorem idle (count : Nat → Nat) (m : Nat) : ∀ j, (∀ i, m ≤ i → i < m + j → count i = 0) →
    ewmaAfter rnd alpha count (m + j) ≤ ewmaAfter rnd alpha count m
  | 0, _ => le_rfl
  | j + 1, h0 => le_trans (h.idle_step count (m + j) (h0 _ (by omega) (by omega)))
      (idle count m j fun i hi hij => h0 i hi (by omega))

end Averaging

theorem ewma_geometric {alpha : Rat} (count : Nat → Nat) (m : Nat) : ∀ j,
    (∀ i, m + 1 ≤ i → i < m + 1 + j → count i = 0) →
    ewmaAfter id alpha count (m + 1 + j) = (1 - alpha) ^ j * ewmaAfter id alpha count (m + 1)
  | 0, _ => by simp
  | j + 1, h0 => by
    have ih := ewma_geometric (alpha := alpha) count m j fun i hi hij => h0 i hi (by omega)
    have : m + 1 + (j + 1) = (m + j) + 2 := by omega
    rw [this, ewmaAfter_step, show m + j + 1 = m + 1 + j by omega, h0 (m + 1 + j) (by omega) (by omega), ih]
    simp only [ewmaNext, instantRate, id_eq, Nat.cast_zero, zero_div]
    ring

/-- One idle step with rounding errors of at most `u` relative plus `eta` absolute. -/
theorem ewma_idle_error {rnd : Rat → Rat} (h : IsSymmetricRounding rnd) {alpha u eta : Rat} (h0 : 0 ≤ alpha)
    (h1 : alpha ≤ 1 / 4) (hu : 0 ≤ u) (herr : ∀ x, |rnd x - x| ≤ u * |x| + eta) {r : Rat} (hr : 0 ≤ r)
    (hrr : rnd r = r) : |ewmaNext rnd alpha r 0 - (1 - alpha) * r| ≤ 2 * u * r + 2 * eta := by
  have e : rnd (alpha * rnd (0 - r)) = -rnd (alpha * r) := by
    rw [← h.odd, zero_sub, h.odd, hrr]; congr 1; ring
  unfold ewmaNext
  rw [e]
  have har : 0 ≤ alpha * r := by positivity
  have d := h.double _ har
  have n : 0 ≤ rnd (alpha * r) := by rw [← h.zero]; exact h.mono har
  have e1 := herr (alpha * r)
  have e2 := herr (r + -rnd (alpha * r))
  rw [abs_of_nonneg har] at e1
  rw [abs_of_nonneg (a := r + -rnd (alpha * r)) (by nlinarith)] at e2
  rw [abs_le] at e1 e2 ⊢
  have ha : u * (alpha * r) ≤ u * r := by
    apply mul_le_mul_of_nonneg_left _ hu; nlinarith
  have hb : u * (r + -rnd (alpha * r)) ≤ u * r := by
    apply mul_le_mul_of_nonneg_left _ hu; linarith
  constructor <;> linarith [e1.1, e1.2, e2.1, e2.2]

theorem ewma_geometric_error {rnd : Rat → Rat} (h : IsSymmetricRounding rnd) {alpha u eta : Rat} (h0 : 0 ≤ alpha)
    (h1 : alpha ≤ 1 / 4) (hu : 0 ≤ u) (heta : 0 ≤ eta) (herr : ∀ x, |rnd x - x| ≤ u * |x| + eta)
    (count : Nat → Nat) (m : Nat) : ∀ j, (∀ i, m + 1 ≤ i → i < m + 1 + j → count i = 0) →
    |ewmaAfter rnd alpha count (m + 1 + j) - (1 - alpha) ^ j * ewmaAfter rnd alpha count (m + 1)| ≤
      j * (2 * u * ewmaAfter rnd alpha count (m + 1) + 2 * eta)
  | 0, _ => by simp
  | j + 1, hz => by
    have av := Averaging.of_rounding h h0 h1
    have ih := ewma_geometric_error h h0 h1 hu heta herr count m j fun i hi hij => hz i hi (by omega)
    have hle := av.idle count (m + 1) j fun i hi hij => hz i hi (by omega)
    have hn := av.nonneg count (m + 1 + j)
    have st := ewma_idle_error h h0 h1 hu herr hn (av.rounded count (m + 1 + j))
    have : m + 1 + (j + 1) = (m + j) + 2 := by omega
    rw [this, ewmaAfter_step, show m + j + 1 = m + 1 + j by omega, hz (m + 1 + j) (by omega) (by omega),
      av.instantRate_zero]
    generalize ewmaAfter rnd alpha count (m + 1 + j) = x at *
    generalize ewmaAfter rnd alpha count (m + 1) = r at *
    have split : ewmaNext rnd alpha x 0 - (1 - alpha) ^ (j + 1) * r =
        (ewmaNext rnd alpha x 0 - (1 - alpha) * x) + (1 - alpha) * (x - (1 - alpha) ^ j * r) := by ring
    rw [split]
    refine le_trans (abs_add_le _ _) ?_
    rw [abs_mul, abs_of_nonneg (a := 1 - alpha) (by linarith)]
    have a : (1 - alpha) * |x - (1 - alpha) ^ j * r| ≤ |x - (1 - alpha) ^ j * r| := by
      have := abs_nonneg (x - (1 - alpha) ^ j * r); nlinarith
    have b : 2 * u * x ≤ 2 * u * r := mul_le_mul_of_nonneg_left hle (by linarith)
    push_cast
    linarith

end Metrix
