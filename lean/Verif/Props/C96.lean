import Verif.Spec.Average
import Verif.Props.C80
import Mathlib.Algebra.BigOperators.Ring.Finset
import Mathlib.Algebra.Order.BigOperators.Group.Finset

/-! # C96: Rates of meters are weighted averages of what was counted, with errors that do not grow

`rateAt` (see C29) is what a meter shows. `averageOf` (Spec/Average) is a plain weighted average without rounding. -/

namespace Metrix

/-- The weights of an average are at least 0 … -/
theorem C96_weights_nonneg {alpha : Rat} (h0 : 0 ≤ alpha) (h1 : alpha ≤ 1) (n i : Nat) : 0 ≤ weightOf alpha n i := by
  have : 0 ≤ 1 - alpha := by linarith
  unfold weightOf
  split <;> positivity

theorem averageOf_step (alpha : Rat) (count : Nat → Rat) (n : Nat) :
    averageOf alpha count (n + 2) = (1 - alpha) * averageOf alpha count (n + 1) + alpha * (count (n + 1) / 5) := by
  simp only [averageOf]
  rw [Finset.sum_range_succ, Finset.mul_sum]
  congr 1
  · refine Finset.sum_congr rfl fun i hi => ?_
    have hi := Finset.mem_range.mp hi
    unfold weightOf
    split
    · rw [pow_succ]; ring
    · rw [show n + 1 - i = (n - i) + 1 by omega, pow_succ]; ring
  · simp [weightOf]

theorem weights_sum (alpha : Rat) : ∀ n, ∑ i ∈ Finset.range (n + 1), weightOf alpha n i = 1
  | 0 => by simp [weightOf]
  | n + 1 => by
    rw [Finset.sum_range_succ]
    have : ∑ i ∈ Finset.range (n + 1), weightOf alpha (n + 1) i = (1 - alpha) * ∑ i ∈ Finset.range (n + 1), weightOf alpha n i := by
      rw [Finset.mul_sum]
      refine Finset.sum_congr rfl fun i hi => ?_
      have hi := Finset.mem_range.mp hi
      unfold weightOf
      split
      · rw [pow_succ]; ring
      · rw [show n + 1 - i = (n - i) + 1 by omega, pow_succ]; ring
    rw [this, weights_sum alpha n]
    simp [weightOf]

/-- … and their sum is 1. -/
theorem C96_weights_sum (alpha : Rat) (n : Nat) : ∑ i ∈ Finset.range (n + 1), weightOf alpha n i = 1 := weights_sum alpha n

/-- Without rounding the moving average is the weighted average. -/
theorem ewmaAfter_average (alpha : Rat) (count : Nat → Nat) : ∀ n,
    ewmaAfter id alpha count n * nanosPerSec = averageOf alpha (fun i => count i) n
  | 0 => by simp [ewmaAfter, averageOf]
  | 1 => by
    simp only [ewmaAfter, instantRate, id_eq, averageOf, zero_add, Finset.sum_range_one, weightOf, if_pos, pow_zero, one_mul,
      nanosPerSec, tickNs]
    push_cast; ring
  | n + 2 => by
    rw [averageOf_step, ← ewmaAfter_average alpha count (n + 1), ewmaAfter_step]
    simp only [ewmaNext, instantRate, id_eq, nanosPerSec, tickNs]
    push_cast; ring

theorem averageOf_congr {alpha : Rat} {count count' : Nat → Rat} {n : Nat} (h : ∀ i, i < n → count i = count' i) :
    averageOf alpha count n = averageOf alpha count' n := by
  cases n with
  | zero => rfl
  | succ n => exact Finset.sum_congr rfl fun i hi => by rw [h i (Finset.mem_range.mp hi)]

section
variable {rnd : Rat → Rat} {alpha u eta : Rat}

/-- The rate of an interval is rounded twice. -/
theorem instantRate_error (h : IsSymmetricRounding rnd) (hu : 0 ≤ u) (heta : 0 ≤ eta)
    (herr : ∀ x, |rnd x - x| ≤ u * |x| + eta) (c : Nat) :
    |instantRate rnd c - (c : Rat) / tickNs| ≤ 3 * u * ((c : Rat) / tickNs) + 2 * eta := by
  have hc : (0 : Rat) ≤ c := by positivity
  have hT : (tickNs : Rat) = 5000000000 := by norm_num [tickNs]
  have a := herr (c : Rat)
  have b := herr (rnd c / tickNs)
  have d := h.double (c : Rat) hc
  have n := h.nonneg hc
  unfold instantRate
  rw [hT] at b ⊢
  rw [abs_of_nonneg hc] at a
  rw [abs_of_nonneg (a := rnd (c : Rat) / 5000000000) (by positivity)] at b
  generalize rnd (rnd (c : Rat) / 5000000000) = y at b ⊢
  generalize rnd (c : Rat) = x at *
  have hux : u * x ≤ 2 * (u * c) := by nlinarith
  rw [abs_le] at a b ⊢
  have e1 : u * (x / 5000000000) = (u * x) / 5000000000 := by ring
  have e2 : 3 * u * ((c : Rat) / 5000000000) = 3 * ((u * c) / 5000000000) := by ring
  rw [e1] at b
  rw [e2]
  generalize u * x = ux at *
  generalize u * (c : Rat) = uc at *
  constructor <;> linarith [a.1, a.2, b.1, b.2]

theorem instantRate_le_four (h : IsSymmetricRounding rnd) (c : Nat) : instantRate rnd c ≤ 4 * ((c : Rat) / tickNs) := by
  have hc : (0 : Rat) ≤ c := by positivity
  have hT : (tickNs : Rat) = 5000000000 := by norm_num [tickNs]
  have d := h.double (c : Rat) hc
  have n := h.nonneg hc
  unfold instantRate
  rw [hT]
  have := h.double (rnd (c : Rat) / 5000000000) (by positivity)
  linarith

/-- The errors of averaging stay below a bound that does not depend on the number of intervals. -/
theorem ewma_total_error (h : IsSymmetricRounding rnd) (h0 : 0 < alpha) (h1 : alpha ≤ 1 / 4) (hu : 0 ≤ u) (heta : 0 ≤ eta)
    (herr : ∀ x, |rnd x - x| ≤ u * |x| + eta) (count : Nat → Nat) {N : Nat} : ∀ n, (∀ i, i < n → count i ≤ N) →
    |ewmaAfter rnd alpha count n - ewmaAfter id alpha count n| ≤ (11 * u * ((N : Rat) / tickNs) + 5 * eta) / alpha := by
  have hT : (0 : Rat) < tickNs := by norm_num [tickNs]
  have hM : (0 : Rat) ≤ (N : Rat) / tickNs := by positivity
  have hB : 0 ≤ 11 * u * ((N : Rat) / tickNs) + 5 * eta := by positivity
  have av := Averaging.of_rounding h h0.le h1
  have inst : ∀ c, c ≤ N → |instantRate rnd c - (c : Rat) / tickNs| ≤ 3 * u * ((N : Rat) / tickNs) + 2 * eta := fun c hc =>
    (instantRate_error h hu heta herr c).trans (by
      have : (c : Rat) / tickNs ≤ (N : Rat) / tickNs := div_le_div_of_nonneg_right (by exact_mod_cast hc) hT.le
      nlinarith)
  have four : ∀ c, c ≤ N → instantRate rnd c ≤ 4 * ((N : Rat) / tickNs) := fun c hc =>
    (instantRate_le_four h c).trans (by
      have : (c : Rat) / tickNs ≤ (N : Rat) / tickNs := div_le_div_of_nonneg_right (by exact_mod_cast hc) hT.le
      linarith)
  intro n
  induction n with
  | zero => intro _; simp only [ewmaAfter, sub_self, abs_zero]; positivity
  | succ n ih =>
    intro hc
    cases n with
    | zero =>
      simp only [ewmaAfter]
      have := inst (count 0) (hc 0 (by omega))
      refine le_trans (b := 11 * u * ((N : Rat) / tickNs) + 5 * eta) ?_ ?_
      · refine le_trans (by simpa [instantRate] using this) ?_
        have : 0 ≤ u * ((N : Rat) / tickNs) := by positivity
        nlinarith
      · rw [le_div_iff₀ h0]; nlinarith
    | succ n =>
      have ih := ih fun i hi => hc i (by omega)
      have hi := inst (count (n + 1)) (hc _ (by omega))
      obtain ⟨j, hj, hle⟩ := av.highest count (n + 1) (by omega)
      have st := ewma_step_error h h0.le h1 hu heta herr (av.nonneg count (n + 1)) (av.instantRate_nonneg (count (n + 1)))
        (hle.trans (four _ (hc j (by omega)))) (four _ (hc (n + 1) (by omega)))
      rw [ewmaAfter_step, ewmaAfter_step id]
      have hid : ewmaNext id alpha (ewmaAfter id alpha count (n + 1)) (instantRate id (count (n + 1))) =
          ewmaAfter id alpha count (n + 1) +
            alpha * ((count (n + 1) : Rat) / tickNs - ewmaAfter id alpha count (n + 1)) := rfl
      rw [hid]
      generalize ewmaAfter rnd alpha count (n + 1) = r at *
      generalize ewmaAfter id alpha count (n + 1) = q at *
      generalize instantRate rnd (count (n + 1)) = i at *
      generalize (count (n + 1) : Rat) / tickNs = c at *
      generalize ewmaNext rnd alpha r i = y at *
      generalize hM' : (N : Rat) / tickNs = M at *
      have hB' : alpha * ((11 * u * M + 5 * eta) / alpha) = 11 * u * M + 5 * eta := by field_simp
      generalize (11 * u * M + 5 * eta) / alpha = B at *
      have huM : 0 ≤ u * M := by positivity
      rw [abs_le] at ih hi st ⊢
      have k1 : (1 - alpha) * (r - q) ≤ (1 - alpha) * B := mul_le_mul_of_nonneg_left ih.2 (by linarith)
      have k2 : (1 - alpha) * (-B) ≤ (1 - alpha) * (r - q) := mul_le_mul_of_nonneg_left ih.1 (by linarith)
      have k3 : alpha * (i - c) ≤ 1 * (3 * u * M + 2 * eta) := by
        refine (mul_le_mul_of_nonneg_left hi.2 h0.le).trans (mul_le_mul_of_nonneg_right (by linarith) (by nlinarith))
      have k4 : -(1 * (3 * u * M + 2 * eta)) ≤ alpha * (i - c) := by
        have : alpha * (3 * u * M + 2 * eta) ≤ 1 * (3 * u * M + 2 * eta) := mul_le_mul_of_nonneg_right (by linarith) (by nlinarith)
        have := mul_le_mul_of_nonneg_left hi.1 h0.le
        linarith
      constructor <;> linarith [st.1, st.2]

/-- How far a shown rate may be off if at most `N` were counted in any interval. -/
def rateError (alpha u eta : Rat) (N : Nat) : Rat := (3 * u * N + 5000000001 * eta) / alpha

theorem ewma_rate_error (h : IsSymmetricRounding rnd) (h0 : 0 < alpha) (h1 : alpha ≤ 1 / 4) (hu : 0 ≤ u) (heta : 0 ≤ eta)
    (herr : ∀ x, |rnd x - x| ≤ u * |x| + eta) (count : Nat → Nat) {N n : Nat} (hc : ∀ i, i < n → count i ≤ N) :
    |rnd (ewmaAfter rnd alpha count n * nanosPerSec) - averageOf alpha (fun i => count i) n| ≤ rateError alpha u eta N := by
  have hT : (tickNs : Rat) = 5000000000 := by norm_num [tickNs]
  have hS : (nanosPerSec : Rat) = 1000000000 := by norm_num [nanosPerSec]
  have av := Averaging.of_rounding h h0.le h1
  have e := ewma_total_error h h0 h1 hu heta herr count n hc
  have hx := av.nonneg count n
  have hx4 : ewmaAfter rnd alpha count n ≤ 4 * ((N : Rat) / tickNs) := by
    rcases Nat.eq_zero_or_pos n with rfl | hn
    · simp only [ewmaAfter]; rw [hT]; positivity
    · obtain ⟨i, hi, hle⟩ := av.highest count n hn
      refine hle.trans ((instantRate_le_four h _).trans ?_)
      have : (count i : Rat) ≤ N := by exact_mod_cast hc i hi
      rw [hT]; linarith
  rw [← ewmaAfter_average]
  have r := herr (ewmaAfter rnd alpha count n * nanosPerSec)
  rw [hS] at r ⊢
  rw [abs_of_nonneg (a := ewmaAfter rnd alpha count n * 1000000000) (by positivity)] at r
  rw [hT] at e hx4
  unfold rateError
  generalize ewmaAfter rnd alpha count n = x at *
  generalize ewmaAfter id alpha count n = y at *
  generalize rnd (x * 1000000000) = z at *
  have hN : (0 : Rat) ≤ N := by positivity
  generalize (N : Rat) = N at *
  have hux : u * (x * 1000000000) ≤ 4 / 5 * (u * N) := by nlinarith
  have huN : 0 ≤ u * N := by positivity
  have low : 4 / 5 * (u * N) + eta ≤ (4 / 5 * (u * N) + eta) / alpha := by
    rw [le_div_iff₀ h0]; nlinarith
  have eq : (3 * u * N + 5000000001 * eta) / alpha =
      (4 / 5 * (u * N) + eta) / alpha + 1000000000 * ((11 * u * (N / 5000000000) + 5 * eta) / alpha) := by
    field_simp; ring
  rw [eq]
  generalize (4 / 5 * (u * N) + eta) / alpha = A at *
  generalize (11 * u * (N / 5000000000) + 5 * eta) / alpha = B at *
  rw [abs_le] at e r ⊢
  constructor <;> linarith [e.1, e.2, r.1, r.2]

end

/-- Without rounding a rate is the weighted average of what was counted in the complete intervals. -/
theorem C96_average (alpha : Rat) (start : Int) (ms : List Mark) (t : Int)
    (hb : ∀ i, i < intervalOf start t → 0 ≤ inInterval start ms i ∧ inInterval start ms i < 2 ^ 64) :
    rateAt id alpha start ms t = averageOf alpha (fun i => inInterval start ms i) (intervalOf start t) := by
  unfold rateAt
  rw [id_eq, ewmaAfter_average]
  refine averageOf_congr fun i hi => ?_
  obtain ⟨a, b⟩ := hb i hi
  have : ((wrapU64 (inInterval start ms i) : Nat) : Int) = inInterval start ms i := by unfold wrapU64; omega
  exact_mod_cast congrArg (Int.cast (R := Rat)) this

/-- With rounding it is off by at most a fixed error, no matter for how long the meter has been running and how much it has counted:
only the most that was counted in a single interval matters. -/
theorem C96_error {rnd : Rat → Rat} (h : IsSymmetricRounding rnd) {alpha u eta : Rat} (h0 : 0 < alpha) (h1 : alpha ≤ 1 / 4)
    (hu : 0 ≤ u) (heta : 0 ≤ eta) (herr : ∀ x, |rnd x - x| ≤ u * |x| + eta) (start : Int) (ms : List Mark) (t : Int)
    {N : Nat} (hN : N < 2 ^ 64)
    (hb : ∀ i, i < intervalOf start t → 0 ≤ inInterval start ms i ∧ inInterval start ms i ≤ N) :
    |rateAt rnd alpha start ms t - averageOf alpha (fun i => inInterval start ms i) (intervalOf start t)| ≤
      rateError alpha u eta N := by
  have key := ewma_rate_error h h0 h1 hu heta herr (fun i => wrapU64 (inInterval start ms i)) (N := N)
    (n := intervalOf start t) (fun i hi => by have := hb i hi; unfold wrapU64; omega)
  rw [← C96_average alpha start ms t fun i hi => by have := hb i hi; omega]
  rw [← ewmaAfter_average] at key
  exact key

/-- If a meter counts in every interval what two others count together, its average is the sum of theirs. -/
theorem C96_add_average (alpha : Rat) (a b : Nat → Rat) (n : Nat) :
    averageOf alpha (fun i => a i + b i) n = averageOf alpha a n + averageOf alpha b n := by
  cases n with
  | zero => simp [averageOf]
  | succ n =>
    simp only [averageOf]
    rw [← Finset.sum_add_distrib]
    exact Finset.sum_congr rfl fun i _ => by ring

/-- If more is counted in every interval, the average is higher. -/
theorem C96_mono_average {alpha : Rat} (h0 : 0 ≤ alpha) (h1 : alpha ≤ 1) {a b : Nat → Rat} (n : Nat)
    (hab : ∀ i, i < n → a i ≤ b i) : averageOf alpha a n ≤ averageOf alpha b n := by
  cases n with
  | zero => exact le_rfl
  | succ n =>
    refine Finset.sum_le_sum fun i hi => mul_le_mul_of_nonneg_left ?_ (C96_weights_nonneg h0 h1 n i)
    have := hab i (Finset.mem_range.mp hi)
    linarith

/-- With rounding: if a meter counts in every interval what two others count together, then its rate is the sum of theirs, up to the
three errors. All three were started at the same moment and show their rates at the same moment. -/
theorem C96_add {rnd : Rat → Rat} (h : IsSymmetricRounding rnd) {alpha u eta : Rat} (h0 : 0 < alpha) (h1 : alpha ≤ 1 / 4)
    (hu : 0 ≤ u) (heta : 0 ≤ eta) (herr : ∀ x, |rnd x - x| ≤ u * |x| + eta) (start : Int) {all a b : List Mark} (t : Int)
    {N : Nat} (hN : N < 2 ^ 64)
    (hsum : ∀ i, i < intervalOf start t → inInterval start all i = inInterval start a i + inInterval start b i)
    (ha : ∀ i, i < intervalOf start t → 0 ≤ inInterval start a i) (hb : ∀ i, i < intervalOf start t → 0 ≤ inInterval start b i)
    (hall : ∀ i, i < intervalOf start t → inInterval start all i ≤ N) :
    |rateAt rnd alpha start all t - (rateAt rnd alpha start a t + rateAt rnd alpha start b t)| ≤ 3 * rateError alpha u eta N := by
  have e := C96_error h h0 h1 hu heta herr start all t hN fun i hi => by
    have := hsum i hi; have := ha i hi; have := hb i hi; have := hall i hi; omega
  have ea := C96_error h h0 h1 hu heta herr start a t hN fun i hi => by
    have := hsum i hi; have := ha i hi; have := hb i hi; have := hall i hi; omega
  have eb := C96_error h h0 h1 hu heta herr start b t hN fun i hi => by
    have := hsum i hi; have := ha i hi; have := hb i hi; have := hall i hi; omega
  have k : averageOf alpha (fun i => inInterval start all i) (intervalOf start t) =
      averageOf alpha (fun i => inInterval start a i) (intervalOf start t) +
        averageOf alpha (fun i => inInterval start b i) (intervalOf start t) := by
    rw [← C96_add_average]
    exact averageOf_congr fun i hi => by rw [hsum i hi]; push_cast; rfl
  rw [k] at e
  rw [abs_le] at e ea eb ⊢
  constructor <;> linarith [e.1, e.2, ea.1, ea.2, eb.1, eb.2]

/-- Without rounding it is exactly the sum. -/
theorem C96_add_exact (alpha : Rat) (start : Int) {all a b : List Mark} (t : Int)
    (hsum : ∀ i, i < intervalOf start t → inInterval start all i = inInterval start a i + inInterval start b i)
    (ha : ∀ i, i < intervalOf start t → 0 ≤ inInterval start a i) (hb : ∀ i, i < intervalOf start t → 0 ≤ inInterval start b i)
    (hall : ∀ i, i < intervalOf start t → inInterval start all i < 2 ^ 64) :
    rateAt id alpha start all t = rateAt id alpha start a t + rateAt id alpha start b t := by
  have hb' : ∀ i, i < intervalOf start t → (0 ≤ inInterval start all i ∧ inInterval start all i < 2 ^ 64) ∧
      (0 ≤ inInterval start a i ∧ inInterval start a i < 2 ^ 64) ∧ 0 ≤ inInterval start b i ∧ inInterval start b i < 2 ^ 64 :=
    fun i hi => by have := hsum i hi; have := ha i hi; have := hb i hi; have := hall i hi; omega
  rw [C96_average _ _ _ _ fun i hi => (hb' i hi).1, C96_average _ _ _ _ fun i hi => (hb' i hi).2.1,
    C96_average _ _ _ _ fun i hi => (hb' i hi).2.2, ← C96_add_average]
  exact averageOf_congr fun i hi => by rw [hsum i hi]; push_cast; rfl

/-- If a meter counts at least as much as another one in every interval, its rate is at least that of the other one, up to the two
errors. -/
theorem C96_mono {rnd : Rat → Rat} (h : IsSymmetricRounding rnd) {alpha u eta : Rat} (h0 : 0 < alpha) (h1 : alpha ≤ 1 / 4)
    (hu : 0 ≤ u) (heta : 0 ≤ eta) (herr : ∀ x, |rnd x - x| ≤ u * |x| + eta) (start : Int) {a b : List Mark} (t : Int)
    {N : Nat} (hN : N < 2 ^ 64)
    (hab : ∀ i, i < intervalOf start t → 0 ≤ inInterval start a i ∧ inInterval start a i ≤ inInterval start b i ∧
      inInterval start b i ≤ N) :
    rateAt rnd alpha start a t ≤ rateAt rnd alpha start b t + 2 * rateError alpha u eta N := by
  have ea := C96_error h h0 h1 hu heta herr start a t hN fun i hi => by have := hab i hi; omega
  have eb := C96_error h h0 h1 hu heta herr start b t hN fun i hi => by have := hab i hi; omega
  have k := C96_mono_average h0.le (by linarith) (a := fun i => inInterval start a i) (b := fun i => inInterval start b i)
    (intervalOf start t) fun i hi => by exact_mod_cast (hab i hi).2.1
  rw [abs_le] at ea eb
  linarith [ea.1, ea.2, eb.1, eb.2]

/-- If two meters count the same from interval `m` on, the difference of their averages shrinks by the factor `1 - alpha` with every
interval. -/
theorem C96_forget_average (alpha : Rat) {a b : Nat → Rat} {m : Nat} (hm : 0 < m) : ∀ j,
    (∀ i, m ≤ i → i < m + j → a i = b i) →
    averageOf alpha a (m + j) - averageOf alpha b (m + j) = (1 - alpha) ^ j * (averageOf alpha a m - averageOf alpha b m)
  | 0, _ => by simp
  | j + 1, hab => by
    have ih := C96_forget_average alpha hm j fun i hi hij => hab i hi (by omega)
    obtain ⟨n, hn⟩ : ∃ n, m + j = n + 1 := ⟨m + j - 1, by omega⟩
    have e := hab (n + 1) (by omega) (by omega)
    rw [show m + (j + 1) = n + 2 by omega, averageOf_step, averageOf_step, e, pow_succ']
    rw [hn] at ih
    linear_combination (1 - alpha) * ih

/-- With rounding: what was counted before the moment `t` loses its influence until the moment `t'`. -/
theorem C96_forget {rnd : Rat → Rat} (h : IsSymmetricRounding rnd) {alpha u eta : Rat} (h0 : 0 < alpha) (h1 : alpha ≤ 1 / 4)
    (hu : 0 ≤ u) (heta : 0 ≤ eta) (herr : ∀ x, |rnd x - x| ≤ u * |x| + eta) (start : Int) {a b : List Mark} {t t' : Int}
    (ht : t ≤ t') (hp : 0 < intervalOf start t) {N : Nat} (hN : N < 2 ^ 64)
    (hab : ∀ i, intervalOf start t ≤ i → i < intervalOf start t' → inInterval start a i = inInterval start b i)
    (ha : ∀ i, i < intervalOf start t' → 0 ≤ inInterval start a i ∧ inInterval start a i ≤ N)
    (hb : ∀ i, i < intervalOf start t' → 0 ≤ inInterval start b i ∧ inInterval start b i ≤ N) :
    |rateAt rnd alpha start a t' - rateAt rnd alpha start b t'| ≤
      (1 - alpha) ^ (intervalOf start t' - intervalOf start t) * (N / 5) + 2 * rateError alpha u eta N := by
  have hle : intervalOf start t ≤ intervalOf start t' := by unfold intervalOf tickNs; omega
  have ea := C96_error h h0 h1 hu heta herr start a t' hN ha
  have eb := C96_error h h0 h1 hu heta herr start b t' hN hb
  obtain ⟨j, hj⟩ : ∃ j, intervalOf start t' = intervalOf start t + j := ⟨_, (Nat.add_sub_cancel' hle).symm⟩
  rw [hj, Nat.add_sub_cancel_left]
  rw [hj] at ea eb ha hb hab
  have f := C96_forget_average alpha (a := fun i => (inInterval start a i : Rat)) (b := fun i => (inInterval start b i : Rat)) hp j
    fun i hi hij => by rw [hab i hi hij]
  have bound : ∀ c : Nat → Int, (∀ i, i < intervalOf start t + j → 0 ≤ c i ∧ c i ≤ N) →
      0 ≤ averageOf alpha (fun i => (c i : Rat)) (intervalOf start t) ∧
      averageOf alpha (fun i => (c i : Rat)) (intervalOf start t) ≤ (N : Rat) / 5 := by
    intro c hc
    have lo := C96_mono_average h0.le (by linarith) (a := fun _ => 0) (b := fun i => (c i : Rat)) (intervalOf start t)
      fun i hi => by exact_mod_cast (hc i (by omega)).1
    have hi := C96_mono_average h0.le (by linarith) (a := fun i => (c i : Rat)) (b := fun _ => (N : Rat)) (intervalOf start t)
      fun i hi => by exact_mod_cast (hc i (by omega)).2
    have const : ∀ q : Rat, averageOf alpha (fun _ => q) (intervalOf start t) = q / 5 := by
      intro q
      obtain ⟨n, hn⟩ : ∃ n, intervalOf start t = n + 1 := ⟨_, (Nat.succ_pred_eq_of_pos hp).symm⟩
      rw [hn]
      simp only [averageOf]
      rw [← Finset.sum_mul, C96_weights_sum, one_mul]
    rw [const] at lo hi
    exact ⟨by linarith, hi⟩
  have ba := bound _ ha
  have bb := bound _ hb
  have hpow : 0 ≤ (1 - alpha) ^ j := pow_nonneg (by linarith) _
  generalize averageOf alpha (fun i => (inInterval start a i : Rat)) (intervalOf start t) = x at *
  generalize averageOf alpha (fun i => (inInterval start b i : Rat)) (intervalOf start t) = y at *
  have k1 : (1 - alpha) ^ j * (x - y) ≤ (1 - alpha) ^ j * (N / 5) := mul_le_mul_of_nonneg_left (by linarith) hpow
  have k2 : (1 - alpha) ^ j * (-(N / 5)) ≤ (1 - alpha) ^ j * (x - y) := mul_le_mul_of_nonneg_left (by linarith) hpow
  rw [abs_le] at ea eb ⊢
  constructor <;> linarith [ea.1, ea.2, eb.1, eb.2]

/-- The rate `rate` is the weighted average with weight `alpha` of what was counted until `t`, up to the error. -/
def NearAverage (alpha u eta : Rat) (N : Nat) (start : Int) (ms : List Mark) (t : Int) (rate : Rat) : Prop :=
  |rate - averageOf alpha (fun i => inInterval start ms i) (intervalOf start t)| ≤ rateError alpha u eta N

/-- What a snapshot of a meter shows. -/
theorem C96_shown {e : Env} (mono : e.Mono) (hr : IsSymmetricRounding e.rnd)
    (hw : ∀ alpha, MeterWeight e alpha → 0 < alpha ∧ alpha ≤ 1 / 4) {u eta : Rat} (hu : 0 ≤ u) (heta : 0 ≤ eta)
    (herr : ∀ x, |e.rnd x - x| ≤ u * |x| + eta) {k₀ k₁ k₂ k₃ : Nat} {m m' m'' : Meter}
    (hnew : StdMeter.new e k₀ = some (m.inner, k₁)) {log : List (Event Update)}
    (h : History e k₁ m log k₂ m') {into s : Snapshot} {d : Bool}
    (hput : m'.putSnapshot into d e k₂ = some ((m'', s), k₃)) {N : Nat} (hN : N < 2 ^ 64)
    (hb : ∀ i, i < intervalOf (e.clock k₀) (e.clock (k₃ - 1)) →
      0 ≤ inInterval (e.clock k₀) (marks e.clock Update.counted log) i ∧
      inInterval (e.clock k₀) (marks e.clock Update.counted log) i ≤ N) :
    ∃ j front count rate1 rate5 rate15, k₂ ≤ j ∧ j < k₃ ∧
      s = front ++ [(m.name, .snapshot (meterItems m count rate1 rate5 rate15))] ∧
      NearAverage e.alpha1 u eta N (e.clock k₀) (marks e.clock Update.counted log) (e.clock j) rate1 ∧
      NearAverage e.alpha5 u eta N (e.clock k₀) (marks e.clock Update.counted log) (e.clock j) rate5 ∧
      NearAverage e.alpha15 u eta N (e.clock k₀) (marks e.clock Update.counted log) (e.clock j) rate15 := by
  obtain ⟨j, front, count, hj, hj', hs⟩ := C29_meter_rates mono hnew h hput
  have key : ∀ alpha, MeterWeight e alpha → NearAverage alpha u eta N (e.clock k₀) (marks e.clock Update.counted log) (e.clock j)
      (rateAt e.rnd alpha (e.clock k₀) (marks e.clock Update.counted log) (e.clock j)) := fun alpha ha =>
    C96_error hr (hw alpha ha).1 (hw alpha ha).2 hu heta herr _ _ _ hN fun i hi =>
      hb i (hi.trans_le (by have := mono j (k₃ - 1) (by omega); unfold intervalOf tickNs; omega))
  exact ⟨j, front, count, _, _, _, hj, hj', hs, key _ (.inl rfl), key _ (.inr (.inl rfl)), key _ (.inr (.inr rfl))⟩

/-- The same for a `ValueMeter`, which counts the values observed. -/
theorem C96_value_meter_shown {e : Env} (mono : e.Mono) (hr : IsSymmetricRounding e.rnd)
    (hw : ∀ alpha, MeterWeight e alpha → 0 < alpha ∧ alpha ≤ 1 / 4) {u eta : Rat} (hu : 0 ≤ u) (heta : 0 ≤ eta)
    (herr : ∀ x, |e.rnd x - x| ≤ u * |x| + eta) {k₀ k₁ k₂ k₃ : Nat} {m m' m'' : ValueMeter}
    (hnew : StdMeter.new e k₀ = some (m.meter.inner, k₁)) {log : List (Event Update)}
    (h : History e k₁ m log k₂ m') {into s : Snapshot} {d : Bool}
    (hput : m'.putSnapshot into d e k₂ = some ((m'', s), k₃)) {N : Nat} (hN : N < 2 ^ 64)
    (hb : ∀ i, i < intervalOf (e.clock k₀) (e.clock (k₃ - 1)) →
      0 ≤ inInterval (e.clock k₀) (marks e.clock (Update.metered m.displayTimeUnit) log) i ∧
      inInterval (e.clock k₀) (marks e.clock (Update.metered m.displayTimeUnit) log) i ≤ N) :
    ∃ j front count rate1 rate5 rate15, k₂ ≤ j ∧ j < k₃ ∧
      s = front ++ [(m.meter.name, .snapshot (meterItems m.meter count rate1 rate5 rate15))] ∧
      NearAverage e.alpha1 u eta N (e.clock k₀) (marks e.clock (Update.metered m.displayTimeUnit) log) (e.clock j) rate1 ∧
      NearAverage e.alpha5 u eta N (e.clock k₀) (marks e.clock (Update.metered m.displayTimeUnit) log) (e.clock j) rate5 ∧
      NearAverage e.alpha15 u eta N (e.clock k₀) (marks e.clock (Update.metered m.displayTimeUnit) log) (e.clock j) rate15 := by
  obtain ⟨j, front, count, hj, hj', hs⟩ := C29_value_meter_rates mono hnew h hput
  have key : ∀ alpha, MeterWeight e alpha → NearAverage alpha u eta N (e.clock k₀)
      (marks e.clock (Update.metered m.displayTimeUnit) log) (e.clock j)
      (rateAt e.rnd alpha (e.clock k₀) (marks e.clock (Update.metered m.displayTimeUnit) log) (e.clock j)) := fun alpha ha =>
    C96_error hr (hw alpha ha).1 (hw alpha ha).2 hu heta herr _ _ _ hN fun i hi =>
      hb i (hi.trans_le (by have := mono j (k₃ - 1) (by omega); unfold intervalOf tickNs; omega))
  exact ⟨j, front, count, _, _, _, hj, hj', hs, key _ (.inl rfl), key _ (.inr (.inl rfl)), key _ (.inr (.inr rfl))⟩

/-- With 10 in the first interval, 20 in the second and none in the third, and the weight 1/10, the average is 1.98 per second. -/
example : rateAt id (1 / 10) 0 [⟨1000000000, 10⟩, ⟨6000000000, 20⟩] 15000000000 = 198 / 100 := by
  rw [C96_average _ _ _ _ (by decide)]
  rw [show intervalOf 0 15000000000 = 3 by decide]
  simp only [averageOf, Finset.sum_range_succ, Finset.sum_range_zero, weightOf]
  norm_num [inInterval, intervalOf, total, tickNs, List.filter]

/-- The rates of binary64 after any number of intervals. -/
example := C96_error C30_binary64.1 (alpha := 1 / 10) (by norm_num) (by norm_num) (zpow_nonneg (by norm_num) _)
  (zpow_nonneg (by norm_num) _) C30_binary64.2 0 [⟨1000000000, 10⟩, ⟨6000000000, 20⟩] 15000000000 (N := 20) (by norm_num) (by decide)

example := C96_add C30_binary64.1 (alpha := 1 / 10) (by norm_num) (by norm_num) (zpow_nonneg (by norm_num) _)
  (zpow_nonneg (by norm_num) _) C30_binary64.2 0 (all := [⟨1000000000, 10⟩, ⟨1000000001, 7⟩, ⟨6000000000, 20⟩])
  (a := [⟨1000000000, 10⟩]) (b := [⟨1000000000, 7⟩, ⟨6000000001, 20⟩]) 15000000000 (N := 20)
  (by norm_num) (by decide) (by decide) (by decide) (by decide)

example := C96_add_exact (1 / 10) 0 (all := [⟨1000000000, 10⟩, ⟨1000000001, 7⟩, ⟨6000000000, 20⟩])
  (a := [⟨1000000000, 10⟩]) (b := [⟨1000000000, 7⟩, ⟨6000000001, 20⟩]) 15000000000 (by decide) (by decide) (by decide) (by decide)

example := C96_mono C30_binary64.1 (alpha := 1 / 10) (by norm_num) (by norm_num) (zpow_nonneg (by norm_num) _)
  (zpow_nonneg (by norm_num) _) C30_binary64.2 0 (a := [⟨1000000000, 10⟩])
  (b := [⟨1000000000, 17⟩, ⟨6000000001, 20⟩]) 15000000000 (N := 20) (by norm_num) (by decide)

theorem ticking_positive (alpha : Rat) (h : MeterWeight ticking alpha) : 0 < alpha ∧ alpha ≤ 1 / 4 := by
  rcases h with rfl | rfl | rfl <;> norm_num [ticking]

theorem inInterval_single (start t : Int) {n : Nat} (i : Nat) :
    0 ≤ inInterval start [⟨t, n⟩] i ∧ inInterval start [⟨t, n⟩] i ≤ n := by
  unfold inInterval
  by_cases h : intervalOf start t = i <;> simp [total, h]

/-- One occurrence, a snapshot more than 14 s later. Nothing is rounded here. -/
example : True := by
  obtain ⟨⟨m₁, _⟩, k₁, h⟩ := Meter.ok_update (e := ticking) rfl newMeter (.observation 0) 2
  obtain ⟨⟨m₂, _⟩, k₂, hput⟩ := Meter.ok_putSnapshot (e := ticking) rfl m₁ [] true (k₁ + 20)
  have := C96_shown ticking_mono ticking_symmetric ticking_positive (u := 0) (eta := 0) le_rfl le_rfl
    (fun x => by simp [ticking]) (k₀ := 1) (m := newMeter) rfl
    (.cons (op := .input (.observation 0)) (Nat.le_refl 2) (step_input_eq_some.mpr ⟨_, rfl, h⟩) (.nil (Nat.le_add_right k₁ 20)))
    hput (N := 1) (by norm_num) (fun i _ => inInterval_single _ (ticking.clock (k₁ - 1)) (n := 1) i)
  trivial

/-- The same for a value meter and the value 7. -/
example : True := by
  obtain ⟨⟨m₁, _⟩, k₁, h⟩ := ValueMeter.ok_update (e := ticking) rfl newValueMeter (.withValue (.signedInteger 7) 0) 2
  obtain ⟨⟨m₂, _⟩, k₂, hput⟩ := ValueMeter.ok_putSnapshot (e := ticking) rfl m₁ [] true (k₁ + 20)
  have := C96_value_meter_shown ticking_mono ticking_symmetric ticking_positive (u := 0) (eta := 0) le_rfl le_rfl
    (fun x => by simp [ticking]) (k₀ := 1) (m := newValueMeter) rfl
    (.cons (op := .input (.withValue (.signedInteger 7) 0)) (Nat.le_refl 2) (step_input_eq_some.mpr ⟨_, rfl, h⟩)
      (.nil (Nat.le_add_right k₁ 20)))
    hput (N := 7) (by norm_num) (fun i _ => inInterval_single _ (ticking.clock (k₁ - 1)) (n := 7) i)
  trivial

example := C96_weights_nonneg (alpha := 1 / 10) (by norm_num) (by norm_num) 5 2
example := C96_weights_sum (1 / 10) 5
example := C96_add_average (1 / 10) (fun i => i) (fun _ => 3) 4
example := C96_mono_average (alpha := 1 / 10) (by norm_num) (by norm_num) (a := fun i => i) (b := fun i => i + 1) 4
  (fun i _ => by linarith)

example := C96_forget_average (1 / 10) (a := fun i => if i = 0 then 100 else 3) (b := fun _ => 3) (m := 1) (by decide) 20
  (fun i hi _ => if_neg (by omega))
example := C96_forget C30_binary64.1 (alpha := 1 / 10) (by norm_num) (by norm_num) (zpow_nonneg (by norm_num) _)
  (zpow_nonneg (by norm_num) _) C30_binary64.2 0 (a := [⟨1000000000, 10⟩, ⟨6000000000, 5⟩])
  (b := [⟨1000000000, 17⟩, ⟨6000000001, 5⟩]) (t := 5000000000) (t' := 15000000000) (N := 20) (by decide) (by decide) (by norm_num)
  (by
    intro i hi hi'
    rw [show intervalOf 0 15000000000 = 3 by decide] at hi'
    rw [show intervalOf 0 5000000000 = 1 by decide] at hi
    interval_cases i <;> decide) (by decide) (by decide)

end Metrix
