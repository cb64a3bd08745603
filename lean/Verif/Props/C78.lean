import Mathlib.Tactic.LinearCombination
import Verif.Props.C30

/-! # C78: A meter shows a steady rate as it is, and approaches it after every change

`rateAt` (see C29) is what a meter shows. -/

namespace Metrix

section
variable {rnd : Rat → Rat} {alpha : Rat}

/-- The counterpart of `Averaging.highest`. -/
theorem Averaging.lowest (h : Averaging rnd alpha) (count : Nat → Nat) : ∀ m, 0 < m →
    ∃ i, i < m ∧ instantRate rnd (count i) ≤ ewmaAfter rnd alpha count m
  | 1, _ => ⟨0, by omega, le_rfl⟩
  | m + 2, _ => by
    obtain ⟨i, hi, hle⟩ := Averaging.lowest h count (m + 1) (by omega)
    rw [ewmaAfter_step]
    rcases le_total (ewmaAfter rnd alpha count (m + 1)) (instantRate rnd (count (m + 1))) with hle' | hle'
    · exact ⟨i, by omega, le_trans hle (h.up _ _ (h.rounded _ _) (h.instantRate_rounded _) hle').1⟩
    · exact ⟨m + 1, by omega, (h.down _ _ (h.rounded _ _) (h.instantRate_rounded _) hle').1⟩

/-- While the count is the same in all intervals the average goes from where it is towards the new rate, and not beyond. -/
theorem Averaging.approach (h : Averaging rnd alpha) (count : Nat → Nat) (c m : Nat) : ∀ j,
    (∀ i, m + 1 ≤ i → i < m + 1 + j → count i = c) →
    (ewmaAfter rnd alpha count (m + 1) ≤ instantRate rnd c →
      ewmaAfter rnd alpha count (m + 1) ≤ ewmaAfter rnd alpha count (m + 1 + j) ∧
      ewmaAfter rnd alpha count (m + 1 + j) ≤ instantRate rnd c) ∧
    (instantRate rnd c ≤ ewmaAfter rnd alpha count (m + 1) →
      instantRate rnd c ≤ ewmaAfter rnd alpha count (m + 1 + j) ∧
      ewmaAfter rnd alpha count (m + 1 + j) ≤ ewmaAfter rnd alpha count (m + 1))
  | 0, _ => ⟨fun h => ⟨le_rfl, h⟩, fun h => ⟨h, le_rfl⟩⟩
  | j + 1, hc => by
    obtain ⟨ih1, ih2⟩ := Averaging.approach h count c m j fun i hi hij => hc i hi (by omega)
    have : m + 1 + (j + 1) = (m + j) + 2 := by omega
    rw [this, ewmaAfter_step, show m + j + 1 = m + 1 + j by omega, hc (m + 1 + j) (by omega) (by omega)]
    refine ⟨fun hle => ?_, fun hle => ?_⟩
    · obtain ⟨a, b⟩ := ih1 hle
      obtain ⟨x, y⟩ := h.up _ _ (h.rounded count (m + 1 + j)) (h.instantRate_rounded c) b
      exact ⟨a.trans x, y⟩
    · obtain ⟨a, b⟩ := ih2 hle
      obtain ⟨x, y⟩ := h.down _ _ (h.rounded count (m + 1 + j)) (h.instantRate_rounded c) a
      exact ⟨x, y.trans b⟩

theorem Averaging.steady (h : Averaging rnd alpha) (count : Nat → Nat) (c : Nat) : ∀ m, 0 < m →
    (∀ i, i < m → count i = c) → ewmaAfter rnd alpha count m = instantRate rnd c
  | m + 1, _, hc => by
    have h0 : ewmaAfter rnd alpha count 1 = instantRate rnd c := by simp only [ewmaAfter, hc 0 (by omega)]
    have := (h.approach count c 0 m fun i _ hi => hc i (by omega)).1 (by simp [h0])
    rw [show 0 + 1 + m = m + 1 by omega, show 0 + 1 = 1 from rfl, h0] at this
    exact le_antisymm this.2 this.1

theorem ewma_approach_exact (count : Nat → Nat) (c m : Nat) : ∀ j, (∀ i, m + 1 ≤ i → i < m + 1 + j → count i = c) →
    ewmaAfter id alpha count (m + 1 + j) - instantRate id c =
      (1 - alpha) ^ j * (ewmaAfter id alpha count (m + 1) - instantRate id c)
  | 0, _ => by simp
  | j + 1, hc => by
    have ih := ewma_approach_exact count c m j fun i hi hij => hc i hi (by omega)
    have : m + 1 + (j + 1) = (m + j) + 2 := by omega
    rw [this, ewmaAfter_step, show m + j + 1 = m + 1 + j by omega, hc (m + 1 + j) (by omega) (by omega), pow_succ']
    simp only [ewmaNext, id_eq]
    linear_combination (1 - alpha) * ih

/-- One step with rounding errors of at most `u` relative plus `eta` absolute. -/
theorem ewma_step_error (h : IsSymmetricRounding rnd) {u eta : Rat} (h0 : 0 ≤ alpha) (h1 : alpha ≤ 1 / 4) (hu : 0 ≤ u)
    (heta : 0 ≤ eta) (herr : ∀ x, |rnd x - x| ≤ u * |x| + eta) {r i M : Rat} (hr : 0 ≤ r) (hi : 0 ≤ i) (hrM : r ≤ M) (hiM : i ≤ M) :
    |ewmaNext rnd alpha r i - (r + alpha * (i - r))| ≤ 2 * u * M + 3 * eta := by
  have hd : |i - r| ≤ M := abs_le.mpr ⟨by linarith, by linarith⟩
  have hab : |rnd (i - r)| ≤ 2 * |i - r| := by
    rcases le_total 0 (i - r) with hp | hn
    · rw [abs_of_nonneg hp, abs_of_nonneg (by rw [← h.zero]; exact h.mono hp)]; exact h.double _ hp
    · have : i - r = -(r - i) := by ring
      rw [this, h.odd, abs_neg, abs_neg, abs_of_nonneg (a := r - i) (by linarith),
        abs_of_nonneg (a := rnd (r - i)) (by rw [← h.zero]; exact h.mono (by linarith))]
      exact h.double _ (by linarith)
  have e1 := herr (i - r)
  have e2 := herr (alpha * rnd (i - r))
  have ha : |alpha * rnd (i - r)| ≤ |i - r| / 2 := by
    rw [abs_mul, abs_of_nonneg h0]
    have := abs_nonneg (rnd (i - r))
    nlinarith
  have hu2 : u * |alpha * rnd (i - r)| ≤ u * (M / 2) := mul_le_mul_of_nonneg_left (by linarith) hu
  have hu1 : u * |i - r| ≤ u * M := mul_le_mul_of_nonneg_left hd hu
  have hbound : |r + rnd (alpha * rnd (i - r))| ≤ M := by
    have key : ∀ d, 0 ≤ d → 0 ≤ rnd (alpha * rnd d) ∧ rnd (alpha * rnd d) ≤ d := by
      intro d hd
      have a := h.double d hd
      have b : 0 ≤ rnd d := by rw [← h.zero]; exact h.mono hd
      have c : 0 ≤ alpha * rnd d := by positivity
      have d' := h.double _ c
      refine ⟨by rw [← h.zero]; exact h.mono c, ?_⟩
      nlinarith
    rcases le_total 0 (i - r) with hp | hn
    · obtain ⟨a, b⟩ := key _ hp
      exact abs_le.mpr ⟨by linarith, by linarith⟩
    · obtain ⟨a, b⟩ := key (r - i) (by linarith)
      have e : rnd (alpha * rnd (i - r)) = -rnd (alpha * rnd (r - i)) := by
        rw [← h.odd, show i - r = -(r - i) by ring, h.odd]; congr 1; ring
      rw [e]
      exact abs_le.mpr ⟨by linarith, by linarith⟩
  have e3 := herr (r + rnd (alpha * rnd (i - r)))
  have hu3 : u * |r + rnd (alpha * rnd (i - r))| ≤ u * M := mul_le_mul_of_nonneg_left hbound hu
  have e4 : |alpha * rnd (i - r) - alpha * (i - r)| ≤ (u * M + eta) / 4 := by
    rw [← mul_sub, abs_mul, abs_of_nonneg h0]
    have := abs_nonneg (rnd (i - r) - (i - r))
    nlinarith
  unfold ewmaNext
  have hM : 0 ≤ u * M := mul_nonneg hu (hr.trans hrM)
  rw [abs_le] at e2 e3 e4 ⊢
  constructor <;> linarith [e2.1, e2.2, e3.1, e3.2, e4.1, e4.2]

theorem ewma_approach_error (h : IsSymmetricRounding rnd) {u eta : Rat} (h0 : 0 ≤ alpha) (h1 : alpha ≤ 1 / 4) (hu : 0 ≤ u)
    (heta : 0 ≤ eta) (herr : ∀ x, |rnd x - x| ≤ u * |x| + eta) (count : Nat → Nat) (c m : Nat) : ∀ j,
    (∀ i, m + 1 ≤ i → i < m + 1 + j → count i = c) →
    |(ewmaAfter rnd alpha count (m + 1 + j) - instantRate rnd c) -
        (1 - alpha) ^ j * (ewmaAfter rnd alpha count (m + 1) - instantRate rnd c)| ≤
      j * (2 * u * max (ewmaAfter rnd alpha count (m + 1)) (instantRate rnd c) + 3 * eta)
  | 0, _ => by simp
  | j + 1, hc => by
    have av := Averaging.of_rounding h h0 h1
    have ih := ewma_approach_error h h0 h1 hu heta herr count c m j fun i hi hij => hc i hi (by omega)
    obtain ⟨ap1, ap2⟩ := av.approach count c m j fun i hi hij => hc i hi (by omega)
    have hx : ewmaAfter rnd alpha count (m + 1 + j) ≤ max (ewmaAfter rnd alpha count (m + 1)) (instantRate rnd c) := by
      rcases le_total (ewmaAfter rnd alpha count (m + 1)) (instantRate rnd c) with hle | hle
      · exact (ap1 hle).2.trans (le_max_right _ _)
      · exact (ap2 hle).2.trans (le_max_left _ _)
    have st := ewma_step_error h h0 h1 hu heta herr (av.nonneg count (m + 1 + j)) (av.instantRate_nonneg c) hx (le_max_right _ _)
    have : m + 1 + (j + 1) = (m + j) + 2 := by omega
    rw [this, ewmaAfter_step, show m + j + 1 = m + 1 + j by omega, hc (m + 1 + j) (by omega) (by omega)]
    generalize max (ewmaAfter rnd alpha count (m + 1)) (instantRate rnd c) = M at *
    generalize ewmaAfter rnd alpha count (m + 1 + j) = x at *
    generalize ewmaAfter rnd alpha count (m + 1) = r at *
    generalize instantRate rnd c = i at *
    have split : ewmaNext rnd alpha x i - i - (1 - alpha) ^ (j + 1) * (r - i) =
        (ewmaNext rnd alpha x i - (x + alpha * (i - x))) + (1 - alpha) * ((x - i) - (1 - alpha) ^ j * (r - i)) := by ring
    rw [split]
    refine le_trans (abs_add_le _ _) ?_
    rw [abs_mul, abs_of_nonneg (a := 1 - alpha) (by linarith)]
    have a : (1 - alpha) * |(x - i) - (1 - alpha) ^ j * (r - i)| ≤ |(x - i) - (1 - alpha) ^ j * (r - i)| := by
      have := abs_nonneg ((x - i) - (1 - alpha) ^ j * (r - i)); nlinarith
    push_cast
    linarith

end

/-- There is always a complete interval whose own rate is at most the shown one: the lowest interval rate is never undercut. -/
theorem C78_lowest {rnd : Rat → Rat} (h : IsSymmetricRounding rnd) {alpha : Rat} (h0 : 0 ≤ alpha) (h1 : alpha ≤ 1 / 4)
    (start : Int) (ms : List Mark) (t : Int) (hp : 0 < intervalOf start t) :
    ∃ i, i < intervalOf start t ∧
      rnd (instantRate rnd (wrapU64 (inInterval start ms i)) * nanosPerSec) ≤ rateAt rnd alpha start ms t := by
  obtain ⟨i, hi, hle⟩ := (Averaging.of_rounding h h0 h1).lowest (fun i => wrapU64 (inInterval start ms i)) _ hp
  exact ⟨i, hi, h.mono (mul_le_mul_of_nonneg_right hle (by positivity))⟩

/-- If the same was counted in all complete intervals, then its rate is shown. Only dividing by 5 seconds is rounded, averaging
adds no error. -/
theorem C78_steady {rnd : Rat → Rat} (h : IsSymmetricRounding rnd) {alpha : Rat} (h0 : 0 ≤ alpha) (h1 : alpha ≤ 1 / 4)
    (start : Int) (ms : List Mark) (t : Int) (hp : 0 < intervalOf start t) (c : Nat)
    (hc : ∀ i, i < intervalOf start t → wrapU64 (inInterval start ms i) = c) :
    rateAt rnd alpha start ms t = rnd (instantRate rnd c * nanosPerSec) := by
  unfold rateAt
  rw [(Averaging.of_rounding h h0 h1).steady _ c _ hp hc]

theorem C78_steady_exact {alpha : Rat} (h0 : 0 ≤ alpha) (h1 : alpha ≤ 1)
    (start : Int) (ms : List Mark) (t : Int) (hp : 0 < intervalOf start t) (c : Nat)
    (hc : ∀ i, i < intervalOf start t → wrapU64 (inInterval start ms i) = c) :
    rateAt id alpha start ms t = (c : Rat) / 5 := by
  unfold rateAt
  rw [(Averaging.exact h0 h1).steady _ c _ hp hc]
  simp only [instantRate, id_eq, tickNs, nanosPerSec]
  push_cast
  ring

/-- From a moment `t` on the same is counted in all intervals: until `t'` the shown rate goes towards the new rate, and not beyond. -/
theorem C78_approach {rnd : Rat → Rat} (h : IsSymmetricRounding rnd) {alpha : Rat} (h0 : 0 ≤ alpha) (h1 : alpha ≤ 1 / 4)
    (start : Int) (ms : List Mark) {t t' : Int} (ht : t ≤ t') (hp : 0 < intervalOf start t) (c : Nat)
    (hc : ∀ i, intervalOf start t ≤ i → i < intervalOf start t' → wrapU64 (inInterval start ms i) = c) :
    (rateAt rnd alpha start ms t ≤ rateAt rnd alpha start ms t' ∧
      rateAt rnd alpha start ms t' ≤ rnd (instantRate rnd c * nanosPerSec)) ∨
    (rnd (instantRate rnd c * nanosPerSec) ≤ rateAt rnd alpha start ms t' ∧
      rateAt rnd alpha start ms t' ≤ rateAt rnd alpha start ms t) := by
  have hle : intervalOf start t ≤ intervalOf start t' := by unfold intervalOf tickNs; omega
  obtain ⟨m, hm⟩ : ∃ m, intervalOf start t = m + 1 := ⟨intervalOf start t - 1, by omega⟩
  obtain ⟨j, hj⟩ : ∃ j, intervalOf start t' = m + 1 + j := ⟨intervalOf start t' - (m + 1), by omega⟩
  rw [hm, hj] at hc
  obtain ⟨a, b⟩ := (Averaging.of_rounding h h0 h1).approach (fun i => wrapU64 (inInterval start ms i)) c m j hc
  unfold rateAt
  rw [hm, hj]
  have mono : ∀ {x y : Rat}, x ≤ y → rnd (x * nanosPerSec) ≤ rnd (y * nanosPerSec) :=
    fun hxy => h.mono (mul_le_mul_of_nonneg_right hxy (by positivity))
  rcases le_total (ewmaAfter rnd alpha (fun i => wrapU64 (inInterval start ms i)) (m + 1)) (instantRate rnd c) with hle | hle
  · exact .inl ⟨mono (a hle).1, mono (a hle).2⟩
  · exact .inr ⟨mono (b hle).1, mono (b hle).2⟩

/-- In exact arithmetic the distance shrinks by the factor `1 - alpha` with every interval. -/
theorem C78_approach_exact {alpha : Rat} (start : Int) (ms : List Mark) {t t' : Int} (ht : t ≤ t')
    (hp : 0 < intervalOf start t) (c : Nat)
    (hc : ∀ i, intervalOf start t ≤ i → i < intervalOf start t' → wrapU64 (inInterval start ms i) = c) :
    rateAt id alpha start ms t' - (c : Rat) / 5 =
      (1 - alpha) ^ (intervalOf start t' - intervalOf start t) * (rateAt id alpha start ms t - (c : Rat) / 5) := by
  have hle : intervalOf start t ≤ intervalOf start t' := by unfold intervalOf tickNs; omega
  obtain ⟨m, hm⟩ : ∃ m, intervalOf start t = m + 1 := ⟨intervalOf start t - 1, by omega⟩
  obtain ⟨j, hj⟩ : ∃ j, intervalOf start t' = m + 1 + j := ⟨intervalOf start t' - (m + 1), by omega⟩
  rw [hm, hj] at hc
  have key := ewma_approach_exact (alpha := alpha) (fun i => wrapU64 (inInterval start ms i)) c m j hc
  unfold rateAt
  rw [hm, hj, Nat.add_sub_cancel_left]
  simp only [id_eq]
  have hi : instantRate id c * nanosPerSec = (c : Rat) / 5 := by
    simp only [instantRate, id_eq, tickNs, nanosPerSec]; push_cast; ring
  linear_combination (nanosPerSec : Rat) * key + (1 - (1 - alpha) ^ j) * hi

/-- With rounding errors of at most `u` relative plus `eta` absolute per operation (for `f64`: 2^-53 and 2^-1075, see C30) the
internal rate (per nanosecond) deviates from that by at most `2 * u * max + 3 * eta` per interval, where `max` is the larger of
the old and the new rate. -/
theorem C78_approach_rounded {rnd : Rat → Rat} (h : IsSymmetricRounding rnd) {alpha u eta : Rat} (h0 : 0 ≤ alpha)
    (h1 : alpha ≤ 1 / 4) (hu : 0 ≤ u) (heta : 0 ≤ eta) (herr : ∀ x, |rnd x - x| ≤ u * |x| + eta)
    (count : Nat → Nat) (c : Nat) {m j : Nat} (hfirst : 0 < m) (hc : ∀ i, m ≤ i → i < m + j → count i = c) :
    |(ewmaAfter rnd alpha count (m + j) - instantRate rnd c) -
        (1 - alpha) ^ j * (ewmaAfter rnd alpha count m - instantRate rnd c)| ≤
      j * (2 * u * max (ewmaAfter rnd alpha count m) (instantRate rnd c) + 3 * eta) := by
  obtain ⟨m, rfl⟩ : ∃ n, m = n + 1 := ⟨m - 1, by omega⟩
  exact ewma_approach_error h h0 h1 hu heta herr count c m j hc

/-- What a snapshot of a meter shows if the same was counted in every complete interval, and there is at least one: all rates are
that of a single interval. -/
theorem C78_shown_steady {e : Env} (mono : e.Mono) (hr : IsSymmetricRounding e.rnd)
    (hw : ∀ alpha, MeterWeight e alpha → 0 ≤ alpha ∧ alpha ≤ 1 / 4) {k₀ k₁ k₂ k₃ : Nat} {m m' m'' : Meter}
    (hnew : StdMeter.new e k₀ = some (m.inner, k₁)) {log : List (Event Update)}
    (h : History e k₁ m log k₂ m') {into s : Snapshot} {d : Bool}
    (hput : m'.putSnapshot into d e k₂ = some ((m'', s), k₃)) (hp : 0 < intervalOf (e.clock k₀) (e.clock k₂)) (c : Nat)
    (hc : ∀ i, i < intervalOf (e.clock k₀) (e.clock (k₃ - 1)) →
      inInterval (e.clock k₀) (marks e.clock Update.counted log) i = c) (hsmall : c < 2 ^ 64) :
    ∃ front count, s = front ++ [(m.name, .snapshot (meterItems m count (e.rnd (instantRate e.rnd c * nanosPerSec))
      (e.rnd (instantRate e.rnd c * nanosPerSec)) (e.rnd (instantRate e.rnd c * nanosPerSec))))] := by
  obtain ⟨j, front, count, hj, hj', hs⟩ := C29_meter_rates mono hnew h hput
  have key : ∀ alpha, MeterWeight e alpha → rateAt e.rnd alpha (e.clock k₀) (marks e.clock Update.counted log) (e.clock j) =
      e.rnd (instantRate e.rnd c * nanosPerSec) := by
    intro alpha ha
    obtain ⟨h0, h1⟩ := hw alpha ha
    have a1 := mono k₂ j hj
    have a2 := mono j (k₃ - 1) (by omega)
    refine C78_steady hr h0 h1 _ _ _ (hp.trans_le (by unfold intervalOf tickNs; omega)) c fun i hi => ?_
    rw [hc i (hi.trans_le (by unfold intervalOf tickNs; omega))]
    unfold wrapU64; omega
  rw [key _ (.inl rfl), key _ (.inr (.inl rfl)), key _ (.inr (.inr rfl))] at hs
  exact ⟨front, count, hs⟩

/-- The same for a `ValueMeter`, which counts the values observed. -/
theorem C78_value_meter_shown_steady {e : Env} (mono : e.Mono) (hr : IsSymmetricRounding e.rnd)
    (hw : ∀ alpha, MeterWeight e alpha → 0 ≤ alpha ∧ alpha ≤ 1 / 4) {k₀ k₁ k₂ k₃ : Nat} {m m' m'' : ValueMeter}
    (hnew : StdMeter.new e k₀ = some (m.meter.inner, k₁)) {log : List (Event Update)}
    (h : History e k₁ m log k₂ m') {into s : Snapshot} {d : Bool}
    (hput : m'.putSnapshot into d e k₂ = some ((m'', s), k₃)) (hp : 0 < intervalOf (e.clock k₀) (e.clock k₂)) (c : Nat)
    (hc : ∀ i, i < intervalOf (e.clock k₀) (e.clock (k₃ - 1)) →
      inInterval (e.clock k₀) (marks e.clock (Update.metered m.displayTimeUnit) log) i = c) (hsmall : c < 2 ^ 64) :
    ∃ front count, s = front ++ [(m.meter.name, .snapshot (meterItems m.meter count (e.rnd (instantRate e.rnd c * nanosPerSec))
      (e.rnd (instantRate e.rnd c * nanosPerSec)) (e.rnd (instantRate e.rnd c * nanosPerSec))))] := by
  obtain ⟨j, front, count, hj, hj', hs⟩ := C29_value_meter_rates mono hnew h hput
  have key : ∀ alpha, MeterWeight e alpha → rateAt e.rnd alpha (e.clock k₀) (marks e.clock (Update.metered m.displayTimeUnit) log)
      (e.clock j) = e.rnd (instantRate e.rnd c * nanosPerSec) := by
    intro alpha ha
    obtain ⟨h0, h1⟩ := hw alpha ha
    have a1 := mono k₂ j hj
    have a2 := mono j (k₃ - 1) (by omega)
    refine C78_steady hr h0 h1 _ _ _ (hp.trans_le (by unfold intervalOf tickNs; omega)) c fun i hi => ?_
    rw [hc i (hi.trans_le (by unfold intervalOf tickNs; omega))]
    unfold wrapU64; omega
  rw [key _ (.inl rfl), key _ (.inr (.inl rfl)), key _ (.inr (.inr rfl))] at hs
  exact ⟨front, count, hs⟩

theorem Meter.marks_later {e : Env} (mono : e.Mono) {k k' : Nat} {m m' : Meter} {log : List (Event Update)}
    (h : History e k m log k' m') : ∀ mark ∈ marks e.clock Update.counted log, e.clock (k - 1) ≤ mark.time := by
  induction h with
  | nil hk => intro mark hm; cases hm
  | @cons k k₁ k₂ k' i i₁ i' op out log hk hs _ ih =>
    intro mark hm
    have hle : k₁ ≤ k₂ := by
      cases op with
      | input u =>
        obtain ⟨n, _, hu⟩ := step_input_eq_some.mp hs
        exact (Meter.fwd_update _ _).le hu
      | snapshot into d => exact (M.Fwd.bind (Meter.fwd_putSnapshot _ _ _) fun _ => .pure _).le hs
    have hmono := mono (k - 1) (k₂ - 1) (by omega)
    have hih : mark ∈ marks e.clock Update.counted log → e.clock (k - 1) ≤ mark.time := fun h => hmono.trans (ih mark h)
    cases op with
    | snapshot into d => exact hih hm
    | input u =>
      simp only [marks] at hm
      cases hu : u.counted with
      | none => rw [hu] at hm; exact hih hm
      | some n =>
        rw [hu] at hm
        rcases List.mem_cons.mp hm with rfl | hm
        · exact hmono
        · exact hih hm

/-- The rate `rate'` is between the older rate `rate` and the rate `goal`. -/
def GoesTowards (goal rate rate' : Rat) : Prop := (rate ≤ rate' ∧ rate' ≤ goal) ∨ (goal ≤ rate' ∧ rate' ≤ rate)

/-- Two snapshots of a meter, with any use before and between them. If in all complete intervals from the one of the first snapshot on `c` were counted, each rate of the second snapshot is between
the one of the first and that of a single interval with `c`. -/
theorem C78_shown_approach {e : Env} (mono : e.Mono) (hr : IsSymmetricRounding e.rnd)
    (hw : ∀ alpha, MeterWeight e alpha → 0 ≤ alpha ∧ alpha ≤ 1 / 4) {k₀ k₁ k₂ k₃ k₄ k₅ : Nat}
    {m m₁ m₂ m₃ m₄ : Meter} (hnew : StdMeter.new e k₀ = some (m.inner, k₁)) {log log' : List (Event Update)}
    (h : History e k₁ m log k₂ m₁) {into s into' s' : Snapshot} {d d' : Bool}
    (hput : m₁.putSnapshot into d e k₂ = some ((m₂, s), k₃))
    (h' : History e k₃ m₂ log' k₄ m₃) (hput' : m₃.putSnapshot into' d' e k₄ = some ((m₄, s'), k₅))
    (hp : 0 < intervalOf (e.clock k₀) (e.clock k₂))
    (c : Nat) (hc : ∀ i, intervalOf (e.clock k₀) (e.clock k₂) ≤ i → i < intervalOf (e.clock k₀) (e.clock (k₅ - 1)) →
      inInterval (e.clock k₀) (marks e.clock Update.counted (log ++ log')) i = c) (hsmall : c < 2 ^ 64) :
    ∃ front front' count count' rate1 rate5 rate15 rate1' rate5' rate15',
      s = front ++ [(m.name, .snapshot (meterItems m count rate1 rate5 rate15))] ∧
      s' = front' ++ [(m.name, .snapshot (meterItems m count' rate1' rate5' rate15'))] ∧
      GoesTowards (e.rnd (instantRate e.rnd c * nanosPerSec)) rate1 rate1' ∧
      GoesTowards (e.rnd (instantRate e.rnd c * nanosPerSec)) rate5 rate5' ∧
      GoesTowards (e.rnd (instantRate e.rnd c * nanosPerSec)) rate15 rate15' := by
  obtain ⟨j, front, count, hj, hj', hs⟩ := C29_meter_rates mono hnew h hput
  have hsnap : History e k₂ m₁ [⟨k₂, .snapshot into d, .snapshot s, k₃⟩] k₃ m₂ := by
    refine .cons (k₁ := k₂) le_rfl ?_ (.nil le_rfl)
    change (do let (c', s) ← m₁.putSnapshot into d; return (c', Out.snapshot s) : M _) e k₂ = _
    rw [M.run_bind_some hput]
    rfl
  obtain ⟨i, front', count', hi, hi', hs'⟩ := C29_meter_rates mono hnew ((h.append hsnap).append h') hput'
  have hm : marks e.clock Update.counted ((log ++ [⟨k₂, .snapshot into d, .snapshot s, k₃⟩]) ++ log') =
      marks e.clock Update.counted (log ++ log') := by
    rw [marks_append, marks_append, marks_append]
    exact congrArg (· ++ _) (List.append_nil _)
  rw [hm] at hs'
  refine ⟨front, front', count, count', _, _, _, _, _, _, hs, hs', ?_⟩
  have hk : k₃ ≤ k₄ := Meter.history_le h'
  have key : ∀ alpha, MeterWeight e alpha → GoesTowards (e.rnd (instantRate e.rnd c * nanosPerSec))
      (rateAt e.rnd alpha (e.clock k₀) (marks e.clock Update.counted log) (e.clock j))
      (rateAt e.rnd alpha (e.clock k₀) (marks e.clock Update.counted (log ++ log')) (e.clock i)) := by
    intro alpha ha
    obtain ⟨h0, h1⟩ := hw alpha ha
    have hlater := Meter.marks_later mono h'
    have hold : rateAt e.rnd alpha (e.clock k₀) (marks e.clock Update.counted log) (e.clock j) =
        rateAt e.rnd alpha (e.clock k₀) (marks e.clock Update.counted (log ++ log')) (e.clock j) := by
      unfold rateAt
      rw [ewmaAfter_congr e.rnd alpha _ fun n hn => ?_]
      rw [marks_append]
      unfold inInterval
      rw [List.filter_append, (List.filter_eq_nil_iff (l := marks e.clock Update.counted log')).mpr, List.append_nil]
      intro mark hmark
      have a1 := hlater mark hmark
      have a2 := mono j (k₃ - 1) (by omega)
      simp only [decide_eq_true_eq]
      unfold intervalOf tickNs at hn ⊢
      omega
    rw [hold]
    have a1 := mono k₂ j hj
    have a2 := mono i (k₅ - 1) (by omega)
    refine C78_approach hr h0 h1 _ _ (mono _ _ (by omega)) (hp.trans_le (by unfold intervalOf tickNs; omega)) c fun n hn hn' => ?_
    rw [hc n ?_ ?_]
    · unfold wrapU64; omega
    · exact le_trans (by unfold intervalOf tickNs; omega) hn
    · exact hn'.trans_le (by unfold intervalOf tickNs; omega)
  exact ⟨key _ (.inl rfl), key _ (.inr (.inl rfl)), key _ (.inr (.inr rfl))⟩

theorem ValueMeter.marks_later {e : Env} (mono : e.Mono) {k k' : Nat} {m m' : ValueMeter} (unit : TimeUnit) {log : List (Event Update)}
    (h : History e k m log k' m') : ∀ mark ∈ marks e.clock (Update.metered unit) log, e.clock (k - 1) ≤ mark.time := by
  induction h with
  | nil hk => intro mark hm; cases hm
  | @cons k k₁ k₂ k' i i₁ i' op out log hk hs _ ih =>
    intro mark hm
    have hle : k₁ ≤ k₂ := by
      cases op with
      | input u =>
        obtain ⟨n, _, hu⟩ := step_input_eq_some.mp hs
        exact (ValueMeter.fwd_update _ _).le hu
      | snapshot into d => exact (M.Fwd.bind (ValueMeter.fwd_putSnapshot _ _ _) fun _ => .pure _).le hs
    have hmono := mono (k - 1) (k₂ - 1) (by omega)
    have hih : mark ∈ marks e.clock (Update.metered unit) log → e.clock (k - 1) ≤ mark.time := fun h => hmono.trans (ih mark h)
    cases op with
    | snapshot into d => exact hih hm
    | input u =>
      simp only [marks] at hm
      cases hu : u.metered unit with
      | none => rw [hu] at hm; exact hih hm
      | some n =>
        rw [hu] at hm
        rcases List.mem_cons.mp hm with rfl | hm
        · exact hmono
        · exact hih hm

/-- The same for a `ValueMeter`, which counts the values observed. -/
theorem C78_value_meter_shown_approach {e : Env} (mono : e.Mono) (hr : IsSymmetricRounding e.rnd)
    (hw : ∀ alpha, MeterWeight e alpha → 0 ≤ alpha ∧ alpha ≤ 1 / 4) {k₀ k₁ k₂ k₃ k₄ k₅ : Nat}
    {m m₁ m₂ m₃ m₄ : ValueMeter} (hnew : StdMeter.new e k₀ = some (m.meter.inner, k₁)) {log log' : List (Event Update)}
    (h : History e k₁ m log k₂ m₁) {into s into' s' : Snapshot} {d d' : Bool}
    (hput : m₁.putSnapshot into d e k₂ = some ((m₂, s), k₃))
    (h' : History e k₃ m₂ log' k₄ m₃) (hput' : m₃.putSnapshot into' d' e k₄ = some ((m₄, s'), k₅))
    (hp : 0 < intervalOf (e.clock k₀) (e.clock k₂))
    (c : Nat) (hc : ∀ i, intervalOf (e.clock k₀) (e.clock k₂) ≤ i → i < intervalOf (e.clock k₀) (e.clock (k₅ - 1)) →
      inInterval (e.clock k₀) (marks e.clock (Update.metered m.displayTimeUnit) (log ++ log')) i = c) (hsmall : c < 2 ^ 64) :
    ∃ front front' count count' rate1 rate5 rate15 rate1' rate5' rate15',
      s = front ++ [(m.meter.name, .snapshot (meterItems m.meter count rate1 rate5 rate15))] ∧
      s' = front' ++ [(m.meter.name, .snapshot (meterItems m.meter count' rate1' rate5' rate15'))] ∧
      GoesTowards (e.rnd (instantRate e.rnd c * nanosPerSec)) rate1 rate1' ∧
      GoesTowards (e.rnd (instantRate e.rnd c * nanosPerSec)) rate5 rate5' ∧
      GoesTowards (e.rnd (instantRate e.rnd c * nanosPerSec)) rate15 rate15' := by
  obtain ⟨j, front, count, hj, hj', hs⟩ := C29_value_meter_rates mono hnew h hput
  have hsnap : History e k₂ m₁ [⟨k₂, .snapshot into d, .snapshot s, k₃⟩] k₃ m₂ := by
    refine .cons (k₁ := k₂) le_rfl ?_ (.nil le_rfl)
    change (do let (c', s) ← m₁.putSnapshot into d; return (c', Out.snapshot s) : M _) e k₂ = _
    rw [M.run_bind_some hput]
    rfl
  obtain ⟨i, front', count', hi, hi', hs'⟩ := C29_value_meter_rates mono hnew ((h.append hsnap).append h') hput'
  have hm : marks e.clock (Update.metered m.displayTimeUnit) ((log ++ [⟨k₂, .snapshot into d, .snapshot s, k₃⟩]) ++ log') =
      marks e.clock (Update.metered m.displayTimeUnit) (log ++ log') := by
    rw [marks_append, marks_append, marks_append]
    exact congrArg (· ++ _) (List.append_nil _)
  rw [hm] at hs'
  refine ⟨front, front', count, count', _, _, _, _, _, _, hs, hs', ?_⟩
  have hk : k₃ ≤ k₄ := ValueMeter.history_le h'
  have key : ∀ alpha, MeterWeight e alpha → GoesTowards (e.rnd (instantRate e.rnd c * nanosPerSec))
      (rateAt e.rnd alpha (e.clock k₀) (marks e.clock (Update.metered m.displayTimeUnit) log) (e.clock j))
      (rateAt e.rnd alpha (e.clock k₀) (marks e.clock (Update.metered m.displayTimeUnit) (log ++ log')) (e.clock i)) := by
    intro alpha ha
    obtain ⟨h0, h1⟩ := hw alpha ha
    have hlater := ValueMeter.marks_later mono m.displayTimeUnit h'
    have hold : rateAt e.rnd alpha (e.clock k₀) (marks e.clock (Update.metered m.displayTimeUnit) log) (e.clock j) =
        rateAt e.rnd alpha (e.clock k₀) (marks e.clock (Update.metered m.displayTimeUnit) (log ++ log')) (e.clock j) := by
      unfold rateAt
      rw [ewmaAfter_congr e.rnd alpha _ fun n hn => ?_]
      rw [marks_append]
      unfold inInterval
      rw [List.filter_append, (List.filter_eq_nil_iff (l := marks e.clock (Update.metered m.displayTimeUnit) log')).mpr, List.append_nil]
      intro mark hmark
      have a1 := hlater mark hmark
      have a2 := mono j (k₃ - 1) (by omega)
      simp only [decide_eq_true_eq]
      unfold intervalOf tickNs at hn ⊢
      omega
    rw [hold]
    have a1 := mono k₂ j hj
    have a2 := mono i (k₅ - 1) (by omega)
    refine C78_approach hr h0 h1 _ _ (mono _ _ (by omega)) (hp.trans_le (by unfold intervalOf tickNs; omega)) c fun n hn hn' => ?_
    rw [hc n ?_ ?_]
    · unfold wrapU64; omega
    · exact le_trans (by unfold intervalOf tickNs; omega) hn
    · exact hn'.trans_le (by unfold intervalOf tickNs; omega)
  exact ⟨key _ (.inl rfl), key _ (.inr (.inl rfl)), key _ (.inr (.inr rfl))⟩

/-- The history of the example of C29 meets the hypotheses of `C78_shown_steady` with a snapshot that begins at its end: there is
one complete interval, and 3 were counted in it. -/
example : 0 < intervalOf (ticking.clock 1) (ticking.clock 14) ∧
    ∀ i, i < intervalOf (ticking.clock 1) (ticking.clock (16 - 1)) → inInterval (ticking.clock 1)
      (marks ticking.clock Update.counted [⟨2, .input (.observations 3 0), .updated 1, 4⟩,
        ⟨10, .input (.observation 0), .updated 1, 14⟩]) i = 3 := by
  refine ⟨by decide, fun i hi => ?_⟩
  rw [show intervalOf (ticking.clock 1) (ticking.clock (16 - 1)) = 1 by decide] at hi
  obtain rfl : i = 0 := by omega
  decide

/-- In the second interval of that history 1 was counted. It is complete at the 17th clock reading, so the hypothesis of
`C78_shown_approach` is met with `c = 1`: the rates go from 3/5 towards 1/5. -/
example : ∀ i, intervalOf (ticking.clock 1) (ticking.clock 14) ≤ i → i < intervalOf (ticking.clock 1) (ticking.clock (18 - 1)) →
    inInterval (ticking.clock 1) (marks ticking.clock Update.counted ([⟨2, .input (.observations 3 0), .updated 1, 4⟩,
        ⟨10, .input (.observation 0), .updated 1, 14⟩] ++ [])) i = 1 := by
  intro i hi hi'
  rw [show intervalOf (ticking.clock 1) (ticking.clock 14) = 1 by decide] at hi
  rw [show intervalOf (ticking.clock 1) (ticking.clock (18 - 1)) = 2 by decide] at hi'
  obtain rfl : i = 1 := by omega
  decide

/-- The same for a value meter: the values 3 and 1. -/
example : ∀ i, intervalOf (ticking.clock 1) (ticking.clock 14) ≤ i → i < intervalOf (ticking.clock 1) (ticking.clock (18 - 1)) →
    inInterval (ticking.clock 1) (marks ticking.clock (Update.metered .milliseconds)
      ([⟨2, .input (.withValue (.signedInteger 3) 0), .updated 1, 4⟩,
        ⟨10, .input (.withValue (.signedInteger 1) 0), .updated 1, 14⟩] ++ [])) i = 1 := by
  intro i hi hi'
  rw [show intervalOf (ticking.clock 1) (ticking.clock 14) = 1 by decide] at hi
  rw [show intervalOf (ticking.clock 1) (ticking.clock (18 - 1)) = 2 by decide] at hi'
  obtain rfl : i = 1 := by omega
  decide

/-- 10 occurrences in the first interval, then 20 in each: 2 per second at first, after two more intervals 4 - 2 * (9/10)^2. -/
example : rateAt id (1 / 10) 0 [⟨1000000000, 10⟩, ⟨6000000000, 20⟩, ⟨12000000000, 20⟩] 5000000000 = 2 ∧
    rateAt id (1 / 10) 0 [⟨1000000000, 10⟩, ⟨6000000000, 20⟩, ⟨12000000000, 20⟩] 15000000000 = 119 / 50 := by
  have a : intervalOf 0 5000000000 = 1 := by decide
  have b : intervalOf 0 15000000000 = 3 := by decide
  have h1 : rateAt id (1 / 10) 0 [⟨1000000000, 10⟩, ⟨6000000000, 20⟩, ⟨12000000000, 20⟩] 5000000000 = 2 := by
    rw [C78_steady_exact (by norm_num) (by norm_num) _ _ _ (by decide) 10]
    · norm_num
    · intro i hi
      rw [a] at hi
      obtain rfl : i = 0 := by omega
      decide
  refine ⟨h1, ?_⟩
  have := C78_approach_exact (alpha := 1 / 10) 0 [⟨1000000000, 10⟩, ⟨6000000000, 20⟩, ⟨12000000000, 20⟩]
    (t := 5000000000) (t' := 15000000000) (by decide) (by decide) 20 (by
      intro i hi hi'
      rw [a] at hi; rw [b] at hi'
      obtain rfl | rfl : i = 1 ∨ i = 2 := by omega
      · decide
      · decide)
  rw [h1, a, b] at this
  norm_num at this
  linarith

end Metrix
