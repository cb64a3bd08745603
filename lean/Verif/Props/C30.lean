import Verif.Props.C29
import Verif.Proof.Forward
import Verif.Proof.Ewma
import Verif.Proof.Binary64
import Mathlib.Tactic.IntervalCases

/-! # C30: meter rates are sane

`rateAt` (see C29) is what a meter shows. With exact arithmetic (`rnd = id`) everything holds for all weights in
[0, 1]; with rounding for weights up to 1/4 (a meter's largest one is `1 - exp(-1/12)`, about 0.08). -/

namespace Metrix

/-- Rates are never negative. -/
theorem C30_nonneg {rnd : Rat → Rat} (h : IsSymmetricRounding rnd) {alpha : Rat} (h0 : 0 ≤ alpha) (h1 : alpha ≤ 1 / 4)
    (start : Int) (ms : List Mark) (t : Int) : 0 ≤ rateAt rnd alpha start ms t := by
  unfold rateAt
  rw [← h.zero]
  exact h.mono (mul_nonneg ((Averaging.of_rounding h h0 h1).nonneg _ _) (by positivity))

theorem C30_nonneg_exact {alpha : Rat} (h0 : 0 ≤ alpha) (h1 : alpha ≤ 1)
    (start : Int) (ms : List Mark) (t : Int) : 0 ≤ rateAt id alpha start ms t :=
  mul_nonneg ((Averaging.exact h0 h1).nonneg _ _) (by positivity)

/-- Before the first interval is complete the rate is 0; later there is always a complete interval whose own rate is at
least the shown one: the highest interval rate is never exceeded. -/
theorem C30_highest {rnd : Rat → Rat} (h : IsSymmetricRounding rnd) {alpha : Rat} (h0 : 0 ≤ alpha) (h1 : alpha ≤ 1 / 4)
    (start : Int) (ms : List Mark) (t : Int) :
    (intervalOf start t = 0 → rateAt rnd alpha start ms t = 0) ∧
    (0 < intervalOf start t → ∃ i, i < intervalOf start t ∧
      rateAt rnd alpha start ms t ≤ rnd (instantRate rnd (wrapU64 (inInterval start ms i)) * nanosPerSec)) := by
  constructor
  · intro hz; simp [rateAt, hz, ewmaAfter, h.zero]
  · intro hp
    obtain ⟨i, hi, hle⟩ := (Averaging.of_rounding h h0 h1).highest
      (fun i => wrapU64 (inInterval start ms i)) _ hp
    exact ⟨i, hi, h.mono (mul_le_mul_of_nonneg_right hle (by positivity))⟩

theorem C30_highest_exact {alpha : Rat} (h0 : 0 ≤ alpha) (h1 : alpha ≤ 1)
    (start : Int) (ms : List Mark) (t : Int) (hp : 0 < intervalOf start t) :
    ∃ i, i < intervalOf start t ∧ rateAt id alpha start ms t ≤ (wrapU64 (inInterval start ms i) : Rat) / 5 := by
  obtain ⟨i, hi, hle⟩ := (Averaging.exact h0 h1).highest (fun i => wrapU64 (inInterval start ms i)) _ hp
  refine ⟨i, hi, ?_⟩
  unfold rateAt
  simp only [instantRate, id_eq, tickNs, nanosPerSec] at hle ⊢
  push_cast at hle ⊢
  linarith

/-- Without new occurrences rates never increase. -/
theorem C30_idle {rnd : Rat → Rat} (h : IsSymmetricRounding rnd) {alpha : Rat} (h0 : 0 ≤ alpha) (h1 : alpha ≤ 1 / 4)
    (start : Int) (ms : List Mark) {t t' : Int} (ht : t ≤ t')
    (hidle : ∀ i, intervalOf start t ≤ i → i < intervalOf start t' → inInterval start ms i = 0) :
    rateAt rnd alpha start ms t' ≤ rateAt rnd alpha start ms t := by
  unfold rateAt
  refine h.mono (mul_le_mul_of_nonneg_right ?_ (by positivity))
  obtain ⟨j, hj⟩ : ∃ j, intervalOf start t' = intervalOf start t + j :=
    ⟨intervalOf start t' - intervalOf start t, by
      have : intervalOf start t ≤ intervalOf start t' := by unfold intervalOf tickNs; omega
      omega⟩
  rw [hj] at hidle ⊢
  exact (Averaging.of_rounding h h0 h1).idle _ _ j fun i hi hij => by rw [hidle i hi hij]; rfl

/-- In exact arithmetic they decay by exactly `1 - alpha` per 5 seconds. -/
theorem C30_geometric_exact {alpha : Rat} (start : Int) (ms : List Mark) {t t' : Int}
    (ht : t ≤ t') (hfirst : 0 < intervalOf start t)
    (hidle : ∀ i, intervalOf start t ≤ i → i < intervalOf start t' → inInterval start ms i = 0) :
    rateAt id alpha start ms t' =
      (1 - alpha) ^ (intervalOf start t' - intervalOf start t) * rateAt id alpha start ms t := by
  have hle : intervalOf start t ≤ intervalOf start t' := by unfold intervalOf tickNs; omega
  obtain ⟨m, hm⟩ : ∃ m, intervalOf start t = m + 1 := ⟨intervalOf start t - 1, by omega⟩
  obtain ⟨j, hj⟩ : ∃ j, intervalOf start t' = m + 1 + j := ⟨intervalOf start t' - (m + 1), by omega⟩
  rw [hm, hj] at hidle
  unfold rateAt
  rw [hm, hj, ewma_geometric _ m j fun i hi hij => by rw [hidle i hi hij]; rfl]
  simp only [id_eq, Nat.add_sub_cancel_left]
  ring

/-- With rounding errors of at most `u` relative plus `eta` absolute per operation (for `f64`: 2^-53 and
2^-1075) the internal rate (per nanosecond) deviates from that by at most `2 * u * rate + 2 * eta` per 5 seconds. -/
theorem C30_geometric_rounded {rnd : Rat → Rat} (h : IsSymmetricRounding rnd) {alpha u eta : Rat} (h0 : 0 ≤ alpha)
    (h1 : alpha ≤ 1 / 4) (hu : 0 ≤ u) (heta : 0 ≤ eta) (herr : ∀ x, |rnd x - x| ≤ u * |x| + eta)
    (count : Nat → Nat) {m j : Nat} (hfirst : 0 < m) (hidle : ∀ i, m ≤ i → i < m + j → count i = 0) :
    |ewmaAfter rnd alpha count (m + j) - (1 - alpha) ^ j * ewmaAfter rnd alpha count m| ≤
      j * (2 * u * ewmaAfter rnd alpha count m + 2 * eta) := by
  obtain ⟨m, rfl⟩ : ∃ n, m = n + 1 := ⟨m - 1, by omega⟩
  exact ewma_geometric_error h h0 h1 hu heta herr count m j hidle

/-- Rounding to `f64` (`binary64`) is a rounding as assumed above, with `u = 2^-53` and `eta = 2^-1075`. -/
theorem C30_binary64 : IsSymmetricRounding binary64 ∧
    ∀ x, |binary64 x - x| ≤ 2 ^ (-53 : Int) * |x| + 2 ^ (-1075 : Int) :=
  ⟨binary64_isSymmetricRounding, binary64_error⟩

theorem marks_append (clock : Nat → Int) (amount : Update → Option Int) (log log' : List (Event Update)) :
    marks clock amount (log ++ log') = marks clock amount log ++ marks clock amount log' := by
  induction log with
  | nil => rfl
  | cons ev log ih =>
    obtain ⟨start, op, out, stop⟩ := ev
    cases op with
    | snapshot s d => simpa only [List.cons_append, marks] using ih
    | input u =>
      simp only [List.cons_append, marks, ih]
      cases amount u <;> rfl

theorem marks_eq_nil (clock : Nat → Int) {amount : Update → Option Int} {log : List (Event Update)}
    (h : ∀ u ∈ inputs log, amount u = none) : marks clock amount log = [] := by
  induction log with
  | nil => rfl
  | cons ev log ih =>
    obtain ⟨start, op, out, stop⟩ := ev
    cases op with
    | snapshot s d => exact ih h
    | input u =>
      simp only [inputs, List.mem_cons, forall_eq_or_imp] at h
      simp only [marks, h.1]
      exact ih h.2

/-- The weights that the averages of a meter use. -/
def MeterWeight (e : Env) (alpha : Rat) : Prop := alpha = e.alpha1 ∨ alpha = e.alpha5 ∨ alpha = e.alpha15

/-- What a snapshot of a meter shows, however it was used before: rates that are not negative, and each is 0 or there is a
complete interval whose own rate is at least as high. -/
theorem C30_shown {e : Env} (mono : e.Mono) (hr : IsSymmetricRounding e.rnd)
    (hw : ∀ alpha, MeterWeight e alpha → 0 ≤ alpha ∧ alpha ≤ 1 / 4) {k₀ k₁ k₂ k₃ : Nat} {m m' m'' : Meter}
    (hnew : StdMeter.new e k₀ = some (m.inner, k₁)) {log : List (Event Update)}
    (h : History e k₁ m log k₂ m') {into s : Snapshot} {d : Bool}
    (hput : m'.putSnapshot into d e k₂ = some ((m'', s), k₃)) :
    ∃ front count rate1 rate5 rate15,
      s = front ++ [(m.name, .snapshot (meterItems m count rate1 rate5 rate15))] ∧
      ∀ rate ∈ [rate1, rate5, rate15], 0 ≤ rate ∧
        (rate = 0 ∨ ∃ i, i < intervalOf (e.clock k₀) (e.clock (k₃ - 1)) ∧ rate ≤ e.rnd (instantRate e.rnd
          (wrapU64 (inInterval (e.clock k₀) (marks e.clock Update.counted log) i)) * nanosPerSec)) := by
  obtain ⟨j, front, count, hj, hj', hs⟩ := C29_meter_rates mono hnew h hput
  refine ⟨front, count, _, _, _, hs, ?_⟩
  have key : ∀ alpha, MeterWeight e alpha →
      0 ≤ rateAt e.rnd alpha (e.clock k₀) (marks e.clock Update.counted log) (e.clock j) ∧
      (rateAt e.rnd alpha (e.clock k₀) (marks e.clock Update.counted log) (e.clock j) = 0 ∨
        ∃ i, i < intervalOf (e.clock k₀) (e.clock (k₃ - 1)) ∧
          rateAt e.rnd alpha (e.clock k₀) (marks e.clock Update.counted log) (e.clock j) ≤ e.rnd (instantRate e.rnd
            (wrapU64 (inInterval (e.clock k₀) (marks e.clock Update.counted log) i)) * nanosPerSec)) := by
    intro alpha ha
    obtain ⟨h0, h1⟩ := hw alpha ha
    refine ⟨C30_nonneg hr h0 h1 _ _ _, ?_⟩
    obtain ⟨hz, hp⟩ := C30_highest hr h0 h1 (e.clock k₀) (marks e.clock Update.counted log) (e.clock j)
    by_cases hi : intervalOf (e.clock k₀) (e.clock j) = 0
    · exact .inl (hz hi)
    · obtain ⟨i, hi, hle⟩ := hp (Nat.pos_of_ne_zero hi)
      refine .inr ⟨i, hi.trans_le ?_, hle⟩
      have := mono j (k₃ - 1) (by omega)
      unfold intervalOf tickNs
      omega
  intro rate hrate
  simp only [List.mem_cons, List.not_mem_nil, or_false] at hrate
  rcases hrate with rfl | rfl | rfl
  · exact key _ (.inl rfl)
  · exact key _ (.inr (.inl rfl))
  · exact key _ (.inr (.inr rfl))

/-- The same for a `ValueMeter`, where the values observed in an interval are counted: rates that are not negative, and each is 0 or there is a
complete interval whose own rate is at least as high. -/
theorem C30_value_meter_shown {e : Env} (mono : e.Mono) (hr : IsSymmetricRounding e.rnd)
    (hw : ∀ alpha, MeterWeight e alpha → 0 ≤ alpha ∧ alpha ≤ 1 / 4) {k₀ k₁ k₂ k₃ : Nat} {m m' m'' : ValueMeter}
    (hnew : StdMeter.new e k₀ = some (m.meter.inner, k₁)) {log : List (Event Update)}
    (h : History e k₁ m log k₂ m') {into s : Snapshot} {d : Bool}
    (hput : m'.putSnapshot into d e k₂ = some ((m'', s), k₃)) :
    ∃ front count rate1 rate5 rate15,
      s = front ++ [(m.meter.name, .snapshot (meterItems m.meter count rate1 rate5 rate15))] ∧
      ∀ rate ∈ [rate1, rate5, rate15], 0 ≤ rate ∧
        (rate = 0 ∨ ∃ i, i < intervalOf (e.clock k₀) (e.clock (k₃ - 1)) ∧ rate ≤ e.rnd (instantRate e.rnd
          (wrapU64 (inInterval (e.clock k₀) (marks e.clock (Update.metered m.displayTimeUnit) log) i)) * nanosPerSec)) := by
  obtain ⟨j, front, count, hj, hj', hs⟩ := C29_value_meter_rates mono hnew h hput
  refine ⟨front, count, _, _, _, hs, ?_⟩
  have key : ∀ alpha, MeterWeight e alpha →
      0 ≤ rateAt e.rnd alpha (e.clock k₀) (marks e.clock (Update.metered m.displayTimeUnit) log) (e.clock j) ∧
      (rateAt e.rnd alpha (e.clock k₀) (marks e.clock (Update.metered m.displayTimeUnit) log) (e.clock j) = 0 ∨
        ∃ i, i < intervalOf (e.clock k₀) (e.clock (k₃ - 1)) ∧
          rateAt e.rnd alpha (e.clock k₀) (marks e.clock (Update.metered m.displayTimeUnit) log) (e.clock j) ≤ e.rnd (instantRate e.rnd
            (wrapU64 (inInterval (e.clock k₀) (marks e.clock (Update.metered m.displayTimeUnit) log) i)) * nanosPerSec)) := by
    intro alpha ha
    obtain ⟨h0, h1⟩ := hw alpha ha
    refine ⟨C30_nonneg hr h0 h1 _ _ _, ?_⟩
    obtain ⟨hz, hp⟩ := C30_highest hr h0 h1 (e.clock k₀) (marks e.clock (Update.metered m.displayTimeUnit) log) (e.clock j)
    by_cases hi : intervalOf (e.clock k₀) (e.clock j) = 0
    · exact .inl (hz hi)
    · obtain ⟨i, hi, hle⟩ := hp (Nat.pos_of_ne_zero hi)
      refine .inr ⟨i, hi.trans_le ?_, hle⟩
      have := mono j (k₃ - 1) (by omega)
      unfold intervalOf tickNs
      omega
  intro rate hrate
  simp only [List.mem_cons, List.not_mem_nil, or_false] at hrate
  rcases hrate with rfl | rfl | rfl
  · exact key _ (.inl rfl)
  · exact key _ (.inr (.inl rfl))
  · exact key _ (.inr (.inr rfl))

theorem Meter.history_le {e : Env} {k k' : Nat} {m m' : Meter} {log : List (Event Update)}
    (h : History e k m log k' m') : k ≤ k' := by
  induction h with
  | nil hk => exact hk
  | @cons k k₁ k₂ k' i i₁ i' op out log hk hs _ ih =>
    refine (hk.trans ?_).trans ih
    cases op with
    | input u =>
      obtain ⟨n, _, hu⟩ := step_input_eq_some.mp hs
      exact (Meter.fwd_update _ _).le hu
    | snapshot into d => exact (M.Fwd.bind (Meter.fwd_putSnapshot _ _ _) fun _ => .pure _).le hs

/-- If everything was counted before the interval of a snapshot, and nothing is counted until the next one, then
no rate shown there is higher. -/
theorem C30_shown_idle {e : Env} (mono : e.Mono) (hr : IsSymmetricRounding e.rnd)
    (hw : ∀ alpha, MeterWeight e alpha → 0 ≤ alpha ∧ alpha ≤ 1 / 4) {k₀ k₁ k₂ k₃ k₄ k₅ : Nat}
    {m m₁ m₂ m₃ m₄ : Meter} (hnew : StdMeter.new e k₀ = some (m.inner, k₁)) {log log' : List (Event Update)}
    (h : History e k₁ m log k₂ m₁) {into s into' s' : Snapshot} {d d' : Bool}
    (hput : m₁.putSnapshot into d e k₂ = some ((m₂, s), k₃))
    (h' : History e k₃ m₂ log' k₄ m₃) (hidle : ∀ u ∈ inputs log', u.counted = none)
    (hput' : m₃.putSnapshot into' d' e k₄ = some ((m₄, s'), k₅))
    (hold : ∀ mark ∈ marks e.clock Update.counted log,
      intervalOf (e.clock k₀) mark.time < intervalOf (e.clock k₀) (e.clock k₂)) :
    ∃ front front' count count' rate1 rate5 rate15 rate1' rate5' rate15',
      s = front ++ [(m.name, .snapshot (meterItems m count rate1 rate5 rate15))] ∧
      s' = front' ++ [(m.name, .snapshot (meterItems m count' rate1' rate5' rate15'))] ∧
      rate1' ≤ rate1 ∧ rate5' ≤ rate5 ∧ rate15' ≤ rate15 := by
  obtain ⟨j, front, count, hj, hj', hs⟩ := C29_meter_rates mono hnew h hput
  have hsnap : History e k₂ m₁ [⟨k₂, .snapshot into d, .snapshot s, k₃⟩] k₃ m₂ := by
    refine .cons (k₁ := k₂) le_rfl ?_ (.nil le_rfl)
    change (do let (c', s) ← m₁.putSnapshot into d; return (c', Out.snapshot s) : M _) e k₂ = _
    rw [M.run_bind_some hput]
    rfl
  obtain ⟨i, front', count', hi, hi', hs'⟩ := C29_meter_rates mono hnew ((h.append hsnap).append h') hput'
  have hm : marks e.clock Update.counted ((log ++ [⟨k₂, .snapshot into d, .snapshot s, k₃⟩]) ++ log') =
      marks e.clock Update.counted log := by
    rw [marks_append, marks_append, marks_eq_nil _ hidle, List.append_nil]
    exact List.append_nil _
  rw [hm] at hs'
  refine ⟨front, front', count, count', _, _, _, _, _, _, hs, hs', ?_⟩
  have hk : k₃ ≤ k₄ := Meter.history_le h'
  have key : ∀ alpha, MeterWeight e alpha →
      rateAt e.rnd alpha (e.clock k₀) (marks e.clock Update.counted log) (e.clock i) ≤
      rateAt e.rnd alpha (e.clock k₀) (marks e.clock Update.counted log) (e.clock j) := by
    intro alpha ha
    obtain ⟨h0, h1⟩ := hw alpha ha
    refine C30_idle hr h0 h1 _ _ (mono _ _ (by omega)) ?_
    intro n hn _
    have hle : intervalOf (e.clock k₀) (e.clock k₂) ≤ intervalOf (e.clock k₀) (e.clock j) := by
      have := mono k₂ j hj
      unfold intervalOf tickNs
      omega
    unfold inInterval
    rw [List.filter_eq_nil_iff.mpr]
    · rfl
    · intro mark hmark
      have := hold mark hmark
      simp only [decide_eq_true_eq]
      omega
  exact ⟨key _ (.inl rfl), key _ (.inr (.inl rfl)), key _ (.inr (.inr rfl))⟩

theorem ValueMeter.history_le {e : Env} {k k' : Nat} {m m' : ValueMeter} {log : List (Event Update)}
    (h : History e k m log k' m') : k ≤ k' := by
  induction h with
  | nil hk => exact hk
  | @cons k k₁ k₂ k' i i₁ i' op out log hk hs _ ih =>
    refine (hk.trans ?_).trans ih
    cases op with
    | input u =>
      obtain ⟨n, _, hu⟩ := step_input_eq_some.mp hs
      exact (ValueMeter.fwd_update _ _).le hu
    | snapshot into d => exact (M.Fwd.bind (ValueMeter.fwd_putSnapshot _ _ _) fun _ => .pure _).le hs

/-- The same for a `ValueMeter`, which counts the values observed. -/
theorem C30_value_meter_shown_idle {e : Env} (mono : e.Mono) (hr : IsSymmetricRounding e.rnd)
    (hw : ∀ alpha, MeterWeight e alpha → 0 ≤ alpha ∧ alpha ≤ 1 / 4) {k₀ k₁ k₂ k₃ k₄ k₅ : Nat}
    {m m₁ m₂ m₃ m₄ : ValueMeter} (hnew : StdMeter.new e k₀ = some (m.meter.inner, k₁)) {log log' : List (Event Update)}
    (h : History e k₁ m log k₂ m₁) {into s into' s' : Snapshot} {d d' : Bool}
    (hput : m₁.putSnapshot into d e k₂ = some ((m₂, s), k₃))
    (h' : History e k₃ m₂ log' k₄ m₃) (hidle : ∀ u ∈ inputs log', u.metered m.displayTimeUnit = none)
    (hput' : m₃.putSnapshot into' d' e k₄ = some ((m₄, s'), k₅))
    (hold : ∀ mark ∈ marks e.clock (Update.metered m.displayTimeUnit) log,
      intervalOf (e.clock k₀) mark.time < intervalOf (e.clock k₀) (e.clock k₂)) :
    ∃ front front' count count' rate1 rate5 rate15 rate1' rate5' rate15',
      s = front ++ [(m.meter.name, .snapshot (meterItems m.meter count rate1 rate5 rate15))] ∧
      s' = front' ++ [(m.meter.name, .snapshot (meterItems m.meter count' rate1' rate5' rate15'))] ∧
      rate1' ≤ rate1 ∧ rate5' ≤ rate5 ∧ rate15' ≤ rate15 := by
  obtain ⟨j, front, count, hj, hj', hs⟩ := C29_value_meter_rates mono hnew h hput
  have hsnap : History e k₂ m₁ [⟨k₂, .snapshot into d, .snapshot s, k₃⟩] k₃ m₂ := by
    refine .cons (k₁ := k₂) le_rfl ?_ (.nil le_rfl)
    change (do let (c', s) ← m₁.putSnapshot into d; return (c', Out.snapshot s) : M _) e k₂ = _
    rw [M.run_bind_some hput]
    rfl
  obtain ⟨i, front', count', hi, hi', hs'⟩ := C29_value_meter_rates mono hnew ((h.append hsnap).append h') hput'
  have hm : marks e.clock (Update.metered m.displayTimeUnit) ((log ++ [⟨k₂, .snapshot into d, .snapshot s, k₃⟩]) ++ log') =
      marks e.clock (Update.metered m.displayTimeUnit) log := by
    rw [marks_append, marks_append, marks_eq_nil _ hidle, List.append_nil]
    exact List.append_nil _
  rw [hm] at hs'
  refine ⟨front, front', count, count', _, _, _, _, _, _, hs, hs', ?_⟩
  have hk : k₃ ≤ k₄ := ValueMeter.history_le h'
  have key : ∀ alpha, MeterWeight e alpha →
      rateAt e.rnd alpha (e.clock k₀) (marks e.clock (Update.metered m.displayTimeUnit) log) (e.clock i) ≤
      rateAt e.rnd alpha (e.clock k₀) (marks e.clock (Update.metered m.displayTimeUnit) log) (e.clock j) := by
    intro alpha ha
    obtain ⟨h0, h1⟩ := hw alpha ha
    refine C30_idle hr h0 h1 _ _ (mono _ _ (by omega)) ?_
    intro n hn _
    have hle : intervalOf (e.clock k₀) (e.clock k₂) ≤ intervalOf (e.clock k₀) (e.clock j) := by
      have := mono k₂ j hj
      unfold intervalOf tickNs
      omega
    unfold inInterval
    rw [List.filter_eq_nil_iff.mpr]
    · rfl
    · intro mark hmark
      have := hold mark hmark
      simp only [decide_eq_true_eq]
      omega
  exact ⟨key _ (.inl rfl), key _ (.inr (.inl rfl)), key _ (.inr (.inr rfl))⟩

/-- Exact arithmetic is a symmetric rounding. -/
example : IsSymmetricRounding id := ⟨monotone_id, fun _ => rfl, fun _ => rfl, fun x hx => by simp; linarith⟩

/-- The environment of the example of C29 has weights as assumed; what that example's first update counted lies in an
interval before the one of the 20th clock reading. -/
example : (∀ alpha, MeterWeight ticking alpha → 0 ≤ alpha ∧ alpha ≤ 1 / 4) ∧
    IsSymmetricRounding ticking.rnd ∧
    ∀ mark ∈ marks ticking.clock Update.counted [⟨2, .input (.observations 3 0), .updated 1, 4⟩],
      intervalOf (ticking.clock 1) mark.time < intervalOf (ticking.clock 1) (ticking.clock 20) := by
  refine ⟨?_, ⟨monotone_id, fun _ => rfl, fun _ => rfl, fun x hx => by simp only [ticking]; linarith⟩, by decide⟩
  rintro alpha (rfl | rfl | rfl) <;> norm_num [ticking]

/-- 10 occurrences in the first interval, then silence: 2 per second, then 2 * 9/10, ... -/
example : rateAt id (1 / 10) 0 [⟨1000000000, 10⟩] 5000000000 = 2 ∧
    rateAt id (1 / 10) 0 [⟨1000000000, 10⟩] 15000000000 = 81 / 50 := by
  have h1 : rateAt id (1 / 10) 0 [⟨1000000000, 10⟩] 5000000000 = 2 := by
    have : intervalOf 0 5000000000 = 1 := by decide
    unfold rateAt; rw [this]
    simp only [ewmaAfter, instantRate]
    rw [show wrapU64 (inInterval 0 [⟨1000000000, 10⟩] 0) = 10 by decide]
    norm_num [tickNs, nanosPerSec]
  refine ⟨h1, ?_⟩
  rw [C30_geometric_exact (t := 5000000000) 0 _ (by decide) (by decide) ?_, h1]
  · rw [show intervalOf 0 15000000000 - intervalOf 0 5000000000 = 2 by decide]; norm_num
  · intro i hi hi'
    have a : intervalOf 0 5000000000 = 1 := by decide
    have b : intervalOf 0 15000000000 = 3 := by decide
    rw [a] at hi; rw [b] at hi'
    interval_cases i <;> decide

theorem ticking_weights (alpha : Rat) (h : MeterWeight ticking alpha) : 0 ≤ alpha ∧ alpha ≤ 1 / 4 := by
  rcases h with rfl | rfl | rfl <;> norm_num [ticking]

theorem ticking_symmetric : IsSymmetricRounding ticking.rnd :=
  ⟨monotone_id, fun _ => rfl, fun _ => rfl, fun x hx => by simp only [ticking]; linarith⟩

example := C30_nonneg C30_binary64.1 (alpha := 1 / 10) (by norm_num) (by norm_num) 0 [⟨1000000000, 10⟩] 5000000000
example := C30_nonneg_exact (alpha := 1 / 10) (by norm_num) (by norm_num) 0 [⟨1000000000, 10⟩] 5000000000
example := (C30_highest C30_binary64.1 (alpha := 1 / 10) (by norm_num) (by norm_num) 0 [⟨1000000000, 10⟩] 5000000000).2 (by decide)
example := C30_highest_exact (alpha := 1 / 10) (by norm_num) (by norm_num) 0 [⟨1000000000, 10⟩] 5000000000 (by decide)
example := C30_idle C30_binary64.1 (alpha := 1 / 10) (by norm_num) (by norm_num) 0 [⟨1000000000, 10⟩] (t := 5000000000)
  (t' := 15000000000) (by decide) (by decide)
example := C30_geometric_exact (alpha := 1 / 10) 0 [⟨1000000000, 10⟩] (t := 5000000000) (t' := 15000000000) (by decide) (by decide)
  (by decide)
example := C30_geometric_rounded C30_binary64.1 (alpha := 1 / 10) (by norm_num) (by norm_num) (zpow_nonneg (by norm_num) _) (zpow_nonneg (by norm_num) _)
  C30_binary64.2 (fun i => if i = 0 then 10 else 0) (m := 1) (j := 5) (by decide) (fun i h _ => if_neg (by omega))
example : True := by
  obtain ⟨_, _, _, ⟨h, _⟩, _, _, _, hput⟩ := newMeter_used
  have := C30_shown ticking_mono ticking_symmetric ticking_weights (k₀ := 1) rfl h hput
  obtain ⟨_, _, _, ⟨h, _⟩, _, _, _, hput⟩ := newValueMeter_used
  have := C30_value_meter_shown ticking_mono ticking_symmetric ticking_weights (k₀ := 1) rfl h hput
  trivial

/-- An update, a snapshot more than 14 s later, another one still later. -/
example : True := by
  obtain ⟨⟨m₁, _⟩, k₁, h⟩ := Meter.ok_update (e := ticking) rfl newMeter (.observation 0) 2
  obtain ⟨⟨m₂, _⟩, k₂, hput⟩ := Meter.ok_putSnapshot (e := ticking) rfl m₁ [] true (k₁ + 20)
  obtain ⟨⟨m₃, _⟩, k₃, hput'⟩ := Meter.ok_putSnapshot (e := ticking) rfl m₂ [] true (k₂ + 20)
  have := C30_shown_idle ticking_mono ticking_symmetric ticking_weights (k₀ := 1) (m := newMeter) rfl
    (.cons (op := .input (.observation 0)) (Nat.le_refl 2) (step_input_eq_some.mpr ⟨_, rfl, h⟩) (.nil (Nat.le_add_right k₁ 20)))
    hput (.nil (Nat.le_add_right k₂ 20)) nofun hput' (by
      intro mark hm
      have hm : mark ∈ [(⟨ticking.clock (k₁ - 1), 1⟩ : Mark)] := hm
      obtain rfl := List.mem_singleton.mp hm
      simp only [intervalOf, ticking, tickNs]
      omega)
  trivial

/-- The same for a value meter. -/
example : True := by
  obtain ⟨⟨m₁, _⟩, k₁, h⟩ := ValueMeter.ok_update (e := ticking) rfl newValueMeter (.withValue (.signedInteger 7) 0) 2
  obtain ⟨⟨m₂, _⟩, k₂, hput⟩ := ValueMeter.ok_putSnapshot (e := ticking) rfl m₁ [] true (k₁ + 20)
  obtain ⟨⟨m₃, _⟩, k₃, hput'⟩ := ValueMeter.ok_putSnapshot (e := ticking) rfl m₂ [] true (k₂ + 20)
  have := C30_value_meter_shown_idle ticking_mono ticking_symmetric ticking_weights (k₀ := 1) (m := newValueMeter) rfl
    (.cons (op := .input (.withValue (.signedInteger 7) 0)) (Nat.le_refl 2) (step_input_eq_some.mpr ⟨_, rfl, h⟩)
      (.nil (Nat.le_add_right k₁ 20)))
    hput (.nil (Nat.le_add_right k₂ 20)) nofun hput' (by
      intro mark hm
      have hm : mark ∈ [(⟨ticking.clock (k₁ - 1), 7⟩ : Mark)] := hm
      obtain rfl := List.mem_singleton.mp hm
      simp only [intervalOf, ticking, tickNs]
      omega)
  trivial

end Metrix
