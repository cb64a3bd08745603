import Verif.Props.C24
import Verif.Proof.Binary64

/-! # C27: order of tracked statistics -/

namespace Metrix

/-- The greatest and least values are ordered, whatever the window holds. By `C24_window` every snapshot of a
tracking gauge shows such statistics. -/
theorem C27_order {rnd : Rat → Rat} {cur : Int} {w : List (List Int)} {s : BucketsStats}
    (h : IsStats rnd cur w s) :
    s.bottom ≤ s.bottomMax ∧ s.peakMin ≤ s.peak ∧ s.bottomMax ≤ s.peak ∧ s.bottom ≤ s.peakMin := by
  by_cases hne : w.flatten = []
  · obtain ⟨h1, h2, h3, h4, -⟩ := h.empty hne
    omega
  · obtain ⟨hp, hp'⟩ := max?_spec.mp (h.peak hne)
    obtain ⟨hb, hb'⟩ := min?_spec.mp (h.bottom hne)
    obtain ⟨hpm, -⟩ := min?_spec.mp (h.peakMin hne)
    obtain ⟨hbm, -⟩ := max?_spec.mp (h.bottomMax hne)
    obtain ⟨g, hg, hgm⟩ := mem_maxima.mp hpm
    obtain ⟨g', hg', hgm'⟩ := mem_minima.mp hbm
    have h1 := List.mem_flatten.mpr ⟨g, hg, (max?_spec.mp hgm).1⟩
    have h2 := List.mem_flatten.mpr ⟨g', hg', (min?_spec.mp hgm').1⟩
    exact ⟨hb' _ h2, hp' _ h1, hp' _ h2, hb' _ h1⟩

/-- With nothing recorded within the window all of them are the current value. -/
theorem C27_empty {rnd : Rat → Rat} {cur : Int} {w : List (List Int)} {s : BucketsStats}
    (h : IsStats rnd cur w s) (hw : ∀ second ∈ w, second = []) :
    s.peak = cur ∧ s.peakMin = cur ∧ s.bottom = cur ∧ s.bottomMax = cur ∧ s.avg = .fin (rnd cur) ∧
    s.peakAvg = .fin (rnd cur) ∧ s.bottomAvg = .fin (rnd cur) :=
  h.empty (List.flatten_eq_nil_iff.mpr hw)

theorem recordings_length (clock : Nat → Int) (unit : TimeUnit) (cur : Option Int) (log : List (Event Update)) :
    (recordings clock unit cur log).length ≤ (inputs log).length := by
  induction log generalizing cur with
  | nil => simp [recordings]
  | cons ev log ih =>
    obtain ⟨start, op, out, stop⟩ := ev
    cases op with
    | snapshot s d => simpa [recordings, inputs] using ih cur
    | input u =>
      simp only [recordings, inputs, List.length_cons]
      have := ih ((gaugeShows cur [u.change unit]).map wrapI64)
      split
      · simp only [List.length_cons]; omega
      · omega

theorem abs_sum_le (b : Nat) (xs : List Int) (h : ∀ x ∈ xs, |x| ≤ b) : |xs.sum| ≤ ((b * xs.length : Nat) : Int) := by
  induction xs with
  | nil => simp
  | cons x xs ih =>
    have h1 := h x (by simp)
    have h2 := ih fun y hy => h y (by simp [hy])
    rw [List.sum_cons, List.length_cons, Nat.mul_succ]
    rw [abs_le] at *
    push_cast at *
    omega

theorem mean_between {xs : List Int} {lo hi : Int} (hlo : ∀ x ∈ xs, lo ≤ x) (hhi : ∀ x ∈ xs, x ≤ hi) :
    lo * xs.length ≤ xs.sum ∧ xs.sum ≤ hi * xs.length := by
  induction xs with
  | nil => simp
  | cons x xs ih =>
    obtain ⟨h1, h2⟩ := ih (fun y hy => hlo y (by simp [hy])) (fun y hy => hhi y (by simp [hy]))
    have h3 := hlo x (by simp)
    have h4 := hhi x (by simp)
    simp only [List.sum_cons, List.length_cons]
    push_cast
    constructor <;> nlinarith

theorem quotient_between {rnd : Rat → Rat} (hr : IsRounding rnd) {sum lo hi : Int} {len : Nat} (hlen : 0 < len)
    (h1 : lo * len ≤ sum) (h2 : sum ≤ hi * len) (hsum : |sum| ≤ 2 ^ 53) (hlen' : len ≤ 2 ^ 53)
    (hlo : |lo| ≤ 2 ^ 53) (hhi : |hi| ≤ 2 ^ 53) :
    (F64.fin lo).le (quotient rnd sum len) = true ∧ (quotient rnd sum len).le (F64.fin hi) = true := by
  have hl : rnd ((len : Int) : Rat) = ((len : Int) : Rat) := hr.exact len (by
    rw [abs_of_nonneg (by omega)]; exact_mod_cast hlen')
  have hs : rnd (sum : Rat) = (sum : Rat) := hr.exact sum hsum
  unfold quotient F64.le
  rw [hs, hl]
  have hpos : (0 : Rat) < ((len : Int) : Rat) := by exact_mod_cast hlen
  constructor
  · rw [decide_eq_true_iff, ← hr.exact lo hlo]
    apply hr.mono
    rw [le_div_iff₀ hpos]; exact_mod_cast h1
  · rw [decide_eq_true_iff, ← hr.exact hi hhi]
    apply hr.mono
    rw [div_le_iff₀ hpos]; exact_mod_cast h2

/-- The average lies between the least and the greatest value, if the sum and the values are small enough
for floats to represent them exactly. (Not beyond: see `C27_finding_avg_overflow`.) -/
theorem C27_avg_partial {rnd : Rat → Rat} (hr : IsRounding rnd) {cur : Int} {w : List (List Int)} {s : BucketsStats}
    (h : IsStats rnd cur w s) (hcur : |cur| ≤ 2 ^ 53) (hval : ∀ x ∈ w.flatten, |x| ≤ 2 ^ 53)
    (hsum : |w.flatten.sum| ≤ 2 ^ 53) (hlen : w.flatten.length ≤ 2 ^ 53) :
    (F64.fin s.bottom).le s.avg = true ∧ s.avg.le (F64.fin s.peak) = true := by
  by_cases hne : w.flatten = []
  · obtain ⟨h1, -, h3, -, h5, -⟩ := h.empty hne
    rw [h1, h3, h5, hr.exact cur hcur]; simp [F64.le]
  · obtain ⟨hp, hp'⟩ := max?_spec.mp (h.peak hne)
    obtain ⟨hb, hb'⟩ := min?_spec.mp (h.bottom hne)
    have hw : wrapI64 w.flatten.sum = w.flatten.sum := wrapI64_of_I64 (by
      rw [abs_le] at hsum; unfold I64 i64Min i64Max; omega)
    rw [h.avg hne, hw]
    obtain ⟨h1, h2⟩ := mean_between hb' hp'
    exact quotient_between hr (List.length_pos_iff.mpr hne) h1 h2 hsum hlen (hval _ hb) (hval _ hp)

/-- Average of the peaks and of the bottoms: within their bounds if there was a value in **every** second of the
window. (Not in general: see `C27_finding_peak_avg`.) -/
theorem C27_peak_avg_partial {rnd : Rat → Rat} (hr : IsRounding rnd) {cur : Int} {w : List (List Int)}
    {s : BucketsStats} (h : IsStats rnd cur w s) (hw : w ≠ []) (hfull : ∀ second ∈ w, second ≠ [])
    (hval : ∀ x ∈ w.flatten, |x| ≤ 2 ^ 53) (hsum : |(maxima w).sum| ≤ 2 ^ 53) (hsum' : |(minima w).sum| ≤ 2 ^ 53)
    (hlen : w.length ≤ 2 ^ 53) :
    ((F64.fin s.peakMin).le s.peakAvg = true ∧ s.peakAvg.le (F64.fin s.peak) = true) ∧
    ((F64.fin s.bottom).le s.bottomAvg = true ∧ s.bottomAvg.le (F64.fin s.bottomMax) = true) := by
  have hne : w.flatten ≠ [] := by
    intro h0
    obtain ⟨g, hg⟩ := List.exists_mem_of_ne_nil _ hw
    exact hfull g hg (List.flatten_eq_nil_iff.mp h0 g hg)
  have hml : (maxima w).length = w.length := by
    clear h hw hval hsum hsum' hlen hne
    induction w with
    | nil => rfl
    | cons g w ih =>
      obtain ⟨x, hx⟩ := List.exists_mem_of_ne_nil _ (hfull g (by simp))
      obtain ⟨m, hm⟩ := max?_isSome_of_mem hx
      have : maxima (g :: w) = m :: maxima w := by simp [maxima, hm]
      rw [this, List.length_cons, List.length_cons, ih fun s hs => hfull s (by simp [hs])]
  have hml' : (minima w).length = w.length := by
    clear h hw hval hsum hsum' hlen hne hml
    induction w with
    | nil => rfl
    | cons g w ih =>
      obtain ⟨x, hx⟩ := List.exists_mem_of_ne_nil _ (hfull g (by simp))
      obtain ⟨m, hm⟩ := min?_isSome_of_mem hx
      have : minima (g :: w) = m :: minima w := by simp [minima, hm]
      rw [this, List.length_cons, List.length_cons, ih fun s hs => hfull s (by simp [hs])]
  have hwp : 0 < w.length := List.length_pos_iff.mpr hw
  obtain ⟨hp, hp'⟩ := max?_spec.mp (h.peak hne)
  obtain ⟨hb, hb'⟩ := min?_spec.mp (h.bottom hne)
  obtain ⟨hpm, hpm'⟩ := min?_spec.mp (h.peakMin hne)
  obtain ⟨hbm, hbm'⟩ := max?_spec.mp (h.bottomMax hne)
  have hmax : ∀ m ∈ maxima w, m ∈ w.flatten := by
    intro m hm
    obtain ⟨g, hg, hgm⟩ := mem_maxima.mp hm
    exact List.mem_flatten.mpr ⟨g, hg, (max?_spec.mp hgm).1⟩
  have hmin : ∀ m ∈ minima w, m ∈ w.flatten := by
    intro m hm
    obtain ⟨g, hg, hgm⟩ := mem_minima.mp hm
    exact List.mem_flatten.mpr ⟨g, hg, (min?_spec.mp hgm).1⟩
  have hw1 : wrapI64 (maxima w).sum = (maxima w).sum := wrapI64_of_I64 (by
    rw [abs_le] at hsum; unfold I64 i64Min i64Max; omega)
  have hw2 : wrapI64 (minima w).sum = (minima w).sum := wrapI64_of_I64 (by
    rw [abs_le] at hsum'; unfold I64 i64Min i64Max; omega)
  constructor
  · obtain ⟨h1, h2⟩ := mean_between hpm' (fun m hm => hp' m (hmax m hm))
    rw [hml] at h1 h2
    rw [h.peakAvg hne, hw1]
    exact quotient_between hr hwp h1 h2 hsum hlen (hval _ (hmax _ hpm)) (hval _ hp)
  · obtain ⟨h1, h2⟩ := mean_between (fun m hm => hb' m (hmin m hm)) hbm'
    rw [hml'] at h1 h2
    rw [h.bottomAvg hne, hw2]
    exact quotient_between hr hwp h1 h2 hsum' hlen (hval _ hb) (hval _ (hmin _ hbm))

theorem mean_between_zero {xs : List Int} {lo hi : Int} {n : Nat} (hn : xs.length ≤ n) (hlo : ∀ x ∈ xs, lo ≤ x)
    (hhi : ∀ x ∈ xs, x ≤ hi) : min 0 lo * n ≤ xs.sum ∧ xs.sum ≤ max 0 hi * n := by
  obtain ⟨h1, h2⟩ := mean_between (fun x hx => (min_le_right 0 lo).trans (hlo x hx))
    (fun x hx => (hhi x hx).trans (le_max_right 0 hi))
  have h3 : min 0 lo ≤ 0 := min_le_left ..
  have h4 : 0 ≤ max 0 hi := le_max_left ..
  have h5 : (xs.length : Int) ≤ n := by exact_mod_cast hn
  constructor <;> nlinarith

/-- Average of the peaks and of the bottoms in general: seconds without a value count as 0. So the average of the peaks lies
between the least peak and the greatest, or between one of them and 0. The same goes for the bottoms. -/
theorem C27_peak_avg_zero {rnd : Rat → Rat} (hr : IsRounding rnd) {cur : Int} {w : List (List Int)}
    {s : BucketsStats} (h : IsStats rnd cur w s) (hcur : |cur| ≤ 2 ^ 53)
    (hval : ∀ x ∈ w.flatten, |x| ≤ 2 ^ 53) (hsum : |(maxima w).sum| ≤ 2 ^ 53) (hsum' : |(minima w).sum| ≤ 2 ^ 53)
    (hlen : w.length ≤ 2 ^ 53) :
    ((F64.fin (min 0 s.peakMin : Int)).le s.peakAvg = true ∧ s.peakAvg.le (F64.fin (max 0 s.peak : Int)) = true) ∧
    ((F64.fin (min 0 s.bottom : Int)).le s.bottomAvg = true ∧ s.bottomAvg.le (F64.fin (max 0 s.bottomMax : Int)) = true) := by
  have hmm : ∀ x : Int, |x| ≤ 2 ^ 53 → |min 0 x| ≤ 2 ^ 53 ∧ |max 0 x| ≤ 2 ^ 53 := by
    intro x hx
    rw [abs_le] at hx
    rw [abs_le, abs_le]
    omega
  by_cases hne : w.flatten = []
  · obtain ⟨h1, h2, h3, h4, -, h6, h7⟩ := h.empty hne
    rw [h1, h2, h3, h4, h6, h7, hr.exact cur hcur]
    simp only [F64.le, decide_eq_true_iff, Int.cast_le]
    omega
  have hwp : 0 < w.length := List.length_pos_iff.mpr (by rintro rfl; exact hne rfl)
  obtain ⟨hp, hp'⟩ := max?_spec.mp (h.peak hne)
  obtain ⟨hb, hb'⟩ := min?_spec.mp (h.bottom hne)
  obtain ⟨hpm, hpm'⟩ := min?_spec.mp (h.peakMin hne)
  obtain ⟨hbm, hbm'⟩ := max?_spec.mp (h.bottomMax hne)
  have hmax : ∀ m ∈ maxima w, m ∈ w.flatten := by
    intro m hm
    obtain ⟨g, hg, hgm⟩ := mem_maxima.mp hm
    exact List.mem_flatten.mpr ⟨g, hg, (max?_spec.mp hgm).1⟩
  have hmin : ∀ m ∈ minima w, m ∈ w.flatten := by
    intro m hm
    obtain ⟨g, hg, hgm⟩ := mem_minima.mp hm
    exact List.mem_flatten.mpr ⟨g, hg, (min?_spec.mp hgm).1⟩
  have hw1 : wrapI64 (maxima w).sum = (maxima w).sum := wrapI64_of_I64 (by
    rw [abs_le] at hsum; unfold I64 i64Min i64Max; omega)
  have hw2 : wrapI64 (minima w).sum = (minima w).sum := wrapI64_of_I64 (by
    rw [abs_le] at hsum'; unfold I64 i64Min i64Max; omega)
  constructor
  · obtain ⟨h1, h2⟩ := mean_between_zero (List.length_filterMap_le _ w) hpm' (fun m hm => hp' m (hmax m hm))
    rw [h.peakAvg hne, hw1]
    exact quotient_between hr hwp h1 h2 hsum hlen (hmm _ (hval _ (hmax _ hpm))).1 (hmm _ (hval _ hp)).2
  · obtain ⟨h1, h2⟩ := mean_between_zero (List.length_filterMap_le _ w) (fun m hm => hb' m (hmin m hm)) hbm'
    rw [h.bottomAvg hne, hw2]
    exact quotient_between hr hwp h1 h2 hsum' hlen (hmm _ (hval _ hb)).1 (hmm _ (hval _ (hmin _ hbm))).2

theorem maxima_spec (w : List (List Int)) :
    (∀ m ∈ maxima w, m ∈ w.flatten) ∧ (maxima w).length ≤ w.flatten.length := by
  refine ⟨fun m hm => ?_, ?_⟩
  · obtain ⟨g, hg, hgm⟩ := mem_maxima.mp hm
    exact List.mem_flatten.mpr ⟨g, hg, (max?_spec.mp hgm).1⟩
  · induction w with
    | nil => exact Nat.le_refl _
    | cons g w ih =>
      cases g with
      | nil => exact ih
      | cons x g =>
        obtain ⟨m, hm⟩ := max?_isSome_of_mem (xs := x :: g) List.mem_cons_self
        have : maxima ((x :: g) :: w) = m :: maxima w := by simp [maxima, hm]
        rw [this, List.flatten_cons, List.length_append, List.length_cons, List.length_cons]
        omega

theorem minima_spec (w : List (List Int)) :
    (∀ m ∈ minima w, m ∈ w.flatten) ∧ (minima w).length ≤ w.flatten.length := by
  refine ⟨fun m hm => ?_, ?_⟩
  · obtain ⟨g, hg, hgm⟩ := mem_minima.mp hm
    exact List.mem_flatten.mpr ⟨g, hg, (min?_spec.mp hgm).1⟩
  · induction w with
    | nil => exact Nat.le_refl _
    | cons g w ih =>
      cases g with
      | nil => exact ih
      | cons x g =>
        obtain ⟨m, hm⟩ := min?_isSome_of_mem (xs := x :: g) List.mem_cons_self
        have : minima ((x :: g) :: w) = m :: minima w := by simp [minima, hm]
        rw [this, List.flatten_cons, List.length_append, List.length_cons, List.length_cons]
        omega

/-- Everything above, for what a snapshot shows: a gauge whose tracking for `n` seconds was switched on, then used in any way
at monotone times. -/
theorem C27_shown {e : Env} (mono : e.Mono) {n k₀ k₁ k₂ k₃ : Nat} {g₀ g g' g'' : Gauge} (hn : 0 < n)
    (hset : g₀.setTracking n e k₀ = some (g, k₁)) {log : List (Event Update)}
    (h : History e k₁ g log k₂ g') (hg : ∀ v ∈ g₀.value, I64 v) (hlog : ∀ u ∈ inputs log, u.InRange)
    (few : U64 (inputs log).length) {v : Int} (hv : g'.value = some v) {into s : Snapshot}
    {descriptive : Bool} (hput : g'.putSnapshot into descriptive e k₂ = some ((g'', s), k₃)) :
    ∃ (peak peakMin bottom bottomMax : Int) (peakAvg bottomAvg avg : F64) (front : Snapshot),
      s = front ++ (if g₀.groupValues
        then [(g₀.name, .snapshot (("current", .int v) :: statItems "" ⟨peak, peakMin, peakAvg, bottom, bottomMax, bottomAvg, avg⟩))]
        else (g₀.name, .int v) ::
          statItems (g₀.name ++ "_") ⟨peak, peakMin, peakAvg, bottom, bottomMax, bottomAvg, avg⟩) ∧
      (bottom ≤ bottomMax ∧ peakMin ≤ peak ∧ bottomMax ≤ peak ∧ bottom ≤ peakMin) ∧
      ((∀ r ∈ recordings e.clock g₀.displayTimeUnit g₀.value log,
          secondOf (e.clock k₀) r.time ≤ secondOf (e.clock k₀) (e.clock k₂) - n) →
        peak = v ∧ peakMin = v ∧ bottom = v ∧ bottomMax = v ∧ avg = .fin (e.rnd v) ∧ peakAvg = .fin (e.rnd v) ∧
        bottomAvg = .fin (e.rnd v)) ∧
      (IsRounding e.rnd → ∀ b : Nat, (∀ r ∈ recordings e.clock g₀.displayTimeUnit g₀.value log, |r.value| ≤ b) →
        |v| ≤ b → b * ((inputs log).length + 1) ≤ 2 ^ 53 → (inputs log).length ≤ 2 ^ 53 →
        ((F64.fin bottom).le avg = true ∧ avg.le (F64.fin peak) = true) ∧ (n ≤ 2 ^ 53 →
          ((F64.fin (min 0 peakMin : Int)).le peakAvg = true ∧ peakAvg.le (F64.fin (max 0 peak : Int)) = true) ∧
          ((F64.fin (min 0 bottom : Int)).le bottomAvg = true ∧ bottomAvg.le (F64.fin (max 0 bottomMax : Int)) = true))) := by
  obtain ⟨stats, front, hs, heq⟩ := C24_window mono hn hset h hg hlog few hv hput
  refine ⟨stats.peak, stats.peakMin, stats.bottom, stats.bottomMax, stats.peakAvg, stats.bottomAvg, stats.avg, front,
    heq, C27_order hs, ?_, ?_⟩
  · intro hold
    refine C27_empty hs ?_
    intro second hsec
    obtain ⟨i, hi, rfl⟩ := List.mem_map.mp hsec
    obtain ⟨j, hj, rfl⟩ := List.mem_map.mp hi
    unfold valuesIn
    rw [List.map_eq_nil_iff, List.filter_eq_nil_iff]
    intro r hr hr'
    have := hold r hr
    have := List.mem_range.mp hj
    simp only [decide_eq_true_eq] at hr'
    omega
  · intro hr b hb hvb hsum hlen
    have hl := (flatten_window_length (e.clock k₀) n (secondOf (e.clock k₀) (e.clock k₂))
      (recordings e.clock g₀.displayTimeUnit g₀.value log)).trans (recordings_length _ _ _ _)
    have hval : ∀ x ∈ (window (e.clock k₀) n (e.clock k₂) (recordings e.clock g₀.displayTimeUnit g₀.value log)).flatten,
        |x| ≤ b := by
      intro x hx
      obtain ⟨vs, hvs, hx⟩ := List.mem_flatten.mp hx
      obtain ⟨sec, _, rfl⟩ := List.mem_map.mp hvs
      obtain ⟨r, hr, rfl⟩ := List.mem_map.mp hx
      exact hb r (List.mem_filter.mp hr).1
    have hb' : (b : Int) ≤ 2 ^ 53 := by nlinarith
    have hfew : (window (e.clock k₀) n (e.clock k₂) (recordings e.clock g₀.displayTimeUnit g₀.value log)).flatten.length ≤
      (inputs log).length + 1 := by unfold window; omega
    have small : ∀ l : List Int, (∀ x ∈ l, |x| ≤ b) → l.length ≤ (inputs log).length + 1 → |l.sum| ≤ 2 ^ 53 := by
      intro l hl1 hl2
      exact (abs_sum_le _ _ hl1).trans (by exact_mod_cast (Nat.mul_le_mul_left b hl2).trans hsum)
    refine ⟨C27_avg_partial hr hs (by omega) (fun x hx => (hval x hx).trans hb') (small _ hval hfew) (by unfold window; omega),
      fun hn53 => ?_⟩
    have hmax := maxima_spec (window (e.clock k₀) n (e.clock k₂) (recordings e.clock g₀.displayTimeUnit g₀.value log))
    have hmin := minima_spec (window (e.clock k₀) n (e.clock k₂) (recordings e.clock g₀.displayTimeUnit g₀.value log))
    refine C27_peak_avg_zero hr hs (by omega) (fun x hx => (hval x hx).trans hb')
      (small _ (fun x hx => hval x (hmax.1 x hx)) (hmax.2.trans hfew))
      (small _ (fun x hx => hval x (hmin.1 x hx)) (hmin.2.trans hfew)) ?_
    simpa [window, windowSeconds] using hn53

/-- Rounding to `f64` (`binary64`) is a rounding as assumed above. -/
theorem C27_binary64 : IsRounding binary64 := binary64_isRounding

/-- Finding: `peak_avg` is divided by the length of the window, not by the number of seconds with values. A gauge
that tracks 2 seconds and was set to 10 once shows a least peak of 10 and an average of the peaks of 5. -/
theorem C27_finding_peak_avg : ∃ g g' g'' : Gauge, ∃ s,
    ({ name := "g" } : Gauge).setTracking 2 ticking 0 = some (g, 1) ∧
    History ticking 1 g [⟨1, .input (.withValue (.signedInteger 10) 0), .updated 1, 2⟩] 2 g' ∧
    g'.putSnapshot [] false ticking 2 = some ((g'', s), 3) ∧
    ("g_peak_min", .int 10) ∈ s ∧ ("g_peak_avg", .float (.fin 5)) ∈ s ∧
    ("g_bottom", .int 10) ∈ s ∧ ("g_bottom_avg", .float (.fin 5)) ∈ s := by
  have h5 : (5 : Rat) = 10 / 2 := by norm_num
  refine ⟨_, _, _, [("g", .int 10), ("g_peak", .int 10), ("g_peak_min", .int 10),
      ("g_peak_avg", .float (.fin (10 / 2))), ("g_bottom", .int 10), ("g_bottom_max", .int 10),
      ("g_bottom_avg", .float (.fin (10 / 2))), ("g_avg", .float (.fin (10 / 1)))], rfl,
    .cons (by decide) rfl (.nil (by decide)), rfl, ?_⟩
  rw [h5]; simp

/-- Finding: in a release build the average of two large values is negative. -/
theorem C27_finding_avg_overflow : ∃ g g' g'' : Gauge, ∃ s,
    ({ name := "g" } : Gauge).setTracking 5 ticking 0 = some (g, 1) ∧
    History ticking 1 g [⟨1, .input (.withValue (.signedInteger (2 ^ 62)) 0), .updated 1, 2⟩,
      ⟨2, .input (.withValue (.signedInteger (2 ^ 62)) 0), .updated 1, 3⟩] 3 g' ∧
    g'.putSnapshot [] false ticking 3 = some ((g'', s), 4) ∧
    ("g_bottom", .int (2 ^ 62)) ∈ s ∧ ("g_avg", .float (.fin (-2 ^ 62))) ∈ s := by
  have h : (-2 ^ 62 : Rat) = ((-2 ^ 63 : Int) : Rat) / ((2 : Int) : Rat) := by norm_num
  refine ⟨_, _, _, [("g", .int (2 ^ 62)), ("g_peak", .int (2 ^ 62)), ("g_peak_min", .int (2 ^ 62)),
      ("g_peak_avg", .float (.fin (((-2 ^ 63 : Int) : Rat) / ((5 : Int) : Rat)))), ("g_bottom", .int (2 ^ 62)), ("g_bottom_max", .int (2 ^ 62)),
      ("g_bottom_avg", .float (.fin (((-2 ^ 63 : Int) : Rat) / ((5 : Int) : Rat)))), ("g_avg", .float (.fin (((-2 ^ 63 : Int) : Rat) / ((2 : Int) : Rat))))], rfl,
    .cons (by decide) rfl (.cons (by decide) rfl (.nil (by decide))), rfl, ?_⟩
  rw [h]; simp

/-- The gauge of the example of C24 meets what `C27_shown` asks for its values: 50, 10 and 3 are recorded. -/
example : (∀ r ∈ recordings ticking.clock .milliseconds none
    [⟨1, .input (.withValue (.signedInteger 50) 0), .updated 1, 2⟩,
     ⟨2, .input (.withValue (.signedInteger 10) 0), .updated 1, 3⟩,
     ⟨3, .input (.withValue (.changedBy (-7)) 0), .updated 1, 4⟩], |r.value| ≤ (50 : Nat)) := by decide

/-- Exact arithmetic is a rounding, and there are statistics that meet the hypotheses. -/
example : IsRounding id := ⟨monotone_id, fun _ _ => rfl⟩
example : IsStats id 3 [[3], [10]] ⟨10, 3, .fin (13 / 2), 3, 10, .fin (13 / 2), .fin (13 / 2)⟩ := by
  exact ⟨by simp, fun _ => rfl, fun _ => rfl, fun _ => rfl, fun _ => rfl, fun _ => rfl, fun _ => rfl, fun _ => rfl⟩

/-- Statistics of two seconds with one value each, and of two seconds without values. -/
theorem exampleStats : IsStats id 3 [[3], [10]] ⟨10, 3, .fin (13 / 2), 3, 10, .fin (13 / 2), .fin (13 / 2)⟩ :=
  ⟨by simp, fun _ => rfl, fun _ => rfl, fun _ => rfl, fun _ => rfl, fun _ => rfl, fun _ => rfl, fun _ => rfl⟩

example := C27_order exampleStats
example := C27_empty (rnd := id) (cur := 3) (w := [[], []]) (s := ⟨3, 3, .fin 3, 3, 3, .fin 3, .fin 3⟩)
  ⟨fun _ => ⟨rfl, rfl, rfl, rfl, rfl, rfl, rfl⟩, by simp, by simp, by simp, by simp, by simp, by simp, by simp⟩ (by decide)
example := C27_avg_partial ⟨monotone_id, fun _ _ => rfl⟩ exampleStats (by decide) (by decide) (by decide) (by decide)
example := C27_peak_avg_partial ⟨monotone_id, fun _ _ => rfl⟩ exampleStats (by decide) (by decide) (by decide) (by decide) (by decide)
  (by decide)
/-- A second with the values 4 and 10, and one without values: the average of the peaks is 5. -/
example := C27_peak_avg_zero (rnd := id) (cur := 3) (w := [[4, 10], []])
  (s := ⟨10, 10, .fin (10 / 2), 4, 4, .fin (4 / 2), .fin (14 / 2)⟩) ⟨monotone_id, fun _ _ => rfl⟩
  ⟨by simp, fun _ => rfl, fun _ => rfl, fun _ => rfl, fun _ => rfl, fun _ => rfl, fun _ => rfl, fun _ => rfl⟩
  (by decide) (by decide) (by decide) (by decide) (by decide)
example := C27_shown ticking_mono (n := 2) (k₀ := 0) (g₀ := { name := "g" }) (by decide) rfl
  (played_history (ops := gaugedOps) rfl) nofun
  (by simp [inputs, Update.InRange, ObservedValue.InRange, I64, i64Min, i64Max]) (by decide) rfl
  (into := []) (descriptive := true) rfl

end Metrix
