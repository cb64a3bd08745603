import Verif.Props.C28
import Verif.Props.C31
import Verif.Props.C78

/-! # C80: The rates of meters are numbers of limited size

`rateAt` (see C29) is what a meter shows. -/

namespace Metrix

section
variable {rnd : Rat → Rat} {alpha : Rat}

theorem IsSymmetricRounding.nonneg (h : IsSymmetricRounding rnd) {x : Rat} (hx : 0 ≤ x) : 0 ≤ rnd x := by
  rw [← h.zero]; exact h.mono hx

theorem IsSymmetricRounding.abs_le (h : IsSymmetricRounding rnd) (x : Rat) : |rnd x| ≤ 2 * |x| := by
  rcases le_total 0 x with hx | hx
  · rw [abs_of_nonneg hx, abs_of_nonneg (h.nonneg hx)]; exact h.double x hx
  · have : rnd x = -rnd (-x) := by rw [h.odd, neg_neg]
    rw [this, abs_neg, abs_of_nonneg (h.nonneg (by linarith)), abs_of_nonpos hx]
    exact h.double _ (by linarith)

theorem instantRate_le (h : IsSymmetricRounding rnd) {n : Nat} (hn : n ≤ 2 ^ 64) : instantRate rnd n ≤ 2 ^ 34 := by
  have hn' : (n : Rat) ≤ 2 ^ 64 := by exact_mod_cast hn
  have a := h.double (n : Rat) (by positivity)
  have b : 0 ≤ rnd n := h.nonneg (by positivity)
  have c := h.double (rnd n / tickNs) (div_nonneg b (by unfold tickNs; norm_num))
  refine c.trans ?_
  have : rnd n / tickNs ≤ 2 ^ 65 / tickNs := div_le_div_of_nonneg_right (by linarith) (by unfold tickNs; norm_num)
  refine (mul_le_mul_of_nonneg_left this (by norm_num)).trans ?_
  norm_num [tickNs]

theorem ewmaAfter_le (h : IsSymmetricRounding rnd) (h0 : 0 ≤ alpha) (h1 : alpha ≤ 1 / 4) {count : Nat → Nat}
    (hc : ∀ i, count i ≤ 2 ^ 64) (m : Nat) : ewmaAfter rnd alpha count m ≤ 2 ^ 34 := by
  rcases Nat.eq_zero_or_pos m with rfl | hm
  · simp [ewmaAfter]
  · obtain ⟨i, _, hle⟩ := (Averaging.of_rounding h h0 h1).highest count m hm
    exact hle.trans (instantRate_le h (hc i))

theorem wrapU64_le (x : Int) : wrapU64 x ≤ 2 ^ 64 := by unfold wrapU64; omega

theorem rateAt_le (h : IsSymmetricRounding rnd) (h0 : 0 ≤ alpha) (h1 : alpha ≤ 1 / 4) (start : Int) (ms : List Mark)
    (t : Int) : rateAt rnd alpha start ms t ≤ 2 ^ 65 := by
  have a := ewmaAfter_le h h0 h1 (fun i => wrapU64_le (inInterval start ms i)) (intervalOf start t)
  have b := (Averaging.of_rounding h h0 h1).nonneg (fun i => wrapU64 (inInterval start ms i)) (intervalOf start t)
  unfold rateAt
  refine (h.double _ (by positivity)).trans ?_
  generalize ewmaAfter rnd alpha (fun i => wrapU64 (inInterval start ms i)) (intervalOf start t) = r at a b ⊢
  norm_num [nanosPerSec] at a ⊢
  linarith

end

/-- A float that is a number from 0 to 2^65. -/
def F64.Limited (x : F64) : Prop := ∃ q : Rat, x = .fin q ∧ 0 ≤ q ∧ q ≤ 2 ^ 65

theorem withCutoff_limited (cutoff : F64) {rate : Rat} (h0 : 0 ≤ rate) (h1 : rate ≤ 2 ^ 65) :
    (withCutoff cutoff rate).Limited := by
  unfold withCutoff
  split
  · exact ⟨0, rfl, le_rfl, by norm_num⟩
  · exact ⟨rate, rfl, h0, h1⟩

theorem meterItems_limited (m : Meter) (count : Nat) {rate1 rate5 rate15 : Rat}
    (h : ∀ rate ∈ [rate1, rate5, rate15], 0 ≤ rate ∧ rate ≤ 2 ^ 65) {name : String} {x : F64}
    (hx : (name, ItemKind.snapshot [("rate", .float x)]) ∈ meterItems m count rate1 rate5 rate15) : x.Limited := by
  simp only [List.mem_cons, List.not_mem_nil, or_false, forall_eq_or_imp, forall_eq] at h
  simp only [meterItems, rateItem, List.mem_cons, List.mem_append, Prod.mk.injEq, reduceCtorEq, and_false, false_or] at hx
  rcases hx with (hx | hx) | hx <;> (split at hx <;> [skip; simp at hx]) <;>
    (simp only [List.mem_cons, Prod.mk.injEq, ItemKind.snapshot.injEq, List.cons.injEq, ItemKind.float.injEq, true_and, and_true,
      List.not_mem_nil, or_false] at hx; obtain ⟨_, rfl⟩ := hx)
  · exact withCutoff_limited _ h.1.1 h.1.2
  · exact withCutoff_limited _ h.2.1.1 h.2.1.2
  · exact withCutoff_limited _ h.2.2.1 h.2.2.2

theorem rates_limited {e : Env} (hr : IsSymmetricRounding e.rnd)
    (hw : ∀ alpha, MeterWeight e alpha → 0 ≤ alpha ∧ alpha ≤ 1 / 4) (start t : Int) (ms : List Mark) :
    ∀ rate ∈ [rateAt e.rnd e.alpha1 start ms t, rateAt e.rnd e.alpha5 start ms t, rateAt e.rnd e.alpha15 start ms t],
      0 ≤ rate ∧ rate ≤ 2 ^ 65 := by
  have key : ∀ alpha, MeterWeight e alpha → 0 ≤ rateAt e.rnd alpha start ms t ∧ rateAt e.rnd alpha start ms t ≤ 2 ^ 65 :=
    fun alpha ha => ⟨C30_nonneg hr (hw _ ha).1 (hw _ ha).2 _ _ _, rateAt_le hr (hw _ ha).1 (hw _ ha).2 _ _ _⟩
  simp only [List.mem_cons, List.not_mem_nil, or_false, forall_eq_or_imp, forall_eq]
  exact ⟨key _ (.inl rfl), key _ (.inr (.inl rfl)), key _ (.inr (.inr rfl))⟩

/-- Whatever a meter was told, and whenever: every rate it shows is a number, not negative and at most 2^65 per second. -/
theorem C80_meter {e : Env} (mono : e.Mono) (hr : IsSymmetricRounding e.rnd)
    (hw : ∀ alpha, MeterWeight e alpha → 0 ≤ alpha ∧ alpha ≤ 1 / 4) {k₀ k₁ k₂ k₃ : Nat} {m m' m'' : Meter}
    (hnew : StdMeter.new e k₀ = some (m.inner, k₁)) {log : List (Event Update)}
    (h : History e k₁ m log k₂ m') {into s : Snapshot} {d : Bool}
    (hput : m'.putSnapshot into d e k₂ = some ((m'', s), k₃)) :
    ∃ front items, s = front ++ [(m.name, .snapshot items)] ∧
      ∀ (name : String) (x : F64), (name, ItemKind.snapshot [("rate", .float x)]) ∈ items → x.Limited := by
  obtain ⟨j, front, count, _, _, hs⟩ := C29_meter_rates mono hnew h hput
  exact ⟨front, _, hs, fun name x hx => meterItems_limited m count (rates_limited hr hw _ _ _) hx⟩

/-- The same for a `ValueMeter`, also if it was told negative numbers. -/
theorem C80_value_meter {e : Env} (mono : e.Mono) (hr : IsSymmetricRounding e.rnd)
    (hw : ∀ alpha, MeterWeight e alpha → 0 ≤ alpha ∧ alpha ≤ 1 / 4) {k₀ k₁ k₂ k₃ : Nat} {m m' m'' : ValueMeter}
    (hnew : StdMeter.new e k₀ = some (m.meter.inner, k₁)) {log : List (Event Update)}
    (h : History e k₁ m log k₂ m') {into s : Snapshot} {d : Bool}
    (hput : m'.putSnapshot into d e k₂ = some ((m'', s), k₃)) :
    ∃ front items, s = front ++ [(m.meter.name, .snapshot items)] ∧
      ∀ (name : String) (x : F64), (name, ItemKind.snapshot [("rate", .float x)]) ∈ items → x.Limited := by
  obtain ⟨j, front, count, _, _, hs⟩ := C29_value_meter_rates mono hnew h hput
  exact ⟨front, _, hs, fun name x hx => meterItems_limited m.meter count (rates_limited hr hw _ _ _) hx⟩

/-- The exact results of all float operations of an average, before they are rounded, are at most 2^65 in size, far below the
largest `f64` (about 2^1024): no operation overflows. The operations are those of an interval with `n` occurrences that
ends with the average `r`, and showing that average per second. -/
theorem C80_no_overflow {rnd : Rat → Rat} (h : IsSymmetricRounding rnd) {alpha : Rat} (h0 : 0 ≤ alpha) (h1 : alpha ≤ 1 / 4)
    {count : Nat → Nat} (hc : ∀ i, count i ≤ 2 ^ 64) (m : Nat) :
    ∀ x ∈ ([(count m : Rat), rnd (count m) / tickNs, instantRate rnd (count m) - ewmaAfter rnd alpha count m,
        alpha * rnd (instantRate rnd (count m) - ewmaAfter rnd alpha count m),
        ewmaAfter rnd alpha count m + rnd (alpha * rnd (instantRate rnd (count m) - ewmaAfter rnd alpha count m)),
        ewmaAfter rnd alpha count m * nanosPerSec] : List Rat), |x| ≤ 2 ^ 65 := by
  have av := Averaging.of_rounding h h0 h1
  have hn : (count m : Rat) ≤ 2 ^ 64 := by exact_mod_cast hc m
  have hn0 : (0 : Rat) ≤ count m := by positivity
  have r0 := av.nonneg count m
  have r1 := ewmaAfter_le h h0 h1 hc m
  have i0 := av.instantRate_nonneg (count m)
  have i1 := instantRate_le h (hc m)
  have c0 := h.nonneg hn0
  have c1 := h.double _ hn0
  generalize instantRate rnd (count m) = i at *
  generalize ewmaAfter rnd alpha count m = r at *
  generalize (count m : Rat) = n at *
  have d : |i - r| ≤ 2 ^ 34 := abs_le.mpr ⟨by linarith, by linarith⟩
  have e := h.abs_le (i - r)
  have f : |alpha * rnd (i - r)| ≤ 2 ^ 34 := by
    rw [abs_mul, abs_of_nonneg h0]
    have := abs_nonneg (rnd (i - r))
    nlinarith
  have g := h.abs_le (alpha * rnd (i - r))
  have big : (2 : Rat) ^ 34 * 8 ≤ 2 ^ 65 := by norm_num
  simp only [List.mem_cons, List.not_mem_nil, or_false, forall_eq_or_imp, forall_eq]
  refine ⟨?_, ?_, ?_, ?_, ?_, ?_⟩
  · rw [abs_of_nonneg hn0]; exact hn.trans (by norm_num)
  · rw [abs_of_nonneg (div_nonneg c0 (by unfold tickNs; norm_num))]
    refine (div_le_self c0 (by unfold tickNs; norm_num)).trans (c1.trans ?_)
    norm_num at hn ⊢; linarith
  · linarith
  · linarith
  · refine (abs_add_le _ _).trans ?_
    rw [abs_of_nonneg r0]; linarith
  · rw [abs_of_nonneg (by positivity)]
    norm_num [nanosPerSec] at r1 ⊢; linarith

/-- A clock that jumps from 0 to 6 seconds. -/
def jumping : Env := { ticking with clock := fun k => if k < 5 then 0 else 6000000000 }

theorem jumping_mono : jumping.Mono := by
  intro i j h; simp only [jumping]; split <;> split <;> omega

/-- Finding: the bound is not far away. A `ValueMeter` that observed only -1 shows a rate of (2^64 - 1) / 5 per second after 5
seconds. -/
theorem C80_finding_negative_values : ∃ (e : Env) (m m' m'' : ValueMeter) (k₁ k₂ k₃ : Nat), e.Mono ∧ k₂ ≤ 5 ∧
    ValueMeter.new "m" e 0 = some (m, k₁) ∧
    m.update (.withValue (.signedInteger (-1)) 0) e k₁ = some ((m', 1), k₂) ∧
    m'.putSnapshot [] false e 5 = some ((m'', [("m", .snapshot [("count", .uint (2 ^ 64 - 1)),
      ("one_minute", .snapshot [("rate", .float (.fin ((2 ^ 64 - 1) / 5)))])])]), k₃) := by
  let m : ValueMeter := { meter := { name := "m", lastTick := 0, inner := ⟨0, .new (1 / 10), .new (1 / 50), .new (1 / 150),
    5000000000, 0⟩ } }
  let w (a : Rat) : Ewma := { Ewma.new a with uncounted := 18446744073709551615 }
  let m' : ValueMeter := { m with meter := { m.meter with inner := ⟨-1, w (1 / 10), w (1 / 50), w (1 / 150), 5000000000, 0⟩ } }
  have hnew : ValueMeter.new "m" jumping 0 = some (m, 2) := rfl
  have hupd : m.update (.withValue (.signedInteger (-1)) 0) jumping 2 = some ((m', 1), 3) := by
    have ht : m.meter.inner.tick jumping 2 = some (m.meter.inner, 3) := by
      change some (m.meter.inner.catchUp _ _, 3) = _
      rw [StdMeter.catchUp, if_neg (by decide)]
    have hm : m.meter.inner.mark (-1) jumping 2 = some (m'.meter.inner, 3) := by
      unfold StdMeter.mark
      rw [M.run_bind_some ht]
      decide +kernel
    simp only [ValueMeter.update, ObservedValue.convertToI64, ValueMeter.mark, M.bind_eq_some]
    exact ⟨_, _, ⟨_, _, hm, rfl⟩, rfl⟩
  obtain ⟨⟨m₃, s⟩, k₃, hs⟩ := m'.meter.ok_putSnapshot (e := jumping) rfl [] false 5
  have hput : m'.putSnapshot [] false jumping 5 = some (({ m' with meter := m₃ }, s), k₃) :=
    ValueMeter.putSnapshot_eq_some.mpr ⟨m₃, hs, rfl⟩
  have hhist : History jumping 2 m [⟨2, .input (.withValue (.signedInteger (-1)) 0), .updated 1, 3⟩] 5 m' :=
    .cons le_rfl (step_input_eq_some.mpr ⟨1, rfl, hupd⟩) (.nil (by decide))
  obtain ⟨j, front, count, hj, _, hs₁⟩ := C29_value_meter_rates jumping_mono (k₀ := 1) rfl hhist hput
  obtain ⟨r1, r5, r15, hs₂⟩ := C31_value_meter_items hput
  have hfront : putPostfixedDescriptives m'.meter.descr m'.meter.name [] false = [] := rfl
  rw [hfront] at hs₂
  have hrate : rateAt jumping.rnd jumping.alpha1 (jumping.clock 1) (marks jumping.clock (Update.metered m.displayTimeUnit)
      [⟨2, .input (.withValue (.signedInteger (-1)) 0), .updated 1, 3⟩]) (jumping.clock j) = (2 ^ 64 - 1) / 5 := by
    have hc : jumping.clock j = 6000000000 := by simp only [jumping]; rw [if_neg (by omega)]
    rw [hc]
    exact (C78_steady_exact (alpha := 1 / 10) (by norm_num) (by norm_num) _ _ _ (by decide) (2 ^ 64 - 1) (by
      intro i hi
      obtain rfl : i = 0 := by
        rw [show intervalOf (jumping.clock 1) 6000000000 = 1 by decide] at hi; omega
      decide)).trans (by norm_num)
  refine ⟨jumping, m, m', { m' with meter := m₃ }, 2, 3, k₃, jumping_mono, by decide, hnew, hupd, ?_⟩
  rw [hput]
  obtain ⟨hf, he⟩ := List.append_inj' (hs₁.symm.trans hs₂) rfl
  rw [hs₁, hf, hrate]
  simp only [List.cons.injEq, Prod.mk.injEq, ItemKind.snapshot.injEq, and_true, true_and, meterItems] at he
  obtain ⟨rfl, _⟩ := he.2.1
  have hcut : withCutoff m.meter.lowerCutoff ((2 ^ 64 - 1) / 5) = .fin ((2 ^ 64 - 1) / 5) :=
    (C31_cutoff (1 / 1000) _).2 (by norm_num)
  simp only [meterItems, rateItem, hcut]
  rfl

/-- The clock of that finding, and its rounding and weights, are as the other theorems ask. -/
example : jumping.Mono ∧ IsSymmetricRounding jumping.rnd ∧
    ∀ alpha, MeterWeight jumping alpha → 0 ≤ alpha ∧ alpha ≤ 1 / 4 := by
  refine ⟨jumping_mono, ⟨monotone_id, fun _ => rfl, fun _ => rfl, fun x hx => by simp only [jumping, ticking]; linarith⟩, ?_⟩
  rintro alpha (rfl | rfl | rfl) <;> norm_num [jumping, ticking]

/-- `f64` rounding meets the hypothesis of `C80_no_overflow`, whose numbers are not all 0. -/
example : IsSymmetricRounding binary64 ∧ (fun _ : Nat => 3) 7 ≤ 2 ^ 64 := ⟨C30_binary64.1, by decide⟩

end Metrix
