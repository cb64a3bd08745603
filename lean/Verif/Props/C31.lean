import Verif.Proof.MeterHistory
import Verif.Props.C28

/-! # C31: a meter snapshot shows exactly the enabled rates and applies the cutoff -/

namespace Metrix

/-- For any meter: the count and, in this order, exactly the enabled rates, each with the cutoff applied. -/
theorem C31_items {e : Env} {k k' : Nat} {m m' : Meter} {into s : Snapshot} {d : Bool}
    (h : m.putSnapshot into d e k = some ((m', s), k')) :
    ∃ rate1 rate5 rate15 : Rat, s = putPostfixedDescriptives m.descr m.name into d ++ [(m.name, .snapshot
      (("count", .uint (wrapU64 m.inner.count)) ::
        ((if m.oneMinute then [("one_minute", .snapshot [("rate", .float (withCutoff m.lowerCutoff rate1))])] else []) ++
         (if m.fiveMinutes then [("five_minutes", .snapshot [("rate", .float (withCutoff m.lowerCutoff rate5))])] else []) ++
         (if m.fifteenMinutes then [("fifteen_minutes", .snapshot [("rate", .float (withCutoff m.lowerCutoff rate15))])]
          else []))))] := by
  obtain ⟨_, _, r1, r5, r15, hs⟩ := Meter.putSnapshot_count h
  exact ⟨r1, r5, r15, hs⟩

/-- The same for a `ValueMeter`. -/
theorem C31_value_meter_items {e : Env} {k k' : Nat} {m m' : ValueMeter} {into s : Snapshot} {d : Bool}
    (h : m.putSnapshot into d e k = some ((m', s), k')) :
    ∃ rate1 rate5 rate15 : Rat, s = putPostfixedDescriptives m.meter.descr m.meter.name into d ++
      [(m.meter.name, .snapshot (meterItems m.meter (wrapU64 m.meter.inner.count) rate1 rate5 rate15))] := by
  obtain ⟨_, h, _⟩ := ValueMeter.putSnapshot_eq_some.mp h
  obtain ⟨_, _, r1, r5, r15, hs⟩ := Meter.putSnapshot_count h
  exact ⟨r1, r5, r15, hs⟩

/-- A rate below the cutoff is shown as 0, any other is shown unchanged. -/
theorem C31_cutoff (cutoff rate : Rat) :
    (rate < cutoff → withCutoff (.fin cutoff) rate = .fin 0) ∧
    (cutoff ≤ rate → withCutoff (.fin cutoff) rate = .fin rate) := by
  unfold withCutoff F64.lt
  constructor
  · intro h; simp [h]
  · intro h; simp [not_lt.mpr h]

/-- A cutoff that is no number or minus infinity never applies. -/
theorem C31_no_cutoff (rate : Rat) :
    withCutoff .nan rate = .fin rate ∧ withCutoff .negInf rate = .fin rate := by
  simp [withCutoff, F64.lt]

/-- Taking a snapshot keeps the configuration and the count. -/
theorem C31_keeps {e : Env} {k k' : Nat} {m m' : Meter} {into s : Snapshot} {d : Bool}
    (h : m.putSnapshot into d e k = some ((m', s), k')) :
    m'.inner.count = m.inner.count ∧ m'.name = m.name ∧ m'.oneMinute = m.oneMinute ∧
    m'.fiveMinutes = m.fiveMinutes ∧ m'.fifteenMinutes = m.fifteenMinutes ∧ m'.lowerCutoff = m.lowerCutoff := by
  obtain ⟨hc, hs, _⟩ := Meter.putSnapshot_count h
  exact ⟨hc, hs.name, hs.one, hs.five, hs.fifteen, hs.cutoff⟩

example : withCutoff (.fin (1 / 1000)) (1 / 2000) = .fin 0 :=
  (C31_cutoff _ _).1 (by norm_num)

/-- With a cutoff of 1 and without the five minute rate. -/
example : True := by
  obtain ⟨⟨m, _⟩, _, h⟩ := Meter.ok_putSnapshot (e := ticking) rfl { newMeter with lowerCutoff := .fin 1, fiveMinutes := false } [] true 4
  have := C31_items h
  have := C31_keeps h
  obtain ⟨⟨m, _⟩, _, h⟩ := ValueMeter.ok_putSnapshot (e := ticking) rfl newValueMeter [] true 4
  have := C31_value_meter_items h
  trivial

end Metrix
