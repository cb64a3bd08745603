import Verif.Proof.Driver
import Verif.Proof.ForwardRun
import Verif.Proof.Gauge
import Verif.Proof.Histogram
import Verif.Proof.MeterHistory
import Verif.Proof.Switches
import Verif.Spec.DriverMetrics

/-! The instruments of a driver over its life. -/

namespace Metrix

theorem noTexts (name : String) (into : Snapshot) (d : Bool) : putPostfixedDescriptives {} name into d = into := by
  cases d <;> rfl

/-- What an instrument adds for a number. -/
def countable (n : Nat) : Nat := if (n : Int) ≤ i64Max then n else 0

/-! ## Each kind of instrument -/

structure MeterNoted (name : String) (total : Nat) (m : Meter) : Prop where
  name : m.name = name
  descr : m.descr = {}
  count : m.inner.count = wrapI64 total

theorem Meter.new_noted {name : String} {m : Meter} {e : Env} {k k' : Nat} (h : Meter.new name e k = some (m, k')) :
    MeterNoted name 0 m := by
  obtain ⟨⟨m', _, h', h1, h2⟩, _⟩ : (∃ m k', Meter.new name e k = some (m, k') ∧ m.inner.count = 0 ∧ m.name = name ∧ m.descr = {}) ∧ True :=
    ⟨⟨_, _, rfl, rfl, rfl, rfl⟩, trivial⟩
  rw [h] at h'; cases h'
  exact ⟨h2.1, h2.2, by rw [h1]; rfl⟩

theorem MeterNoted.update {name : String} {total : Nat} {m m' : Meter} {u : Update} {n : Nat} {e : Env} {k k' : Nat}
    (hm : MeterNoted name total m) (h : m.update u e k = some ((m', n), k')) {c : Nat} (hc : u.counted.getD 0 = c) :
    MeterNoted name (total + c) m' := by
  obtain ⟨-, m₁, k₁, ht, hu⟩ := Meter.update_eq_some h
  obtain ⟨h1, h2⟩ := Meter.tickIfDue_count ht
  cases hx : u.counted with
  | none =>
    rw [hx] at hu hc
    obtain ⟨rfl, _⟩ := hu
    have : c = 0 := by simpa using hc.symm
    exact ⟨h2.name.trans hm.name, h2.descr.trans hm.descr, by rw [h1, hm.count, this]; rfl⟩
  | some x =>
    rw [hx] at hu hc
    obtain ⟨inner, hmark, rfl⟩ := hu
    have hxc : x = c := by simpa using hc
    refine ⟨h2.name.trans hm.name, h2.descr.trans hm.descr, ?_⟩
    show inner.count = _
    rw [StdMeter.mark_count hmark, h1, hm.count, hxc, wrapI64_wrapI64_add]
    push_cast; rfl

theorem MeterNoted.one {name : String} {total : Nat} {m m' : Meter} {t : Int} {n : Nat} {e : Env} {k k' : Nat}
    (hm : MeterNoted name total m) (h : m.update (.observation t) e k = some ((m', n), k')) :
    MeterNoted name (total + 1) m' :=
  hm.update h (by rw [Update.counted_one _ rfl]; rfl)

theorem MeterNoted.many {name : String} {total x : Nat} {m m' : Meter} {t : Int} {n : Nat} {e : Env} {k k' : Nat}
    (hm : MeterNoted name total m) (h : m.update (.observations x t) e k = some ((m', n), k')) :
    MeterNoted name (total + countable x) m' :=
  hm.update h (by
    rw [Update.counted_observations]; unfold countable
    by_cases h0 : x = 0
    · subst h0; simp
    · by_cases hx : (x : Int) ≤ i64Max <;> simp [h0, hx])

theorem MeterNoted.put {name : String} {total : Nat} {m m' : Meter} {into s : Snapshot} {d : Bool} {e : Env} {k k' : Nat}
    (hm : MeterNoted name total m) (h : m.putSnapshot into d e k = some ((m', s), k')) :
    MeterNoted name total m' ∧ ∃ v, s = into ++ [(name, v)] ∧ ShowsCount (wrapU64 total) v := by
  obtain ⟨h1, h2, r1, r5, r15, hs⟩ := Meter.putSnapshot_count h
  rw [hm.descr, noTexts, hm.name, hm.count, wrapU64_wrapI64] at hs
  exact ⟨⟨h2.name.trans hm.name, h2.descr.trans hm.descr, h1.trans hm.count⟩, _, hs, _, rfl⟩

structure HistogramNoted (name : String) (total : Nat) (h : Histogram) : Prop where
  name : h.name = name
  descr : h.descr = {}
  limit : h.maxInactivity = none
  count : h.inner.length = total

theorem Histogram.new_noted {name : String} {m : Histogram} {e : Env} {k k' : Nat}
    (h : Histogram.new name e k = some (m, k')) : HistogramNoted name 0 m := by
  have h' : ∃ m k', Histogram.new name e k = some (m, k') ∧ HistogramNoted name 0 m := ⟨_, _, rfl, rfl, rfl, rfl, rfl⟩
  obtain ⟨m', _, h', h1⟩ := h'
  rw [h] at h'; cases h'
  exact h1

theorem HistogramNoted.update {name : String} {total : Nat} {m m' : Histogram} {u : Update} {n : Nat} {e : Env} {k k' : Nat}
    (hm : HistogramNoted name total m) (h : m.update u e k = some ((m', n), k')) :
    HistogramNoted name (total + if (u.metered m.displayTimeUnit).isSome then 1 else 0) m' := by
  obtain ⟨h1, -, h2⟩ := Histogram.update_eq_some h
  have hno : ¬ m.resetsAt (e.clock k) := by rintro ⟨x, hx, _⟩; rw [hm.limit] at hx; cases hx
  refine ⟨h1.name.trans hm.name, h1.descr.trans hm.descr, h1.limit.trans hm.limit, ?_⟩
  cases hv : u.metered m.displayTimeUnit with
  | none =>
    rw [hv] at h2
    obtain ⟨-, -, ⟨hr, _⟩ | ⟨_, hi⟩⟩ := h2
    · exact absurd hr hno
    · rw [hi, hm.count]; rfl
  | some v =>
    rw [hv] at h2
    obtain ⟨-, -, ⟨hr, _⟩ | ⟨_, hi⟩⟩ := h2
    · exact absurd hr hno
    · rw [hi, List.length_append, hm.count]; rfl

theorem ObservedValue.ofDuration_eq_some {d : Nat} {v : ObservedValue} {e : Env} {k k' : Nat}
    (h : ObservedValue.ofDuration d e k = some (v, k')) : ∃ x u, v = .duration x u := by
  simp only [ObservedValue.ofDuration, M.bind_eq_some, M.run_pure, Option.some.injEq, Prod.mk.injEq] at h
  obtain ⟨_, _, h1, _, _, h2, rfl, rfl⟩ := h
  exact ⟨_, _, rfl⟩

theorem HistogramNoted.number {name : String} {total x : Nat} {m m' : Histogram} {t : Int} {n : Nat} {e : Env} {k k' : Nat}
    (hm : HistogramNoted name total m) (h : m.update (.withValue (.unsignedInteger x) t) e k = some ((m', n), k')) :
    HistogramNoted name (total + if (x : Int) ≤ i64Max then 1 else 0) m' := by
  have := hm.update h
  have hx : ((Update.withValue (.unsignedInteger x) t).metered m.displayTimeUnit).isSome = decide ((x : Int) ≤ i64Max) := by
    simp only [Update.metered, ObservedValue.convertToI64]
    by_cases hx : (x : Int) ≤ i64Max <;> simp [hx]
  rw [hx] at this
  simpa using this

theorem HistogramNoted.time {name : String} {total x : Nat} {unit : TimeUnit} {m m' : Histogram} {t : Int} {n : Nat} {e : Env} {k k' : Nat}
    (hm : HistogramNoted name total m) (h : m.update (.withValue (.duration x unit) t) e k = some ((m', n), k')) :
    HistogramNoted name (total + 1) m' := by
  have := hm.update h
  simpa [Update.metered] using this

theorem HistogramNoted.put {name : String} {total : Nat} {m : Histogram} {into s : Snapshot} {d : Bool} {e : Env} {k k' : Nat}
    (hm : HistogramNoted name total m) (h : m.putSnapshot into d e k = some (s, k')) :
    ∃ v, s = into ++ [(name, v)] ∧ ShowsCount total v := by
  obtain ⟨active, k₁, -, -, hact, hs⟩ := Histogram.putSnapshot_eq_some h
  have ha : active = true := hact.mpr (by rw [hm.limit]; intro l hl; cases hl)
  rw [hm.descr, noTexts, hm.name, hm.limit, ha] at hs
  simp only [Option.isSome_none, Bool.false_and, Bool.false_eq_true, if_false, if_true, List.nil_append] at hs
  refine ⟨_, hs, ?_⟩
  rw [← hm.count]
  unfold histogramItems ShowsCount
  split
  · rename_i h0; rw [h0]; exact ⟨_, rfl⟩
  · exact ⟨_, rfl⟩

structure GaugeNoted (name : String) (value : Option Int) (g : Gauge) : Prop where
  name : g.name = name
  descr : g.descr = {}
  group : g.groupValues = true
  value : g.value = value

theorem GaugeNoted.number {name : String} {value : Option Int} {x : Nat} {g g' : Gauge} {t : Int} {n : Nat} {e : Env} {k k' : Nat}
    (hg : GaugeNoted name value g) (h : g.update (.withValue (.unsignedInteger x) t) e k = some ((g', n), k')) :
    GaugeNoted name (if (x : Int) ≤ i64Max then some (x : Int) else value) g' := by
  obtain ⟨h1, h2, h3, rfl⟩ := hg
  simp only [Gauge.update, M.bind_eq_some, M.run_pure, Option.some.injEq, Prod.mk.injEq] at h
  obtain ⟨g₁, k₁, h, ⟨rfl, rfl⟩, rfl⟩ := h
  have key : ∀ cur : Option Int, Gauge.nextValue g.displayTimeUnit cur (.unsignedInteger x) e k =
      some ((if (x : Int) ≤ i64Max then some (x : Int) else cur), k) := by
    intro cur
    by_cases hx : (x : Int) ≤ i64Max <;> simp [Gauge.nextValue, ObservedValue.convertToI64, hx]
  unfold Gauge.set at h
  cases hval : g.value <;> simp only [hval] at h <;> rw [M.run_bind_some (key _)] at h <;>
    by_cases hx : (x : Int) ≤ i64Max <;> simp only [hx, if_true, if_false] at h ⊢ <;>
    simp only [M.bind_eq_some, M.run_pure, Option.some.injEq, Prod.mk.injEq] at h
  · obtain ⟨t, k₂, _, rfl, _⟩ := h; exact ⟨h1, h2, h3, rfl⟩
  · obtain ⟨rfl, _⟩ := h; exact ⟨h1, h2, h3, rfl⟩
  · obtain ⟨t, k₂, _, rfl, _⟩ := h; exact ⟨h1, h2, h3, rfl⟩
  · obtain ⟨t, k₂, _, rfl, _⟩ := h; exact ⟨h1, h2, h3, rfl⟩

theorem GaugeNoted.put {name : String} {value : Option Int} {g g' : Gauge} {into s : Snapshot} {d : Bool} {e : Env} {k k' : Nat}
    (hg : GaugeNoted name value g) (h : g.putSnapshot into d e k = some ((g', s), k')) :
    GaugeNoted name value g' ∧ ∃ v, s = into ++ [(name, v)] ∧ ShowsCurrent value v := by
  obtain ⟨h1, h2⟩ := Gauge.putSnapshot_eq_some h
  refine ⟨⟨h2.name.trans hg.name, h2.descr.trans hg.descr, h2.group.trans hg.group, h1.trans hg.value⟩, ?_⟩
  simp only [Gauge.putSnapshot, hg.descr, noTexts, hg.group, if_true, M.bind_eq_some, M.run_pure, Option.some.injEq,
    Prod.mk.injEq] at h
  obtain ⟨⟨g₁, l⟩, k₁, h, ⟨rfl, rfl⟩, _⟩ := h
  refine ⟨.snapshot l, by rw [h2.name, hg.name]; rfl, ?_⟩
  unfold Gauge.putValues at h
  rw [← hg.value]
  cases hval : g.value <;> simp only [hval] at h
  · simp at h; exact congrArg _ h.1.2
  · simp only [hg.group, if_true] at h
    cases ht : g.tracking <;> simp only [ht] at h
    · simp at h; exact ⟨[], congrArg _ h.1.2.symm⟩
    · simp only [M.bind_eq_some, M.run_pure, Option.some.injEq, Prod.mk.injEq] at h
      obtain ⟨_, _, _, ⟨_, rfl⟩, _⟩ := h
      exact ⟨_, by simp [BucketsStats.addToSnapshot, Snapshot.push]; rfl⟩

/-- `until`: the end of the time the timer is on. -/
structure TimerNoted (name : String) (til : Option Int) (t : StaircaseTimer) : Prop where
  name : t.name = name
  descr : t.descr = {}
  inverted : t.showInverted = none
  invert : t.invert = false
  time : t.switchOffAfter = 60 * nanosPerSec
  til : t.stayOnUntil = til

theorem TimerNoted.update {name : String} {til : Option Int} {t t' : StaircaseTimer} {u : Update} {n : Nat} {e : Env} {k k' : Nat}
    (ht : TimerNoted name til t) (h : t.update u e k = some ((t', n), k')) :
    TimerNoted name (some (e.clock k + (60 * nanosPerSec : Nat))) t' ∧ k' = k + 1 := by
  obtain ⟨h1, h2, h3, h4, h5, -⟩ := ht
  simp only [StaircaseTimer.update, M.bind_eq_some, M.run_now, M.run_pure, Option.some.injEq, Prod.mk.injEq] at h
  obtain ⟨_, _, ⟨rfl, rfl⟩, x, _, h, ⟨rfl, rfl⟩, rfl⟩ := h
  obtain ⟨rfl, rfl, -⟩ := addDur_eq_some h
  exact ⟨⟨h1, h2, h3, h4, h5, by rw [h5]⟩, rfl⟩

theorem TimerNoted.put {name : String} {til : Option Int} {t : StaircaseTimer} {into s : Snapshot} {d : Bool} {e : Env} {k k' : Nat}
    (ht : TimerNoted name til t) (h : t.putSnapshot into d e k = some (s, k')) :
    ∃ b, s = into ++ [(name, .boolean b)] ∧ (b = true ↔ ∃ x, til = some x ∧ e.clock k ≤ x) := by
  obtain ⟨h1, h2, h3, h4, h5, h6⟩ := ht
  obtain ⟨b, k₁, hb, hs⟩ := putTimedSwitch_eq_some h
  simp only [h3, h2, noTexts, h1] at hs
  refine ⟨b, hs.2, ?_⟩
  unfold StaircaseTimer.state at hb
  rw [h4] at hb
  cases til with
  | none => simp only [h6] at hb; simp at hb; simp [← hb.1]
  | some x =>
    simp only [h6, M.bind_eq_some, M.run_now, M.run_pure, Option.some.injEq, Prod.mk.injEq] at hb
    obtain ⟨_, _, ⟨rfl, rfl⟩, rfl, _⟩ := hb
    simp

structure IndicatorNoted (name : String) (last : Int) (t : NonOccurrenceIndicator) : Prop where
  name : t.name = name
  descr : t.descr = {}
  inverted : t.showInverted = none
  invert : t.invert = false
  time : t.ifNotHappenedWithin = 60 * nanosPerSec
  last : t.happenedLast = last

theorem IndicatorNoted.update {name : String} {last : Int} {t t' : NonOccurrenceIndicator} {u : Update} {n : Nat} {e : Env} {k k' : Nat}
    (ht : IndicatorNoted name last t) (h : t.update u e k = some ((t', n), k')) :
    IndicatorNoted name (e.clock k) t' ∧ k' = k + 1 := by
  obtain ⟨h1, h2, h3, h4, h5, -⟩ := ht
  simp only [NonOccurrenceIndicator.update, M.bind_eq_some, M.run_now, M.run_pure, Option.some.injEq, Prod.mk.injEq] at h
  obtain ⟨_, _, ⟨rfl, rfl⟩, ⟨rfl, rfl⟩, rfl⟩ := h
  exact ⟨⟨h1, h2, h3, h4, h5, rfl⟩, rfl⟩

theorem IndicatorNoted.put {name : String} {last : Int} {t : NonOccurrenceIndicator} {into s : Snapshot} {d : Bool} {e : Env} {k k' : Nat}
    (ht : IndicatorNoted name last t) (h : t.putSnapshot into d e k = some (s, k')) :
    ∃ b, s = into ++ [(name, .boolean b)] ∧ (b = true ↔ last + (60 * nanosPerSec : Nat) ≤ e.clock k) := by
  obtain ⟨h1, h2, h3, h4, h5, h6⟩ := ht
  obtain ⟨b, k₁, hb, hs⟩ := putTimedSwitch_eq_some h
  simp only [h3, h2, noTexts, h1] at hs
  refine ⟨b, hs.2, ?_⟩
  have := (NonOccurrenceIndicator.state_eq_some hb).1
  rw [this, h4, h5, h6]; simp

/-! ## All of them -/

/-- The instruments after the runs in `runs` and `snaps` snapshots. -/
structure DriverNoted (runs : List Outcome) (snaps : Nat) (lastRun : Int) (til : Option Int) (i : DriverInstruments) : Prop where
  collections : MeterNoted "collections_per_second" runs.length i.collectionsPerSecond
  times : HistogramNoted "collection_times_us" runs.length i.collectionTimes
  processed : MeterNoted "observations_processed_per_second" (runs.map fun o => countable o.processed).sum i.processedPerSecond
  processedEach : HistogramNoted "observations_processed_per_collection"
    (runs.countP fun o => decide (0 < o.processed ∧ (o.processed : Int) ≤ i64Max)) i.processedPerCollection
  dropped : MeterNoted "observations_dropped_per_second" (runs.map fun o => countable o.dropped).sum i.droppedPerSecond
  droppedEach : HistogramNoted "observations_dropped_per_collection"
    (runs.countP fun o => decide (0 < o.dropped ∧ (o.dropped : Int) ≤ i64Max)) i.droppedPerCollection
  enqueued : GaugeNoted "observations_enqueued"
    ((runs.filter fun o => decide ((o.observationsEnqueued : Int) ≤ i64Max)).getLast?.map fun o => (o.observationsEnqueued : Int)) i.enqueued
  updated : MeterNoted "instruments_updated_per_second" (runs.map fun o => countable o.instrumentsUpdated).sum i.updatedPerSecond
  snapshots : MeterNoted "snapshots_per_second" snaps i.snapshotsPerSecond
  snapshotTimes : HistogramNoted "snapshots_times_us" snaps i.snapshotTimes
  droppedAlarm : TimerNoted "dropped_observations_alarm" til i.droppedAlarm
  inactivityAlarm : IndicatorNoted "inactivity_alarm" lastRun i.inactivityAlarm
  ratioHisto : ∃ n, HistogramNoted "iteration_update_ratio_per_mille_histo" n i.ratioHisto
  ratio : ∃ v, GaugeNoted "iteration_update_ratio_per_mille" v i.ratio

theorem fwd_meterNew (name : String) : M.Fwd (Meter.new name) := by unfold Meter.new StdMeter.new; fwd

theorem fwd_histogramNew (name : String) : M.Fwd (Histogram.new name) := by unfold Histogram.new; fwd

theorem setTracking_eq_some {g g' : Gauge} {e : Env} {k k' : Nat} (h : g.setTracking 60 e k = some (g', k')) :
    k ≤ k' ∧ ∃ b, g' = { g with tracking := some b } := by
  simp only [Gauge.setTracking, if_pos (show (60 : Nat) ≠ 0 by decide), M.bind_eq_some, M.run_pure, Option.some.injEq,
    Prod.mk.injEq] at h
  obtain ⟨b, _, h, rfl, rfl⟩ := h
  have : M.Fwd (SecondsBuckets.new 60 : M (SecondsBuckets Bucket)) := by
    unfold SecondsBuckets.new SecondsBuckets.initialized; fwd
  exact ⟨this.le h, b, rfl⟩

theorem DriverInstruments.new_noted {i : DriverInstruments} {e : Env} {k k' : Nat}
    (h : DriverInstruments.new e k = some (i, k')) : ∃ j, k ≤ j ∧ j < k' ∧ DriverNoted [] 0 (e.clock j) none i := by
  unfold DriverInstruments.new at h
  simp only [M.bind_eq_some, M.run_pure, Option.some.injEq, Prod.mk.injEq] at h
  obtain ⟨_, _, h1, _, _, h2, _, _, h3, _, _, h4, _, _, h5, _, _, h6, g, _, h7, _, _, h8, _, _, h9, _, _, h10, a, _, h11,
    _, _, h12, g', _, h13, rfl, rfl⟩ := h
  have hk1 := (fwd_meterNew _).le h1
  have hk2 := (fwd_histogramNew _).le h2
  have hk3 := (fwd_meterNew _).le h3
  have hk4 := (fwd_histogramNew _).le h4
  have hk5 := (fwd_meterNew _).le h5
  have hk6 := (fwd_histogramNew _).le h6
  have hk8 := (fwd_meterNew _).le h8
  have hk9 := (fwd_meterNew _).le h9
  have hk10 := (fwd_histogramNew _).le h10
  have hk12 := (fwd_histogramNew _).le h12
  obtain ⟨hk7, b, rfl⟩ := setTracking_eq_some h7
  obtain ⟨hk13, b', rfl⟩ := setTracking_eq_some h13
  simp only [NonOccurrenceIndicator.new, M.bind_eq_some, M.run_now, M.run_pure, Option.some.injEq, Prod.mk.injEq] at h11
  obtain ⟨_, j, ⟨rfl, rfl⟩, rfl, rfl⟩ := h11
  refine ⟨_, ?_, ?_, ⟨Meter.new_noted h1, Histogram.new_noted h2, Meter.new_noted h3, Histogram.new_noted h4, Meter.new_noted h5,
    Histogram.new_noted h6, ⟨rfl, rfl, rfl, rfl⟩, Meter.new_noted h8, Meter.new_noted h9, Histogram.new_noted h10,
    ⟨rfl, rfl, rfl, rfl, rfl, rfl⟩, ⟨rfl, rfl, rfl, rfl, rfl, rfl⟩, ⟨0, Histogram.new_noted h12⟩, ⟨none, rfl, rfl, rfl, rfl⟩⟩⟩
  · omega
  · omega

theorem fwd_timerUpdate (t : StaircaseTimer) (u : Update) : M.Fwd (t.update u) := by unfold StaircaseTimer.update; fwd

theorem fwd_ofDuration (d : Nat) : M.Fwd (ObservedValue.ofDuration d) := by unfold ObservedValue.ofDuration; fwd

section
open DriverInstruments
variable {i i' : DriverInstruments} {now started : Int} {n : Nat} {e : Env} {k k' : Nat}

theorem notePass_spec (h : i.notePass now started e k = some (i', k')) :
    k ≤ k' ∧ ∃ m hh, i' = { i with collectionsPerSecond := m, collectionTimes := hh } ∧
      (∀ {name c}, MeterNoted name c i.collectionsPerSecond → MeterNoted name (c + 1) m) ∧
      (∀ {name c}, HistogramNoted name c i.collectionTimes → HistogramNoted name (c + 1) hh) := by
  simp only [notePass, M.bind_eq_some, M.run_pure, Option.some.injEq, Prod.mk.injEq] at h
  obtain ⟨⟨m, _⟩, j₁, hm, time, j₂, ht, ⟨hh, _⟩, _, hhh, rfl, rfl⟩ := h
  obtain ⟨x, u, rfl⟩ := ObservedValue.ofDuration_eq_some ht
  have e1 := (Meter.fwd_update _ _).le hm
  have e2 := (fwd_ofDuration _).le ht
  have e3 := (Histogram.fwd_update _ _).le hhh
  exact ⟨by omega, m, hh, rfl, fun h => h.one hm, fun h => h.time hhh⟩

theorem noteProcessed_spec (h : i.noteProcessed now n e k = some (i', k')) :
    k ≤ k' ∧ ∃ m hh, i' = { i with processedPerSecond := m, processedPerCollection := hh } ∧
      (∀ {name c}, MeterNoted name c i.processedPerSecond → MeterNoted name (c + countable n) m) ∧
      (∀ {name c}, HistogramNoted name c i.processedPerCollection →
        HistogramNoted name (c + if 0 < n ∧ (n : Int) ≤ i64Max then 1 else 0) hh) := by
  unfold noteProcessed at h
  split at h
  · rename_i hn
    simp only [M.bind_eq_some, M.run_pure, Option.some.injEq, Prod.mk.injEq] at h
    obtain ⟨⟨m, _⟩, j₁, hm, ⟨hh, _⟩, _, hhh, rfl, rfl⟩ := h
    have e1 := (Meter.fwd_update _ _).le hm
    have e3 := (Histogram.fwd_update _ _).le hhh
    exact ⟨by omega, m, hh, rfl, fun h => h.many hm, fun h => by simpa [hn] using h.number hhh⟩
  · rename_i hn
    simp only [M.run_pure, Option.some.injEq, Prod.mk.injEq] at h
    obtain ⟨rfl, rfl⟩ := h
    have : n = 0 := by omega
    exact ⟨le_rfl, _, _, rfl, fun h => by simpa [countable, this] using h, fun h => by simpa [this] using h⟩

theorem noteEnqueued_spec (h : i.noteEnqueued now n e k = some (i', k')) :
    k ≤ k' ∧ ∃ g, i' = { i with enqueued := g } ∧
      (∀ {name v}, GaugeNoted name v i.enqueued → GaugeNoted name (if (n : Int) ≤ i64Max then some (n : Int) else v) g) := by
  simp only [noteEnqueued, M.bind_eq_some, M.run_pure, Option.some.injEq, Prod.mk.injEq] at h
  obtain ⟨⟨g, _⟩, j₁, hg, rfl, rfl⟩ := h
  exact ⟨(Gauge.fwd_update _ _).le hg, g, rfl, fun h => h.number hg⟩

theorem noteDropped_spec (h : i.noteDropped now n e k = some (i', k')) :
    k ≤ k' ∧ ∃ j, k ≤ j ∧ j ≤ k' ∧ ∃ m hh t,
      i' = { i with droppedPerSecond := m, droppedPerCollection := hh, droppedAlarm := t } ∧
      (∀ {name c}, MeterNoted name c i.droppedPerSecond → MeterNoted name (c + countable n) m) ∧
      (∀ {name c}, HistogramNoted name c i.droppedPerCollection →
        HistogramNoted name (c + if 0 < n ∧ (n : Int) ≤ i64Max then 1 else 0) hh) ∧
      (∀ {name til}, TimerNoted name til i.droppedAlarm →
        TimerNoted name (if n > 0 then some (e.clock j + (60 * nanosPerSec : Nat)) else til) t) := by
  unfold noteDropped at h
  split at h
  · rename_i hn
    simp only [M.bind_eq_some, M.run_pure, Option.some.injEq, Prod.mk.injEq] at h
    obtain ⟨⟨m, _⟩, j₁, hm, ⟨hh, _⟩, j₂, hhh, ⟨t, _⟩, _, ht, rfl, rfl⟩ := h
    have e1 := (Meter.fwd_update _ _).le hm
    have e3 := (Histogram.fwd_update _ _).le hhh
    have e4 := (fwd_timerUpdate _ _).le ht
    refine ⟨by omega, j₂, by omega, by omega, m, hh, t, rfl, fun h => h.many hm, fun h => by simpa [hn] using h.number hhh,
      fun h => ?_⟩
    rw [if_pos hn]; exact (h.update ht).1
  · rename_i hn
    simp only [M.run_pure, Option.some.injEq, Prod.mk.injEq] at h
    obtain ⟨rfl, rfl⟩ := h
    have : n = 0 := by omega
    exact ⟨le_rfl, k, le_rfl, le_rfl, _, _, _, rfl, fun h => by simpa [countable, this] using h, fun h => by simpa [this] using h,
      fun h => by rw [if_neg hn]; exact h⟩

theorem noteUpdated_spec (h : i.noteUpdated now n e k = some (i', k')) :
    k ≤ k' ∧ ∃ m, i' = { i with updatedPerSecond := m } ∧
      (∀ {name c}, MeterNoted name c i.updatedPerSecond → MeterNoted name (c + countable n) m) := by
  unfold noteUpdated at h
  split at h
  · simp only [M.bind_eq_some, M.run_pure, Option.some.injEq, Prod.mk.injEq] at h
    obtain ⟨⟨m, _⟩, j₁, hm, rfl, rfl⟩ := h
    exact ⟨(Meter.fwd_update _ _).le hm, m, rfl, fun h => h.many hm⟩
  · rename_i hn
    simp only [M.run_pure, Option.some.injEq, Prod.mk.injEq] at h
    obtain ⟨rfl, rfl⟩ := h
    have : n = 0 := by omega
    exact ⟨le_rfl, _, rfl, fun h => by simpa [countable, this] using h⟩

theorem noteActivity_spec (h : i.noteActivity now e k = some (i', k')) :
    k' = k + 1 ∧ ∃ x, i' = { i with inactivityAlarm := x } ∧
      (∀ {name t}, IndicatorNoted name t i.inactivityAlarm → IndicatorNoted name (e.clock k) x) := by
  simp only [noteActivity, NonOccurrenceIndicator.update, M.bind_eq_some, M.run_now, M.run_pure, Option.some.injEq,
    Prod.mk.injEq] at h
  obtain ⟨_, _, ⟨_, _, ⟨rfl, rfl⟩, rfl, rfl⟩, rfl, rfl⟩ := h
  exact ⟨rfl, _, rfl, fun h => ⟨h.name, h.descr, h.inverted, h.invert, h.time, rfl⟩⟩

end

theorem DriverNoted.postCollection {runs : List Outcome} {snaps : Nat} {last : Int} {til : Option Int}
    {i i' : DriverInstruments} {o : Outcome} {started : Int} {e : Env} {k k' : Nat} (hi : DriverNoted runs snaps last til i)
    (h : i.updatePostCollection o started e k = some (i', k')) :
    ∃ j j', k ≤ j ∧ j < k' ∧ k ≤ j' ∧ j' < k' ∧
      DriverNoted (runs ++ [o]) snaps (e.clock j) (if o.dropped > 0 then some (e.clock j' + (60 * nanosPerSec : Nat)) else til) i' := by
  obtain ⟨h1, h2, h3, h4, h5, h6, h7, h8, h9, h10, h11, h12, h13, h14⟩ := hi
  simp only [DriverInstruments.updatePostCollection, M.bind_eq_some, M.run_now, Option.some.injEq, Prod.mk.injEq] at h
  obtain ⟨_, _, ⟨rfl, rfl⟩, i₁, k₁, g1, i₂, k₂, g2, i₃, k₃, g3, i₄, k₄, g4, i₅, k₅, g5, g6⟩ := h
  obtain ⟨e1, m₁, hh₁, rfl, a1, a2⟩ := notePass_spec g1
  obtain ⟨e2, m₂, hh₂, rfl, a3, a4⟩ := noteProcessed_spec g2
  obtain ⟨e3, g₃, rfl, a7⟩ := noteEnqueued_spec g3
  obtain ⟨e4, j', e4', e4'', m₄, hh₄, t₄, rfl, a5, a6, a11⟩ := noteDropped_spec g4
  obtain ⟨e5, m₅, rfl, a8⟩ := noteUpdated_spec g5
  obtain ⟨e6, x₆, rfl, a12⟩ := noteActivity_spec g6
  refine ⟨k₅, j', by omega, by omega, by omega, by omega, ?_⟩
  refine ⟨?_, ?_, ?_, ?_, ?_, ?_, ?_, ?_, h9, h10, a11 h11, a12 h12, h13, h14⟩
  · simpa using a1 h1
  · simpa using a2 h2
  · simpa using a3 h3
  · simpa [List.countP_append, List.countP_singleton] using a4 h4
  · simpa using a5 h5
  · simpa [List.countP_append, List.countP_singleton] using a6 h6
  · have := a7 h7
    rw [List.filter_append]
    by_cases hx : (o.observationsEnqueued : Int) ≤ i64Max
    · rw [if_pos hx] at this; simpa [hx] using this
    · rw [if_neg hx] at this; simpa [hx] using this
  · simpa using a8 h8

theorem DriverNoted.postSnapshot {runs : List Outcome} {snaps : Nat} {last : Int} {til : Option Int}
    {i i' : DriverInstruments} {started : Int} {e : Env} {k k' : Nat} (hi : DriverNoted runs snaps last til i)
    (h : i.updatePostSnapshot started e k = some (i', k')) : DriverNoted runs (snaps + 1) last til i' ∧ k ≤ k' := by
  obtain ⟨h1, h2, h3, h4, h5, h6, h7, h8, h9, h10, h11, h12, h13, h14⟩ := hi
  simp only [DriverInstruments.updatePostSnapshot, M.bind_eq_some, M.run_now, M.run_pure, Option.some.injEq, Prod.mk.injEq] at h
  obtain ⟨_, _, ⟨rfl, rfl⟩, ⟨m, _⟩, _, hm, time, _, ht, ⟨hh, _⟩, _, hhh, rfl, rfl⟩ := h
  obtain ⟨x, u, rfl⟩ := ObservedValue.ofDuration_eq_some ht
  have e1 := (Meter.fwd_update _ _).le hm
  have e2 := (fwd_ofDuration _).le ht
  have e3 := (Histogram.fwd_update _ _).le hhh
  exact ⟨⟨h1, h2, h3, h4, h5, h6, h7, h8, h9.one hm, h10.time hhh, h11, h12, h13, h14⟩, by omega⟩

theorem DriverNoted.runRatio {runs : List Outcome} {snaps : Nat} {last : Int} {til : Option Int}
    {i i' : DriverInstruments} {r : Rat} {e : Env} {k k' : Nat} (hi : DriverNoted runs snaps last til i)
    (h : i.updateRunRatio r e k = some (i', k')) : DriverNoted runs snaps last til i' ∧ k ≤ k' := by
  obtain ⟨h1, h2, h3, h4, h5, h6, h7, h8, h9, h10, h11, h12, ⟨n, h13⟩, ⟨v, h14⟩⟩ := hi
  simp only [DriverInstruments.updateRunRatio, M.bind_eq_some, M.run_now, M.run_env, M.run_pure, Option.some.injEq,
    Prod.mk.injEq] at h
  obtain ⟨_, _, ⟨rfl, rfl⟩, _, _, ⟨rfl, rfl⟩, ⟨hh, _⟩, _, hhh, ⟨g, _⟩, _, hg, rfl, rfl⟩ := h
  have e1 := (Histogram.fwd_update _ _).le hhh
  have e2 := (Gauge.fwd_update _ _).le hg
  exact ⟨⟨h1, h2, h3, h4, h5, h6, h7, h8, h9, h10, h11, h12, ⟨_, h13.number hhh⟩, ⟨_, h14.number hg⟩⟩, by omega⟩

theorem fwd_timerPut (t : StaircaseTimer) (s : Snapshot) (d : Bool) : M.Fwd (t.putSnapshot s d) :=
  fwd_putTimedSwitch _ _ _ _ (by unfold StaircaseTimer.state; fwd) _ _

theorem fwd_indicatorPut (t : NonOccurrenceIndicator) (s : Snapshot) (d : Bool) : M.Fwd (t.putSnapshot s d) :=
  fwd_putTimedSwitch _ _ _ _ (by unfold NonOccurrenceIndicator.state; fwd) _ _

/-- What the instruments show. -/
def DriverShown (runs : List Outcome) (snaps : Nat) (lastRun : Int) (til : Option Int) (now₁ now₂ : Int) (c : Snapshot) : Prop :=
  ∃ v1 v2 v3 v4 v5 v6 v7 v8 v9 v10 b11 b12 v13 v14,
    c = [("collections_per_second", v1), ("collection_times_us", v2), ("observations_processed_per_second", v3),
      ("observations_processed_per_collection", v4), ("observations_dropped_per_second", v5),
      ("observations_dropped_per_collection", v6), ("observations_enqueued", v7), ("instruments_updated_per_second", v8),
      ("snapshots_per_second", v9), ("snapshots_times_us", v10), ("dropped_observations_alarm", .boolean b11),
      ("inactivity_alarm", .boolean b12), ("iteration_update_ratio_per_mille", v13),
      ("iteration_update_ratio_per_mille_histo", v14)] ∧
    ShowsCount (wrapU64 runs.length) v1 ∧ ShowsCount runs.length v2 ∧
    ShowsCount (wrapU64 (runs.map fun o => countable o.processed).sum) v3 ∧
    ShowsCount (runs.countP fun o => decide (0 < o.processed ∧ (o.processed : Int) ≤ i64Max)) v4 ∧
    ShowsCount (wrapU64 (runs.map fun o => countable o.dropped).sum) v5 ∧
    ShowsCount (runs.countP fun o => decide (0 < o.dropped ∧ (o.dropped : Int) ≤ i64Max)) v6 ∧
    ShowsCurrent ((runs.filter fun o => decide ((o.observationsEnqueued : Int) ≤ i64Max)).getLast?.map
      fun o => (o.observationsEnqueued : Int)) v7 ∧
    ShowsCount (wrapU64 (runs.map fun o => countable o.instrumentsUpdated).sum) v8 ∧
    ShowsCount (wrapU64 snaps) v9 ∧ ShowsCount snaps v10 ∧
    (b11 = true ↔ ∃ x, til = some x ∧ now₁ ≤ x) ∧ (b12 = true ↔ lastRun + (60 * nanosPerSec : Nat) ≤ now₂) ∧
    (∃ x, ShowsCurrent x v13) ∧ ∃ n, ShowsCount n v14

theorem DriverNoted.put {runs : List Outcome} {snaps : Nat} {last : Int} {til : Option Int}
    {i i' : DriverInstruments} {into s : Snapshot} {d : Bool} {e : Env} {k k' : Nat} (hi : DriverNoted runs snaps last til i)
    (h : i.putSnapshot into d e k = some ((i', s), k')) :
    DriverNoted runs snaps last til i' ∧ ∃ c j₁ j₂, k ≤ j₁ ∧ j₁ ≤ k' ∧ k ≤ j₂ ∧ j₂ ≤ k' ∧ s = into ++ [("_metrix", .snapshot c)] ∧
      DriverShown runs snaps last til (e.clock j₁) (e.clock j₂) c := by
  obtain ⟨h1, h2, h3, h4, h5, h6, h7, h8, h9, h10, h11, h12, ⟨n, h13⟩, ⟨x, h14⟩⟩ := hi
  simp only [DriverInstruments.putSnapshot, M.bind_eq_some, M.run_pure, Option.some.injEq, Prod.mk.injEq] at h
  obtain ⟨⟨i1, s1⟩, k1, p1, s2, k2, p2, ⟨i3, s3⟩, k3, p3, s4, k4, p4, ⟨i5, s5⟩, k5, p5, s6, k6, p6, ⟨i7, s7⟩, k7, p7,
    ⟨i8, s8⟩, k8, p8, ⟨i9, s9⟩, k9, p9, s10, k10, p10, s11, k11, p11, s12, k12, p12, ⟨i13, s13⟩, k13, p13, s14, k14, p14,
    ⟨rfl, rfl⟩, rfl⟩ := h
  obtain ⟨q1, v1, rfl, w1⟩ := h1.put p1
  obtain ⟨v2, rfl, w2⟩ := h2.put p2
  obtain ⟨q3, v3, rfl, w3⟩ := h3.put p3
  obtain ⟨v4, rfl, w4⟩ := h4.put p4
  obtain ⟨q5, v5, rfl, w5⟩ := h5.put p5
  obtain ⟨v6, rfl, w6⟩ := h6.put p6
  obtain ⟨q7, v7, rfl, w7⟩ := h7.put p7
  obtain ⟨q8, v8, rfl, w8⟩ := h8.put p8
  obtain ⟨q9, v9, rfl, w9⟩ := h9.put p9
  obtain ⟨v10, rfl, w10⟩ := h10.put p10
  obtain ⟨v11, rfl, w11⟩ := h11.put p11
  obtain ⟨v12, rfl, w12⟩ := h12.put p12
  obtain ⟨q13, v13, rfl, w13⟩ := h14.put p13
  obtain ⟨v14, rfl, w14⟩ := h13.put p14
  have e1 := (Meter.fwd_putSnapshot _ _ _).le p1
  have e2 := (Histogram.fwd_putSnapshot _ _ _).le p2
  have e3 := (Meter.fwd_putSnapshot _ _ _).le p3
  have e4 := (Histogram.fwd_putSnapshot _ _ _).le p4
  have e5 := (Meter.fwd_putSnapshot _ _ _).le p5
  have e6 := (Histogram.fwd_putSnapshot _ _ _).le p6
  have e7 := (Gauge.fwd_putSnapshot _ _ _).le p7
  have e8 := (Meter.fwd_putSnapshot _ _ _).le p8
  have e9 := (Meter.fwd_putSnapshot _ _ _).le p9
  have e10 := (Histogram.fwd_putSnapshot _ _ _).le p10
  have e11 := (fwd_timerPut _ _ _).le p11
  have e12 := (fwd_indicatorPut _ _ _).le p12
  have e13 := (Gauge.fwd_putSnapshot _ _ _).le p13
  have e14 := (Histogram.fwd_putSnapshot _ _ _).le p14
  refine ⟨⟨q1, h2, q3, h4, q5, h6, q7, q8, q9, h10, h11, h12, ⟨n, h13⟩, ⟨x, q13⟩⟩, _, k10, k11, by omega, by omega, by omega,
    by omega, rfl, ?_⟩
  exact ⟨v1, v2, v3, v4, v5, v6, v7, v8, v9, v10, v11, v12, v13, v14, rfl, w1, w2, w3, w4, w5, w6, w7, w8, w9, w10, w11, w12,
    ⟨x, w13⟩, ⟨n, w14⟩⟩

/-! ## The life of a driver -/

theorem DriverLife.timeline {σ L : Type} [DecidableEq L] [Custom σ L] [CustomProcessor σ] {e : Env} {k k' : Nat}
    {t t' : DriverThread σ L} {log : List (Iteration σ L)} (h : DriverLife e k t log k' t') :
    ∃ tl, tl.map TimedIteration.what = log ∧ DriverTimeline e k t tl k' t' := by
  induction h with
  | nil hk => exact ⟨[], rfl, .nil hk⟩
  | iteration hk hi _ ih =>
    obtain ⟨tl, rfl, h⟩ := ih
    exact ⟨_, rfl, .iteration hk hi h⟩
  | over hk hi _ ih =>
    obtain ⟨tl, rfl, h⟩ := ih
    exact ⟨_, rfl, .over hk hi h⟩
  | others _ ih =>
    obtain ⟨tl, rfl, h⟩ := ih
    exact ⟨_, rfl, .others h⟩

theorem DriverTimeline.life {σ L : Type} [DecidableEq L] [Custom σ L] [CustomProcessor σ] {e : Env} {k k' : Nat}
    {t t' : DriverThread σ L} {tl : List (TimedIteration σ L)} (h : DriverTimeline e k t tl k' t') :
    DriverLife e k t (tl.map TimedIteration.what) k' t' := by
  induction h with
  | nil hk => exact .nil hk
  | iteration hk hi _ ih => exact .iteration hk hi ih
  | over hk hi _ ih => exact .over hk hi ih
  | others _ ih => exact .others ih

section
variable {σ L : Type} [DecidableEq L] [Custom σ L] [CustomProcessor σ]

/-- No part of the driver undoes clock readings. -/
structure AllForward (σ L : Type) [Custom σ L] [CustomProcessor σ] : Prop where
  custom : CustomForward σ L
  processor : CustomProcessorForward σ

omit [DecidableEq L] in
theorem PutInTurn.fwd {X : Type} {put : X → Snapshot → M (X × Snapshot)} (hput : ∀ x s, M.Fwd (put x s)) {e : Env} {k k' : Nat}
    {xs xs' : List X} {into into' : Snapshot} (h : PutInTurn put e k xs into xs' into' k') : k ≤ k' := by
  induction h with
  | nil => exact le_rfl
  | cons hp _ ih => exact ((hput _ _).le hp).trans ih

/-- The metrics in a state of the loop. -/
def LoopState.Noted (l : LoopState σ L) (name : Option String) (runs : List Outcome) (snaps : Nat) (last : Int) (til : Option Int) : Prop :=
  l.name = name ∧ ∃ i, l.metrics = some i ∧ DriverNoted runs snaps last til i

variable {l l' : LoopState σ L} {name : Option String} {runs : List Outcome} {snaps : Nat} {last : Int} {til : Option Int} {e : Env} {k k' : Nat}

omit [DecidableEq L] in
theorem makeSnapshot_noted {d : Bool} {s : Snapshot} (hl : l.Noted name runs snaps last til)
    (h : l.makeSnapshot d e k = some ((l', s), k')) :
    l'.Noted name runs (snaps + 1) last til ∧ (AllForward σ L → k < k') ∧ ∃ front c j₁ j₂,
      s = grouped name (front ++ [("_metrix", .snapshot c)]) ∧ (AllForward σ L → k < j₁) ∧ j₁ ≤ k' ∧
      (AllForward σ L → k < j₂) ∧ j₂ ≤ k' ∧ DriverShown runs (snaps + 1) last til (e.clock j₁) (e.clock j₂) c := by
  obtain ⟨rfl, i, hi, hn⟩ := hl
  obtain ⟨level, hv, rfl⟩ := makeSnapshot_spec h
  obtain ⟨ps, ss, items₁, items₂, k₁, k₂, metrics, entry, hp, hsn, hlev, -, -, rfl, hm⟩ := addSnapshotValues_spec hv
  rw [hi] at hm
  obtain ⟨i₁, i₂, k₃, hu, hs, rfl⟩ := hm
  obtain ⟨hn₁, hk₁⟩ := hn.postSnapshot hu
  obtain ⟨hn₂, c, j₁, j₂, b1, b2, b3, b4, hc, hsh⟩ := hn₁.put hs
  have hf : AllForward σ L → k < k₂ := fun hf => by
    have e1 := hp.fwd fun n s => n.fwd_putSnapshot hf.custom hf.processor d s
    have e2 := hsn.fwd fun n s => n.fwd_putSnapshot hf.custom d s
    omega
  refine ⟨⟨rfl, i₂, rfl, hn₂⟩, fun h => by have := hf h; omega, items₂, c, j₁, j₂, by rw [hc], fun h => ?_, b2, fun h => ?_, b4, hsh⟩
  · have := hf h; omega
  · have := hf h; omega

omit [DecidableEq L] in
theorem handle_noted {m : DriverMsg σ L} {answer : Option Snapshot} (hl : l.Noted name runs snaps last til)
    (h : l.handle m e k = some ((l', answer), k')) :
    l'.Noted name runs (snaps + (requests [m]).length) last til ∧ (AllForward σ L → k ≤ k') := by
  cases m with
  | getSnapshot id d =>
    simp only [LoopState.handle, M.bind_eq_some, M.run_pure, Option.some.injEq, Prod.mk.injEq] at h
    obtain ⟨⟨l₁, s⟩, k₁, h, ⟨rfl, rfl⟩, rfl⟩ := h
    obtain ⟨h1, h2, _⟩ := makeSnapshot_noted hl h
    exact ⟨h1, fun hf => (h2 hf).le⟩
  | _ =>
    simp only [LoopState.handle, M.run_pure, Option.some.injEq, Prod.mk.injEq] at h
    obtain ⟨⟨rfl, rfl⟩, rfl⟩ := h
    exact ⟨hl, fun _ => le_rfl⟩

omit [DecidableEq L] in
theorem begin_noted {m : Option (DriverMsg σ L)} {started : Int} {answer : Option Snapshot}
    (hl : l.Noted name runs snaps last til) (h : l.begin m e k = some ((l', started, answer), k')) :
    l'.Noted name runs (snaps + (requests m.toList).length) last til ∧ (AllForward σ L → k < k') := by
  rcases (begin_spec h).2 with ⟨rfl, rfl, _, rfl⟩ | ⟨m', rfl, hh⟩
  · exact ⟨hl, fun _ => by omega⟩
  · obtain ⟨h1, h2⟩ := handle_noted hl hh
    exact ⟨h1, fun hf => by have := h2 hf; omega⟩

theorem work_noted {started : Int} {outcome : Option Outcome} {rest : Option Nap} (hl : l.Noted name runs snaps last til)
    (h : l.work started e k = some ((l', outcome, rest), k')) :
    (AllForward σ L → k ≤ k') ∧
    ((outcome = none ∧ l'.Noted name runs snaps last til) ∨ ∃ o, outcome = some o ∧
      ∃ j j', (AllForward σ L → k ≤ j) ∧ j < k' ∧ (AllForward σ L → k ≤ j') ∧ j' < k' ∧
      l'.Noted name (runs ++ [o]) snaps (e.clock j) (if o.dropped > 0 then some (e.clock j' + (60 * nanosPerSec : Nat)) else til)) := by
  obtain ⟨rfl, i, hi, hn⟩ := hl
  rcases work_spec h with ⟨-, h2, rfl, rfl⟩ | ⟨-, o, ps, k₁, t, c, w, l₁, k₂, k₃, ho, hproc, rfl, hk, l₂, hnote, hrest⟩
  · exact ⟨fun _ => le_rfl, .inl ⟨h2, rfl, i, hi, hn⟩⟩
  · obtain ⟨metrics, rfl, -, hm⟩ := noteRun_spec hnote
    simp only [hi] at hm
    obtain ⟨i', hu, rfl⟩ := hm
    obtain ⟨j, j', b1, b2, b3, b4, hn'⟩ := hn.postCollection hu
    have hf : AllForward σ L → k ≤ k₂ := fun hf => by
      have := (fwd_processNodes hf.custom hf.processor _ _ _).le hproc
      omega
    have key : k₃ ≤ k' ∧ l'.Noted l.name (runs ++ [o]) snaps (e.clock j)
        (if o.dropped > 0 then some (e.clock j' + (60 * nanosPerSec : Nat)) else til) := by
      rcases hrest with ⟨rfl, rfl⟩ | ⟨rt, hr⟩
      · exact ⟨le_rfl, rfl, i', rfl, hn'⟩
      · obtain ⟨metrics, rfl, -, hm⟩ := reportElapsed_spec hr
        simp only at hm
        rcases hm with ⟨rfl, rfl⟩ | ⟨i'', ratio, hrr, rfl⟩
        · exact ⟨by omega, rfl, i', rfl, hn'⟩
        · obtain ⟨h1, h2⟩ := hn'.runRatio hrr
          exact ⟨by omega, rfl, i'', rfl, h1⟩
    refine ⟨fun h => by have := hf h; omega, .inr ⟨o, ho, j, j', fun h => by have := hf h; omega, by omega,
      fun h => by have := hf h; omega, by omega, key.2⟩⟩

/-- `v` is the value given by the last element that sets it, or an initial one. -/
def LastSet {X V : Type} (sets : X → Bool) (value : X → V → Prop) (init : V → Prop) : List X → V → Prop
  | [], v => init v
  | x :: xs, v => LastSet sets value (if sets x then value x else init) xs v

theorem LastSet.iff {X V : Type} {sets : X → Bool} {value : X → V → Prop} {init : V → Prop} {xs : List X} {v : V} :
    LastSet sets value init xs v ↔
      match (xs.filter sets).getLast? with
      | some x => value x v
      | none => init v := by
  induction xs generalizing init with
  | nil => rfl
  | cons x xs ih =>
    rw [LastSet, ih]
    by_cases hx : sets x = true
    · rw [List.filter_cons_of_pos hx, List.getLast?_cons]
      cases (xs.filter sets).getLast? <;> simp [hx]
    · rw [List.filter_cons_of_neg hx]
      cases (xs.filter sets).getLast? <;> simp [hx]

/-- `v` was read in the iteration `x`. -/
def ReadIn (e : Env) (x : TimedIteration σ L) (v : Int) : Prop := ∃ j, (AllForward σ L → x.start ≤ j) ∧ j < x.stop ∧ v = e.clock j

/-- The metrics at any moment of the life of a driver. -/
theorem DriverTimeline.noted {t t' : DriverThread σ L} {tl before after : List (TimedIteration σ L)} {x : TimedIteration σ L}
    (h : DriverTimeline e k t tl k' t') {initLast : Int → Prop} {initTil : Option Int → Prop}
    (ht : ∀ l, t = .running l → ∃ last til, l.state.Noted name runs snaps last til ∧ initLast last ∧ initTil til)
    (htl : tl = before ++ x :: after) :
    ∃ (l : Loop σ L) (t₁ : DriverThread σ L) (last : Int) (til : Option Int),
      (DriverThread.running l).iterate e x.start = (t₁, some x.what, x.stop) ∧
      l.state.Noted name (runs ++ runsOf (before.map TimedIteration.what)) (snaps + (answersIn (before.map TimedIteration.what)).length) last til ∧
      LastSet (fun x => x.what.outcome.any fun _ => true) (ReadIn e) initLast before last ∧
      LastSet (fun x => x.what.outcome.any fun o => decide (o.dropped > 0))
        (fun x til => ∃ v, ReadIn e x v ∧ til = some (v + (60 * nanosPerSec : Nat))) initTil before til := by
  induction h generalizing runs snaps before initLast initTil with
  | nil => simp at htl
  | @iteration k k₁ k₂ k' t t₁ t' j tl hk hi hl ih =>
    cases t with
    | ended c => have := (iterate_ended hi).2.1; simp at this
    | running l =>
      obtain ⟨last, til, hn, h1, h2⟩ := ht l rfl
      cases before with
      | nil =>
        simp only [List.nil_append, List.cons.injEq] at htl
        obtain ⟨rfl, rfl⟩ := htl
        exact ⟨l, t₁, last, til, hi, by simpa [runsOf, answersIn] using hn, h1, h2⟩
      | cons b before =>
        simp only [List.cons_append, List.cons.injEq] at htl
        obtain ⟨rfl, rfl⟩ := htl
        simp only [List.map_cons, LastSet]
        have e1 : runs ++ runsOf (j :: before.map TimedIteration.what) = (runs ++ j.outcome.toList) ++ runsOf (before.map TimedIteration.what) := by
          cases ho : j.outcome <;> simp [runsOf, ho]
        have e2 : snaps + (answersIn (j :: before.map TimedIteration.what)).length =
            (snaps + (answersIn [j]).length) + (answersIn (before.map TimedIteration.what)).length := by
          rw [answersIn_cons, List.length_append]; omega
        rw [e1, e2]
        refine ih ?_ rfl
        intro l' hl'
        cases iterates hi with
        | panicEarly hp hb => cases hl'
        | panicLate hp hb hw => cases hl'
        | done hp hb hw =>
          cases hl'
          rename_i outcome rest
          have hans := congrArg List.length (begin_answered (o := outcome) (rest := rest) hb)
          rw [List.length_map] at hans
          rw [hans]
          obtain ⟨n1, f1⟩ := begin_noted hn hb
          obtain ⟨-, hw⟩ := work_noted n1 hw
          rcases hw with ⟨rfl, n2⟩ | ⟨o, rfl, i, i', f2, f3, f4, f5, n2⟩
          · exact ⟨_, _, by simpa using n2, by simpa using h1, by simpa using h2⟩
          · refine ⟨_, _, n2, ?_, ?_⟩
            · simp only [Option.any_some, if_true]
              exact ⟨i, fun hf => by have := f1 hf; have := f2 hf; simp only; omega, f3, rfl⟩
            · simp only [Option.any_some]
              by_cases hd : o.dropped > 0
              · simp only [hd, decide_true, if_true]
                exact ⟨_, ⟨i', fun hf => by have := f1 hf; have := f4 hf; simp only; omega, f5, rfl⟩, rfl⟩
              · simpa [hd] using h2
  | @over k k₁ k₂ k' t t₁ t' log hk hi hl ih =>
    cases t with
    | ended c =>
      obtain ⟨rfl, -, rfl⟩ := iterate_ended hi
      obtain ⟨h1, _⟩ := hl.life.ended rfl
      simp at h1; rw [h1] at htl; simp at htl
    | running l =>
      cases iterates hi with
      | stop hp =>
        obtain ⟨h1, _⟩ := hl.life.ended rfl
        simp at h1; rw [h1] at htl; simp at htl
  | others hl ih =>
    obtain ⟨h1, _⟩ := hl.life.ended rfl
    simp at h1; rw [h1] at htl; simp at htl

end

end Metrix
