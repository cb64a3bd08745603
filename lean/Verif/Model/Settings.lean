import Verif.Model.Adapter

/-!
# Settings of instruments

Every setting exists as `set_x(&mut self, ..)` and mostly also as `x(self, ..) -> Self`, which calls the former and returns
`self`. Here a setting is a value, and `with_` makes it.
-/

namespace Metrix

/-- The name, the title and the description, which all instruments have. -/
inductive TextSetting
  | name (s : String)
  | title (s : String)
  | description (s : String)

/-- `src/instruments/counter.rs:52-77`, `src/instruments/gauge/mod.rs:90-97, 116-132`, `src/instruments/meter.rs:54-79`,
`src/instruments/histogram.rs:49-74`, `src/instruments/other_instruments/value_meter.rs:51-76`,
`src/instruments/other_instruments/display.rs:49-74`, `src/instruments/other_instruments/last_occurrence_tracker.rs:40-65`,
`src/instruments/switches/flag.rs:42-67`, `src/instruments/switches/staircase_timer.rs:55-80`,
`src/instruments/switches/occurrence_indicator.rs:48-73`, `src/instruments/switches/non_occurrence_indicator.rs:54-79`,
`src/instruments/polled.rs:48-50, 68-77, 132-134, 144-153`: `set_name`, `name`, `set_title`, `title`, `set_description`,
`description`. -/
def TextSetting.apply (t : TextSetting) (name : String) (d : Descr) : String × Descr :=
  match t with
  | .name s => (s, d)
  | .title s => (name, { d with title := some s })
  | .description s => (name, { d with description := some s })

/-- What can be set of a counter. -/
def Counter.with_ (c : Counter) (t : TextSetting) : Counter :=
  { c with name := (t.apply c.name c.descr).1, descr := (t.apply c.name c.descr).2 }

/-- What can be set of a meter. -/
inductive MeterSetting
  | text (t : TextSetting)
  | lowerCutoff (q : F64)
  | oneMinute (b : Bool)
  | fiveMinutes (b : Bool)
  | fifteenMinutes (b : Bool)

/-- `src/instruments/meter.rs:84-139` and `src/instruments/other_instruments/value_meter.rs:81-136`: `set_lower_cutoff`,
`lower_cutoff`, `set_one_minute_rate_enabled`, .., `fifteen_minute_rate_enabled`. -/
def Meter.with_ (m : Meter) : MeterSetting → Meter
  | .text t => { m with name := (t.apply m.name m.descr).1, descr := (t.apply m.name m.descr).2 }
  | .lowerCutoff q => { m with lowerCutoff := q }
  | .oneMinute b => { m with oneMinute := b }
  | .fiveMinutes b => { m with fiveMinutes := b }
  | .fifteenMinutes b => { m with fifteenMinutes := b }

/-- What can be set of a meter of values. -/
inductive ValueMeterSetting
  | meter (s : MeterSetting)
  | displayTimeUnit (u : TimeUnit)

/-- `src/instruments/other_instruments/value_meter.rs:138-144`: `set_display_time_unit`, `display_time_unit`. -/
def ValueMeter.with_ (m : ValueMeter) : ValueMeterSetting → ValueMeter
  | .meter s => { m with meter := m.meter.with_ s }
  | .displayTimeUnit u => { m with displayTimeUnit := u }

/-- What can be set of a histogram. -/
inductive HistogramSetting
  | text (t : TextSetting)
  | inactivityLimit (d : Nat)
  | resetAfterInactivity (b : Bool)
  | showActivityState (b : Bool)
  | displayTimeUnit (u : TimeUnit)

/-- `src/instruments/histogram.rs:80-137`. -/
def Histogram.with_ (h : Histogram) : HistogramSetting → Histogram
  | .text t => { h with name := (t.apply h.name h.descr).1, descr := (t.apply h.name h.descr).2 }
  | .inactivityLimit d => { h with maxInactivity := some d }
  | .resetAfterInactivity b => { h with resetAfterInactivity := b }
  | .showActivityState b => { h with showActivityState := b }
  | .displayTimeUnit u => { h with displayTimeUnit := u }

/-- What can be set of a gauge. `value` sets the initial value. -/
inductive GaugeSetting
  | text (t : TextSetting)
  | value (v : Int)
  | groupValues (b : Bool)
  | tracking (seconds : Nat)
  | displayTimeUnit (u : TimeUnit)

/-- `src/instruments/gauge/mod.rs:100-114, 148-180`. -/
def Gauge.with_ (g : Gauge) : GaugeSetting → M Gauge
  | .text t => return { g with name := (t.apply g.name g.descr).1, descr := (t.apply g.name g.descr).2 }
  | .value v => g.set (.signedInteger v)
  | .groupValues b => return { g with groupValues := b }
  | .tracking n => g.setTracking n
  | .displayTimeUnit u => return { g with displayTimeUnit := u }

/-- How the inverted item of a switch is to be named. -/
inductive InvertedSetting
  | as (a : NameAlternation)
  | prefixed (s : String)
  | postfixed (s : String)
  | renamed (s : String)

/-- `src/instruments/switches/flag.rs:75-116`, `src/instruments/switches/staircase_timer.rs:121-162`,
`src/instruments/switches/occurrence_indicator.rs:118-159`, `src/instruments/switches/non_occurrence_indicator.rs:123-164`:
`set_show_inverted`, `show_inverted`, `set_show_inverted_prefixed`, .., `show_inverted_renamed`. -/
def InvertedSetting.alternation : InvertedSetting → NameAlternation
  | .as a => a
  | .prefixed s => .pre s
  | .postfixed s => .post s
  | .renamed s => .rename s

/-- What can be set of a flag. `state` sets the initial state. -/
inductive FlagSetting
  | text (t : TextSetting)
  | state (b : Bool)
  | showInverted (i : InvertedSetting)

/-- `src/instruments/switches/flag.rs:34-36, 69-72`. -/
def Flag.with_ (f : Flag) : FlagSetting → Flag
  | .text t => { f with name := (t.apply f.name f.descr).1, descr := (t.apply f.name f.descr).2 }
  | .state b => { f with state := some b }
  | .showInverted i => { f with showInverted := some i.alternation }

/-- What can be set of a switch that depends on time. `duration` is `switch_off_after`, `if_happened_within` or
`if_not_happened_within`. -/
inductive SwitchSetting
  | text (t : TextSetting)
  | invert (b : Bool)
  | duration (d : Nat)
  | showInverted (i : InvertedSetting)

/-- `src/instruments/switches/staircase_timer.rs:84-93, 103-113`. -/
def StaircaseTimer.with_ (t : StaircaseTimer) : SwitchSetting → StaircaseTimer
  | .text s => { t with name := (s.apply t.name t.descr).1, descr := (s.apply t.name t.descr).2 }
  | .invert b => { t with invert := b }
  | .duration d => { t with switchOffAfter := d }
  | .showInverted i => { t with showInverted := some i.alternation }

/-- `src/instruments/switches/occurrence_indicator.rs:78-96, 103-111`. -/
def OccurrenceIndicator.with_ (t : OccurrenceIndicator) : SwitchSetting → M OccurrenceIndicator
  | .text s => return { t with name := (s.apply t.name t.descr).1, descr := (s.apply t.name t.descr).2 }
  | .invert b => return { t with invert := b }
  | .duration d => t.setIfHappenedWithin d
  | .showInverted i => return { t with showInverted := some i.alternation }

/-- `src/instruments/switches/non_occurrence_indicator.rs:84-102, 109-116`. -/
def NonOccurrenceIndicator.with_ (t : NonOccurrenceIndicator) : SwitchSetting → NonOccurrenceIndicator
  | .text s => { t with name := (s.apply t.name t.descr).1, descr := (s.apply t.name t.descr).2 }
  | .invert b => { t with invert := b }
  | .duration d => t.setIfNotHappenedWithin d
  | .showInverted i => { t with showInverted := some i.alternation }

/-- What can be set of a display. -/
inductive DisplaySetting
  | text (t : TextSetting)
  | resetAfter (d : Nat)
  | resetValue (v : ItemKind)

/-- `src/instruments/other_instruments/display.rs:79-89, 100-112`. -/
def DataDisplay.with_ (x : DataDisplay) : DisplaySetting → DataDisplay
  | .text t => { x with name := (t.apply x.name x.descr).1, descr := (t.apply x.name x.descr).2 }
  | .resetAfter d => x.setResetAfter d
  | .resetValue v => x.setResetValue v

/-- What can be set of a tracker of the last occurrence. -/
inductive LastOccurrenceSetting
  | text (t : TextSetting)
  | invert (b : Bool)
  | makeNoneZero (b : Bool)

/-- `src/instruments/other_instruments/last_occurrence_tracker.rs:70-88, 100-112`. -/
def LastOccurrenceTracker.with_ (x : LastOccurrenceTracker) : LastOccurrenceSetting → LastOccurrenceTracker
  | .text t => { x with name := (t.apply x.name x.descr).1, descr := (t.apply x.name x.descr).2 }
  | .invert b => { x with invert := b }
  | .makeNoneZero b => { x with makeNoneZero := b }

/-- `xs` one after the other, for settings that cannot fail. -/
def withAll {I S : Type} (f : I → S → I) (i : I) (xs : List S) : I := xs.foldl f i

/-- `xs` one after the other, for settings that read the clock. -/
def withAllM {I S : Type} (f : I → S → M I) (i : I) : List S → M I
  | [] => return i
  | x :: xs => do
    let i ← f i x
    withAllM f i xs

end Metrix
