import Verif.Spec.Settings
import Verif.Proof.Ring
import Verif.Proof.Gauge
import Verif.Proof.Switches
import Verif.Props.C25

/-! # C64: Of each setting the last one counts, and settings do not disturb what was measured -/

namespace Metrix

theorem lastSet_nil {S A : Type} (sel : S → Option A) : lastSet sel [] = none := rfl

theorem lastSet_cons {S A : Type} (sel : S → Option A) (s : S) (ss : List S) :
    lastSet sel (s :: ss) = (lastSet sel ss).or (sel s) := by
  unfold lastSet
  cases h : sel s with
  | none => simp [h]
  | some a =>
    simp only [List.filterMap_cons, h, List.getLast?_cons]
    cases (ss.filterMap sel).getLast? <;> rfl

theorem latest_cons {S A : Type} (sel : S → Option A) (s : S) (ss : List S) (a : A) :
    latest sel (s :: ss) a = latest sel ss ((sel s).getD a) := by
  simp only [latest, lastSet_cons]
  cases lastSet sel ss <;> simp

theorem latest_nil {S A : Type} (sel : S → Option A) (a : A) : latest sel [] a = a := rfl

theorem latestDescr_nil (d : Descr) : latestDescr [] d = d := rfl

theorem latestDescr_cons (t : TextSetting) (ts : List TextSetting) (n : String) (d : Descr) :
    latestDescr (t :: ts) d = latestDescr ts (t.apply n d).2 := by
  cases t <;> simp [latestDescr, lastSet_cons, TextSetting.apply, TextSetting.title?, TextSetting.description?, Option.or_assoc]

theorem latest_name_cons (t : TextSetting) (ts : List TextSetting) (n : String) (d : Descr) :
    latest TextSetting.name? (t :: ts) n = latest TextSetting.name? ts (t.apply n d).1 := by
  cases t <;> simp [latest_cons, TextSetting.apply, TextSetting.name?]

/-- A counter shows its count under the last name it got, with the last title and description. -/
theorem C64_counter (c : Counter) (ts : List TextSetting) :
    withAll Counter.with_ c ts =
      { c with name := latest TextSetting.name? ts c.name, descr := latestDescr ts c.descr } := by
  induction ts generalizing c with
  | nil => rfl
  | cons t ts ih =>
    show withAll Counter.with_ (c.with_ t) ts = _
    rw [ih, latest_name_cons t ts c.name c.descr, latestDescr_cons t ts c.name c.descr]
    rfl

section
open MeterSetting

/-- A meter: nothing it measured is touched by settings. -/
theorem C64_meter (m : Meter) (ss : List MeterSetting) :
    withAll Meter.with_ m ss =
      { m with
        name := latest TextSetting.name? (ss.filterMap text?) m.name
        descr := latestDescr (ss.filterMap text?) m.descr
        lowerCutoff := latest lowerCutoff? ss m.lowerCutoff
        oneMinute := latest oneMinute? ss m.oneMinute
        fiveMinutes := latest fiveMinutes? ss m.fiveMinutes
        fifteenMinutes := latest fifteenMinutes? ss m.fifteenMinutes } := by
  induction ss generalizing m with
  | nil => rfl
  | cons s ss ih =>
    show withAll Meter.with_ (m.with_ s) ss = _
    rw [ih]
    cases s with
    | text t =>
      simp only [List.filterMap_cons, text?, latest_name_cons t _ m.name m.descr, latestDescr_cons t _ m.name m.descr]
      simp [Meter.with_, latest_cons, lowerCutoff?, oneMinute?, fiveMinutes?, fifteenMinutes?]
    | _ => simp [List.filterMap_cons, Meter.with_, latest_cons, text?, lowerCutoff?, oneMinute?, fiveMinutes?, fifteenMinutes?]

end

/-- A meter of values. -/
theorem C64_value_meter (m : ValueMeter) (ss : List ValueMeterSetting) :
    withAll ValueMeter.with_ m ss =
      { meter := withAll Meter.with_ m.meter (ss.filterMap ValueMeterSetting.meter?)
        displayTimeUnit := latest ValueMeterSetting.unit? ss m.displayTimeUnit } := by
  induction ss generalizing m with
  | nil => rfl
  | cons s ss ih =>
    show withAll ValueMeter.with_ (m.with_ s) ss = _
    rw [ih]
    cases s <;> simp [List.filterMap_cons, ValueMeter.with_, latest_cons, ValueMeterSetting.meter?, ValueMeterSetting.unit?, withAll]

section
open HistogramSetting

/-- A histogram: its samples and the time of the last update are not touched. -/
theorem C64_histogram (h : Histogram) (ss : List HistogramSetting) :
    withAll Histogram.with_ h ss =
      { h with
        name := latest TextSetting.name? (ss.filterMap text?) h.name
        descr := latestDescr (ss.filterMap text?) h.descr
        maxInactivity := (lastSet limit? ss).or h.maxInactivity
        resetAfterInactivity := latest reset? ss h.resetAfterInactivity
        showActivityState := latest show? ss h.showActivityState
        displayTimeUnit := latest unit? ss h.displayTimeUnit } := by
  induction ss generalizing h with
  | nil => rfl
  | cons s ss ih =>
    show withAll Histogram.with_ (h.with_ s) ss = _
    rw [ih]
    cases s with
    | text t =>
      simp only [List.filterMap_cons, text?, latest_name_cons t _ h.name h.descr, latestDescr_cons t _ h.name h.descr]
      simp [Histogram.with_, latest_cons, lastSet_cons, limit?, reset?, show?, unit?]
    | _ => simp [List.filterMap_cons, Histogram.with_, latest_cons, lastSet_cons, text?, limit?, reset?, show?, unit?, Option.or_assoc]

end

section
open FlagSetting

/-- A flag. -/
theorem Flag.withAll_eq (f : Flag) (ss : List FlagSetting) :
    withAll Flag.with_ f ss =
      { name := latest TextSetting.name? (ss.filterMap text?) f.name
        descr := latestDescr (ss.filterMap text?) f.descr
        state := (lastSet state? ss).or f.state
        showInverted := ((lastSet inverted? ss).map (·.alternation)).or f.showInverted } := by
  induction ss generalizing f with
  | nil => rfl
  | cons s ss ih =>
    show withAll Flag.with_ (f.with_ s) ss = _
    rw [ih]
    cases s with
    | text t =>
      simp only [List.filterMap_cons, text?, latest_name_cons t _ f.name f.descr, latestDescr_cons t _ f.name f.descr]
      simp [Flag.with_, lastSet_cons, state?, inverted?]
    | state b =>
      simp [List.filterMap_cons, Flag.with_, lastSet_cons, text?, state?, inverted?, Option.or_assoc]
    | showInverted i =>
      simp only [Flag.with_, lastSet_cons, text?, state?, inverted?, List.filterMap_cons]
      cases lastSet inverted? ss <;> simp

theorem InvertedSetting.adjustName (i : InvertedSetting) (name : String) :
    i.alternation.adjustName name = i.nameFor name := by
  cases i <;> rfl

/-- What a new flag shows depends only on the last name, the last state and the last way to show its inverse. -/
theorem C64_flag (name : String) (ss : List FlagSetting) :
    (withAll Flag.with_ { name } ss).putSnapshot [] false =
      match (generalizing := false) lastSet state? ss with
      | none => []
      | some b =>
        (latest TextSetting.name? (ss.filterMap text?) name, .boolean b) ::
          ((lastSet inverted? ss).map fun i =>
            (i.nameFor (latest TextSetting.name? (ss.filterMap text?) name), ItemKind.boolean !b)).toList := by
  rw [Flag.withAll_eq]
  cases hs : lastSet state? ss with
  | none => simp [Flag.putSnapshot, putPostfixedDescriptives, hs]
  | some b =>
    cases hi : lastSet inverted? ss <;>
      simp [Flag.putSnapshot, putPostfixedDescriptives, hs, hi, Snapshot.push, InvertedSetting.adjustName]

end

section
open SwitchSetting

/-- A staircase timer: whether it is on, and until when, is not touched. -/
theorem C64_staircase (t : StaircaseTimer) (ss : List SwitchSetting) :
    withAll StaircaseTimer.with_ t ss =
      { t with
        name := latest TextSetting.name? (ss.filterMap text?) t.name
        descr := latestDescr (ss.filterMap text?) t.descr
        invert := latest invert? ss t.invert
        switchOffAfter := latest duration? ss t.switchOffAfter
        showInverted := ((lastSet inverted? ss).map (·.alternation)).or t.showInverted } := by
  induction ss generalizing t with
  | nil => rfl
  | cons s ss ih =>
    show withAll StaircaseTimer.with_ (t.with_ s) ss = _
    rw [ih]
    cases s with
    | text x =>
      simp only [List.filterMap_cons, text?, latest_name_cons x _ t.name t.descr, latestDescr_cons x _ t.name t.descr]
      simp [StaircaseTimer.with_, latest_cons, lastSet_cons, invert?, duration?, inverted?]
    | showInverted i =>
      simp only [StaircaseTimer.with_, latest_cons, lastSet_cons, text?, invert?, duration?, inverted?, List.filterMap_cons]
      cases lastSet inverted? ss <;> simp
    | _ => simp [List.filterMap_cons, StaircaseTimer.with_, latest_cons, lastSet_cons, text?, invert?, duration?, inverted?]

/-- An indicator of absence: when it last happened is not touched. -/
theorem C64_non_occurrence (t : NonOccurrenceIndicator) (ss : List SwitchSetting) :
    withAll NonOccurrenceIndicator.with_ t ss =
      { t with
        name := latest TextSetting.name? (ss.filterMap text?) t.name
        descr := latestDescr (ss.filterMap text?) t.descr
        invert := latest invert? ss t.invert
        ifNotHappenedWithin := latest duration? ss t.ifNotHappenedWithin
        showInverted := ((lastSet inverted? ss).map (·.alternation)).or t.showInverted } := by
  induction ss generalizing t with
  | nil => rfl
  | cons s ss ih =>
    show withAll NonOccurrenceIndicator.with_ (t.with_ s) ss = _
    rw [ih]
    cases s with
    | text x =>
      simp only [List.filterMap_cons, text?, latest_name_cons x _ t.name t.descr, latestDescr_cons x _ t.name t.descr]
      simp [NonOccurrenceIndicator.with_, latest_cons, lastSet_cons, invert?, duration?, inverted?]
    | showInverted i =>
      simp only [NonOccurrenceIndicator.with_, latest_cons, lastSet_cons, text?, invert?, duration?, inverted?,
        List.filterMap_cons]
      cases lastSet inverted? ss <;> simp
    | _ => simp [List.filterMap_cons, NonOccurrenceIndicator.with_, NonOccurrenceIndicator.setIfNotHappenedWithin, latest_cons, lastSet_cons, text?,
        invert?, duration?, inverted?]

/-- An indicator of occurrence. If the time was set, it is as if nothing had happened yet; otherwise when it last happened is
not touched. -/
theorem C64_occurrence {e : Env} (mono : e.Mono) {t t' : OccurrenceIndicator} {ss : List SwitchSetting} {k k' : Nat}
    (h : withAllM OccurrenceIndicator.with_ t ss e k = some (t', k')) :
    t'.name = latest TextSetting.name? (ss.filterMap text?) t.name ∧
    t'.descr = latestDescr (ss.filterMap text?) t.descr ∧
    t'.invert = latest invert? ss t.invert ∧
    t'.ifHappenedWithin = latest duration? ss t.ifHappenedWithin ∧
    t'.showInverted = ((lastSet inverted? ss).map (·.alternation)).or t.showInverted ∧
    (lastSet duration? ss = none → t'.happenedLast = t.happenedLast) ∧
    (lastSet duration? ss ≠ none → ∀ j, k' ≤ j → ¬ e.clock j < t'.happenedLast + t'.ifHappenedWithin) := by
  suffices hmain : k ≤ k' ∧ t' = { t with
        name := latest TextSetting.name? (ss.filterMap text?) t.name
        descr := latestDescr (ss.filterMap text?) t.descr
        invert := latest invert? ss t.invert
        ifHappenedWithin := latest duration? ss t.ifHappenedWithin
        happenedLast := t'.happenedLast
        showInverted := ((lastSet inverted? ss).map (·.alternation)).or t.showInverted } ∧
      (lastSet duration? ss = none → t'.happenedLast = t.happenedLast) ∧
      (lastSet duration? ss ≠ none → ∀ j, k' ≤ j → ¬ e.clock j < t'.happenedLast + t'.ifHappenedWithin) by
    obtain ⟨_, h1, h2, h3⟩ := hmain
    refine ⟨?_, ?_, ?_, ?_, ?_, h2, h3⟩ <;> rw [h1]
  induction ss generalizing t k with
  | nil =>
    simp only [withAllM, M.run_pure, Option.some.injEq, Prod.mk.injEq] at h
    obtain ⟨rfl, rfl⟩ := h
    exact ⟨Nat.le_refl _, rfl, fun _ => rfl, fun h => absurd rfl h⟩
  | cons s ss ih =>
    simp only [withAllM, M.bind_eq_some] at h
    obtain ⟨t₁, k₁, h₁, h₂⟩ := h
    obtain ⟨hk, hr, hn, hs⟩ := ih h₂
    cases s with
    | text x =>
      simp only [OccurrenceIndicator.with_, M.run_pure, Option.some.injEq, Prod.mk.injEq] at h₁
      obtain ⟨rfl, rfl⟩ := h₁
      refine ⟨hk, ?_, ?_, ?_⟩
      · rw [hr]
        simp only [List.filterMap_cons, text?, latest_name_cons x _ t.name t.descr, latestDescr_cons x _ t.name t.descr]
        simp [latest_cons, lastSet_cons, invert?, duration?, inverted?]
      · simpa [lastSet_cons, duration?] using hn
      · simpa [lastSet_cons, duration?] using hs
    | invert b =>
      simp only [OccurrenceIndicator.with_, M.run_pure, Option.some.injEq, Prod.mk.injEq] at h₁
      obtain ⟨rfl, rfl⟩ := h₁
      refine ⟨hk, ?_, ?_, ?_⟩
      · rw [hr]
        simp [List.filterMap_cons, latest_cons, lastSet_cons, text?, invert?, duration?, inverted?]
      · simpa [lastSet_cons, duration?] using hn
      · simpa [lastSet_cons, duration?] using hs
    | showInverted i =>
      simp only [OccurrenceIndicator.with_, M.run_pure, Option.some.injEq, Prod.mk.injEq] at h₁
      obtain ⟨rfl, rfl⟩ := h₁
      refine ⟨hk, ?_, ?_, ?_⟩
      · rw [hr]
        simp only [latest_cons, lastSet_cons, text?, invert?, duration?, inverted?, List.filterMap_cons]
        cases lastSet inverted? ss <;> simp
      · simpa [lastSet_cons, duration?] using hn
      · simpa [lastSet_cons, duration?] using hs
    | duration d =>
      simp only [OccurrenceIndicator.with_, OccurrenceIndicator.setIfHappenedWithin, M.bind_eq_some, M.run_now, M.run_pure,
        Option.some.injEq, Prod.mk.injEq] at h₁
      obtain ⟨_, _, ⟨rfl, rfl⟩, r, _, h, rfl, rfl⟩ := h₁
      obtain ⟨rfl, rfl, _⟩ := subDur_eq_some h
      refine ⟨by omega, ?_, ?_, ?_⟩
      · rw [hr]
        simp [List.filterMap_cons, latest_cons, lastSet_cons, text?, invert?, duration?, inverted?]
      · simp [lastSet_cons, duration?]
      · intro _ j hj
        by_cases hd : lastSet duration? ss = none
        · have h4 : t'.happenedLast = e.clock k - d := hn hd
          have h5 : t'.ifHappenedWithin = d := by
            rw [hr]; simp [latest, hd]
          rw [h4, h5]
          have := mono k j (by omega)
          omega
        · exact hs hd j hj

end

section
open DisplaySetting

/-- A display. The last reset value is also what it shows from then on. -/
theorem C64_display (x : DataDisplay) (ss : List DisplaySetting) :
    withAll DataDisplay.with_ x ss =
      { x with
        name := latest TextSetting.name? (ss.filterMap text?) x.name
        descr := latestDescr (ss.filterMap text?) x.descr
        resetAfter := (lastSet after? ss).or x.resetAfter
        resetValue := (lastSet value? ss).or x.resetValue
        value := (lastSet value? ss).or x.value } := by
  induction ss generalizing x with
  | nil => rfl
  | cons s ss ih =>
    show withAll DataDisplay.with_ (x.with_ s) ss = _
    rw [ih]
    cases s with
    | text t =>
      simp only [List.filterMap_cons, text?, latest_name_cons t _ x.name x.descr, latestDescr_cons t _ x.name x.descr]
      simp [DataDisplay.with_, lastSet_cons, after?, value?]
    | _ => simp [List.filterMap_cons, DataDisplay.with_, DataDisplay.setResetAfter, DataDisplay.setResetValue, lastSet_cons, text?, after?, value?,
        Option.or_assoc]

end

section
open LastOccurrenceSetting

/-- A tracker of the last occurrence. -/
theorem C64_last_occurrence (x : LastOccurrenceTracker) (ss : List LastOccurrenceSetting) :
    withAll LastOccurrenceTracker.with_ x ss =
      { x with
        name := latest TextSetting.name? (ss.filterMap text?) x.name
        descr := latestDescr (ss.filterMap text?) x.descr
        invert := latest invert? ss x.invert
        makeNoneZero := latest zero? ss x.makeNoneZero } := by
  induction ss generalizing x with
  | nil => rfl
  | cons s ss ih =>
    show withAll LastOccurrenceTracker.with_ (x.with_ s) ss = _
    rw [ih]
    cases s with
    | text t =>
      simp only [List.filterMap_cons, text?, latest_name_cons t _ x.name x.descr, latestDescr_cons t _ x.name x.descr]
      simp [LastOccurrenceTracker.with_, latest_cons, invert?, zero?]
    | _ => simp [List.filterMap_cons, LastOccurrenceTracker.with_, latest_cons, text?, invert?, zero?]

/-- Inverting a tracker of the last occurrence has no effect on what it shows, whatever the documentation says. -/
theorem C64_last_occurrence_invert_ignored (x : LastOccurrenceTracker) (b : Bool) (s : Snapshot) (d : Bool) :
    (x.with_ (.invert b)).putSnapshot s d = x.putSnapshot s d := rfl

end

section
open GaugeSetting

/-- For how many seconds a gauge tracks its values. -/
def Gauge.window (g : Gauge) : Option Nat := g.tracking.map fun b => b.buckets.length

/-- A gauge whose buckets are in order. -/
def Gauge.Ordered (g : Gauge) : Prop :=
  ∀ b, g.tracking = some b → ∃ n t0 cont s, Rep n t0 cont s b

theorem Gauge.with_value {g g' : Gauge} (ho : g.Ordered) {v : Int} {e : Env} {k k' : Nat}
    (h : g.set (.signedInteger v) e k = some (g', k')) :
    g'.Ordered ∧ ∃ tr, g' = { g with value := some v, tracking := tr } ∧ g'.window = g.window := by
  have h' : ∃ tr, Gauge.track g.tracking v e k = some (tr, k') ∧ g' = { g with value := some v, tracking := tr } := by
    cases hv : g.value <;>
    · simp only [Gauge.set, hv, Gauge.nextValue, ObservedValue.convertToI64, M.bind_eq_some, M.run_pure, Option.some.injEq,
        Prod.mk.injEq] at h
      obtain ⟨_, _, ⟨rfl, rfl⟩, h⟩ := h
      simp only [Option.orElse_eq_orElse, Option.orElse_eq_or, Option.some_or, M.bind_eq_some, M.run_pure, Option.some.injEq,
        Prod.mk.injEq] at h
      obtain ⟨tr, _, h1, rfl, rfl⟩ := h
      exact ⟨tr, h1, rfl⟩
  obtain ⟨tr, ht, rfl⟩ := h'
  cases hb : g.tracking with
  | none =>
    simp only [hb, Gauge.track, M.run_pure, Option.some.injEq, Prod.mk.injEq] at ht
    obtain ⟨rfl, rfl⟩ := ht
    exact ⟨(fun _ h => by cases h), none, rfl, by simp [Gauge.window, hb]⟩
  | some b =>
    obtain ⟨n, t0, cont, s, r⟩ := ho b hb
    simp only [hb, Gauge.track, M.bind_eq_some, M.run_pure, Option.some.injEq, Prod.mk.injEq] at ht
    obtain ⟨b', _, h1, rfl, rfl⟩ := ht
    obtain ⟨y, _, r'⟩ := (r.modifyCurrent _ e k).2 _ _ h1
    refine ⟨?_, _, rfl, ?_⟩
    · intro b'' h
      cases h
      exact ⟨_, _, _, _, r'⟩
    · simp [Gauge.window, hb, r.length, r'.length]

/-- A gauge. It shows the last value set, or the one it had, and tracks for the last number of seconds set; a setting of zero
seconds does nothing. -/
theorem C64_gauge {g g' : Gauge} (hnew : g.tracking = none) {ss : List GaugeSetting} {e : Env} {k k' : Nat}
    (h : withAllM Gauge.with_ g ss e k = some (g', k')) :
    g'.name = latest TextSetting.name? (ss.filterMap text?) g.name ∧
    g'.descr = latestDescr (ss.filterMap text?) g.descr ∧
    g'.value = (lastSet value? ss).or g.value ∧
    g'.groupValues = latest group? ss g.groupValues ∧
    g'.displayTimeUnit = latest unit? ss g.displayTimeUnit ∧
    g'.window = lastSet window? ss := by
  have hw : g.window = none := by simp [Gauge.window, hnew]
  suffices hmain : ∀ {g : Gauge} {k}, g.Ordered → withAllM Gauge.with_ g ss e k = some (g', k') →
      (∃ tr, g' =
        { name := latest TextSetting.name? (ss.filterMap text?) g.name
          descr := latestDescr (ss.filterMap text?) g.descr
          value := (lastSet value? ss).or g.value
          tracking := tr
          groupValues := latest group? ss g.groupValues
          displayTimeUnit := latest unit? ss g.displayTimeUnit }) ∧
      g'.window = (lastSet window? ss).or g.window by
    obtain ⟨⟨tr, h1⟩, h2⟩ := hmain (fun b hb => by rw [hnew] at hb; cases hb) h
    rw [hw, Option.or_none] at h2
    exact ⟨by rw [h1], by rw [h1], by rw [h1], by rw [h1], by rw [h1], h2⟩
  clear h hw hnew
  induction ss with
  | nil =>
    intro g k _ h
    simp only [withAllM, M.run_pure, Option.some.injEq, Prod.mk.injEq] at h
    obtain ⟨rfl, rfl⟩ := h
    exact ⟨⟨_, rfl⟩, rfl⟩
  | cons s ss ih =>
    intro g k ho h
    simp only [withAllM, M.bind_eq_some] at h
    obtain ⟨g₁, k₁, h₁, h₂⟩ := h
    have hplain : ∀ g₁ : Gauge, g₁.tracking = g.tracking → g₁.Ordered := by
      intro g₁ h b hb; exact ho b (h ▸ hb)
    cases s with
    | text x =>
      simp only [Gauge.with_, M.run_pure, Option.some.injEq, Prod.mk.injEq] at h₁
      obtain ⟨rfl, rfl⟩ := h₁
      obtain ⟨⟨tr, hr⟩, hwin⟩ := ih (hplain _ (by rfl)) h₂
      refine ⟨⟨tr, ?_⟩, ?_⟩
      · rw [hr]
        simp only [List.filterMap_cons, text?, latest_name_cons x _ g.name g.descr, latestDescr_cons x _ g.name g.descr]
        simp [latest_cons, lastSet_cons, value?, group?, unit?]
      · rw [hwin]; simp [lastSet_cons, window?, Gauge.window]
    | value v =>
      obtain ⟨ho₁, tr₁, rfl, hw₁⟩ := Gauge.with_value ho h₁
      obtain ⟨⟨tr, hr⟩, hwin⟩ := ih ho₁ h₂
      refine ⟨⟨tr, ?_⟩, ?_⟩
      · rw [hr]
        simp [List.filterMap_cons, latest_cons, lastSet_cons, text?, value?, group?, unit?, Option.or_assoc]
      · rw [hwin, hw₁]; simp [lastSet_cons, window?]
    | groupValues b =>
      simp only [Gauge.with_, M.run_pure, Option.some.injEq, Prod.mk.injEq] at h₁
      obtain ⟨rfl, rfl⟩ := h₁
      obtain ⟨⟨tr, hr⟩, hwin⟩ := ih (hplain _ (by rfl)) h₂
      refine ⟨⟨tr, ?_⟩, ?_⟩
      · rw [hr]
        simp [List.filterMap_cons, latest_cons, lastSet_cons, text?, value?, group?, unit?]
      · rw [hwin]; simp [lastSet_cons, window?, Gauge.window]
    | displayTimeUnit u =>
      simp only [Gauge.with_, M.run_pure, Option.some.injEq, Prod.mk.injEq] at h₁
      obtain ⟨rfl, rfl⟩ := h₁
      obtain ⟨⟨tr, hr⟩, hwin⟩ := ih (hplain _ (by rfl)) h₂
      refine ⟨⟨tr, ?_⟩, ?_⟩
      · rw [hr]
        simp [List.filterMap_cons, latest_cons, lastSet_cons, text?, value?, group?, unit?]
      · rw [hwin]; simp [lastSet_cons, window?, Gauge.window]
    | tracking n =>
      cases n with
      | zero =>
        simp only [Gauge.with_, Gauge.setTracking, ne_eq, not_true_eq_false, if_false, M.run_pure, Option.some.injEq,
          Prod.mk.injEq] at h₁
        obtain ⟨rfl, rfl⟩ := h₁
        obtain ⟨⟨tr, hr⟩, hwin⟩ := ih ho h₂
        refine ⟨⟨tr, ?_⟩, ?_⟩
        · rw [hr]
          simp [List.filterMap_cons, latest_cons, lastSet_cons, text?, value?, group?, unit?]
        · rw [hwin]; simp [lastSet_cons, window?]
      | succ n =>
        obtain ⟨b, hb, r⟩ := Rep.new (T := Bucket) (Nat.succ_pos n) e k
        simp only [Gauge.with_, Gauge.setTracking, ne_eq, Nat.succ_ne_zero, not_false_eq_true, if_true] at h₁
        rw [M.run_bind_some hb] at h₁
        simp only [M.run_pure, Option.some.injEq, Prod.mk.injEq] at h₁
        obtain ⟨rfl, rfl⟩ := h₁
        obtain ⟨⟨tr, hr⟩, hwin⟩ := ih (by intro b' h; cases h; exact ⟨_, _, _, _, r⟩) h₂
        refine ⟨⟨tr, ?_⟩, ?_⟩
        · rw [hr]
          simp [List.filterMap_cons, latest_cons, lastSet_cons, text?, value?, group?, unit?]
        · rw [hwin]; simp [lastSet_cons, window?, Gauge.window, r.length]

end

/-! ## Examples -/

example :
    (withAll Flag.with_ { name := "a" }
      [.state false, .showInverted (.prefixed "not_"), .text (.name "b"), .state true, .showInverted (.postfixed "_off")]).putSnapshot
        [] false = [("b", .boolean true), ("b_off", .boolean false)] := rfl

example : (withAllM Gauge.with_ { name := "g" }
    [.tracking 0, .value 3, .tracking 60, .groupValues true, .tracking 2, .value 5] ticking 0).map
      (fun x => (x.1.window, x.1.value, x.1.groupValues)) = some (some 2, some 5, true) := by decide +kernel

/-- An indicator that forgets what happened when its time is set. -/
example : (withAllM OccurrenceIndicator.with_ { name := "i", happenedLast := 0 }
    [.invert true, .duration 7, .text (.name "j")] ticking 0).map
      (fun x => (x.1.name, x.1.ifHappenedWithin, x.1.happenedLast + 7 == ticking.clock 0, x.1.invert)) =
      some ("j", 7, true, true) := by decide +kernel

end Metrix
