import Verif.Spec.Renamed
import Verif.Proof.Relabel

/-! Instruments and labels filters, with other names. -/

namespace Metrix
variable {σ L : Type}

/-- Snapshots with the same values, groups and order, and related states. -/
abbrev Reshows {A B : Type} (R : A → B → Prop) (x : M (A × Snapshot)) (y : M (B × Snapshot)) : Prop :=
  M.Rel (fun a b => Snapshot.unnamed a.2 = Snapshot.unnamed b.2 ∧ R a.1 b.1) x y

theorem unnamed_append (s t : Snapshot) : Snapshot.unnamed (s ++ t) = Snapshot.unnamed s ++ Snapshot.unnamed t := by
  induction s with
  | nil => rfl
  | cons x s ih =>
    obtain ⟨n, v⟩ := x
    show ("", v.unnamed) :: Snapshot.unnamed (s ++ t) = _
    rw [ih]
    rfl

theorem unnamed_push {s t : Snapshot} (h : Snapshot.unnamed s = Snapshot.unnamed t) (n m : String) {v w : ItemKind}
    (hv : v.unnamed = w.unnamed) : Snapshot.unnamed (s.push n v) = Snapshot.unnamed (t.push m w) := by
  unfold Snapshot.push
  rw [unnamed_append, unnamed_append, h]
  show _ ++ [("", v.unnamed)] = _ ++ [("", w.unnamed)]
  rw [hv]

theorem unnamed_group {s t : Snapshot} (h : Snapshot.unnamed s = Snapshot.unnamed t) :
    (ItemKind.snapshot s).unnamed = (ItemKind.snapshot t).unnamed := by
  show ItemKind.snapshot _ = ItemKind.snapshot _
  rw [h]

theorem reshows_wrap {A B A' B' : Type} {R : A → B → Prop} {S : A' → B' → Prop} {x : M (A × Snapshot)} {y : M (B × Snapshot)}
    {v : A → A'} {w : B → B'} (h : Reshows R x y) (hs : ∀ a b, R a b → S (v a) (w b)) :
    Reshows S (do let (a, n) ← x; return (v a, n)) (do let (b, n) ← y; return (w b, n)) := by
  refine .bind _ h ?_
  rintro ⟨a, n⟩ ⟨b, m⟩ ⟨he, h⟩
  exact .pure ⟨he, hs _ _ h⟩

/-- Related instruments take updates alike. -/
def TakesAlike {I : Type} (R : I → I → Prop) (up : I → Update → M (I × Nat)) : Prop :=
  ∀ i i', R i i' → ∀ u, Same R (up i u) (up i' u)

/-- Related instruments show alike. -/
def ShowsAlike {I : Type} (R : I → I → Prop) (put : I → Snapshot → Bool → M (I × Snapshot)) : Prop :=
  ∀ i i', R i i' → ∀ s s', Snapshot.unnamed s = Snapshot.unnamed s' → Reshows R (put i s false) (put i' s' false)

theorem ShowsAlike.keeping {I : Type} {R : I → I → Prop} {put : I → Snapshot → Bool → M Snapshot}
    (h : ∀ i i', R i i' → ∀ s s', Snapshot.unnamed s = Snapshot.unnamed s' →
      M.Rel (fun a b => Snapshot.unnamed a = Snapshot.unnamed b) (put i s false) (put i' s' false)) :
    ShowsAlike R (keeping put) :=
  fun i i' hr s s' hs => .bind _ (h i i' hr s s' hs) fun _ _ he => .pure ⟨he, hr⟩

/-! ## Instruments -/

theorem Counter.takesAlike : TakesAlike Counter.Renamed IsInstrument.update := by
  rintro i _ ⟨n, d, rfl⟩ u
  show Same _ (Counter.update _ _) (Counter.update _ _)
  unfold Counter.update Counter.inc Counter.incBy
  cases u with
  | observation _ => exact .bind _ (.bindEq _ fun c => .pure ⟨n, d, rfl⟩) fun a b h => .pure ⟨rfl, h⟩
  | observations _ _ => exact .bind _ (.bindEq _ fun c => .pure ⟨n, d, rfl⟩) fun a b h => .pure ⟨rfl, h⟩
  | withValue _ _ => exact .bind _ (.bindEq _ fun c => .pure ⟨n, d, rfl⟩) fun a b h => .pure ⟨rfl, h⟩

theorem Counter.showsAlike : ShowsAlike Counter.Renamed IsInstrument.putSnapshot := by
  refine ShowsAlike.keeping ?_
  rintro i _ ⟨n, d, rfl⟩ s s' hs
  exact .pure (unnamed_push hs _ _ rfl)

theorem Gauge.set_alike {i i' : Gauge} (h : i.Renamed i') (v : ObservedValue) : M.Rel Gauge.Renamed (i.set v) (i'.set v) := by
  obtain ⟨n, d, rfl⟩ := h
  unfold Gauge.set
  dsimp only
  cases i.value with
  | none =>
    refine .bindEq _ fun r => ?_
    cases r with
    | none => exact .pure ⟨n, d, rfl⟩
    | some x => exact .bindEq _ fun t => .pure ⟨n, d, rfl⟩
  | some _ =>
    refine .bindEq _ fun r => ?_
    cases r with
    | none => exact .pure ⟨n, d, rfl⟩
    | some x => exact .bindEq _ fun t => .pure ⟨n, d, rfl⟩

theorem Gauge.takesAlike : TakesAlike Gauge.Renamed Gauge.update := by
  intro i i' h u
  cases u with
  | observation _ => exact .pure ⟨rfl, h⟩
  | observations _ _ => exact .pure ⟨rfl, h⟩
  | withValue v _ => exact .bind _ (Gauge.set_alike h v) fun a b h => .pure ⟨rfl, h⟩

theorem unnamed_addToSnapshot (x : BucketsStats) {s s' : Snapshot} (hs : Snapshot.unnamed s = Snapshot.unnamed s') (p p' : Option String) :
    Snapshot.unnamed (x.addToSnapshot s p) = Snapshot.unnamed (x.addToSnapshot s' p') := by
  unfold BucketsStats.addToSnapshot
  exact unnamed_push (unnamed_push (unnamed_push (unnamed_push (unnamed_push (unnamed_push (unnamed_push hs _ _ rfl) _ _ rfl) _ _ rfl)
    _ _ rfl) _ _ rfl) _ _ rfl) _ _ rfl

theorem Gauge.putValues_alike {i i' : Gauge} (h : i.Renamed i') {s s' : Snapshot} (hs : Snapshot.unnamed s = Snapshot.unnamed s') :
    Reshows Gauge.Renamed (i.putValues s) (i'.putValues s') := by
  obtain ⟨n, d, rfl⟩ := h
  obtain ⟨n₀, d₀, value, tracking, grouped, unit⟩ := i
  unfold Gauge.putValues
  dsimp only
  cases value with
  | none => exact .pure ⟨hs, n, d, rfl⟩
  | some v =>
    dsimp only
    have key : Snapshot.unnamed (if grouped = true then (s.push "current" (ItemKind.int v), none)
          else (s.push n₀ (ItemKind.int v), some n₀) : Snapshot × Option String).1 =
        Snapshot.unnamed (if grouped = true then (s'.push "current" (ItemKind.int v), none)
          else (s'.push n (ItemKind.int v), some n) : Snapshot × Option String).1 := by
      split <;> exact unnamed_push hs _ _ rfl
    cases tracking with
    | none => exact .pure ⟨key, n, d, rfl⟩
    | some b => exact .bindEq _ fun r => .pure ⟨unnamed_addToSnapshot _ key _ _, n, d, rfl⟩

theorem Gauge.showsAlike : ShowsAlike Gauge.Renamed Gauge.putSnapshot := by
  intro i i' h s s' hs
  have hg : i'.groupValues = i.groupValues := by obtain ⟨n, d, rfl⟩ := h; rfl
  unfold Gauge.putSnapshot
  rw [hg]
  refine .ite (.bind _ (Gauge.putValues_alike h rfl) ?_) (Gauge.putValues_alike h hs)
  rintro ⟨a, x⟩ ⟨b, y⟩ ⟨he, hr⟩
  exact .pure ⟨unnamed_push hs _ _ (unnamed_group he), hr⟩

theorem Meter.tickIfDue_alike {i i' : Meter} (h : i.Renamed i') : M.Rel Meter.Renamed i.tickIfDue i'.tickIfDue := by
  obtain ⟨n, d, rfl⟩ := h
  unfold Meter.tickIfDue
  exact .bindEq _ fun now => .ite (.bindEq _ fun x => .bindEq _ fun t => .pure ⟨n, d, rfl⟩) (.pure ⟨n, d, rfl⟩)

theorem Meter.takesAlike : TakesAlike Meter.Renamed Meter.update := by
  intro i i' h u
  unfold Meter.update
  refine .bind _ (Meter.tickIfDue_alike h) ?_
  rintro a _ ⟨n, d, rfl⟩
  cases u with
  | observation _ => exact .bindEq _ fun x => .pure ⟨rfl, n, d, rfl⟩
  | observations _ _ => exact .ite (.bindEq _ fun x => .pure ⟨rfl, n, d, rfl⟩) (.pure ⟨rfl, n, d, rfl⟩)
  | withValue _ _ => exact .bindEq _ fun x => .pure ⟨rfl, n, d, rfl⟩

theorem unnamed_meterSnapshot (x : MeterSnapshot) (n : String) (d : Descr) {s s' : Snapshot} (hs : Snapshot.unnamed s = Snapshot.unnamed s') :
    Snapshot.unnamed (x.putSnapshot s false) = Snapshot.unnamed (MeterSnapshot.putSnapshot { x with name := n, descr := d } s' false) :=
  unnamed_push hs _ _ rfl

theorem Meter.showsAlike : ShowsAlike Meter.Renamed Meter.putSnapshot := by
  intro i i' h s s' hs
  unfold Meter.putSnapshot Meter.getSnapshot
  refine .bind (fun a b => a.1.Renamed b.1 ∧ ∃ n d, b.2 = { a.2 with name := n, descr := d }) ?_ ?_
  · refine .bind _ (Meter.tickIfDue_alike h) ?_
    rintro a _ ⟨n, d, rfl⟩
    exact .bindEq _ fun x => .pure ⟨⟨n, d, rfl⟩, n, d, rfl⟩
  · rintro ⟨a, x⟩ ⟨b, y⟩ ⟨hr, n, d, rfl⟩
    exact .pure ⟨unnamed_meterSnapshot _ _ _ hs, hr⟩

theorem ValueMeter.mark_alike {i i' : ValueMeter} (h : i.Renamed i') (v : Int) :
    M.Rel (fun a b => a.2 = b.2 ∧ ValueMeter.Renamed a.1 b.1) (do return (← i.mark v, 1)) (do return (← i'.mark v, 1)) := by
  obtain ⟨n, d, rfl⟩ := h
  exact .bind _ (.bindEq _ fun x => .pure ⟨n, d, rfl⟩) fun a b h => .pure ⟨rfl, h⟩

theorem ValueMeter.takesAlike : TakesAlike ValueMeter.Renamed ValueMeter.update := by
  intro i i' h u
  have hu : i'.displayTimeUnit = i.displayTimeUnit := by obtain ⟨n, d, rfl⟩ := h; rfl
  unfold ValueMeter.update
  rw [hu]
  split
  · exact .bindEq _ fun v => ValueMeter.mark_alike h _
  · split
    · exact ValueMeter.mark_alike h _
    · exact .pure ⟨rfl, h⟩
  · exact .pure ⟨rfl, h⟩

theorem ValueMeter.showsAlike : ShowsAlike ValueMeter.Renamed ValueMeter.putSnapshot := by
  rintro i _ ⟨n, d, rfl⟩ s s' hs
  unfold ValueMeter.putSnapshot
  refine .bind _ (Meter.showsAlike _ _ ⟨n, d, rfl⟩ s s' hs) ?_
  rintro ⟨a, x⟩ ⟨b, y⟩ ⟨he, n, d, rfl⟩
  exact .pure ⟨he, n, d, rfl⟩

theorem Histogram.record_alike {i i' : Histogram} (h : i.Renamed i') (v : Int) :
    M.Rel (fun a b => a.2 = b.2 ∧ Histogram.Renamed a.1 b.1) (do return (← i.record v, 1)) (do return (← i'.record v, 1)) := by
  obtain ⟨n, d, rfl⟩ := h
  exact .bind _ (.bindEq _ fun x => .pure ⟨n, d, rfl⟩) fun a b h => .pure ⟨rfl, h⟩

theorem Histogram.resetIfDue_alike {i i' : Histogram} (h : i.Renamed i') : M.Rel Histogram.Renamed i.resetIfDue i'.resetIfDue := by
  obtain ⟨n, d, rfl⟩ := h
  obtain ⟨n₀, d₀, inner, lastUpdate, maxInactivity, _, _, _⟩ := i
  unfold Histogram.resetIfDue
  dsimp only
  cases maxInactivity with
  | none => exact .pure ⟨n, d, rfl⟩
  | some x => exact .ite (.bindEq _ fun now => .ite (.pure ⟨n, d, rfl⟩) (.pure ⟨n, d, rfl⟩)) (.pure ⟨n, d, rfl⟩)

theorem Histogram.takesAlike : TakesAlike Histogram.Renamed IsInstrument.update := by
  intro i i' h u
  show Same _ (Histogram.update _ _) (Histogram.update _ _)
  unfold Histogram.update
  refine .bind _ (Histogram.resetIfDue_alike h) fun a b h => ?_
  have hu : b.displayTimeUnit = a.displayTimeUnit := by obtain ⟨n, d, rfl⟩ := h; rfl
  rw [hu]
  split
  · exact .bindEq _ fun v => Histogram.record_alike h _
  · split
    · exact Histogram.record_alike h _
    · exact .pure ⟨rfl, h⟩
  · exact .pure ⟨rfl, h⟩

theorem Histogram.put_alike {i i' : Histogram} (h : i.Renamed i') {s s' : Snapshot} (hs : Snapshot.unnamed s = Snapshot.unnamed s') :
    M.Rel (fun a b => Snapshot.unnamed a = Snapshot.unnamed b) (i.putSnapshot s false) (i'.putSnapshot s' false) := by
  obtain ⟨n, d, rfl⟩ := h
  exact .bindEq _ fun level => .pure (unnamed_push hs _ _ rfl)

theorem Histogram.showsAlike : ShowsAlike Histogram.Renamed IsInstrument.putSnapshot :=
  ShowsAlike.keeping fun _ _ h _ _ hs => Histogram.put_alike h hs

theorem Flag.takesAlike : TakesAlike Flag.Renamed IsInstrument.update := by
  rintro i _ ⟨n, d, a, rfl, ha⟩ u
  show Same _ (pure (Flag.update _ _)) (pure (Flag.update _ _))
  unfold Flag.update
  split <;> exact .pure ⟨rfl, n, d, a, rfl, ha⟩

theorem Flag.showsAlike : ShowsAlike Flag.Renamed IsInstrument.putSnapshot := by
  refine ShowsAlike.keeping ?_
  rintro ⟨m, e, st, inv⟩ _ ⟨n, d, a, rfl, ha⟩ s s' hs
  refine .pure ?_
  unfold Flag.putSnapshot
  cases st with
  | none => exact hs
  | some st =>
    cases inv with
    | none =>
      cases a with
      | none => exact unnamed_push hs _ _ rfl
      | some _ => cases ha
    | some _ =>
      cases a with
      | none => cases ha
      | some _ => exact unnamed_push (unnamed_push hs _ _ rfl) _ _ rfl

theorem putTimedSwitch_alike (n n' : String) (d d' : Descr) {i i' : Option NameAlternation} (hi : i'.isSome = i.isSome) (state : M Bool)
    {s s' : Snapshot} (hs : Snapshot.unnamed s = Snapshot.unnamed s') :
    M.Rel (fun a b => Snapshot.unnamed a = Snapshot.unnamed b) (putTimedSwitch n d i state s false) (putTimedSwitch n' d' i' state s' false) := by
  unfold putTimedSwitch
  refine .bindEq _ fun x => ?_
  cases i with
  | none =>
    cases i' with
    | none => exact .pure (unnamed_push hs _ _ rfl)
    | some _ => cases hi
  | some _ =>
    cases i' with
    | none => cases hi
    | some _ => exact .bindEq _ fun y => .pure (unnamed_push (unnamed_push hs _ _ rfl) _ _ rfl)

theorem StaircaseTimer.takesAlike : TakesAlike StaircaseTimer.Renamed IsInstrument.update := by
  rintro i _ ⟨n, d, a, rfl, ha⟩ u
  show Same _ (StaircaseTimer.update _ _) (StaircaseTimer.update _ _)
  unfold StaircaseTimer.update
  exact .bindEq M.now fun now => .bindEq (addDur now i.switchOffAfter) fun x => .pure ⟨rfl, n, d, a, rfl, ha⟩

theorem StaircaseTimer.put_alike {i i' : StaircaseTimer} (h : i.Renamed i') {s s' : Snapshot} (hs : Snapshot.unnamed s = Snapshot.unnamed s') :
    M.Rel (fun a b => Snapshot.unnamed a = Snapshot.unnamed b) (i.putSnapshot s false) (i'.putSnapshot s' false) := by
  obtain ⟨n, d, a, rfl, ha⟩ := h
  exact putTimedSwitch_alike _ _ _ _ ha _ hs

theorem StaircaseTimer.showsAlike : ShowsAlike StaircaseTimer.Renamed IsInstrument.putSnapshot :=
  ShowsAlike.keeping fun _ _ h _ _ hs => StaircaseTimer.put_alike h hs

theorem OccurrenceIndicator.takesAlike : TakesAlike OccurrenceIndicator.Renamed IsInstrument.update := by
  rintro i _ ⟨n, d, a, rfl, ha⟩ u
  show Same _ (OccurrenceIndicator.update _ _) (OccurrenceIndicator.update _ _)
  unfold OccurrenceIndicator.update
  exact .bindEq M.now fun now => .pure ⟨rfl, n, d, a, rfl, ha⟩

theorem OccurrenceIndicator.showsAlike : ShowsAlike OccurrenceIndicator.Renamed IsInstrument.putSnapshot := by
  refine ShowsAlike.keeping ?_
  rintro i _ ⟨n, d, a, rfl, ha⟩ s s' hs
  exact putTimedSwitch_alike _ _ _ _ ha _ hs

theorem NonOccurrenceIndicator.takesAlike : TakesAlike NonOccurrenceIndicator.Renamed IsInstrument.update := by
  rintro i _ ⟨n, d, a, rfl, ha⟩ u
  show Same _ (NonOccurrenceIndicator.update _ _) (NonOccurrenceIndicator.update _ _)
  unfold NonOccurrenceIndicator.update
  exact .bindEq M.now fun now => .pure ⟨rfl, n, d, a, rfl, ha⟩

theorem NonOccurrenceIndicator.showsAlike : ShowsAlike NonOccurrenceIndicator.Renamed IsInstrument.putSnapshot := by
  refine ShowsAlike.keeping ?_
  rintro i _ ⟨n, d, a, rfl, ha⟩ s s' hs
  exact putTimedSwitch_alike _ _ _ _ ha _ hs

theorem DataDisplay.takesAlike : TakesAlike DataDisplay.Renamed IsInstrument.update := by
  rintro i _ ⟨n, d, rfl⟩ u
  show Same _ (DataDisplay.update _ _) (DataDisplay.update _ _)
  unfold DataDisplay.update
  dsimp only
  cases u.observedValue.bind ObservedValue.toItemKind with
  | none => exact .pure ⟨rfl, n, d, rfl⟩
  | some v =>
    cases i.resetAfter with
    | none => exact .pure ⟨rfl, n, d, rfl⟩
    | some r => exact .bindEq _ fun now => .bindEq _ fun t => .pure ⟨rfl, n, d, rfl⟩

theorem DataDisplay.showsAlike : ShowsAlike DataDisplay.Renamed IsInstrument.putSnapshot := by
  refine ShowsAlike.keeping ?_
  rintro i _ ⟨n, d, rfl⟩ s s' hs
  refine .bindEq i.shown fun v => ?_
  cases v with
  | none => exact .pure hs
  | some v => exact .pure (unnamed_push hs _ _ rfl)

theorem LastOccurrenceTracker.takesAlike : TakesAlike LastOccurrenceTracker.Renamed IsInstrument.update := by
  rintro i _ ⟨n, d, rfl⟩ u
  show Same _ (LastOccurrenceTracker.update _ _) (LastOccurrenceTracker.update _ _)
  unfold LastOccurrenceTracker.update
  exact .bindEq M.now fun now => .pure ⟨rfl, n, d, rfl⟩

theorem LastOccurrenceTracker.showsAlike : ShowsAlike LastOccurrenceTracker.Renamed IsInstrument.putSnapshot := by
  refine ShowsAlike.keeping ?_
  rintro i _ ⟨n, d, rfl⟩ s s' hs
  refine .bindEq i.elapsed fun v => ?_
  cases v with
  | none => exact .ite (.pure (unnamed_push hs _ _ rfl)) (.pure hs)
  | some v => exact .pure (unnamed_push hs _ _ rfl)

theorem Custom.reshows [Custom σ L] (hc : CustomFrames σ L) (s : σ) {x y : Snapshot} (h : Snapshot.unnamed x = Snapshot.unnamed y) :
    Reshows Eq (Custom.putSnapshot L s x false) (Custom.putSnapshot L s y false) := by
  intro e k
  rw [hc s x, hc s y]
  cases Custom.putSnapshot L s [] false e k with
  | none => exact .none
  | some r => exact .some ⟨rfl, by rw [unnamed_append, unnamed_append, h], rfl⟩

theorem Instrument.takesAlike [Custom σ L] : TakesAlike (Instrument.Renamed (σ := σ)) (Instrument.update L) := by
  intro i i' h u
  cases h with
  | counter h => exact same_wrap (Counter.takesAlike _ _ h u) fun _ _ => .counter
  | gauge h => exact same_wrap (Gauge.takesAlike _ _ h u) fun _ _ => .gauge
  | meter h => exact same_wrap (Meter.takesAlike _ _ h u) fun _ _ => .meter
  | valueMeter h => exact same_wrap (ValueMeter.takesAlike _ _ h u) fun _ _ => .valueMeter
  | histogram h => exact same_wrap (Histogram.takesAlike _ _ h u) fun _ _ => .histogram
  | flag h => exact same_wrap (Flag.takesAlike _ _ h u) fun _ _ => .flag
  | staircaseTimer h => exact same_wrap (StaircaseTimer.takesAlike _ _ h u) fun _ _ => .staircaseTimer
  | occurrenceIndicator h => exact same_wrap (OccurrenceIndicator.takesAlike _ _ h u) fun _ _ => .occurrenceIndicator
  | nonOccurrenceIndicator h => exact same_wrap (NonOccurrenceIndicator.takesAlike _ _ h u) fun _ _ => .nonOccurrenceIndicator
  | dataDisplay h => exact same_wrap (DataDisplay.takesAlike _ _ h u) fun _ _ => .dataDisplay
  | lastOccurrenceTracker h => exact same_wrap (LastOccurrenceTracker.takesAlike _ _ h u) fun _ _ => .lastOccurrenceTracker
  | custom s => exact .bindEq _ fun r => .pure ⟨rfl, .custom _⟩

theorem Instrument.showsAlike [Custom σ L] (hc : CustomFrames σ L) :
    ShowsAlike (Instrument.Renamed (σ := σ)) (Instrument.putSnapshot L) := by
  intro i i' h s s' hs
  cases h with
  | counter h => exact reshows_wrap (Counter.showsAlike _ _ h s s' hs) fun _ _ => .counter
  | gauge h => exact reshows_wrap (Gauge.showsAlike _ _ h s s' hs) fun _ _ => .gauge
  | meter h => exact reshows_wrap (Meter.showsAlike _ _ h s s' hs) fun _ _ => .meter
  | valueMeter h => exact reshows_wrap (ValueMeter.showsAlike _ _ h s s' hs) fun _ _ => .valueMeter
  | histogram h => exact reshows_wrap (Histogram.showsAlike _ _ h s s' hs) fun _ _ => .histogram
  | flag h => exact reshows_wrap (Flag.showsAlike _ _ h s s' hs) fun _ _ => .flag
  | staircaseTimer h => exact reshows_wrap (StaircaseTimer.showsAlike _ _ h s s' hs) fun _ _ => .staircaseTimer
  | occurrenceIndicator h => exact reshows_wrap (OccurrenceIndicator.showsAlike _ _ h s s' hs) fun _ _ => .occurrenceIndicator
  | nonOccurrenceIndicator h => exact reshows_wrap (NonOccurrenceIndicator.showsAlike _ _ h s s' hs) fun _ _ => .nonOccurrenceIndicator
  | dataDisplay h => exact reshows_wrap (DataDisplay.showsAlike _ _ h s s' hs) fun _ _ => .dataDisplay
  | lastOccurrenceTracker h => exact reshows_wrap (LastOccurrenceTracker.showsAlike _ _ h s s' hs) fun _ _ => .lastOccurrenceTracker
  | custom c =>
    refine reshows_wrap (Custom.reshows hc c hs) ?_
    rintro a _ rfl
    exact .custom _

/-! ## Adapters -/

theorem InstrumentAdapter.Renamed.handle [DecidableEq L] {I : Type} {R : I → I → Prop} {up : I → Update → M (I × Nat)}
    (hu : TakesAlike R up) {a b : InstrumentAdapter L I} (h : a.Renamed R b) (o : Observation L) :
    Same (InstrumentAdapter.Renamed R) (a.handle up o) (b.handle up o) := by
  obtain ⟨i, rfl, hr⟩ := h
  unfold InstrumentAdapter.handle
  refine .ite (.bind _ (hu _ _ hr _) ?_) (.pure ⟨rfl, i, rfl, hr⟩)
  rintro ⟨x, n⟩ ⟨y, _⟩ ⟨rfl, hr⟩
  exact .pure ⟨rfl, y, rfl, hr⟩

theorem InstrumentAdapter.Renamed.put {I : Type} {R : I → I → Prop} {put : I → Snapshot → Bool → M (I × Snapshot)}
    (hp : ShowsAlike R put) {a b : InstrumentAdapter L I} (h : a.Renamed R b) {s s' : Snapshot}
    (hs : Snapshot.unnamed s = Snapshot.unnamed s') :
    Reshows (InstrumentAdapter.Renamed R) (a.putSnapshot put s false) (b.putSnapshot put s' false) := by
  obtain ⟨i, rfl, hr⟩ := h
  unfold InstrumentAdapter.putSnapshot
  refine .bind _ (hp _ _ hr s s' hs) ?_
  rintro ⟨x, n⟩ ⟨y, m⟩ ⟨he, hr⟩
  exact .pure ⟨he, y, rfl, hr⟩

theorem GaugeAdapter.Renamed.updateGauge {a b : GaugeAdapter L} (h : a.Renamed b) (u : Update) :
    Same GaugeAdapter.Renamed (a.updateGauge u) (b.updateGauge u) := by
  obtain ⟨i, rfl, hr⟩ := h
  unfold GaugeAdapter.updateGauge
  refine .bind _ (Gauge.takesAlike _ _ hr u) ?_
  rintro ⟨x, n⟩ ⟨y, _⟩ ⟨rfl, hr⟩
  exact .pure ⟨rfl, y, rfl, hr⟩

theorem GaugeAdapter.Renamed.handle [DecidableEq L] {a b : GaugeAdapter L} (h : a.Renamed b) (o : Observation L) :
    Same GaugeAdapter.Renamed (a.handle o) (b.handle o) := by
  have hu := h.updateGauge
  obtain ⟨i, rfl, hr⟩ := h
  obtain ⟨strategy, gauge, modify⟩ := a
  unfold GaugeAdapter.handle
  dsimp only
  cases strategy with
  | filter f => exact .ite (hu _) (.pure ⟨rfl, i, rfl, hr⟩)
  | deltasOnly f =>
    refine .ite ?_ (.pure ⟨rfl, i, rfl, hr⟩)
    split
    · exact hu _
    · exact .pure ⟨rfl, i, rfl, hr⟩
  | incDecOnLabels inc dec => exact .ite (hu _) (.ite (hu _) (.pure ⟨rfl, i, rfl, hr⟩))

theorem GaugeAdapter.Renamed.put {a b : GaugeAdapter L} (h : a.Renamed b) {s s' : Snapshot}
    (hs : Snapshot.unnamed s = Snapshot.unnamed s') : Reshows GaugeAdapter.Renamed (a.putSnapshot s false) (b.putSnapshot s' false) := by
  obtain ⟨i, rfl, hr⟩ := h
  unfold GaugeAdapter.putSnapshot
  refine .bind _ (Gauge.showsAlike _ _ hr s s' hs) ?_
  rintro ⟨x, n⟩ ⟨y, m⟩ ⟨he, hr⟩
  exact .pure ⟨he, y, rfl, hr⟩

end Metrix
