import Verif.Spec.Layout
import Verif.Proof.Post
import Verif.Proof.Processing

/-! Neither observations nor snapshots change what is configured. -/

namespace Metrix
variable {σ L : Type}

/-! ## Instruments -/

/-- The first component of every result of `x` is as `b` but for what was measured. -/
abbrev KeepsBare {A B C : Type} (bare : A → B) (a : A) (x : M (A × C)) : Prop := M.Post x fun r => bare r.1 = bare a

theorem keepsBare_keeping {A B : Type} {bare : A → B} {a : A} {f : A → Snapshot → Bool → M Snapshot} {into : Snapshot} {d : Bool} :
    KeepsBare bare a (keeping f a into d) := .bindAny fun _ => .pure rfl

theorem Counter.keepsBare_update (c : Counter) (u : Update) : KeepsBare Counter.bare c (c.update u) := by
  cases u <;> exact .bind (fun a => a.bare = c.bare) (.bindAny fun _ => .pure rfl) fun _ h => .pure h

theorem index_post {α : Type} (xs : List α) (i : Nat) : M.Post (index xs i) fun x => x ∈ xs := by
  unfold index
  split
  · exact .pure (List.mem_of_getElem? ‹_›)
  · exact .panic

theorem assignAt_length {α : Type} (xs : List α) (i : Nat) (x : α) :
    M.Post (assignAt xs i x) fun ys => ys.length = xs.length :=
  .ite (.pure (by simp)) .panic

section
variable {T : Type} [Inhabited T] (b : SecondsBuckets T)

theorem SecondsBuckets.advance_length : M.Post b.advance fun c => c.buckets.length = b.buckets.length :=
  .bindAny fun _ => .bind _ (assignAt_length _ _ _) fun _ h => .pure h

theorem SecondsBuckets.advanceN_length (n : Nat) : M.Post (b.advanceN n) fun c => c.buckets.length = b.buckets.length := by
  induction n generalizing b with
  | zero => exact .pure rfl
  | succ n ih => exact .bind _ b.advance_length fun _ h => (ih _).mono fun _ h' => h'.trans h

theorem SecondsBuckets.tick_length : M.Post b.tick fun c => c.buckets.length = b.buckets.length :=
  .bindAny fun _ => .ite (.pure rfl) (.ite (advance_length _) (.ite (advanceN_length _ _) (.pure (by simp))))

theorem SecondsBuckets.modifyCurrent_length (f : T → M T) :
    M.Post (b.modifyCurrent f) fun c => c.buckets.length = b.buckets.length :=
  .bind _ b.tick_length fun _ h => .bindAny fun _ => .bindAny fun _ => .bind _ (assignAt_length _ _ _) fun _ h' =>
    .pure (h'.trans h)

theorem SecondsBuckets.iter_length : M.Post b.iter fun c => c.1.buckets.length = b.buckets.length :=
  .bind _ b.tick_length fun _ h => .bindAny fun _ => .pure h
end

theorem SecondsBuckets.bare_eq {b c : SecondsBuckets Bucket} (h : c.buckets.length = b.buckets.length) : c.bare = b.bare := by
  simp [SecondsBuckets.bare, h]

theorem Gauge.keepsBare_track (t : Option (SecondsBuckets Bucket)) (v : Int) :
    M.Post (track t v) fun t' => t'.map (·.bare) = t.map (·.bare) := by
  cases t with
  | none => exact .pure rfl
  | some b => exact .bind _ (b.modifyCurrent_length _) fun _ h => .pure (by simp [SecondsBuckets.bare_eq h])

theorem Gauge.keepsBare_set (g : Gauge) (v : ObservedValue) : M.Post (g.set v) fun g' => g'.bare = g.bare := by
  unfold Gauge.set
  cases hv : g.value <;>
  · refine .bindAny fun o => ?_
    cases o with
    | none => exact .pure (by simp [Gauge.bare])
    | some n => exact .bind _ (keepsBare_track _ _) fun _ h => .pure (by simp [Gauge.bare, h])

theorem Gauge.keepsBare_update (g : Gauge) (u : Update) : KeepsBare Gauge.bare g (g.update u) := by
  cases u with
  | withValue v t => exact .bind _ (g.keepsBare_set v) fun _ h => .pure h
  | _ => exact .pure rfl

theorem BucketsStats.fromBuckets_length (b : SecondsBuckets Bucket) (v : Int) :
    M.Post (BucketsStats.fromBuckets b v) fun r => r.1.buckets.length = b.buckets.length :=
  .bind _ b.iter_length fun _ h => .bindAny fun _ =>
    .ite (.bindAny fun _ => .bindAny fun _ => .bindAny fun _ => .pure h) (.bindAny fun _ => .pure h)

theorem Gauge.keepsBare_putValues (g : Gauge) (into : Snapshot) : KeepsBare Gauge.bare g (g.putValues into) := by
  unfold Gauge.putValues
  cases hv : g.value with
  | none => exact .pure rfl
  | some v =>
    dsimp only
    cases ht : g.tracking with
    | none => exact .pure (by simp)
    | some b =>
      exact .bind _ (BucketsStats.fromBuckets_length b v) fun r h =>
        .pure (by simp [Gauge.bare, ht, SecondsBuckets.bare_eq h])

theorem Gauge.keepsBare_putSnapshot (g : Gauge) (into : Snapshot) (d : Bool) :
    KeepsBare Gauge.bare g (g.putSnapshot into d) :=
  .ite (.bind _ (g.keepsBare_putValues _) fun _ h => .pure h) (g.keepsBare_putValues _)

theorem StdMeter.bare_catchUp (rnd : Rat → Rat) (now : Int) (s : StdMeter) : (s.catchUp rnd now).bare = s.bare := by
  induction s using StdMeter.catchUp.induct rnd now with
  | case1 s h ih =>
    rw [StdMeter.catchUp, if_pos h, ih]
    simp only [StdMeter.bare, StdMeter.tickOnce, Ewma.tick]
    cases s.ewma1.init <;> cases s.ewma5.init <;> cases s.ewma15.init <;> rfl
  | case2 s h => rw [StdMeter.catchUp, if_neg h]

theorem StdMeter.keepsBare_tick (s : StdMeter) : M.Post s.tick fun s' => s'.bare = s.bare :=
  .bindAny fun _ => .bindAny fun _ => .pure (StdMeter.bare_catchUp _ _ _)

theorem StdMeter.keepsBare_mark (s : StdMeter) (n : Int) : M.Post (s.mark n) fun s' => s'.bare = s.bare :=
  .bind _ s.keepsBare_tick fun _ h => .bindAny fun _ => .pure h

theorem StdMeter.keepsBare_snapshot (s : StdMeter) : M.Post s.snapshot fun r => r.1.bare = s.bare :=
  .bindAny fun _ => .bind _ s.keepsBare_tick fun _ h => .bindAny fun _ => .pure h

theorem Meter.keepsBare_tickIfDue (m : Meter) : M.Post m.tickIfDue fun m' => m'.bare = m.bare :=
  .bindAny fun _ => .ite (.bind _ m.inner.keepsBare_tick fun _ h => .bindAny fun _ => .pure (by simp [Meter.bare, h]))
    (.pure rfl)

theorem Meter.bare_inner {m m' : Meter} {i : StdMeter} (h : m'.bare = m.bare) (hi : i.bare = m'.inner.bare) :
    ({ m' with inner := i } : Meter).bare = m.bare := by
  rw [← h]; simp [Meter.bare, hi]

theorem Meter.keepsBare_putSnapshot (m : Meter) (into : Snapshot) (d : Bool) :
    KeepsBare Meter.bare m (m.putSnapshot into d) :=
  .bind (fun r => r.1.bare = m.bare)
    (.bind _ m.keepsBare_tickIfDue fun _ h => .bind _ (StdMeter.keepsBare_snapshot _) fun _ h' => .pure (bare_inner h h'))
    fun _ h => .pure h

theorem Meter.keepsBare_update (m : Meter) (u : Update) : KeepsBare Meter.bare m (m.update u) := by
  refine .bind _ m.keepsBare_tickIfDue fun m' h => ?_
  cases u with
  | observations n t => exact .ite (.bind _ (StdMeter.keepsBare_mark _ _) fun _ h' => .pure (bare_inner h h')) (.pure h)
  | _ => exact .bind _ (StdMeter.keepsBare_mark _ _) fun _ h' => .pure (bare_inner h h')

theorem ValueMeter.keepsBare_mark (m : ValueMeter) (v : Int) : M.Post (m.mark v) fun m' => m'.bare = m.bare :=
  .bind _ (StdMeter.keepsBare_mark _ _) fun _ h => .pure (by simp [ValueMeter.bare, Meter.bare, h])

theorem ValueMeter.keepsBare_update (m : ValueMeter) (u : Update) : KeepsBare ValueMeter.bare m (m.update u) := by
  unfold ValueMeter.update
  split
  · exact .bindAny fun _ => .bind _ (m.keepsBare_mark _) fun _ h => .pure h
  · split
    · exact .bind _ (m.keepsBare_mark _) fun _ h => .pure h
    · exact .pure rfl
  · exact .pure rfl

theorem ValueMeter.keepsBare_putSnapshot (m : ValueMeter) (into : Snapshot) (d : Bool) :
    KeepsBare ValueMeter.bare m (m.putSnapshot into d) :=
  .bind _ (m.meter.keepsBare_putSnapshot into d) fun _ h => .pure (by simp [ValueMeter.bare, h])

theorem Histogram.keepsBare_resetIfDue (h : Histogram) : M.Post h.resetIfDue fun h' => h'.bare = h.bare := by
  unfold Histogram.resetIfDue
  split
  · exact .ite (.bindAny fun _ => .ite (.pure rfl) (.pure rfl)) (.pure rfl)
  · exact .pure rfl

theorem Histogram.keepsBare_record (h : Histogram) (v : Int) : M.Post (h.record v) fun h' => h'.bare = h.bare :=
  .bindAny fun _ => .pure rfl

theorem Histogram.keepsBare_update (h : Histogram) (u : Update) : KeepsBare Histogram.bare h (h.update u) := by
  refine .bind _ h.keepsBare_resetIfDue fun h' hb => ?_
  split
  · exact .bindAny fun _ => .bind _ (h'.keepsBare_record _) fun _ hr => .pure (hr.trans hb)
  · split
    · exact .bind _ (h'.keepsBare_record _) fun _ hr => .pure (hr.trans hb)
    · exact .pure hb
  · exact .pure hb

theorem Flag.bare_update (f : Flag) (u : Update) : (f.update u).1.bare = f.bare := by
  unfold Flag.update
  split <;> rfl

theorem DataDisplay.keepsBare_update (d : DataDisplay) (u : Update) : KeepsBare DataDisplay.bare d (d.update u) := by
  unfold DataDisplay.update
  split
  · split
    · exact .bindAny fun _ => .bindAny fun _ => .pure rfl
    · exact .pure rfl
  · exact .pure rfl

theorem StaircaseTimer.keepsBare_update (t : StaircaseTimer) (u : Update) : KeepsBare StaircaseTimer.bare t (t.update u) :=
  .bindAny fun _ => .bindAny fun _ => .pure rfl

theorem OccurrenceIndicator.keepsBare_update (i : OccurrenceIndicator) (u : Update) :
    KeepsBare OccurrenceIndicator.bare i (i.update u) := .bindAny fun _ => .pure rfl

theorem NonOccurrenceIndicator.keepsBare_update (i : NonOccurrenceIndicator) (u : Update) :
    KeepsBare NonOccurrenceIndicator.bare i (i.update u) := .bindAny fun _ => .pure rfl

theorem LastOccurrenceTracker.keepsBare_update (t : LastOccurrenceTracker) (u : Update) :
    KeepsBare LastOccurrenceTracker.bare t (t.update u) := .bindAny fun _ => .pure rfl

section
variable [Custom σ L]

theorem Instrument.keepsBare_update (i : Instrument σ) (u : Update) : KeepsBare Instrument.bare i (i.update L u) := by
  cases i with
  | counter i => exact .bind _ (i.keepsBare_update u) fun _ h => .pure (congrArg Instrument.counter h)
  | gauge i => exact .bind _ (i.keepsBare_update u) fun _ h => .pure (congrArg Instrument.gauge h)
  | meter i => exact .bind _ (i.keepsBare_update u) fun _ h => .pure (congrArg Instrument.meter h)
  | valueMeter i => exact .bind _ (i.keepsBare_update u) fun _ h => .pure (congrArg Instrument.valueMeter h)
  | histogram i => exact .bind _ (i.keepsBare_update u) fun _ h => .pure (congrArg Instrument.histogram h)
  | flag i => exact .bind (fun r => r.1.bare = i.bare) (.pure (i.bare_update u)) fun _ h => .pure (congrArg Instrument.flag h)
  | staircaseTimer i => exact .bind _ (i.keepsBare_update u) fun _ h => .pure (congrArg Instrument.staircaseTimer h)
  | occurrenceIndicator i => exact .bind _ (i.keepsBare_update u) fun _ h => .pure (congrArg Instrument.occurrenceIndicator h)
  | nonOccurrenceIndicator i => exact .bind _ (i.keepsBare_update u) fun _ h => .pure (congrArg Instrument.nonOccurrenceIndicator h)
  | dataDisplay i => exact .bind _ (i.keepsBare_update u) fun _ h => .pure (congrArg Instrument.dataDisplay h)
  | lastOccurrenceTracker i => exact .bind _ (i.keepsBare_update u) fun _ h => .pure (congrArg Instrument.lastOccurrenceTracker h)
  | custom s => exact .bindAny fun _ => .pure rfl

theorem Instrument.keepsBare_putSnapshot (i : Instrument σ) (into : Snapshot) (d : Bool) :
    KeepsBare Instrument.bare i (i.putSnapshot L into d) := by
  cases i with
  | gauge i => exact .bind _ (i.keepsBare_putSnapshot into d) fun _ h => .pure (congrArg Instrument.gauge h)
  | meter i => exact .bind _ (i.keepsBare_putSnapshot into d) fun _ h => .pure (congrArg Instrument.meter h)
  | valueMeter i => exact .bind _ (i.keepsBare_putSnapshot into d) fun _ h => .pure (congrArg Instrument.valueMeter h)
  | custom s => exact .bindAny fun _ => .pure rfl
  | _ => exact .bind _ (keepsBare_keeping (bare := fun i => i)) fun _ h => .pure (by dsimp only at h ⊢; rw [h])
end

/-! ## Adapters -/

theorem InstrumentAdapter.keepsBare_handle [DecidableEq L] {I J : Type} {bare : I → J} {update : I → Update → M (I × Nat)}
    (hu : ∀ i u, KeepsBare bare i (update i u)) (a : InstrumentAdapter L I) (o : Observation L) :
    KeepsBare (·.map bare) a (a.handle update o) :=
  .ite (.bind _ (hu _ _) fun _ h => .pure (by simp [InstrumentAdapter.map, h])) (.pure rfl)

theorem InstrumentAdapter.keepsBare_putSnapshot {I J : Type} {bare : I → J} {put : I → Snapshot → Bool → M (I × Snapshot)}
    (hp : ∀ i s d, KeepsBare bare i (put i s d)) (a : InstrumentAdapter L I) (into : Snapshot) (d : Bool) :
    KeepsBare (·.map bare) a (a.putSnapshot put into d) :=
  .bind _ (hp _ _ _) fun _ h => .pure (by simp [InstrumentAdapter.map, h])

theorem GaugeAdapter.keepsBare_updateGauge (a : GaugeAdapter L) (u : Update) :
    KeepsBare GaugeAdapter.bare a (a.updateGauge u) :=
  .bind _ (a.gauge.keepsBare_update u) fun _ h => .pure (by simp [GaugeAdapter.bare, h])

theorem GaugeAdapter.keepsBare_handle [DecidableEq L] (a : GaugeAdapter L) (o : Observation L) :
    KeepsBare GaugeAdapter.bare a (a.handle o) := by
  unfold GaugeAdapter.handle
  split
  · exact .ite (a.keepsBare_updateGauge _) (.pure rfl)
  · refine .ite ?_ (.pure rfl)
    split
    · exact a.keepsBare_updateGauge _
    · exact .pure rfl
  · exact .ite (a.keepsBare_updateGauge _) (.ite (a.keepsBare_updateGauge _) (.pure rfl))

theorem GaugeAdapter.keepsBare_putSnapshot (a : GaugeAdapter L) (into : Snapshot) (d : Bool) :
    KeepsBare GaugeAdapter.bare a (a.putSnapshot into d) :=
  .bind _ (a.gauge.keepsBare_putSnapshot into d) fun _ h => .pure (by simp [GaugeAdapter.bare, h])

/-! ## Panels, handlers and snapshooters -/

theorem keepsBare_handleSlot {A B : Type} {bare : A → B} {f : A → M (A × Nat)} (hf : ∀ a, KeepsBare bare a (f a)) (a : Option A) :
    KeepsBare (Option.map bare) a (handleSlot f a) := by
  cases a with
  | none => exact .pure rfl
  | some a => exact .bind _ (hf a) fun _ h => .pure (congrArg some h)

theorem keepsBare_putSlot {A B : Type} {bare : A → B} {f : A → Snapshot → M (A × Snapshot)}
    (hf : ∀ a s, KeepsBare bare a (f a s)) (a : Option A) (into : Snapshot) :
    KeepsBare (Option.map bare) a (putSlot f a into) := by
  cases a with
  | none => exact .pure rfl
  | some a => exact .bind _ (hf a into) fun _ h => .pure (congrArg some h)

theorem PanelHead.keepsBare_handle [DecidableEq L] (h : PanelHead L) (o : Observation L) :
    KeepsBare PanelHead.bare h (h.handle o) :=
  .bind _ (keepsBare_handleSlot (InstrumentAdapter.keepsBare_handle Counter.keepsBare_update · o) _) fun _ h₁ =>
  .bind _ (keepsBare_handleSlot (GaugeAdapter.keepsBare_handle · o) _) fun _ h₂ =>
  .bind _ (keepsBare_handleSlot (InstrumentAdapter.keepsBare_handle Meter.keepsBare_update · o) _) fun _ h₃ =>
  .bind _ (keepsBare_handleSlot (InstrumentAdapter.keepsBare_handle Histogram.keepsBare_update · o) _) fun _ h₄ =>
  .pure (by simp [PanelHead.bare, h₁, h₂, h₃, h₄])

theorem PanelHead.keepsBare_putSlots (h : PanelHead L) (into : Snapshot) (d : Bool) :
    KeepsBare PanelHead.bare h (h.putSlots into d) :=
  .bind _ (keepsBare_putSlot (fun a s => a.keepsBare_putSnapshot (bare := Counter.bare) (fun _ _ _ => keepsBare_keeping) s d) _ _) fun _ h₁ =>
  .bind _ (keepsBare_putSlot (fun a s => a.keepsBare_putSnapshot s d) _ _) fun _ h₂ =>
  .bind _ (keepsBare_putSlot (fun a s => a.keepsBare_putSnapshot Meter.keepsBare_putSnapshot s d) _ _) fun _ h₃ =>
  .bind _ (keepsBare_putSlot (fun a s => a.keepsBare_putSnapshot (bare := Histogram.bare) (fun _ _ _ => keepsBare_keeping) s d) _ _) fun _ h₄ =>
  .pure (by simp [PanelHead.bare, h₁, h₂, h₃, h₄])

section
variable [DecidableEq L] [Custom σ L]

mutual
theorem Panel.keepsBare_handle (o : Observation L) : ∀ p : Panel σ L, KeepsBare Panel.bare p (p.handle o)
  | .mk h ps hs ss => by
    rw [Panel.handle]
    exact .ite (.bind _ (h.keepsBare_handle o) fun _ h₁ => .bind _ (keepsBare_handlePanels o ps) fun _ h₂ =>
      .bind _ (keepsBare_handleHandlers o hs) fun _ h₃ => .pure (by simp [Panel.bare, h₁, h₂, h₃])) (.pure rfl)

theorem keepsBare_handlePanels (o : Observation L) : ∀ ps : List (Panel σ L), KeepsBare barePanels ps (handlePanels o ps)
  | [] => by rw [handlePanels]; exact .pure rfl
  | p :: ps => by
    rw [handlePanels]
    exact .bind _ (p.keepsBare_handle o) fun _ h₁ => .bind _ (keepsBare_handlePanels o ps) fun _ h₂ =>
      .pure (by simp [barePanels, h₁, h₂])

theorem Handler.keepsBare_handle (o : Observation L) : ∀ h : Handler σ L, KeepsBare Handler.bare h (h.handle o)
  | .instrument a => by
    rw [Handler.handle]
    exact .bind _ (a.keepsBare_handle (Instrument.keepsBare_update (L := L)) o) fun _ h => .pure (by simp [Handler.bare, h])
  | .gauge a => by
    rw [Handler.handle]
    exact .bind _ (a.keepsBare_handle o) fun _ h => .pure (by simp [Handler.bare, h])
  | .panel p => by
    rw [Handler.handle]
    exact .bind _ (p.keepsBare_handle o) fun _ h => .pure (by simp [Handler.bare, h])
  | .cockpit h ps hs ss => by
    rw [Handler.handle]
    exact .bindAny fun _ => .bind _ (keepsBare_handleHandlers o hs) fun _ h₁ => .bind _ (keepsBare_handlePanels o ps)
      fun _ h₂ => .pure (by simp [Handler.bare, h₁, h₂, CockpitHead.bare, Activity.bare])
  | .custom s => by
    rw [Handler.handle]
    exact .bindAny fun _ => .pure (by simp [Handler.bare])

theorem keepsBare_handleHandlers (o : Observation L) : ∀ hs : List (Handler σ L),
    KeepsBare bareHandlers hs (handleHandlers o hs)
  | [] => by rw [handleHandlers]; exact .pure rfl
  | h :: hs => by
    rw [handleHandlers]
    exact .bind _ (h.keepsBare_handle o) fun _ h₁ => .bind _ (keepsBare_handleHandlers o hs) fun _ h₂ =>
      .pure (by simp [bareHandlers, h₁, h₂])
end

omit [DecidableEq L] in
mutual
theorem Panel.keepsBare_putSnapshot (d : Bool) : ∀ (p : Panel σ L) (into : Snapshot),
    KeepsBare Panel.bare p (p.putSnapshot d into)
  | .mk h ps hs ss, into => by
    rw [Panel.putSnapshot]
    exact .bindAny fun _ => .ite (.bind _ (h.keepsBare_putSlots _ d) fun _ h₁ => .bind _ (keepsBare_putPanels d ps _) fun _ h₂ =>
      .bind _ (keepsBare_putSnapshooters d ss _) fun _ h₃ => .bind _ (keepsBare_putHandlers d hs _) fun _ h₄ =>
      .pure (by simp [Panel.bare, h₁, h₂, h₃, h₄])) (.pure rfl)

theorem keepsBare_putPanels (d : Bool) : ∀ (ps : List (Panel σ L)) (into : Snapshot),
    KeepsBare barePanels ps (putPanels d ps into)
  | [], into => by rw [putPanels]; exact .pure rfl
  | p :: ps, into => by
    rw [putPanels]
    exact .bind _ (p.keepsBare_putSnapshot d into) fun _ h₁ => .bind _ (keepsBare_putPanels d ps _) fun _ h₂ =>
      .pure (by simp [barePanels, h₁, h₂])

theorem Handler.keepsBare_putSnapshot (d : Bool) : ∀ (h : Handler σ L) (into : Snapshot),
    KeepsBare Handler.bare h (h.putSnapshot d into)
  | .instrument a, into => by
    rw [Handler.putSnapshot]
    exact .bind _ (a.keepsBare_putSnapshot (Instrument.keepsBare_putSnapshot (L := L)) into d) fun _ h =>
      .pure (by simp [Handler.bare, h])
  | .gauge a, into => by
    rw [Handler.putSnapshot]
    exact .bind _ (a.keepsBare_putSnapshot into d) fun _ h => .pure (by simp [Handler.bare, h])
  | .panel p, into => by
    rw [Handler.putSnapshot]
    exact .bind _ (p.keepsBare_putSnapshot d into) fun _ h => .pure (by simp [Handler.bare, h])
  | .cockpit h ps hs ss, into => by
    rw [Handler.putSnapshot]
    exact .bindAny fun _ => .ite (.bind _ (keepsBare_putPanels d ps _) fun _ h₁ => .bind _ (keepsBare_putHandlers d hs _) fun _ h₂ =>
      .bind _ (keepsBare_putSnapshooters d ss _) fun _ h₃ => .pure (by simp [Handler.bare, h₁, h₂, h₃])) (.pure rfl)
  | .custom s, into => by
    rw [Handler.putSnapshot]
    exact .bindAny fun _ => .pure (by simp [Handler.bare])

theorem keepsBare_putHandlers (d : Bool) : ∀ (hs : List (Handler σ L)) (into : Snapshot),
    KeepsBare bareHandlers hs (putHandlers d hs into)
  | [], into => by rw [putHandlers]; exact .pure rfl
  | h :: hs, into => by
    rw [putHandlers]
    exact .bind _ (h.keepsBare_putSnapshot d into) fun _ h₁ => .bind _ (keepsBare_putHandlers d hs _) fun _ h₂ =>
      .pure (by simp [bareHandlers, h₁, h₂])

theorem Snapshooter.keepsBare_putSnapshot (d : Bool) : ∀ (x : Snapshooter σ L) (into : Snapshot),
    KeepsBare Snapshooter.bare x (x.putSnapshot d into)
  | .constant n c v, into => by rw [Snapshooter.putSnapshot]; exact .pure rfl
  | .polling n c g poll, into => by
    rw [Snapshooter.putSnapshot]
    exact .ite (.bind _ (poll.keepsBare_putSnapshot d _) fun _ h => .pure (by simp [Snapshooter.bare, h]))
      (.bind _ (poll.keepsBare_putSnapshot d _) fun _ h => .pure (by simp [Snapshooter.bare, h]))
  | .instrument i, into => by
    rw [Snapshooter.putSnapshot]
    exact .bind _ (i.keepsBare_putSnapshot (L := L) into d) fun _ h => .pure (by simp [Snapshooter.bare, h])
  | .handler h, into => by
    rw [Snapshooter.putSnapshot]
    exact .bind _ (h.keepsBare_putSnapshot d into) fun _ h => .pure (by simp [Snapshooter.bare, h])
  | .custom s, into => by
    rw [Snapshooter.putSnapshot]
    exact .bindAny fun _ => .pure (by simp [Snapshooter.bare])

theorem keepsBare_putSnapshooters (d : Bool) : ∀ (ss : List (Snapshooter σ L)) (into : Snapshot),
    KeepsBare bareSnapshooters ss (putSnapshooters d ss into)
  | [], into => by rw [putSnapshooters]; exact .pure rfl
  | s :: ss, into => by
    rw [putSnapshooters]
    exact .bind _ (s.keepsBare_putSnapshot d into) fun _ h₁ => .bind _ (keepsBare_putSnapshooters d ss _) fun _ h₂ =>
      .pure (by simp [bareSnapshooters, h₁, h₂])
end

/-! ## Cockpits and processors -/

theorem Cockpit.keepsBare_handle (o : Observation L) (c : Cockpit σ L) : KeepsBare Cockpit.bare c (c.handle o) :=
  .bindAny fun _ => .bind _ (keepsBare_handleHandlers o c.handlers) fun _ h₁ => .bind _ (keepsBare_handlePanels o c.panels)
    fun _ h₂ => .pure (by simp [Cockpit.bare, h₁, h₂, CockpitHead.bare, Activity.bare])

omit [DecidableEq L] in
theorem Cockpit.keepsBare_putSnapshot (c : Cockpit σ L) (into : Snapshot) (d : Bool) :
    KeepsBare Cockpit.bare c (c.putSnapshot into d) :=
  .bindAny fun _ => .ite (.bind _ (keepsBare_putPanels d c.panels _) fun _ h₁ => .bind _ (keepsBare_putHandlers d c.handlers _)
    fun _ h₂ => .bind _ (keepsBare_putSnapshooters d c.snapshooters _) fun _ h₃ => .pure (by simp [Cockpit.bare, h₁, h₂, h₃]))
    (.pure rfl)

omit [DecidableEq L] in
theorem keepsBare_putCockpits (d : Bool) (cs : List (Cockpit σ L)) (into : Snapshot) :
    KeepsBare (List.map Cockpit.bare) cs (putCockpits d cs into) := by
  induction cs generalizing into with
  | nil => exact .pure rfl
  | cons c cs ih =>
    exact .bind _ (c.keepsBare_putSnapshot into d) fun _ h₁ => .bind _ (ih _) fun _ h₂ => .pure (by simp [h₁, h₂])

omit [DecidableEq L] in
theorem ProcessorState.keepsBare_putSnapshot (s : ProcessorState σ L) (into : Snapshot) (d : Bool) :
    KeepsBare ProcessorState.bare s (s.putSnapshot into d) :=
  .bindAny fun _ => .ite (.bind _ (keepsBare_putCockpits d s.cockpits _) fun _ h₁ => .bind _ (keepsBare_putHandlers d s.handlers _)
    fun _ h₂ => .bind _ (keepsBare_putSnapshooters d s.snapshooters _) fun _ h₃ =>
    .pure (by simp [ProcessorState.bare, h₁, h₂, h₃])) (.pure rfl)

theorem Handles.bare_handlers {e : Env} {o : Observation L} {k k' : Nat} {ns : List Nat} {hs hs' : List (Handler σ L)}
    (h : Handles e o k hs ns k' hs') : bareHandlers hs' = bareHandlers hs := by
  induction h with
  | nil => rfl
  | cons h₁ _ ih => simp only [bareHandlers, ih, Handler.keepsBare_handle o _ _ _ _ _ h₁]

theorem Handles.bare_cockpits {e : Env} {o : Observation L} {k k' : Nat} {ns : List Nat} {cs cs' : List (Cockpit σ L)}
    (h : Handles e o k cs ns k' cs') : cs'.map Cockpit.bare = cs.map Cockpit.bare := by
  induction h with
  | nil => rfl
  | cons h₁ _ ih => simp only [List.map_cons, ih, Cockpit.keepsBare_handle o _ _ _ _ _ h₁]

end

theorem Panel.bare_name (p : Panel σ L) : p.bare.name = p.name := by cases p; rfl

theorem Cockpit.bare_name (c : Cockpit σ L) : c.bare.name = c.name := rfl

theorem barePanels_eq (ps : List (Panel σ L)) : barePanels ps = ps.map Panel.bare := by
  induction ps with
  | nil => rfl
  | cons p ps ih => simp [barePanels, ih]

theorem bareHandlers_eq (hs : List (Handler σ L)) : bareHandlers hs = hs.map Handler.bare := by
  induction hs with
  | nil => rfl
  | cons p ps ih => simp [bareHandlers, ih]

theorem bareSnapshooters_eq (ss : List (Snapshooter σ L)) : bareSnapshooters ss = ss.map Snapshooter.bare := by
  induction ss with
  | nil => rfl
  | cons p ps ih => simp [bareSnapshooters, ih]

theorem Cockpit.bare_addPanel (c : Cockpit σ L) (p : Panel σ L) : (c.addPanel p).bare = c.bare.addPanel p.bare := by
  unfold Cockpit.addPanel
  rw [p.bare_name]
  cases p.name with
  | none => simp [Cockpit.bare, barePanels_eq]
  | some n =>
    simp only [Cockpit.bare, barePanels_eq, List.any_map, Function.comp_def, Panel.bare_name]
    split <;> simp [Cockpit.bare, barePanels_eq]

theorem Cockpit.bare_removePanel (c : Cockpit σ L) (n : String) : (c.removePanel n).bare = c.bare.removePanel n := by
  simp only [Cockpit.removePanel, Cockpit.bare, barePanels_eq, List.filter_map, Function.comp_def, Panel.bare_name]

theorem modify_bare {f : Cockpit σ L → Cockpit σ L} {g : Cockpit Unit L → Cockpit Unit L} (h : ∀ c, (f c).bare = g c.bare)
    (cs : List (Cockpit σ L)) (i : Nat) : (cs.modify i f).map Cockpit.bare = (cs.map Cockpit.bare).modify i g := by
  induction cs generalizing i with
  | nil => simp
  | cons c cs ih => cases i <;> simp [h, ih]

theorem ProcessorState.bare_findIdx (s : ProcessorState σ L) (n : String) :
    s.bare.cockpits.findIdx? (fun c => decide (c.name = some n)) = s.cockpits.findIdx? fun c => decide (c.name = some n) :=
  List.findIdx?_map ..

theorem ProcessorState.bare_configured (s : ProcessorState σ L) (m : Message σ L) :
    (s.configured m).bare = s.bare.configured m.bare := by
  cases m with
  | observation o => rfl
  | addCockpit c =>
    simp only [configured, Message.bare, bare, List.map_map, Function.comp_def, Cockpit.bare_name]
    split <;> simp [bare]
  | removeCockpit n =>
    simp only [configured, Message.bare, bare, List.filter_map]
    rfl
  | addHandler h => simp [configured, Message.bare, bare, bareHandlers_eq]
  | addPanelToCockpit n p =>
    simp only [configured, Message.bare]
    rw [bare_findIdx]
    cases s.cockpits.findIdx? fun c => decide (c.name = some n) with
    | none => rfl
    | some i =>
      simp only [bare]
      rw [modify_bare (f := (·.addPanel p)) (g := (·.addPanel p.bare)) (·.bare_addPanel p)]
  | removePanelFromCockpit n q =>
    simp only [configured, Message.bare]
    rw [bare_findIdx]
    cases s.cockpits.findIdx? fun c => decide (c.name = some n) with
    | none => rfl
    | some i =>
      simp only [bare]
      rw [modify_bare (f := (·.removePanel q)) (g := (·.removePanel q)) (·.bare_removePanel q)]

theorem ProcessorState.bare_addCockpit (s : ProcessorState σ L) (c : Cockpit σ L) :
    (s.addCockpit c).bare = s.bare.addCockpit c.bare := by
  unfold ProcessorState.addCockpit
  rw [c.bare_name]
  cases c.name with
  | none => simp [bare]
  | some n =>
    simp only [bare, List.any_map, Function.comp_def, Cockpit.bare_name]
    split <;> simp [bare]

theorem ProcessorState.bare_set (s : ProcessorState σ L) (c : Call σ L) : (s.set c).bare = s.bare.set c.bare := by
  cases c with
  | addCockpit c => exact s.bare_addCockpit c
  | addHandler h => simp [set, Call.bare, addHandler, bare, bareHandlers_eq]
  | addSnapshooter h => simp [set, Call.bare, addSnapshooter, bare, bareSnapshooters_eq]
  | _ => rfl

section
variable [DecidableEq L] [Custom σ L]

theorem Applied.bare {e : Env} {keeps : Observation L → Prop} {k k' : Nat} {s s' : ProcessorState σ L} {m : Message σ L}
    {v : Verdict} (h : Applied e keeps k s m v k' s') : s'.bare = s.bare.configured m.bare := by
  cases h with
  | processed _ hc hh => simp [ProcessorState.bare, ProcessorState.configured, Message.bare, hc.bare_cockpits, hh.bare_handlers]
  | dropped => rfl
  | config => exact s.bare_configured m

theorem Applies.bare {e : Env} {keeps : Observation L → Prop} {k k' : Nat} {s s' : ProcessorState σ L}
    {ms : List (Message σ L × Verdict)} (h : Applies e keeps k s ms k' s') :
    s'.bare = ((ms.map (·.1)).map Message.bare).foldl ProcessorState.configured s.bare := by
  induction h with
  | nil => rfl
  | cons h₁ _ ih => rw [ih, h₁.bare]; rfl

omit [DecidableEq L] [Custom σ L] in
theorem configured_bare_eq (ms : List (Message σ L)) (s : ProcessorState Unit L) :
    (ms.map (·.bare)).foldl ProcessorState.configured s =
      ((ms.filter (·.isSetting)).map fun m => Setting.message m.bare).foldl ProcessorState.withSetting s := by
  induction ms generalizing s with
  | nil => rfl
  | cons m ms ih =>
    rw [List.map_cons, List.foldl_cons, ih]
    cases m <;> rfl

omit [DecidableEq L] [Custom σ L] in
theorem set_bare_eq (c : Call σ L) (s : ProcessorState Unit L) :
    s.set c.bare = (if c.isSetting then [Setting.call c.bare] else []).foldl ProcessorState.withSetting s := by
  cases c <;> rfl

theorem Story.bare {e : Env} {k k' : Nat} {s s' : ProcessorState σ L} {log : List (Called σ L)}
    {consumed : List (List (Message σ L × Verdict))} (h : Story e k s log consumed k' s') :
    s'.bare = (settingsIn log (consumed.map (·.map (·.1)))).foldl ProcessorState.withSetting s.bare := by
  induction h with
  | nil => rfl
  | @run k k₁ k₂ k₃ k₄ k' s s₁ s₂ s' max strategy out ms log consumed _ _ _ _ happ _ hs _ ih =>
    have h₂ : s₂.bare = s₁.bare := by rw [hs]; split <;> rfl
    have h₁ := happ.bare
    rw [configured_bare_eq] at h₁
    rw [ih, List.map_cons, settingsIn, List.foldl_append, List.foldl_append, h₂, h₁]
    rfl
  | snapshot _ h _ ih =>
    rw [ih, ProcessorState.keepsBare_putSnapshot _ _ _ _ _ _ _ h]
    rfl
  | @set k k₁ k' s s' c log consumed _ _ _ _ ih =>
    rw [ih, ProcessorState.bare_set, set_bare_eq, List.map_cons, settingsIn, List.foldl_append, List.foldl_append]
    rfl

theorem Story.length {e : Env} {k k' : Nat} {s s' : ProcessorState σ L} {log : List (Called σ L)}
    {consumed : List (List (Message σ L × Verdict))} (h : Story e k s log consumed k' s') : consumed.length = log.length := by
  induction h <;> simp [*]

omit [DecidableEq L] [Custom σ L] in
theorem settingsIn_nil {log : List (Called σ L)} {consumed : List (List (Message σ L))}
    (hl : ∀ c ∈ log, c.call.isSetting = false) (hm : ∀ m ∈ consumed.flatten, m.isSetting = false) :
    settingsIn log consumed = [] := by
  induction log generalizing consumed with
  | nil => rfl
  | cons c log ih =>
    cases consumed with
    | nil => rfl
    | cons ms consumed =>
      simp only [List.flatten_cons, List.mem_append] at hm
      simp only [settingsIn, hl c (by simp), ih (fun c hc => hl c (by simp [hc])) (fun m h => hm m (.inr h))]
      simp only [Bool.false_eq_true, if_false, List.nil_append, List.append_nil, List.map_eq_nil_iff, List.filter_eq_nil_iff]
      intro m h
      simp [hm m (.inl h)]

end

/-! ## What is shown -/

theorem Exhibit.bare_inside (name : Option String) (a : Option Activity) (xs : List (Exhibit (Snapshooter σ L))) :
    (xs.map (Exhibit.inside name a)).map Exhibit.bare = (xs.map Exhibit.bare).map (Exhibit.inside name (a.map Activity.bare)) := by
  rw [List.map_map, List.map_map]
  refine List.map_congr_left fun x _ => ?_
  cases a <;> simp [Exhibit.bare, Exhibit.inside]

theorem PanelHead.bare_exhibits (h : PanelHead L) :
    (h.bare.exhibits : List (Exhibit (Snapshooter Unit L))) = (h.exhibits : List (Exhibit (Snapshooter σ L))).map Exhibit.bare := by
  unfold PanelHead.exhibits PanelHead.bare
  cases h.counter <;> cases h.gauge <;> cases h.meter <;> cases h.histogram <;> rfl

mutual
theorem Panel.bare_exhibits : ∀ p : Panel σ L, p.bare.exhibits = p.exhibits.map Exhibit.bare
  | .mk h ps hs ss => by
    simp only [Panel.bare, Panel.exhibits, Exhibit.bare_inside, List.map_append, bare_exhibitsOfPanels ps,
      bare_exhibitsOfHandlers hs, bare_exhibitsOfSnapshooters ss, ← PanelHead.bare_exhibits]
    rfl

theorem bare_exhibitsOfPanels : ∀ ps : List (Panel σ L), exhibitsOfPanels (barePanels ps) = (exhibitsOfPanels ps).map Exhibit.bare
  | [] => rfl
  | p :: ps => by simp only [barePanels, exhibitsOfPanels, List.map_append, p.bare_exhibits, bare_exhibitsOfPanels ps]

theorem Handler.bare_exhibits : ∀ h : Handler σ L, h.bare.exhibits = h.exhibits.map Exhibit.bare
  | .instrument a => rfl
  | .gauge a => rfl
  | .panel p => by simp only [Handler.bare, Handler.exhibits, p.bare_exhibits]
  | .cockpit h ps hs ss => by
    simp only [Handler.bare, Handler.exhibits, Exhibit.bare_inside, List.map_append, bare_exhibitsOfPanels ps,
      bare_exhibitsOfHandlers hs, bare_exhibitsOfSnapshooters ss]
    rfl
  | .custom s => rfl

theorem bare_exhibitsOfHandlers : ∀ hs : List (Handler σ L),
    exhibitsOfHandlers (bareHandlers hs) = (exhibitsOfHandlers hs).map Exhibit.bare
  | [] => rfl
  | h :: hs => by simp only [bareHandlers, exhibitsOfHandlers, List.map_append, h.bare_exhibits, bare_exhibitsOfHandlers hs]

theorem Snapshooter.bare_exhibits : ∀ s : Snapshooter σ L, s.bare.exhibits = s.exhibits.map Exhibit.bare
  | .constant n d v => rfl
  | .polling n d g poll => by simp only [Snapshooter.bare, Snapshooter.exhibits, Exhibit.bare_inside, poll.bare_exhibits]; rfl
  | .instrument i => rfl
  | .handler h => by simp only [Snapshooter.bare, Snapshooter.exhibits, h.bare_exhibits]
  | .custom s => rfl

theorem bare_exhibitsOfSnapshooters : ∀ ss : List (Snapshooter σ L),
    exhibitsOfSnapshooters (bareSnapshooters ss) = (exhibitsOfSnapshooters ss).map Exhibit.bare
  | [] => rfl
  | s :: ss => by
    simp only [bareSnapshooters, exhibitsOfSnapshooters, List.map_append, s.bare_exhibits, bare_exhibitsOfSnapshooters ss]
end

mutual
theorem Panel.bare_groups : ∀ p : Panel σ L, p.bare.groups = p.groups
  | .mk h ps hs ss => by
    simp only [Panel.bare, Panel.groups, bare_groupsOfPanels ps, bare_groupsOfHandlers hs, bare_groupsOfSnapshooters ss]
    rfl

theorem bare_groupsOfPanels : ∀ ps : List (Panel σ L), groupsOfPanels (barePanels ps) = groupsOfPanels ps
  | [] => rfl
  | p :: ps => by simp only [barePanels, groupsOfPanels, p.bare_groups, bare_groupsOfPanels ps]

theorem Handler.bare_groups : ∀ h : Handler σ L, h.bare.groups = h.groups
  | .instrument a => rfl
  | .gauge a => rfl
  | .panel p => by simp only [Handler.bare, Handler.groups, p.bare_groups]
  | .cockpit h ps hs ss => by
    simp only [Handler.bare, Handler.groups, bare_groupsOfPanels ps, bare_groupsOfHandlers hs, bare_groupsOfSnapshooters ss]
    rfl
  | .custom s => rfl

theorem bare_groupsOfHandlers : ∀ hs : List (Handler σ L), groupsOfHandlers (bareHandlers hs) = groupsOfHandlers hs
  | [] => rfl
  | h :: hs => by simp only [bareHandlers, groupsOfHandlers, h.bare_groups, bare_groupsOfHandlers hs]

theorem Snapshooter.bare_groups : ∀ s : Snapshooter σ L, s.bare.groups = s.groups
  | .constant n d v => rfl
  | .polling n d g poll => by simp only [Snapshooter.bare, Snapshooter.groups, poll.bare_groups]
  | .instrument i => rfl
  | .handler h => by simp only [Snapshooter.bare, Snapshooter.groups, h.bare_groups]
  | .custom s => rfl

theorem bare_groupsOfSnapshooters : ∀ ss : List (Snapshooter σ L),
    groupsOfSnapshooters (bareSnapshooters ss) = groupsOfSnapshooters ss
  | [] => rfl
  | s :: ss => by simp only [bareSnapshooters, groupsOfSnapshooters, s.bare_groups, bare_groupsOfSnapshooters ss]
end

theorem Cockpit.bare_exhibits (c : Cockpit σ L) : c.bare.exhibits = c.exhibits.map Exhibit.bare :=
  c.toHandler.bare_exhibits

theorem Cockpit.bare_groups (c : Cockpit σ L) : c.bare.groups = c.groups := c.toHandler.bare_groups

theorem ProcessorState.bare_exhibits (s : ProcessorState σ L) : s.bare.exhibits = s.exhibits.map Exhibit.bare := by
  simp only [ProcessorState.bare, ProcessorState.exhibits, Exhibit.bare_inside, List.map_append, List.map_flatten, List.map_map,
    Function.comp_def, Cockpit.bare_exhibits, bare_exhibitsOfHandlers, bare_exhibitsOfSnapshooters]
  rfl

theorem ProcessorState.bare_groups (s : ProcessorState σ L) : s.bare.groups = s.groups := by
  simp only [ProcessorState.bare, ProcessorState.groups, List.map_map, Function.comp_def, Cockpit.bare_groups,
    bare_groupsOfHandlers, bare_groupsOfSnapshooters]

end Metrix
