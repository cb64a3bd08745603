import Verif.Spec.History

/-! # The number of clock readings never decreases -/

namespace Metrix

/-- `x` does not undo clock readings. -/
structure M.Fwd {α : Type} (x : M α) : Prop where
  le : ∀ {e k a k'}, x e k = some (a, k') → k ≤ k'

namespace M.Fwd
variable {α β : Type}

theorem pure (a : α) : M.Fwd (Pure.pure a : M α) := ⟨by
  intro e k b k' h; simp at h; omega⟩

theorem now : M.Fwd M.now := ⟨by intro e k b k' h; simp at h; omega⟩
theorem env : M.Fwd M.env := ⟨by intro e k b k' h; simp at h; omega⟩
theorem readings : M.Fwd M.readings := ⟨by intro e k b k' h; simp at h; omega⟩
theorem panic : M.Fwd (M.panic : M α) := ⟨fun h => (nomatch h)⟩

theorem bind {x : M α} {f : α → M β} (hx : M.Fwd x) (hf : ∀ a, M.Fwd (f a)) : M.Fwd (x >>= f) := by
  refine ⟨fun {e k b k'} h => ?_⟩
  obtain ⟨a, k₁, h1, h2⟩ := M.bind_eq_some.mp h
  exact Nat.le_trans (hx.le h1) ((hf _).le h2)

theorem ite {c : Prop} [Decidable c] {x y : M α} (hx : M.Fwd x) (hy : M.Fwd y) : M.Fwd (if c then x else y) := by
  split <;> assumption

theorem arithI64 (x : Int) : M.Fwd (arithI64 x) := by
  refine ⟨fun {e k b k'} h => ?_⟩
  unfold Metrix.arithI64 at h
  split at h
  · simp at h; omega
  · split at h
    · cases h
    · simp at h; omega

theorem arithU64 (x : Nat) : M.Fwd (arithU64 x) := by
  refine ⟨fun {e k b k'} h => ?_⟩
  unfold Metrix.arithU64 at h
  split at h
  · simp at h; omega
  · split at h
    · cases h
    · simp at h; omega

theorem subDur (t : Int) (d : Nat) : M.Fwd (subDur t d) := by
  refine ⟨fun {e k b k'} h => ?_⟩
  unfold Metrix.subDur at h
  split at h
  · simp at h; omega
  · cases h

theorem addDur (t : Int) (d : Nat) : M.Fwd (addDur t d) := by
  refine ⟨fun {e k b k'} h => ?_⟩
  unfold Metrix.addDur at h
  split at h
  · simp at h; omega
  · cases h

end M.Fwd

/-- Goes through a computation step by step. -/
macro "fwd" : tactic => `(tactic| repeat' first
  | assumption
  | intro _
  | exact M.Fwd.pure _
  | exact M.Fwd.now
  | exact M.Fwd.env
  | exact M.Fwd.readings
  | exact M.Fwd.panic
  | exact M.Fwd.arithI64 _
  | exact M.Fwd.arithU64 _
  | exact M.Fwd.subDur _ _
  | exact M.Fwd.addDur _ _
  | apply M.Fwd.bind
  | split
  | dsimp only)

theorem fwd_index {T : Type} (xs : List T) (i : Nat) : M.Fwd (index xs i) := by unfold index; fwd
theorem fwd_assignAt {T : Type} (xs : List T) (i : Nat) (x : T) : M.Fwd (assignAt xs i x) := by unfold assignAt; fwd

namespace SecondsBuckets
variable {T : Type} [Inhabited T]

theorem fwd_idx (b : SecondsBuckets T) (o : Nat) : M.Fwd (b.idx o) := by unfold idx; fwd

theorem fwd_advance (b : SecondsBuckets T) : M.Fwd b.advance :=
  .bind (fwd_idx _ _) fun _ => .bind (fwd_assignAt _ _ _) fun _ => .pure _

theorem fwd_advanceN (b : SecondsBuckets T) (n : Nat) : M.Fwd (b.advanceN n) := by
  induction n generalizing b with
  | zero => exact .pure _
  | succ n ih => exact .bind (fwd_advance _) fun _ => ih _

theorem fwd_tick (b : SecondsBuckets T) : M.Fwd b.tick := by
  refine .bind .now fun _ => .ite (.pure _) (.ite (fwd_advance _) (.ite (fwd_advanceN _ _) (.pure _)))

theorem fwd_modifyCurrent (b : SecondsBuckets T) (f : T → M T) (hf : ∀ x, M.Fwd (f x)) : M.Fwd (b.modifyCurrent f) :=
  .bind (fwd_tick _) fun _ => .bind (fwd_index _ _) fun _ => .bind (hf _) fun _ => .bind (fwd_assignAt _ _ _) fun _ => .pure _

theorem fwd_iterFrom (bs : List T) (n i : Nat) : M.Fwd (iterFrom bs n i) := by
  induction n generalizing i with
  | zero => exact .pure _
  | succ n ih => exact .bind (fwd_index _ _) fun _ => .bind (ih _) fun _ => .pure _

theorem fwd_iter (b : SecondsBuckets T) : M.Fwd b.iter :=
  .bind (fwd_tick _) fun _ => .bind (fwd_iterFrom _ _ _) fun _ => .pure _

end SecondsBuckets

theorem StatsAcc.fwd_addAll (a : StatsAcc) (bs : List Bucket) : M.Fwd (a.addAll bs) := by
  induction bs generalizing a with
  | nil => exact .pure _
  | cons b bs ih => exact .bind (by unfold StatsAcc.add; fwd) fun _ => ih _

theorem BucketsStats.fwd (b : SecondsBuckets Bucket) (c : Int) : M.Fwd (BucketsStats.fromBuckets b c) := by
  refine .bind (b.fwd_iter) fun _ => .bind (StatsAcc.fwd_addAll _ _) fun _ => ?_
  unfold divF64 toF64
  fwd

theorem fwd_durationToDisplayValue (v : Nat) (u d : TimeUnit) : M.Fwd (durationToDisplayValue v u d) := by
  unfold durationToDisplayValue; fwd

theorem Counter.fwd_update (c : Counter) (u : Update) : M.Fwd (c.update u) := by
  unfold Counter.update Counter.inc Counter.incBy; fwd

theorem Gauge.fwd_track (t : Option (SecondsBuckets Bucket)) (v : Int) : M.Fwd (Gauge.track t v) := by
  unfold Gauge.track
  split
  · exact .bind (SecondsBuckets.fwd_modifyCurrent _ _ fun b => by unfold Bucket.update; fwd) fun _ => .pure _
  · exact .pure _

theorem Gauge.fwd_nextValue (u : TimeUnit) (c : Option Int) (v : ObservedValue) : M.Fwd (Gauge.nextValue u c v) := by
  unfold Gauge.nextValue
  split
  · split <;> fwd
  · exact .bind (fwd_durationToDisplayValue _ _ _) fun _ => .pure _
  · exact .pure _

theorem Gauge.fwd_update (g : Gauge) (u : Update) : M.Fwd (g.update u) := by
  unfold Gauge.update
  split
  · refine .bind ?_ fun _ => .pure _
    unfold Gauge.set
    split <;> refine .bind (Gauge.fwd_nextValue _ _ _) fun _ => ?_ <;> split <;>
      first | exact .pure _ | exact .bind (Gauge.fwd_track _ _) fun _ => .pure _
  · exact .pure _

theorem Gauge.fwd_putValues (g : Gauge) (s : Snapshot) : M.Fwd (g.putValues s) := by
  unfold Gauge.putValues
  split
  · exact .pure _
  · dsimp only
    split
    · exact .pure _
    · exact .bind (BucketsStats.fwd _ _) fun _ => .pure _

theorem Gauge.fwd_putSnapshot (g : Gauge) (s : Snapshot) (d : Bool) : M.Fwd (g.putSnapshot s d) := by
  unfold Gauge.putSnapshot
  dsimp only
  split
  · exact .bind (Gauge.fwd_putValues _ _) fun _ => .pure _
  · exact Gauge.fwd_putValues _ _

theorem Meter.fwd_tickIfDue (m : Meter) : M.Fwd m.tickIfDue := by
  unfold Meter.tickIfDue StdMeter.tick; fwd

theorem StdMeter.fwd_mark (m : StdMeter) (n : Int) : M.Fwd (m.mark n) := by
  unfold StdMeter.mark StdMeter.tick; fwd

theorem Meter.fwd_update (m : Meter) (u : Update) : M.Fwd (m.update u) := by
  refine .bind (Meter.fwd_tickIfDue _) fun m => ?_
  split
  · exact .bind (StdMeter.fwd_mark _ _) fun _ => .pure _
  · exact .ite (.bind (StdMeter.fwd_mark _ _) fun _ => .pure _) (.pure _)
  · exact .bind (StdMeter.fwd_mark _ _) fun _ => .pure _

theorem Meter.fwd_putSnapshot (m : Meter) (s : Snapshot) (d : Bool) : M.Fwd (m.putSnapshot s d) := by
  refine .bind (.bind (Meter.fwd_tickIfDue _) fun m => .bind ?_ fun _ => .pure _) fun _ => .pure _
  unfold StdMeter.snapshot StdMeter.tick StdMeter.mean; fwd

theorem ValueMeter.fwd_update (m : ValueMeter) (u : Update) : M.Fwd (m.update u) := by
  have hm : ∀ v, M.Fwd (m.mark v) := fun v => .bind (StdMeter.fwd_mark _ _) fun _ => .pure _
  unfold ValueMeter.update
  split
  · exact .bind (fwd_durationToDisplayValue _ _ _) fun _ => .bind (hm _) fun _ => .pure _
  · split
    · exact .bind (hm _) fun _ => .pure _
    · exact .pure _
  · exact .pure _

theorem ValueMeter.fwd_putSnapshot (m : ValueMeter) (s : Snapshot) (d : Bool) : M.Fwd (m.putSnapshot s d) :=
  .bind (Meter.fwd_putSnapshot _ _ _) fun _ => .pure _

theorem Histogram.fwd_update (h : Histogram) (u : Update) : M.Fwd (h.update u) := by
  unfold Histogram.update Histogram.resetIfDue Histogram.record
  repeat' first
    | exact fwd_durationToDisplayValue _ _ _
    | assumption
    | intro _
    | exact M.Fwd.pure _
    | exact M.Fwd.now
    | exact M.Fwd.env
    | exact M.Fwd.readings
    | exact M.Fwd.arithU64 _
    | apply M.Fwd.bind
    | split

theorem Histogram.fwd_putSnapshot (h : Histogram) (s : Snapshot) (d : Bool) : M.Fwd (h.putSnapshot s d) := by
  unfold Histogram.putSnapshot Histogram.putValues Histogram.isActive Histogram.putHistogramValues; fwd

theorem fwd_putTimedSwitch (name : String) (descr : Descr) (inv : Option NameAlternation) (state : M Bool)
    (hs : M.Fwd state) (s : Snapshot) (d : Bool) : M.Fwd (putTimedSwitch name descr inv state s d) := by
  unfold putTimedSwitch; fwd

theorem fwd_keeping {I : Type} {f : I → Snapshot → Bool → M Snapshot} {i : I} {s : Snapshot} {d : Bool}
    (h : M.Fwd (f i s d)) : M.Fwd (keeping f i s d) := .bind h fun _ => .pure _

variable {σ L : Type}

/-- User defined components do not undo clock readings. -/
structure CustomForward (σ L : Type) [Custom σ L] : Prop where
  update : ∀ (s : σ) (u : Update), M.Fwd (Custom.update L s u)
  handle : ∀ (s : σ) (o : Observation L), M.Fwd (Custom.handle s o)
  put : ∀ (s : σ) (i : Snapshot) (d : Bool), M.Fwd (Custom.putSnapshot L s i d)

theorem Instrument.fwd_update [Custom σ L] (hc : CustomForward σ L) (i : Instrument σ) (u : Update) :
    M.Fwd (i.update L u) := by
  cases i with
  | counter i => exact .bind (Counter.fwd_update _ _) fun _ => .pure _
  | gauge i => exact .bind (Gauge.fwd_update _ _) fun _ => .pure _
  | meter i => exact .bind (Meter.fwd_update _ _) fun _ => .pure _
  | valueMeter i => exact .bind (ValueMeter.fwd_update _ _) fun _ => .pure _
  | histogram i => exact .bind (Histogram.fwd_update _ _) fun _ => .pure _
  | flag i => exact .bind (.pure _) fun _ => .pure _
  | staircaseTimer i => exact .bind (by show M.Fwd (i.update u); unfold StaircaseTimer.update; fwd) fun _ => .pure _
  | occurrenceIndicator i =>
    exact .bind (by show M.Fwd (i.update u); unfold OccurrenceIndicator.update; fwd) fun _ => .pure _
  | nonOccurrenceIndicator i =>
    exact .bind (by show M.Fwd (i.update u); unfold NonOccurrenceIndicator.update; fwd) fun _ => .pure _
  | dataDisplay i => exact .bind (by show M.Fwd (i.update u); unfold DataDisplay.update; fwd) fun _ => .pure _
  | lastOccurrenceTracker i =>
    exact .bind (by show M.Fwd (i.update u); unfold LastOccurrenceTracker.update; fwd) fun _ => .pure _
  | custom s => exact .bind (hc.update s u) fun _ => .pure _

theorem Instrument.fwd_putSnapshot [Custom σ L] (hc : CustomForward σ L) (i : Instrument σ) (s : Snapshot) (d : Bool) :
    M.Fwd (i.putSnapshot L s d) := by
  cases i with
  | counter i => exact .bind (fwd_keeping (.pure _)) fun _ => .pure _
  | gauge i => exact .bind (Gauge.fwd_putSnapshot _ _ _) fun _ => .pure _
  | meter i => exact .bind (Meter.fwd_putSnapshot _ _ _) fun _ => .pure _
  | valueMeter i => exact .bind (ValueMeter.fwd_putSnapshot _ _ _) fun _ => .pure _
  | histogram i => exact .bind (fwd_keeping (Histogram.fwd_putSnapshot _ _ _)) fun _ => .pure _
  | flag i => exact .bind (fwd_keeping (.pure _)) fun _ => .pure _
  | staircaseTimer i =>
    exact .bind (fwd_keeping (fwd_putTimedSwitch _ _ _ _ (by unfold StaircaseTimer.state; fwd) _ _)) fun _ => .pure _
  | occurrenceIndicator i =>
    exact .bind (fwd_keeping (fwd_putTimedSwitch _ _ _ _ (by unfold OccurrenceIndicator.state; fwd) _ _)) fun _ => .pure _
  | nonOccurrenceIndicator i =>
    exact .bind (fwd_keeping (fwd_putTimedSwitch _ _ _ _ (by unfold NonOccurrenceIndicator.state; fwd) _ _)) fun _ => .pure _
  | dataDisplay i =>
    exact .bind (fwd_keeping (by unfold DataDisplay.putSnapshot DataDisplay.shown; fwd)) fun _ => .pure _
  | lastOccurrenceTracker i =>
    exact .bind (fwd_keeping (by unfold LastOccurrenceTracker.putSnapshot LastOccurrenceTracker.elapsed; fwd)) fun _ => .pure _
  | custom s => exact .bind (hc.put s _ _) fun _ => .pure _

theorem InstrumentAdapter.fwd_handle [DecidableEq L] {I : Type} {update : I → Update → M (I × Nat)}
    (hu : ∀ i u, M.Fwd (update i u)) (a : InstrumentAdapter L I) (o : Observation L) : M.Fwd (a.handle update o) :=
  .ite (.bind (hu _ _) fun _ => .pure _) (.pure _)

theorem InstrumentAdapter.fwd_putSnapshot {I : Type} {put : I → Snapshot → Bool → M (I × Snapshot)}
    (hp : ∀ i s d, M.Fwd (put i s d)) (a : InstrumentAdapter L I) (s : Snapshot) (d : Bool) :
    M.Fwd (a.putSnapshot put s d) := .bind (hp _ _ _) fun _ => .pure _

theorem GaugeAdapter.fwd_handle [DecidableEq L] (a : GaugeAdapter L) (o : Observation L) : M.Fwd (a.handle o) := by
  have hu : ∀ u, M.Fwd (a.updateGauge u) := fun u => .bind (Gauge.fwd_update _ _) fun _ => .pure _
  unfold GaugeAdapter.handle
  split
  · exact .ite (hu _) (.pure _)
  · refine .ite ?_ (.pure _)
    split
    · exact hu _
    · exact .pure _
  · exact .ite (hu _) (.ite (hu _) (.pure _))

theorem GaugeAdapter.fwd_putSnapshot (a : GaugeAdapter L) (s : Snapshot) (d : Bool) : M.Fwd (a.putSnapshot s d) :=
  .bind (Gauge.fwd_putSnapshot _ _ _) fun _ => .pure _

theorem Activity.fwd_putFlags (a : Activity) (s : Snapshot) : M.Fwd (a.putFlags s) := by
  unfold Activity.putFlags; fwd

theorem fwd_putSlot {A : Type} {f : A → Snapshot → M (A × Snapshot)} (hf : ∀ a s, M.Fwd (f a s)) (a : Option A)
    (s : Snapshot) : M.Fwd (putSlot f a s) := by
  cases a with
  | none => exact .pure _
  | some a => exact .bind (hf _ _) fun _ => .pure _

theorem PanelHead.fwd_putSlots (h : PanelHead L) (s : Snapshot) (d : Bool) : M.Fwd (h.putSlots s d) := by
  refine .bind (fwd_putSlot (fun a s => .bind (fwd_keeping (.pure _)) fun _ => .pure _) _ _) fun _ =>
    .bind (fwd_putSlot (fun a s => GaugeAdapter.fwd_putSnapshot a s d) _ _) fun _ =>
    .bind (fwd_putSlot (fun a s => .bind (Meter.fwd_putSnapshot _ _ _) fun _ => .pure _) _ _) fun _ =>
    .bind (fwd_putSlot (fun a s => .bind (fwd_keeping (Histogram.fwd_putSnapshot _ _ _)) fun _ => .pure _) _ _) fun _ =>
    .pure _

variable [Custom σ L]

mutual
theorem Panel.fwd_putSnapshot (hc : CustomForward σ L) (d : Bool) (p : Panel σ L) (s : Snapshot) :
    M.Fwd (p.putSnapshot d s) := by
  match p with
  | .mk h ps hs ss =>
    unfold Panel.putSnapshot
    exact .bind (Activity.fwd_putFlags _ _) fun _ => .ite
      (.bind (PanelHead.fwd_putSlots _ _ _) fun _ => .bind (fwd_putPanels hc d ps _) fun _ =>
        .bind (fwd_putSnapshooters hc d ss _) fun _ => .bind (fwd_putHandlers hc d hs _) fun _ => .pure _) (.pure _)

theorem fwd_putPanels (hc : CustomForward σ L) (d : Bool) (ps : List (Panel σ L)) (s : Snapshot) :
    M.Fwd (putPanels d ps s) := by
  match ps with
  | [] => unfold putPanels; exact .pure _
  | p :: ps =>
    unfold putPanels
    exact .bind (p.fwd_putSnapshot hc d _) fun _ => .bind (fwd_putPanels hc d ps _) fun _ => .pure _

theorem Handler.fwd_putSnapshot (hc : CustomForward σ L) (d : Bool) (x : Handler σ L) (s : Snapshot) :
    M.Fwd (x.putSnapshot d s) := by
  match x with
  | .instrument a =>
    unfold Handler.putSnapshot
    exact .bind (InstrumentAdapter.fwd_putSnapshot (fun i s d => i.fwd_putSnapshot hc s d) _ _ _) fun _ => .pure _
  | .gauge a => unfold Handler.putSnapshot; exact .bind (GaugeAdapter.fwd_putSnapshot _ _ _) fun _ => .pure _
  | .panel p => unfold Handler.putSnapshot; exact .bind (p.fwd_putSnapshot hc d _) fun _ => .pure _
  | .cockpit h ps hs ss =>
    unfold Handler.putSnapshot
    exact .bind (Activity.fwd_putFlags _ _) fun _ => .ite
      (.bind (fwd_putPanels hc d ps _) fun _ => .bind (fwd_putHandlers hc d hs _) fun _ =>
        .bind (fwd_putSnapshooters hc d ss _) fun _ => .pure _) (.pure _)
  | .custom c => unfold Handler.putSnapshot; exact .bind (hc.put c _ _) fun _ => .pure _

theorem fwd_putHandlers (hc : CustomForward σ L) (d : Bool) (hs : List (Handler σ L)) (s : Snapshot) :
    M.Fwd (putHandlers d hs s) := by
  match hs with
  | [] => unfold putHandlers; exact .pure _
  | p :: ps =>
    unfold putHandlers
    exact .bind (p.fwd_putSnapshot hc d _) fun _ => .bind (fwd_putHandlers hc d ps _) fun _ => .pure _

theorem Snapshooter.fwd_putSnapshot (hc : CustomForward σ L) (d : Bool) (x : Snapshooter σ L) (s : Snapshot) :
    M.Fwd (x.putSnapshot d s) := by
  match x with
  | .constant n ds v => unfold Snapshooter.putSnapshot; exact .pure _
  | .polling n ds g poll =>
    unfold Snapshooter.putSnapshot
    exact .ite (.bind (poll.fwd_putSnapshot hc d _) fun _ => .pure _) (.bind (poll.fwd_putSnapshot hc d _) fun _ => .pure _)
  | .instrument i => unfold Snapshooter.putSnapshot; exact .bind (i.fwd_putSnapshot hc _ _) fun _ => .pure _
  | .handler h => unfold Snapshooter.putSnapshot; exact .bind (h.fwd_putSnapshot hc d _) fun _ => .pure _
  | .custom c => unfold Snapshooter.putSnapshot; exact .bind (hc.put c _ _) fun _ => .pure _

theorem fwd_putSnapshooters (hc : CustomForward σ L) (d : Bool) (ss : List (Snapshooter σ L)) (s : Snapshot) :
    M.Fwd (putSnapshooters d ss s) := by
  match ss with
  | [] => unfold putSnapshooters; exact .pure _
  | p :: ps =>
    unfold putSnapshooters
    exact .bind (p.fwd_putSnapshot hc d _) fun _ => .bind (fwd_putSnapshooters hc d ps _) fun _ => .pure _
end

theorem Cockpit.fwd_putSnapshot (hc : CustomForward σ L) (c : Cockpit σ L) (s : Snapshot) (d : Bool) :
    M.Fwd (c.putSnapshot s d) :=
  .bind (Activity.fwd_putFlags _ _) fun _ => .ite
    (.bind (fwd_putPanels hc d _ _) fun _ => .bind (fwd_putHandlers hc d _ _) fun _ =>
      .bind (fwd_putSnapshooters hc d _ _) fun _ => .pure _) (.pure _)

end Metrix
