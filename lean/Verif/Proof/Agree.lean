import Verif.Spec.Profile
import Verif.Spec.History

/-! # Without checks for overflow the same happens, unless the checks stop it -/

namespace Metrix

/-- Where `x` does not panic, it gives the same without checks for overflow. -/
structure M.Agr {α : Type} (x : M α) : Prop where
  same : ∀ {e k r}, x e k = some r → x e.unchecked k = some r

namespace M.Agr
variable {α β : Type}

theorem pure (a : α) : M.Agr (Pure.pure a : M α) := ⟨id⟩
theorem now : M.Agr M.now := ⟨id⟩
theorem readings : M.Agr M.readings := ⟨id⟩
theorem panic : M.Agr (M.panic : M α) := ⟨id⟩

theorem bind {x : M α} {f : α → M β} (hx : M.Agr x) (hf : ∀ a, M.Agr (f a)) : M.Agr (x >>= f) := by
  refine ⟨fun {e k r} h => ?_⟩
  obtain ⟨a, k₁, h1, h2⟩ := M.bind_eq_some.mp h
  exact M.bind_eq_some.mpr ⟨a, k₁, hx.same h1, (hf _).same h2⟩

/-- Everything but the profile may be looked at. -/
theorem env {f : Env → M β} (hsame : ∀ e : Env, f e.unchecked = f e) (hf : ∀ e, M.Agr (f e)) : M.Agr (M.env >>= f) := by
  refine ⟨fun {e k r} h => ?_⟩
  have h : f e e k = some r := h
  show f e.unchecked e.unchecked k = some r
  rw [hsame]
  exact (hf e).same h

theorem ite {c : Prop} [Decidable c] {x y : M α} (hx : M.Agr x) (hy : M.Agr y) : M.Agr (if c then x else y) := by
  split <;> assumption

theorem arithI64 (x : Int) : M.Agr (arithI64 x) := by
  refine ⟨fun {e k r} h => ?_⟩
  unfold Metrix.arithI64 at h ⊢
  split at h
  · rename_i hx; rw [if_pos hx]; exact h
  · rename_i hx
    rw [if_neg hx]
    split at h
    · cases h
    · exact h

theorem arithU64 (x : Nat) : M.Agr (arithU64 x) := by
  refine ⟨fun {e k r} h => ?_⟩
  unfold Metrix.arithU64 at h ⊢
  split at h
  · rename_i hx; rw [if_pos hx]; exact h
  · rename_i hx
    rw [if_neg hx]
    split at h
    · cases h
    · exact h

theorem subDur (t : Int) (d : Nat) : M.Agr (subDur t d) := ⟨id⟩
theorem addDur (t : Int) (d : Nat) : M.Agr (addDur t d) := ⟨id⟩

end M.Agr

/-- Goes through a computation step by step. -/
macro "agr" : tactic => `(tactic| repeat' first
  | assumption
  | exact M.Agr.pure _
  | exact M.Agr.now
  | exact M.Agr.readings
  | exact M.Agr.panic
  | exact M.Agr.arithI64 _
  | exact M.Agr.arithU64 _
  | exact M.Agr.subDur _ _
  | exact M.Agr.addDur _ _
  | with_reducible refine M.Agr.env ?_ ?_
  | exact fun _ => rfl
  | intro _
  | apply M.Agr.bind
  | split
  | dsimp only)

theorem agr_index {T : Type} (xs : List T) (i : Nat) : M.Agr (index xs i) := by unfold index; agr
theorem agr_assignAt {T : Type} (xs : List T) (i : Nat) (x : T) : M.Agr (assignAt xs i x) := by unfold assignAt; agr

namespace SecondsBuckets
variable {T : Type} [Inhabited T]

theorem agr_idx (b : SecondsBuckets T) (o : Nat) : M.Agr (b.idx o) := by unfold idx; agr

theorem agr_advance (b : SecondsBuckets T) : M.Agr b.advance :=
  .bind (agr_idx _ _) fun _ => .bind (agr_assignAt _ _ _) fun _ => .pure _

theorem agr_advanceN (b : SecondsBuckets T) (n : Nat) : M.Agr (b.advanceN n) := by
  induction n generalizing b with
  | zero => exact .pure _
  | succ n ih => exact .bind (agr_advance _) fun _ => ih _

theorem agr_tick (b : SecondsBuckets T) : M.Agr b.tick := by
  refine .bind .now fun _ => .ite (.pure _) (.ite (agr_advance _) (.ite (agr_advanceN _ _) (.pure _)))

theorem agr_modifyCurrent (b : SecondsBuckets T) (f : T → M T) (hf : ∀ x, M.Agr (f x)) : M.Agr (b.modifyCurrent f) :=
  .bind (agr_tick _) fun _ => .bind (agr_index _ _) fun _ => .bind (hf _) fun _ => .bind (agr_assignAt _ _ _) fun _ => .pure _

theorem agr_iterFrom (bs : List T) (n i : Nat) : M.Agr (iterFrom bs n i) := by
  induction n generalizing i with
  | zero => exact .pure _
  | succ n ih => exact .bind (agr_index _ _) fun _ => .bind (ih _) fun _ => .pure _

theorem agr_iter (b : SecondsBuckets T) : M.Agr b.iter :=
  .bind (agr_tick _) fun _ => .bind (agr_iterFrom _ _ _) fun _ => .pure _

end SecondsBuckets

theorem StatsAcc.agr_addAll (a : StatsAcc) (bs : List Bucket) : M.Agr (a.addAll bs) := by
  induction bs generalizing a with
  | nil => exact .pure _
  | cons b bs ih => exact .bind (by unfold StatsAcc.add; agr) fun _ => ih _

theorem BucketsStats.agr (b : SecondsBuckets Bucket) (c : Int) : M.Agr (BucketsStats.fromBuckets b c) := by
  refine .bind (b.agr_iter) fun _ => .bind (StatsAcc.agr_addAll _ _) fun _ => ?_
  unfold divF64 toF64
  agr

theorem agr_durationToDisplayValue (v : Nat) (u d : TimeUnit) : M.Agr (durationToDisplayValue v u d) := by
  unfold durationToDisplayValue; agr

theorem Counter.agr_update (c : Counter) (u : Update) : M.Agr (c.update u) := by
  unfold Counter.update Counter.inc Counter.incBy; agr

theorem Gauge.agr_track (t : Option (SecondsBuckets Bucket)) (v : Int) : M.Agr (Gauge.track t v) := by
  unfold Gauge.track
  split
  · exact .bind (SecondsBuckets.agr_modifyCurrent _ _ fun b => by unfold Bucket.update; agr) fun _ => .pure _
  · exact .pure _

theorem Gauge.agr_nextValue (u : TimeUnit) (c : Option Int) (v : ObservedValue) : M.Agr (Gauge.nextValue u c v) := by
  unfold Gauge.nextValue
  split
  · split <;> agr
  · exact .bind (agr_durationToDisplayValue _ _ _) fun _ => .pure _
  · exact .pure _

theorem Gauge.agr_update (g : Gauge) (u : Update) : M.Agr (g.update u) := by
  unfold Gauge.update
  split
  · refine .bind ?_ fun _ => .pure _
    unfold Gauge.set
    split <;> refine .bind (Gauge.agr_nextValue _ _ _) fun _ => ?_ <;> split <;>
      first | exact .pure _ | exact .bind (Gauge.agr_track _ _) fun _ => .pure _
  · exact .pure _

theorem Gauge.agr_putValues (g : Gauge) (s : Snapshot) : M.Agr (g.putValues s) := by
  unfold Gauge.putValues
  split
  · exact .pure _
  · dsimp only
    split
    · exact .pure _
    · exact .bind (BucketsStats.agr _ _) fun _ => .pure _

theorem Gauge.agr_putSnapshot (g : Gauge) (s : Snapshot) (d : Bool) : M.Agr (g.putSnapshot s d) := by
  unfold Gauge.putSnapshot
  dsimp only
  split
  · exact .bind (Gauge.agr_putValues _ _) fun _ => .pure _
  · exact Gauge.agr_putValues _ _

theorem Meter.agr_tickIfDue (m : Meter) : M.Agr m.tickIfDue := by
  unfold Meter.tickIfDue StdMeter.tick; agr

theorem StdMeter.agr_mark (m : StdMeter) (n : Int) : M.Agr (m.mark n) := by
  unfold StdMeter.mark StdMeter.tick; agr

theorem Meter.agr_update (m : Meter) (u : Update) : M.Agr (m.update u) := by
  refine .bind (Meter.agr_tickIfDue _) fun m => ?_
  split
  · exact .bind (StdMeter.agr_mark _ _) fun _ => .pure _
  · exact .ite (.bind (StdMeter.agr_mark _ _) fun _ => .pure _) (.pure _)
  · exact .bind (StdMeter.agr_mark _ _) fun _ => .pure _

theorem Meter.agr_putSnapshot (m : Meter) (s : Snapshot) (d : Bool) : M.Agr (m.putSnapshot s d) := by
  refine .bind (.bind (Meter.agr_tickIfDue _) fun m => .bind ?_ fun _ => .pure _) fun _ => .pure _
  unfold StdMeter.snapshot StdMeter.tick StdMeter.mean; agr

theorem ValueMeter.agr_update (m : ValueMeter) (u : Update) : M.Agr (m.update u) := by
  have hm : ∀ v, M.Agr (m.mark v) := fun v => .bind (StdMeter.agr_mark _ _) fun _ => .pure _
  unfold ValueMeter.update
  split
  · exact .bind (agr_durationToDisplayValue _ _ _) fun _ => .bind (hm _) fun _ => .pure _
  · split
    · exact .bind (hm _) fun _ => .pure _
    · exact .pure _
  · exact .pure _

theorem ValueMeter.agr_putSnapshot (m : ValueMeter) (s : Snapshot) (d : Bool) : M.Agr (m.putSnapshot s d) :=
  .bind (Meter.agr_putSnapshot _ _ _) fun _ => .pure _

theorem Histogram.agr_update (h : Histogram) (u : Update) : M.Agr (h.update u) := by
  unfold Histogram.update Histogram.resetIfDue Histogram.record
  repeat' first
    | exact agr_durationToDisplayValue _ _ _
    | assumption
    | with_reducible refine M.Agr.env ?_ ?_
    | exact fun _ => rfl
    | intro _
    | exact M.Agr.pure _
    | exact M.Agr.now
    | exact M.Agr.readings
    | exact M.Agr.arithU64 _
    | apply M.Agr.bind
    | split

theorem Histogram.agr_putSnapshot (h : Histogram) (s : Snapshot) (d : Bool) : M.Agr (h.putSnapshot s d) := by
  unfold Histogram.putSnapshot Histogram.putValues Histogram.isActive Histogram.putHistogramValues; agr

theorem agr_putTimedSwitch (name : String) (descr : Descr) (inv : Option NameAlternation) (state : M Bool)
    (hs : M.Agr state) (s : Snapshot) (d : Bool) : M.Agr (putTimedSwitch name descr inv state s d) := by
  unfold putTimedSwitch; agr

theorem agr_keeping {I : Type} {f : I → Snapshot → Bool → M Snapshot} {i : I} {s : Snapshot} {d : Bool}
    (h : M.Agr (f i s d)) : M.Agr (keeping f i s d) := .bind h fun _ => .pure _

variable {σ L : Type}

/-- User defined components do not depend on checks for overflow, as long as they do not panic. -/
structure CustomAgrees (σ L : Type) [Custom σ L] : Prop where
  update : ∀ (s : σ) (u : Update), M.Agr (Custom.update L s u)
  handle : ∀ (s : σ) (o : Observation L), M.Agr (Custom.handle s o)
  put : ∀ (s : σ) (i : Snapshot) (d : Bool), M.Agr (Custom.putSnapshot L s i d)

theorem Instrument.agr_update [Custom σ L] (hc : CustomAgrees σ L) (i : Instrument σ) (u : Update) :
    M.Agr (i.update L u) := by
  cases i with
  | counter i => exact .bind (Counter.agr_update _ _) fun _ => .pure _
  | gauge i => exact .bind (Gauge.agr_update _ _) fun _ => .pure _
  | meter i => exact .bind (Meter.agr_update _ _) fun _ => .pure _
  | valueMeter i => exact .bind (ValueMeter.agr_update _ _) fun _ => .pure _
  | histogram i => exact .bind (Histogram.agr_update _ _) fun _ => .pure _
  | flag i => exact .bind (.pure _) fun _ => .pure _
  | staircaseTimer i => exact .bind (by show M.Agr (i.update u); unfold StaircaseTimer.update; agr) fun _ => .pure _
  | occurrenceIndicator i =>
    exact .bind (by show M.Agr (i.update u); unfold OccurrenceIndicator.update; agr) fun _ => .pure _
  | nonOccurrenceIndicator i =>
    exact .bind (by show M.Agr (i.update u); unfold NonOccurrenceIndicator.update; agr) fun _ => .pure _
  | dataDisplay i => exact .bind (by show M.Agr (i.update u); unfold DataDisplay.update; agr) fun _ => .pure _
  | lastOccurrenceTracker i =>
    exact .bind (by show M.Agr (i.update u); unfold LastOccurrenceTracker.update; agr) fun _ => .pure _
  | custom s => exact .bind (hc.update s u) fun _ => .pure _

theorem Instrument.agr_putSnapshot [Custom σ L] (hc : CustomAgrees σ L) (i : Instrument σ) (s : Snapshot) (d : Bool) :
    M.Agr (i.putSnapshot L s d) := by
  cases i with
  | counter i => exact .bind (agr_keeping (.pure _)) fun _ => .pure _
  | gauge i => exact .bind (Gauge.agr_putSnapshot _ _ _) fun _ => .pure _
  | meter i => exact .bind (Meter.agr_putSnapshot _ _ _) fun _ => .pure _
  | valueMeter i => exact .bind (ValueMeter.agr_putSnapshot _ _ _) fun _ => .pure _
  | histogram i => exact .bind (agr_keeping (Histogram.agr_putSnapshot _ _ _)) fun _ => .pure _
  | flag i => exact .bind (agr_keeping (.pure _)) fun _ => .pure _
  | staircaseTimer i =>
    exact .bind (agr_keeping (agr_putTimedSwitch _ _ _ _ (by unfold StaircaseTimer.state; agr) _ _)) fun _ => .pure _
  | occurrenceIndicator i =>
    exact .bind (agr_keeping (agr_putTimedSwitch _ _ _ _ (by unfold OccurrenceIndicator.state; agr) _ _)) fun _ => .pure _
  | nonOccurrenceIndicator i =>
    exact .bind (agr_keeping (agr_putTimedSwitch _ _ _ _ (by unfold NonOccurrenceIndicator.state; agr) _ _)) fun _ => .pure _
  | dataDisplay i =>
    exact .bind (agr_keeping (by unfold DataDisplay.putSnapshot DataDisplay.shown; agr)) fun _ => .pure _
  | lastOccurrenceTracker i =>
    exact .bind (agr_keeping (by unfold LastOccurrenceTracker.putSnapshot LastOccurrenceTracker.elapsed; agr)) fun _ => .pure _
  | custom s => exact .bind (hc.put s _ _) fun _ => .pure _

theorem InstrumentAdapter.agr_handle [DecidableEq L] {I : Type} {update : I → Update → M (I × Nat)}
    (hu : ∀ i u, M.Agr (update i u)) (a : InstrumentAdapter L I) (o : Observation L) : M.Agr (a.handle update o) :=
  .ite (.bind (hu _ _) fun _ => .pure _) (.pure _)

theorem InstrumentAdapter.agr_putSnapshot {I : Type} {put : I → Snapshot → Bool → M (I × Snapshot)}
    (hp : ∀ i s d, M.Agr (put i s d)) (a : InstrumentAdapter L I) (s : Snapshot) (d : Bool) :
    M.Agr (a.putSnapshot put s d) := .bind (hp _ _ _) fun _ => .pure _

theorem GaugeAdapter.agr_handle [DecidableEq L] (a : GaugeAdapter L) (o : Observation L) : M.Agr (a.handle o) := by
  have hu : ∀ u, M.Agr (a.updateGauge u) := fun u => .bind (Gauge.agr_update _ _) fun _ => .pure _
  unfold GaugeAdapter.handle
  split
  · exact .ite (hu _) (.pure _)
  · refine .ite ?_ (.pure _)
    split
    · exact hu _
    · exact .pure _
  · exact .ite (hu _) (.ite (hu _) (.pure _))

theorem GaugeAdapter.agr_putSnapshot (a : GaugeAdapter L) (s : Snapshot) (d : Bool) : M.Agr (a.putSnapshot s d) :=
  .bind (Gauge.agr_putSnapshot _ _ _) fun _ => .pure _

theorem Activity.agr_putFlags (a : Activity) (s : Snapshot) : M.Agr (a.putFlags s) := by
  unfold Activity.putFlags; agr

theorem agr_putSlot {A : Type} {f : A → Snapshot → M (A × Snapshot)} (hf : ∀ a s, M.Agr (f a s)) (a : Option A)
    (s : Snapshot) : M.Agr (putSlot f a s) := by
  cases a with
  | none => exact .pure _
  | some a => exact .bind (hf _ _) fun _ => .pure _

theorem PanelHead.agr_putSlots (h : PanelHead L) (s : Snapshot) (d : Bool) : M.Agr (h.putSlots s d) := by
  refine .bind (agr_putSlot (fun a s => .bind (agr_keeping (.pure _)) fun _ => .pure _) _ _) fun _ =>
    .bind (agr_putSlot (fun a s => GaugeAdapter.agr_putSnapshot a s d) _ _) fun _ =>
    .bind (agr_putSlot (fun a s => .bind (Meter.agr_putSnapshot _ _ _) fun _ => .pure _) _ _) fun _ =>
    .bind (agr_putSlot (fun a s => .bind (agr_keeping (Histogram.agr_putSnapshot _ _ _)) fun _ => .pure _) _ _) fun _ =>
    .pure _

variable [Custom σ L]

mutual
theorem Panel.agr_putSnapshot (hc : CustomAgrees σ L) (d : Bool) (p : Panel σ L) (s : Snapshot) :
    M.Agr (p.putSnapshot d s) := by
  match p with
  | .mk h ps hs ss =>
    unfold Panel.putSnapshot
    exact .bind (Activity.agr_putFlags _ _) fun _ => .ite
      (.bind (PanelHead.agr_putSlots _ _ _) fun _ => .bind (agr_putPanels hc d ps _) fun _ =>
        .bind (agr_putSnapshooters hc d ss _) fun _ => .bind (agr_putHandlers hc d hs _) fun _ => .pure _) (.pure _)

theorem agr_putPanels (hc : CustomAgrees σ L) (d : Bool) (ps : List (Panel σ L)) (s : Snapshot) :
    M.Agr (putPanels d ps s) := by
  match ps with
  | [] => unfold putPanels; exact .pure _
  | p :: ps =>
    unfold putPanels
    exact .bind (p.agr_putSnapshot hc d _) fun _ => .bind (agr_putPanels hc d ps _) fun _ => .pure _

theorem Handler.agr_putSnapshot (hc : CustomAgrees σ L) (d : Bool) (x : Handler σ L) (s : Snapshot) :
    M.Agr (x.putSnapshot d s) := by
  match x with
  | .instrument a =>
    unfold Handler.putSnapshot
    exact .bind (InstrumentAdapter.agr_putSnapshot (fun i s d => i.agr_putSnapshot hc s d) _ _ _) fun _ => .pure _
  | .gauge a => unfold Handler.putSnapshot; exact .bind (GaugeAdapter.agr_putSnapshot _ _ _) fun _ => .pure _
  | .panel p => unfold Handler.putSnapshot; exact .bind (p.agr_putSnapshot hc d _) fun _ => .pure _
  | .cockpit h ps hs ss =>
    unfold Handler.putSnapshot
    exact .bind (Activity.agr_putFlags _ _) fun _ => .ite
      (.bind (agr_putPanels hc d ps _) fun _ => .bind (agr_putHandlers hc d hs _) fun _ =>
        .bind (agr_putSnapshooters hc d ss _) fun _ => .pure _) (.pure _)
  | .custom c => unfold Handler.putSnapshot; exact .bind (hc.put c _ _) fun _ => .pure _

theorem agr_putHandlers (hc : CustomAgrees σ L) (d : Bool) (hs : List (Handler σ L)) (s : Snapshot) :
    M.Agr (putHandlers d hs s) := by
  match hs with
  | [] => unfold putHandlers; exact .pure _
  | p :: ps =>
    unfold putHandlers
    exact .bind (p.agr_putSnapshot hc d _) fun _ => .bind (agr_putHandlers hc d ps _) fun _ => .pure _

theorem Snapshooter.agr_putSnapshot (hc : CustomAgrees σ L) (d : Bool) (x : Snapshooter σ L) (s : Snapshot) :
    M.Agr (x.putSnapshot d s) := by
  match x with
  | .constant n ds v => unfold Snapshooter.putSnapshot; exact .pure _
  | .polling n ds g poll =>
    unfold Snapshooter.putSnapshot
    exact .ite (.bind (poll.agr_putSnapshot hc d _) fun _ => .pure _) (.bind (poll.agr_putSnapshot hc d _) fun _ => .pure _)
  | .instrument i => unfold Snapshooter.putSnapshot; exact .bind (i.agr_putSnapshot hc _ _) fun _ => .pure _
  | .handler h => unfold Snapshooter.putSnapshot; exact .bind (h.agr_putSnapshot hc d _) fun _ => .pure _
  | .custom c => unfold Snapshooter.putSnapshot; exact .bind (hc.put c _ _) fun _ => .pure _

theorem agr_putSnapshooters (hc : CustomAgrees σ L) (d : Bool) (ss : List (Snapshooter σ L)) (s : Snapshot) :
    M.Agr (putSnapshooters d ss s) := by
  match ss with
  | [] => unfold putSnapshooters; exact .pure _
  | p :: ps =>
    unfold putSnapshooters
    exact .bind (p.agr_putSnapshot hc d _) fun _ => .bind (agr_putSnapshooters hc d ps _) fun _ => .pure _
end

theorem Cockpit.agr_putSnapshot (hc : CustomAgrees σ L) (c : Cockpit σ L) (s : Snapshot) (d : Bool) :
    M.Agr (c.putSnapshot s d) :=
  .bind (Activity.agr_putFlags _ _) fun _ => .ite
    (.bind (agr_putPanels hc d _ _) fun _ => .bind (agr_putHandlers hc d _ _) fun _ =>
      .bind (agr_putSnapshooters hc d _ _) fun _ => .pure _) (.pure _)

end Metrix
