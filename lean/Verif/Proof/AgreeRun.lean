import Verif.Proof.Agree
import Verif.Model.Driver

/-! Handling observations, runs and snapshots of processors and drivers do not depend on checks for overflow, as long as
they do not panic. -/

namespace Metrix
variable {σ L : Type}

theorem agr_handleSlot {A : Type} {f : A → M (A × Nat)} (hf : ∀ a, M.Agr (f a)) (a : Option A) : M.Agr (handleSlot f a) := by
  cases a with
  | none => exact .pure _
  | some a => exact .bind (hf _) fun _ => .pure _

theorem PanelHead.agr_handle [DecidableEq L] (h : PanelHead L) (o : Observation L) : M.Agr (h.handle o) := by
  refine .bind (agr_handleSlot (fun a => InstrumentAdapter.agr_handle (fun i u => Counter.agr_update i u) _ _) _) fun _ =>
    .bind (agr_handleSlot (fun a => GaugeAdapter.agr_handle a o) _) fun _ =>
    .bind (agr_handleSlot (fun a => InstrumentAdapter.agr_handle (fun i u => Meter.agr_update i u) _ _) _) fun _ =>
    .bind (agr_handleSlot (fun a => InstrumentAdapter.agr_handle (fun i u => Histogram.agr_update i u) _ _) _) fun _ =>
    .pure _

variable [DecidableEq L] [Custom σ L]

mutual
theorem Panel.agr_handle (hc : CustomAgrees σ L) (o : Observation L) (p : Panel σ L) : M.Agr (p.handle o) := by
  match p with
  | .mk h ps hs ss =>
    unfold Panel.handle
    exact .ite (.bind (PanelHead.agr_handle _ _) fun _ => .bind (agr_handlePanels hc o ps) fun _ =>
        .bind (agr_handleHandlers hc o hs) fun _ => .pure _) (.pure _)

theorem agr_handlePanels (hc : CustomAgrees σ L) (o : Observation L) (ps : List (Panel σ L)) : M.Agr (handlePanels o ps) := by
  match ps with
  | [] => unfold handlePanels; exact .pure _
  | p :: ps =>
    unfold handlePanels
    exact .bind (p.agr_handle hc o) fun _ => .bind (agr_handlePanels hc o ps) fun _ => .pure _

theorem Handler.agr_handle (hc : CustomAgrees σ L) (o : Observation L) (x : Handler σ L) : M.Agr (x.handle o) := by
  match x with
  | .instrument a =>
    unfold Handler.handle
    exact .bind (InstrumentAdapter.agr_handle (fun i u => i.agr_update hc u) _ _) fun _ => .pure _
  | .gauge a => unfold Handler.handle; exact .bind (GaugeAdapter.agr_handle _ _) fun _ => .pure _
  | .panel p => unfold Handler.handle; exact .bind (p.agr_handle hc o) fun _ => .pure _
  | .cockpit h ps hs ss =>
    unfold Handler.handle
    exact .bind .now fun _ => .bind (agr_handleHandlers hc o hs) fun _ => .bind (agr_handlePanels hc o ps) fun _ => .pure _
  | .custom c => unfold Handler.handle; exact .bind (hc.handle c o) fun _ => .pure _

theorem agr_handleHandlers (hc : CustomAgrees σ L) (o : Observation L) (hs : List (Handler σ L)) :
    M.Agr (handleHandlers o hs) := by
  match hs with
  | [] => unfold handleHandlers; exact .pure _
  | p :: ps =>
    unfold handleHandlers
    exact .bind (p.agr_handle hc o) fun _ => .bind (agr_handleHandlers hc o ps) fun _ => .pure _
end

theorem Cockpit.agr_handle (hc : CustomAgrees σ L) (c : Cockpit σ L) (o : Observation L) : M.Agr (c.handle o) :=
  .bind .now fun _ => .bind (agr_handleHandlers hc o _) fun _ => .bind (agr_handlePanels hc o _) fun _ => .pure _

theorem agr_handleCockpits (hc : CustomAgrees σ L) (o : Observation L) (cs : List (Cockpit σ L)) :
    M.Agr (handleCockpits o cs) := by
  induction cs with
  | nil => exact .pure _
  | cons c cs ih => exact .bind (c.agr_handle hc o) fun _ => .bind ih fun _ => .pure _

theorem ProcessorState.agr_receive (hc : CustomAgrees σ L) (d : Decider) (s : ProcessorState σ L) (t : Tally)
    (m : Message σ L) : M.Agr (s.receive d t m) := by
  cases m with
  | observation o =>
    exact .ite (.bind (agr_handleCockpits hc o _) fun _ => .bind (agr_handleHandlers hc o _) fun _ => .pure _) (.pure _)
  | _ => exact .pure _

theorem Processor.agr_receiveLoop (hc : CustomAgrees σ L) (d : Decider) (n : Nat) (p : Processor σ L) (t : Tally) :
    M.Agr (p.receiveLoop d n t) := by
  induction n generalizing p t with
  | zero => exact .pure _
  | succ n ih =>
    unfold Processor.receiveLoop
    split
    · exact .bind (ProcessorState.agr_receive hc d _ _ _) fun _ => ih _ _
    · exact ih _ _
    · exact .pure _

theorem Strategy.agr_decider (s : Strategy) : M.Agr s.decider := by
  cases s <;> unfold Strategy.decider <;> agr

theorem Processor.agr_process (hc : CustomAgrees σ L) (max : Nat) (s : Strategy) (p : Processor σ L) :
    M.Agr (p.process max s) :=
  .ite (.pure _) (.bind s.agr_decider fun _ => .bind (agr_receiveLoop hc _ _ _ _) fun _ =>
    .ite (.bind .now fun _ => .pure _) (.pure _))

/-- The same for user defined processors. -/
structure CustomProcessorAgrees (σ : Type) [CustomProcessor σ] : Prop where
  process : ∀ (s : σ) (max : Nat) (st : Strategy), M.Agr (CustomProcessor.process s max st)
  put : ∀ (s : σ) (i : Snapshot) (d : Bool), M.Agr (CustomProcessor.putSnapshot s i d)

theorem MountHead.agr_afterRun (h : MountHead) (o : Outcome) : M.Agr (h.afterRun o) := by
  unfold MountHead.afterRun; agr

variable [CustomProcessor σ]

mutual
theorem Node.agr_process (hc : CustomAgrees σ L) (hp : CustomProcessorAgrees σ) (max : Nat) (st : Strategy) (n : Node σ L) :
    M.Agr (n.process max st) := by
  match n with
  | .processor p => unfold Node.process; exact .bind (p.agr_process hc max st) fun _ => .pure _
  | .mount h ns ss =>
    unfold Node.process
    exact .bind (agr_processNodes hc hp max st ns) fun _ => .bind (MountHead.agr_afterRun _ _) fun _ => .pure _
  | .attached h ns ss [] =>
    unfold Node.process
    exact .bind (agr_processNodes hc hp max st ns) fun _ => .bind (MountHead.agr_afterRun _ _) fun _ => .pure _
  | .attached h ns ss (⟨ps, ss', closed⟩ :: inbox) =>
    unfold Node.process
    exact .bind (agr_processNodes hc hp max st ns) fun _ => .bind (agr_processNodes hc hp max st ps) fun _ =>
      .bind (MountHead.agr_afterRun _ _) fun _ => .pure _
  | .driver as => unfold Node.process; exact .pure _
  | .custom s => unfold Node.process; exact .bind (hp.process s max st) fun _ => .pure _

theorem agr_processNodes (hc : CustomAgrees σ L) (hp : CustomProcessorAgrees σ) (max : Nat) (st : Strategy)
    (ns : List (Node σ L)) : M.Agr (processNodes max st ns) := by
  match ns with
  | [] => unfold processNodes; exact .pure _
  | n :: ns =>
    unfold processNodes
    exact .bind (n.agr_process hc hp max st) fun _ => .bind (agr_processNodes hc hp max st ns) fun _ => .pure _
end

omit [DecidableEq L] [CustomProcessor σ] in
theorem agr_putCockpits (hc : CustomAgrees σ L) (d : Bool) (cs : List (Cockpit σ L)) (s : Snapshot) :
    M.Agr (putCockpits d cs s) := by
  induction cs generalizing s with
  | nil => exact .pure _
  | cons c cs ih => exact .bind (c.agr_putSnapshot hc _ _) fun _ => .bind (ih _) fun _ => .pure _

omit [DecidableEq L] [CustomProcessor σ] in
theorem ProcessorState.agr_putSnapshot (hc : CustomAgrees σ L) (x : ProcessorState σ L) (s : Snapshot) (d : Bool) :
    M.Agr (x.putSnapshot s d) :=
  .bind (Activity.agr_putFlags _ _) fun _ => .ite
    (.bind (agr_putCockpits hc d _ _) fun _ => .bind (agr_putHandlers hc d _ _) fun _ =>
      .bind (agr_putSnapshooters hc d _ _) fun _ => .pure _) (.pure _)

omit [DecidableEq L] in
mutual
theorem Node.agr_putSnapshot (hc : CustomAgrees σ L) (hp : CustomProcessorAgrees σ) (d : Bool) (n : Node σ L) (s : Snapshot) :
    M.Agr (n.putSnapshot d s) := by
  match n with
  | .processor p =>
    unfold Node.putSnapshot
    exact .bind (.bind (ProcessorState.agr_putSnapshot hc _ _ _) fun _ => .pure _) fun _ => .pure _
  | .mount h ns ss =>
    unfold Node.putSnapshot
    exact .bind (Activity.agr_putFlags _ _) fun _ => .ite
      (.bind (agr_putNodes hc hp d ns _) fun _ => .bind (agr_putSnapshooters hc d ss _) fun _ => .pure _) (.pure _)
  | .attached h ns ss inbox =>
    unfold Node.putSnapshot
    exact .bind (Activity.agr_putFlags _ _) fun _ => .ite
      (.bind (agr_putNodes hc hp d ns _) fun _ => .bind (agr_putSnapshooters hc d ss _) fun _ => .pure _) (.pure _)
  | .driver as => unfold Node.putSnapshot; exact .pure _
  | .custom c => unfold Node.putSnapshot; exact .bind (hp.put c _ _) fun _ => .pure _

theorem agr_putNodes (hc : CustomAgrees σ L) (hp : CustomProcessorAgrees σ) (d : Bool) (ns : List (Node σ L)) (s : Snapshot) :
    M.Agr (putNodes d ns s) := by
  match ns with
  | [] => unfold putNodes; exact .pure _
  | n :: ns =>
    unfold putNodes
    exact .bind (n.agr_putSnapshot hc hp d _) fun _ => .bind (agr_putNodes hc hp d ns _) fun _ => .pure _
end

/-! ## The driver -/

omit [DecidableEq L] [Custom σ L] [CustomProcessor σ] in
theorem M.Agr.map {α β : Type} {x : M α} (f : α → β) (hx : M.Agr x) : M.Agr (f <$> x) :=
  .bind hx fun _ => .pure _

theorem agr_ofDuration (d : Nat) : M.Agr (ObservedValue.ofDuration d) := by unfold ObservedValue.ofDuration; agr

theorem Meter.agr_new (name : String) : M.Agr (Meter.new name) := by unfold Meter.new StdMeter.new; agr

theorem Histogram.agr_new (name : String) : M.Agr (Histogram.new name) := by unfold Histogram.new; agr

theorem NonOccurrenceIndicator.agr_new (name : String) : M.Agr (NonOccurrenceIndicator.new name) := by
  unfold NonOccurrenceIndicator.new; agr

theorem Gauge.agr_setTracking (g : Gauge) (n : Nat) : M.Agr (g.setTracking n) := by
  unfold Gauge.setTracking SecondsBuckets.new SecondsBuckets.initialized; agr

namespace DriverInstruments

theorem agr_new : M.Agr DriverInstruments.new := by
  unfold DriverInstruments.new
  refine .bind (Meter.agr_new _) fun _ => .bind (Histogram.agr_new _) fun _ => .bind (Meter.agr_new _) fun _ =>
    .bind (Histogram.agr_new _) fun _ => .bind (Meter.agr_new _) fun _ => .bind (Histogram.agr_new _) fun _ =>
    .bind (Gauge.agr_setTracking _ _) fun _ => .bind (Meter.agr_new _) fun _ => .bind (Meter.agr_new _) fun _ =>
    .bind (Histogram.agr_new _) fun _ => .bind (NonOccurrenceIndicator.agr_new _) fun _ =>
    .bind (Histogram.agr_new _) fun _ => .bind (Gauge.agr_setTracking _ _) fun _ => .pure _

variable (i : DriverInstruments)

theorem agr_updatePostCollection (o : Outcome) (started : Int) : M.Agr (i.updatePostCollection o started) := by
  unfold updatePostCollection
  refine .bind .now fun now => .bind ?_ fun i => .bind ?_ fun i => .bind ?_ fun i => .bind ?_ fun i => .bind ?_ fun i => ?_
  · exact .bind (Meter.agr_update _ _) fun _ => .bind (agr_ofDuration _) fun _ => .bind (Histogram.agr_update _ _) fun _ => .pure _
  · exact .ite (.bind (Meter.agr_update _ _) fun _ => .bind (Histogram.agr_update _ _) fun _ => .pure _) (.pure _)
  · exact .bind (Gauge.agr_update _ _) fun _ => .pure _
  · refine .ite (.bind (Meter.agr_update _ _) fun _ => .bind (Histogram.agr_update _ _) fun _ => .bind ?_ fun _ => .pure _) (.pure _)
    unfold StaircaseTimer.update; agr
  · exact .ite (.bind (Meter.agr_update _ _) fun _ => .pure _) (.pure _)
  · refine .bind ?_ fun _ => .pure _
    unfold NonOccurrenceIndicator.update; agr

theorem agr_updatePostSnapshot (started : Int) : M.Agr (i.updatePostSnapshot started) :=
  .bind .now fun _ => .bind (Meter.agr_update _ _) fun _ => .bind (agr_ofDuration _) fun _ =>
    .bind (Histogram.agr_update _ _) fun _ => .pure _

theorem agr_updateRunRatio (ratio : Rat) : M.Agr (i.updateRunRatio ratio) :=
  .env (fun _ => rfl) fun _ => .bind .now fun _ => .bind (Histogram.agr_update _ _) fun _ =>
    .bind (Gauge.agr_update _ _) fun _ => .pure _

theorem agr_putSnapshot (s : Snapshot) (d : Bool) : M.Agr (i.putSnapshot s d) :=
  .bind (Meter.agr_putSnapshot _ _ _) fun _ => .bind (Histogram.agr_putSnapshot _ _ _) fun _ =>
  .bind (Meter.agr_putSnapshot _ _ _) fun _ => .bind (Histogram.agr_putSnapshot _ _ _) fun _ =>
  .bind (Meter.agr_putSnapshot _ _ _) fun _ => .bind (Histogram.agr_putSnapshot _ _ _) fun _ =>
  .bind (Gauge.agr_putSnapshot _ _ _) fun _ => .bind (Meter.agr_putSnapshot _ _ _) fun _ =>
  .bind (Meter.agr_putSnapshot _ _ _) fun _ => .bind (Histogram.agr_putSnapshot _ _ _) fun _ =>
  .bind (agr_putTimedSwitch _ _ _ _ (by unfold StaircaseTimer.state; agr) _ _) fun _ =>
  .bind (agr_putTimedSwitch _ _ _ _ (by unfold NonOccurrenceIndicator.state; agr) _ _) fun _ =>
  .bind (Gauge.agr_putSnapshot _ _ _) fun _ => .bind (Histogram.agr_putSnapshot _ _ _) fun _ => .pure _

end DriverInstruments

namespace LoopState

omit [DecidableEq L] [Custom σ L] [CustomProcessor σ] in
theorem agr_new (name : Option String) (descr : Descr) (strategy : Strategy) (withMetrics : Bool) :
    M.Agr (LoopState.new name descr strategy withMetrics : M (LoopState σ L)) := by
  cases withMetrics
  · exact .bind (.pure _) fun _ => .bind .now fun _ => .bind (.subDur _ _) fun _ => .pure _
  · exact .bind (.map _ DriverInstruments.agr_new) fun _ => .bind .now fun _ => .bind (.subDur _ _) fun _ => .pure _

variable (hc : CustomAgrees σ L) (hp : CustomProcessorAgrees σ) (l : LoopState σ L)
include hc hp

omit [DecidableEq L] in
theorem agr_addSnapshotValues (s : Snapshot) (d : Bool) (started : Int) : M.Agr (l.addSnapshotValues s d started) := by
  unfold addSnapshotValues
  refine .bind (agr_putNodes hc hp _ _ _) fun _ => .bind (agr_putSnapshooters hc _ _ _) fun _ => ?_
  dsimp only
  cases l.metrics
  · exact .pure _
  · exact .bind (DriverInstruments.agr_updatePostSnapshot _ _) fun _ =>
      .bind (DriverInstruments.agr_putSnapshot _ _ _) fun _ => .pure _

omit [DecidableEq L] in
theorem agr_makeSnapshot (d : Bool) : M.Agr (l.makeSnapshot d) := by
  unfold makeSnapshot
  refine .bind .now fun _ => ?_
  split
  · exact .bind (agr_addSnapshotValues hc hp _ _ _ _) fun _ => .pure _
  · exact agr_addSnapshotValues hc hp _ _ _ _

omit [DecidableEq L] in
theorem agr_begin (m : Option (DriverMsg σ L)) : M.Agr (l.begin m) := by
  unfold LoopState.begin
  refine .bind .now fun _ => ?_
  split
  · rename_i m
    refine .bind ?_ fun _ => .pure _
    cases m with
    | getSnapshot id d => exact .bind (agr_makeSnapshot hc hp _ _) fun _ => .pure _
    | _ => exact .pure _
  · exact .pure _

theorem agr_work (started : Int) : M.Agr (l.work started) := by
  unfold work
  refine .ite (.bind .readings fun _ => .pure _) (.bind .now fun _ => .bind (agr_processNodes hc hp _ _ _) fun _ =>
    .bind .now fun _ => .bind ?_ fun _ => .bind ?_ fun _ => .ite (.pure _)
      (.bind .now fun _ => .bind .readings fun _ => .bind ?_ fun _ => .pure _))
  · unfold logDropped; agr
  · unfold noteRun
    split
    · exact .bind (DriverInstruments.agr_updatePostCollection _ _ _) fun _ => .pure _
    · exact .pure _
  · unfold reportElapsed
    split
    · exact .bind .now fun _ => .bind (.env (fun _ => rfl) fun _ => .pure _) fun _ =>
        .bind (.env (fun _ => rfl) fun _ => .pure _) fun _ => .ite (.env (fun _ => rfl) fun _ =>
          .bind (DriverInstruments.agr_updateRunRatio _ _) fun _ => .pure _) (.pure _)
    · exact .pure _

end LoopState

end Metrix
