import Verif.Proof.Forward
import Verif.Model.Driver

/-! Handling observations, runs and snapshots of processors and drivers do not undo clock readings. -/

namespace Metrix
variable {σ L : Type}

theorem fwd_handleSlot {A : Type} {f : A → M (A × Nat)} (hf : ∀ a, M.Fwd (f a)) (a : Option A) : M.Fwd (handleSlot f a) := by
  cases a with
  | none => exact .pure _
  | some a => exact .bind (hf _) fun _ => .pure _

theorem PanelHead.fwd_handle [DecidableEq L] (h : PanelHead L) (o : Observation L) : M.Fwd (h.handle o) := by
  refine .bind (fwd_handleSlot (fun a => InstrumentAdapter.fwd_handle (fun i u => Counter.fwd_update i u) _ _) _) fun _ =>
    .bind (fwd_handleSlot (fun a => GaugeAdapter.fwd_handle a o) _) fun _ =>
    .bind (fwd_handleSlot (fun a => InstrumentAdapter.fwd_handle (fun i u => Meter.fwd_update i u) _ _) _) fun _ =>
    .bind (fwd_handleSlot (fun a => InstrumentAdapter.fwd_handle (fun i u => Histogram.fwd_update i u) _ _) _) fun _ =>
    .pure _

variable [DecidableEq L] [Custom σ L]

mutual
theorem Panel.fwd_handle (hc : CustomForward σ L) (o : Observation L) (p : Panel σ L) : M.Fwd (p.handle o) := by
  match p with
  | .mk h ps hs ss =>
    unfold Panel.handle
    exact .ite (.bind (PanelHead.fwd_handle _ _) fun _ => .bind (fwd_handlePanels hc o ps) fun _ =>
        .bind (fwd_handleHandlers hc o hs) fun _ => .pure _) (.pure _)

theorem fwd_handlePanels (hc : CustomForward σ L) (o : Observation L) (ps : List (Panel σ L)) : M.Fwd (handlePanels o ps) := by
  match ps with
  | [] => unfold handlePanels; exact .pure _
  | p :: ps =>
    unfold handlePanels
    exact .bind (p.fwd_handle hc o) fun _ => .bind (fwd_handlePanels hc o ps) fun _ => .pure _

theorem Handler.fwd_handle (hc : CustomForward σ L) (o : Observation L) (x : Handler σ L) : M.Fwd (x.handle o) := by
  match x with
  | .instrument a =>
    unfold Handler.handle
    exact .bind (InstrumentAdapter.fwd_handle (fun i u => i.fwd_update hc u) _ _) fun _ => .pure _
  | .gauge a => unfold Handler.handle; exact .bind (GaugeAdapter.fwd_handle _ _) fun _ => .pure _
  | .panel p => unfold Handler.handle; exact .bind (p.fwd_handle hc o) fun _ => .pure _
  | .cockpit h ps hs ss =>
    unfold Handler.handle
    exact .bind .now fun _ => .bind (fwd_handleHandlers hc o hs) fun _ => .bind (fwd_handlePanels hc o ps) fun _ => .pure _
  | .custom c => unfold Handler.handle; exact .bind (hc.handle c o) fun _ => .pure _

theorem fwd_handleHandlers (hc : CustomForward σ L) (o : Observation L) (hs : List (Handler σ L)) :
    M.Fwd (handleHandlers o hs) := by
  match hs with
  | [] => unfold handleHandlers; exact .pure _
  | p :: ps =>
    unfold handleHandlers
    exact .bind (p.fwd_handle hc o) fun _ => .bind (fwd_handleHandlers hc o ps) fun _ => .pure _
end

theorem Cockpit.fwd_handle (hc : CustomForward σ L) (c : Cockpit σ L) (o : Observation L) : M.Fwd (c.handle o) :=
  .bind .now fun _ => .bind (fwd_handleHandlers hc o _) fun _ => .bind (fwd_handlePanels hc o _) fun _ => .pure _

theorem fwd_handleCockpits (hc : CustomForward σ L) (o : Observation L) (cs : List (Cockpit σ L)) :
    M.Fwd (handleCockpits o cs) := by
  induction cs with
  | nil => exact .pure _
  | cons c cs ih => exact .bind (c.fwd_handle hc o) fun _ => .bind ih fun _ => .pure _

theorem ProcessorState.fwd_receive (hc : CustomForward σ L) (d : Decider) (s : ProcessorState σ L) (t : Tally)
    (m : Message σ L) : M.Fwd (s.receive d t m) := by
  cases m with
  | observation o =>
    exact .ite (.bind (fwd_handleCockpits hc o _) fun _ => .bind (fwd_handleHandlers hc o _) fun _ => .pure _) (.pure _)
  | _ => exact .pure _

theorem Processor.fwd_receiveLoop (hc : CustomForward σ L) (d : Decider) (n : Nat) (p : Processor σ L) (t : Tally) :
    M.Fwd (p.receiveLoop d n t) := by
  induction n generalizing p t with
  | zero => exact .pure _
  | succ n ih =>
    unfold Processor.receiveLoop
    split
    · exact .bind (ProcessorState.fwd_receive hc d _ _ _) fun _ => ih _ _
    · exact ih _ _
    · exact .pure _

theorem Strategy.fwd_decider (s : Strategy) : M.Fwd s.decider := by
  cases s <;> unfold Strategy.decider <;> fwd

theorem Processor.fwd_process (hc : CustomForward σ L) (max : Nat) (s : Strategy) (p : Processor σ L) :
    M.Fwd (p.process max s) :=
  .ite (.pure _) (.bind s.fwd_decider fun _ => .bind (fwd_receiveLoop hc _ _ _ _) fun _ =>
    .ite (.bind .now fun _ => .pure _) (.pure _))

/-- The same for user defined processors. -/
structure CustomProcessorForward (σ : Type) [CustomProcessor σ] : Prop where
  process : ∀ (s : σ) (max : Nat) (st : Strategy), M.Fwd (CustomProcessor.process s max st)
  put : ∀ (s : σ) (i : Snapshot) (d : Bool), M.Fwd (CustomProcessor.putSnapshot s i d)

theorem MountHead.fwd_afterRun (h : MountHead) (o : Outcome) : M.Fwd (h.afterRun o) := by
  unfold MountHead.afterRun; fwd

variable [CustomProcessor σ]

mutual
theorem Node.fwd_process (hc : CustomForward σ L) (hp : CustomProcessorForward σ) (max : Nat) (st : Strategy) (n : Node σ L) :
    M.Fwd (n.process max st) := by
  match n with
  | .processor p => unfold Node.process; exact .bind (p.fwd_process hc max st) fun _ => .pure _
  | .mount h ns ss =>
    unfold Node.process
    exact .bind (fwd_processNodes hc hp max st ns) fun _ => .bind (MountHead.fwd_afterRun _ _) fun _ => .pure _
  | .attached h ns ss [] =>
    unfold Node.process
    exact .bind (fwd_processNodes hc hp max st ns) fun _ => .bind (MountHead.fwd_afterRun _ _) fun _ => .pure _
  | .attached h ns ss (⟨ps, ss', closed⟩ :: inbox) =>
    unfold Node.process
    exact .bind (fwd_processNodes hc hp max st ns) fun _ => .bind (fwd_processNodes hc hp max st ps) fun _ =>
      .bind (MountHead.fwd_afterRun _ _) fun _ => .pure _
  | .driver as => unfold Node.process; exact .pure _
  | .custom s => unfold Node.process; exact .bind (hp.process s max st) fun _ => .pure _

theorem fwd_processNodes (hc : CustomForward σ L) (hp : CustomProcessorForward σ) (max : Nat) (st : Strategy)
    (ns : List (Node σ L)) : M.Fwd (processNodes max st ns) := by
  match ns with
  | [] => unfold processNodes; exact .pure _
  | n :: ns =>
    unfold processNodes
    exact .bind (n.fwd_process hc hp max st) fun _ => .bind (fwd_processNodes hc hp max st ns) fun _ => .pure _
end

omit [DecidableEq L] [CustomProcessor σ] in
theorem fwd_putCockpits (hc : CustomForward σ L) (d : Bool) (cs : List (Cockpit σ L)) (s : Snapshot) :
    M.Fwd (putCockpits d cs s) := by
  induction cs generalizing s with
  | nil => exact .pure _
  | cons c cs ih => exact .bind (c.fwd_putSnapshot hc _ _) fun _ => .bind (ih _) fun _ => .pure _

omit [DecidableEq L] [CustomProcessor σ] in
theorem ProcessorState.fwd_putSnapshot (hc : CustomForward σ L) (x : ProcessorState σ L) (s : Snapshot) (d : Bool) :
    M.Fwd (x.putSnapshot s d) :=
  .bind (Activity.fwd_putFlags _ _) fun _ => .ite
    (.bind (fwd_putCockpits hc d _ _) fun _ => .bind (fwd_putHandlers hc d _ _) fun _ =>
      .bind (fwd_putSnapshooters hc d _ _) fun _ => .pure _) (.pure _)

omit [DecidableEq L] in
mutual
theorem Node.fwd_putSnapshot (hc : CustomForward σ L) (hp : CustomProcessorForward σ) (d : Bool) (n : Node σ L) (s : Snapshot) :
    M.Fwd (n.putSnapshot d s) := by
  match n with
  | .processor p =>
    unfold Node.putSnapshot
    exact .bind (.bind (ProcessorState.fwd_putSnapshot hc _ _ _) fun _ => .pure _) fun _ => .pure _
  | .mount h ns ss =>
    unfold Node.putSnapshot
    exact .bind (Activity.fwd_putFlags _ _) fun _ => .ite
      (.bind (fwd_putNodes hc hp d ns _) fun _ => .bind (fwd_putSnapshooters hc d ss _) fun _ => .pure _) (.pure _)
  | .attached h ns ss inbox =>
    unfold Node.putSnapshot
    exact .bind (Activity.fwd_putFlags _ _) fun _ => .ite
      (.bind (fwd_putNodes hc hp d ns _) fun _ => .bind (fwd_putSnapshooters hc d ss _) fun _ => .pure _) (.pure _)
  | .driver as => unfold Node.putSnapshot; exact .pure _
  | .custom c => unfold Node.putSnapshot; exact .bind (hp.put c _ _) fun _ => .pure _

theorem fwd_putNodes (hc : CustomForward σ L) (hp : CustomProcessorForward σ) (d : Bool) (ns : List (Node σ L)) (s : Snapshot) :
    M.Fwd (putNodes d ns s) := by
  match ns with
  | [] => unfold putNodes; exact .pure _
  | n :: ns =>
    unfold putNodes
    exact .bind (n.fwd_putSnapshot hc hp d _) fun _ => .bind (fwd_putNodes hc hp d ns _) fun _ => .pure _
end

end Metrix
