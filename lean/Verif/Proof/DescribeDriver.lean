import Verif.Spec.DescribeDriver
import Verif.Proof.Describe
import Verif.Proof.Driver

/-! # Texts in the snapshots of drivers -/

namespace Metrix
variable {σ L : Type} {d : Bool} {s t : Snapshot}

/-- Texts do not matter for updates of meters. -/
theorem Meter.update_undescribed (m : Meter) (u : Update) :
    M.Rel (fun a b => a.1 = ({ b.1 with descr := {} } : Meter)) (Meter.update { m with descr := {} } u) (m.update u) := by
  unfold Meter.update
  refine .bind (fun a b => a = ({ b with descr := {} } : Meter)) ?_ ?_
  · unfold Meter.tickIfDue
    refine .bind Eq (.eq _) ?_
    rintro now _ rfl
    refine .ite (.bind Eq (.eq _) ?_) (.pure rfl)
    rintro inner _ rfl
    refine .bind Eq (.eq _) ?_
    rintro t _ rfl
    exact .pure rfl
  · rintro _ m rfl
    have hm : ∀ n, M.Rel (fun a b => a.1 = ({ b.1 with descr := {} } : Meter))
        ((fun i => (({ m with descr := {}, inner := i } : Meter), 1)) <$> m.inner.mark n)
        ((fun i => ({ m with inner := i }, 1)) <$> m.inner.mark n) := fun n => by
      refine .bind Eq (.eq _) ?_
      rintro i _ rfl
      exact .pure rfl
    cases u with
    | withValue v t => exact hm 1
    | observation t => exact hm 1
    | observations n t => exact .ite (hm n) (.pure rfl)

/-- Texts do not matter for updates of histograms. -/
theorem Histogram.update_undescribed (h : Histogram) (u : Update) :
    M.Rel (fun a b => a.1 = ({ b.1 with descr := {} } : Histogram)) (Histogram.update { h with descr := {} } u) (h.update u) := by
  unfold Histogram.update
  refine .bind (fun a b => a = ({ b with descr := {} } : Histogram)) ?_ ?_
  · unfold Histogram.resetIfDue
    obtain ⟨name, descr, inner, lastUpdate, maxInactivity, _, _, _⟩ := h
    cases maxInactivity with
    | none => exact .pure rfl
    | some l =>
      refine .ite ?_ (.pure rfl)
      refine .bind Eq (.eq _) ?_
      rintro now _ rfl
      exact .ite (.pure rfl) (.pure rfl)
  · rintro _ h rfl
    have hr : ∀ v, M.Rel (fun a b => a.1 = ({ b.1 with descr := {} } : Histogram))
        (do return (← Histogram.record { h with descr := {} } v, 1)) (do return (← h.record v, 1)) := fun v => by
      refine .bind (fun a b => a = ({ b with descr := {} } : Histogram)) ?_ ?_
      · refine .bind Eq (.eq _) ?_
        rintro now _ rfl
        exact .pure rfl
      · rintro _ a rfl
        exact .pure rfl
    cases u with
    | observation t => exact .pure rfl
    | observations n t => exact .pure rfl
    | withValue v t =>
      cases v with
      | duration time unit =>
        refine .bind Eq (.eq _) ?_
        rintro v _ rfl
        exact hr _
      | changedBy x => exact .pure rfl
      | signedInteger x => exact hr x
      | unsignedInteger x => simp only []; split <;> [exact hr _; exact .pure rfl]
      | float x => simp only []; split <;> [exact hr _; exact .pure rfl]
      | bool x => exact .pure rfl

theorem DriverInstruments.updatePostSnapshot_undescribed (i : DriverInstruments) (started : Int) :
    M.Rel (fun a b => a = b.undescribed) (i.undescribed.updatePostSnapshot started) (i.updatePostSnapshot started) := by
  unfold DriverInstruments.updatePostSnapshot
  refine .bind Eq (.eq _) ?_
  rintro now _ rfl
  refine .bind _ (Meter.update_undescribed i.snapshotsPerSecond _) ?_
  rintro ⟨_, n⟩ ⟨m, _⟩ rfl
  refine .bind Eq (.eq _) ?_
  rintro time _ rfl
  refine .bind _ (Histogram.update_undescribed i.snapshotTimes _) ?_
  rintro ⟨_, n⟩ ⟨h, _⟩ rfl
  exact .pure rfl

theorem DriverInstruments.described (i : DriverInstruments) (h : Described u d s t) :
    Puts u d DriverInstruments.undescribed (i.undescribed.putSnapshot s false) (i.putSnapshot t d) := by
  unfold DriverInstruments.putSnapshot
  refine .bind _ (i.collectionsPerSecond.described (u := u) (d := d) (.refl _)) ?_
  rintro ⟨_, c⟩ ⟨m1, c'⟩ ⟨rfl, hc⟩
  refine .bind _ (i.collectionTimes.described hc) ?_
  intro c c' hc
  refine .bind _ (i.processedPerSecond.described hc) ?_
  rintro ⟨_, c⟩ ⟨m2, c'⟩ ⟨rfl, hc⟩
  refine .bind _ (i.processedPerCollection.described hc) ?_
  intro c c' hc
  refine .bind _ (i.droppedPerSecond.described hc) ?_
  rintro ⟨_, c⟩ ⟨m3, c'⟩ ⟨rfl, hc⟩
  refine .bind _ (i.droppedPerCollection.described hc) ?_
  intro c c' hc
  refine .bind _ (i.enqueued.described hc) ?_
  rintro ⟨_, c⟩ ⟨m4, c'⟩ ⟨rfl, hc⟩
  refine .bind _ (i.updatedPerSecond.described hc) ?_
  rintro ⟨_, c⟩ ⟨m5, c'⟩ ⟨rfl, hc⟩
  refine .bind _ (i.snapshotsPerSecond.described hc) ?_
  rintro ⟨_, c⟩ ⟨m6, c'⟩ ⟨rfl, hc⟩
  refine .bind _ (i.snapshotTimes.described hc) ?_
  intro c c' hc
  refine .bind _ (described_putTimedSwitch _ _ _ _ hc) ?_
  intro c c' hc
  refine .bind _ (described_putTimedSwitch _ _ _ _ hc) ?_
  intro c c' hc
  refine .bind _ (i.ratio.described hc) ?_
  rintro ⟨_, c⟩ ⟨m7, c'⟩ ⟨rfl, hc⟩
  refine .bind _ (i.ratioHisto.described hc) ?_
  intro c c' hc
  exact .pure ⟨rfl, h.pushGroup _ hc⟩

variable [Custom σ L] [CustomProcessor σ] {P : (Bool → Option Snapshot) → Prop}

theorem LoopState.describedValues (hc : CustomDescribes σ L) (hp : CustomProcessorDescribes σ) (l : LoopState σ L)
    (hP : ∀ a, P a → GoodAnswer u d a) (hn : DriversGiveIn P l.processors) (started : Int) (h : Described u d s t) :
    Puts u d LoopState.undescribed (l.undescribed.addSnapshotValues s false started) (l.addSnapshotValues t d started) := by
  unfold LoopState.addSnapshotValues
  simp only [putDefault_false]
  refine .bind _ (describedNodes hc hp l.processors hP hn (h.default l.descr)) ?_
  rintro ⟨_, c⟩ ⟨ns, c'⟩ ⟨rfl, h1⟩
  refine .bind _ (describedSnapshooters hc l.snapshooters h1) ?_
  rintro ⟨_, c⟩ ⟨ss, c'⟩ ⟨rfl, h2⟩
  obtain ⟨name, descr, metrics, last, dropped, processors, snapshooters, strategy, paused⟩ := l
  cases metrics with
  | none => exact .pure ⟨rfl, h2⟩
  | some i =>
    refine .bind _ (i.updatePostSnapshot_undescribed started) ?_
    rintro _ i rfl
    refine .bind _ (i.described h2) ?_
    rintro ⟨_, c⟩ ⟨i, c'⟩ ⟨rfl, h3⟩
    exact .pure ⟨rfl, h3⟩

theorem LoopState.described (hc : CustomDescribes σ L) (hp : CustomProcessorDescribes σ) (l : LoopState σ L)
    (hP : ∀ a, P a → GoodAnswer u d a) (hn : DriversGiveIn P l.processors) :
    Puts u d LoopState.undescribed (l.undescribed.makeSnapshot false) (l.makeSnapshot d) := by
  have hv := fun started => l.describedValues hc hp hP hn started (d := d) (.refl [])
  obtain ⟨name, descr, metrics, last, dropped, processors, snapshooters, strategy, paused⟩ := l
  refine .bind Eq (.eq _) ?_
  rintro started _ rfl
  cases name with
  | none => exact hv started
  | some n =>
    refine .bind _ (hv started) ?_
    rintro ⟨_, c⟩ ⟨l, c'⟩ ⟨rfl, h⟩
    exact .pure ⟨rfl, (Described.refl []).pushGroup n h⟩

/-- The texts of a driver are in front of everything else. -/
theorem LoopState.addSnapshotValues_texts (hc : CustomAppends σ L) (hp : CustomProcessorAppends σ) (l : LoopState σ L)
    (started : Int) (into : Snapshot) (d : Bool) :
    (l.addSnapshotValues into d started).Post fun r => putDefaultDescriptives l.descr into d <+: r.2 := by
  unfold LoopState.addSnapshotValues
  refine .bind _ (appendsNodes hc hp d _ _) fun r2 h2 => .bind _ (appendsSnapshooters hc d _ _) fun r3 h3 => ?_
  cases l.metrics with
  | none => exact .pure (h2.trans h3)
  | some i =>
    refine .bind (fun _ => True) (fun _ _ _ _ _ => trivial) fun i _ => .bind (fun r => r3.2 <+: r.2) ?_ fun r4 h4 =>
      .pure ((h2.trans h3).trans h4)
    unfold DriverInstruments.putSnapshot
    iterate 14 refine .bind (fun _ => True) (fun _ _ _ _ _ => trivial) fun _ _ => ?_
    exact .pure (List.prefix_append _ _)

end Metrix
