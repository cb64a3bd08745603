import Verif.Proof.Post
import Verif.Model.Tree

/-! Built-in instruments report at most one update. -/

namespace Metrix

theorem Counter.update_le (c : Counter) (u : Update) : (c.update u).Post fun r => r.2 ≤ 1 := by
  cases u <;> exact .bindAny fun _ => .pure (Nat.le_refl _)

theorem Gauge.update_le (g : Gauge) (u : Update) : (g.update u).Post fun r => r.2 ≤ 1 := by
  cases u with
  | withValue v t => exact .bindAny fun _ => .pure (Nat.le_refl _)
  | _ => exact .pure (Nat.zero_le _)

theorem Meter.update_le (m : Meter) (u : Update) : (m.update u).Post fun r => r.2 ≤ 1 := by
  refine .bindAny fun m => ?_
  cases u with
  | withValue v t => exact .bindAny fun _ => .pure (Nat.le_refl _)
  | observation t => exact .bindAny fun _ => .pure (Nat.le_refl _)
  | observations n t => exact .ite (.bindAny fun _ => .pure (Nat.le_refl _)) (.pure (Nat.le_refl _))

theorem ValueMeter.update_le (m : ValueMeter) (u : Update) : (m.update u).Post fun r => r.2 ≤ 1 := by
  cases u with
  | withValue v t =>
    have conv : ∀ v : ObservedValue, (match v.convertToI64 with
        | some v => (do return (← m.mark v, 1))
        | none => (pure (m, 0) : M (ValueMeter × Nat))).Post fun r => r.2 ≤ 1 := by
      intro v
      cases v.convertToI64 with
      | some v => exact .bindAny fun _ => .pure (Nat.le_refl _)
      | none => exact .pure (Nat.zero_le _)
    cases v with
    | duration time unit => exact .bindAny fun _ => .bindAny fun _ => .pure (Nat.le_refl _)
    | changedBy x => exact conv (.changedBy x)
    | signedInteger x => exact conv (.signedInteger x)
    | unsignedInteger x => exact conv (.unsignedInteger x)
    | float x => exact conv (.float x)
    | bool x => exact conv (.bool x)
  | _ => exact .pure (Nat.zero_le _)

theorem Histogram.update_le (m : Histogram) (u : Update) : (m.update u).Post fun r => r.2 ≤ 1 := by
  refine .bindAny fun m => ?_
  cases u with
  | withValue v t =>
    have conv : ∀ v : ObservedValue, (match v.convertToI64 with
        | some v => (do return (← m.record v, 1))
        | none => (pure (m, 0) : M (Histogram × Nat))).Post fun r => r.2 ≤ 1 := by
      intro v
      cases v.convertToI64 with
      | some v => exact .bindAny fun _ => .pure (Nat.le_refl _)
      | none => exact .pure (Nat.zero_le _)
    cases v with
    | duration time unit => exact .bindAny fun _ => .bindAny fun _ => .pure (Nat.le_refl _)
    | changedBy x => exact conv (.changedBy x)
    | signedInteger x => exact conv (.signedInteger x)
    | unsignedInteger x => exact conv (.unsignedInteger x)
    | float x => exact conv (.float x)
    | bool x => exact conv (.bool x)
  | _ => exact .pure (Nat.zero_le _)

theorem Flag.update_le (f : Flag) (u : Update) : (pure (f.update u) : M (Flag × Nat)).Post fun r => r.2 ≤ 1 := by
  refine .pure ?_
  cases u with
  | withValue v t => cases v <;> simp [Flag.update]
  | _ => simp [Flag.update]

theorem StaircaseTimer.update_le (i : StaircaseTimer) (u : Update) : (i.update u).Post fun r => r.2 ≤ 1 :=
  .bindAny fun _ => .bindAny fun _ => .pure (Nat.le_refl _)

theorem OccurrenceIndicator.update_le (i : OccurrenceIndicator) (u : Update) : (i.update u).Post fun r => r.2 ≤ 1 :=
  .bindAny fun _ => .pure (Nat.le_refl _)

theorem NonOccurrenceIndicator.update_le (i : NonOccurrenceIndicator) (u : Update) :
    (i.update u).Post fun r => r.2 ≤ 1 := .bindAny fun _ => .pure (Nat.le_refl _)

theorem LastOccurrenceTracker.update_le (i : LastOccurrenceTracker) (u : Update) :
    (i.update u).Post fun r => r.2 ≤ 1 := .bindAny fun _ => .pure (Nat.le_refl _)

theorem DataDisplay.update_le (i : DataDisplay) (u : Update) : (i.update u).Post fun r => r.2 ≤ 1 := by
  unfold DataDisplay.update
  cases u.observedValue.bind ObservedValue.toItemKind with
  | none => exact .pure (Nat.zero_le _)
  | some v =>
    cases i.resetAfter with
    | none => exact .pure (Nat.le_refl _)
    | some r => exact .bindAny fun _ => .bindAny fun _ => .pure (Nat.le_refl _)

/-- The instrument is one of the crate. -/
def Instrument.BuiltIn {σ : Type} (i : Instrument σ) : Prop := ∀ s, i ≠ .custom s

theorem Instrument.update_le {σ L : Type} [Custom σ L] (i : Instrument σ) (h : i.BuiltIn) (u : Update) :
    (Instrument.update L i u).Post fun r => r.2 ≤ 1 := by
  cases i with
  | counter i => exact .bind _ (i.update_le u) fun _ h => .pure h
  | gauge i => exact .bind _ (i.update_le u) fun _ h => .pure h
  | meter i => exact .bind _ (i.update_le u) fun _ h => .pure h
  | valueMeter i => exact .bind _ (i.update_le u) fun _ h => .pure h
  | histogram i => exact .bind _ (i.update_le u) fun _ h => .pure h
  | flag i => exact .bind _ (i.update_le u) fun _ h => .pure h
  | staircaseTimer i => exact .bind _ (i.update_le u) fun _ h => .pure h
  | occurrenceIndicator i => exact .bind _ (i.update_le u) fun _ h => .pure h
  | nonOccurrenceIndicator i => exact .bind _ (i.update_le u) fun _ h => .pure h
  | dataDisplay i => exact .bind _ (i.update_le u) fun _ h => .pure h
  | lastOccurrenceTracker i => exact .bind _ (i.update_le u) fun _ h => .pure h
  | custom s => exact absurd rfl (h s)

variable {L : Type} [DecidableEq L]

theorem InstrumentAdapter.handle_le {I : Type} {update : I → Update → M (I × Nat)} (a : InstrumentAdapter L I)
    (h : ∀ u, (update a.instrument u).Post fun r => r.2 ≤ 1) (o : Observation L) :
    (a.handle update o).Post fun r => r.2 ≤ 1 :=
  .ite (.bind _ (h _) fun _ h => .pure h) (.pure (Nat.zero_le _))

theorem GaugeAdapter.handle_le (a : GaugeAdapter L) (o : Observation L) : (a.handle o).Post fun r => r.2 ≤ 1 := by
  have upd : ∀ u, (a.updateGauge u).Post fun r => r.2 ≤ 1 := fun u => .bind _ (a.gauge.update_le u) fun _ h => .pure h
  have skip : (pure (a, 0) : M (GaugeAdapter L × Nat)).Post fun r => r.2 ≤ 1 := .pure (Nat.zero_le _)
  unfold GaugeAdapter.handle
  cases a.strategy with
  | filter f => exact .ite (upd _) skip
  | deltasOnly f =>
    refine .ite ?_ skip
    generalize a.modifyUpdate.modify o.label o.toUpdate = u
    cases u with
    | withValue v t =>
      cases v with
      | changedBy d => exact upd _
      | _ => exact skip
    | _ => exact skip
  | incDecOnLabels inc dec => exact .ite (upd _) (.ite (upd _) skip)

end Metrix
