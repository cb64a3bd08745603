import Verif.Spec.Safe
import Verif.Proof.TotalMeter

/-! Built-in components do not panic in release builds. -/

namespace Metrix

/-- `x` does not panic and its result satisfies `P`, however often the clock was read before. -/
def M.Tot {α : Type} (e : Env) (x : M α) (P : α → Prop) : Prop := ∀ k, ∃ a k', x e k = some (a, k') ∧ P a

namespace M.Tot
variable {α β : Type} {e : Env} {P : α → Prop}

theorem pure {a : α} (h : P a) : M.Tot e (Pure.pure a : M α) P := fun k => ⟨a, k, rfl, h⟩

theorem ofOk {x : M α} (h : M.Ok e x) : M.Tot e x fun _ => True := fun k =>
  let ⟨a, k', h⟩ := h k
  ⟨a, k', h, trivial⟩

theorem ok {x : M α} (h : M.Tot e x P) : M.Ok e x := fun k =>
  let ⟨a, k', h, _⟩ := h k
  ⟨a, k', h⟩

theorem mono {Q : α → Prop} {x : M α} (h : M.Tot e x P) (hpq : ∀ a, P a → Q a) : M.Tot e x Q := fun k =>
  let ⟨a, k', h, hp⟩ := h k
  ⟨a, k', h, hpq a hp⟩

theorem bind {x : M α} {f : α → M β} {Q : β → Prop} (hx : M.Tot e x P) (hf : ∀ a, P a → M.Tot e (f a) Q) :
    M.Tot e (x >>= f) Q := by
  intro k
  obtain ⟨a, k', h, hp⟩ := hx k
  rw [M.run_bind_some h]
  exact hf a hp k'

theorem okBind {x : M α} {f : α → M β} {Q : β → Prop} (hx : M.Ok e x) (hf : ∀ a, M.Tot e (f a) Q) :
    M.Tot e (x >>= f) Q := bind (ofOk hx) fun a _ => hf a

theorem ite {c : Prop} [Decidable c] {x y : M α} (hx : c → M.Tot e x P) (hy : ¬ c → M.Tot e y P) :
    M.Tot e (if c then x else y) P := by
  split
  · exact hx ‹_›
  · exact hy ‹_›

end M.Tot

variable {e : Env}

theorem M.Tot.index {T : Type} {xs : List T} {i : Nat} (h : i < xs.length) :
    M.Tot e (index xs i) fun _ => True := by
  intro k
  refine ⟨xs[i], k, ?_, trivial⟩
  simp [Metrix.index, List.getElem?_eq_getElem h]

theorem M.Tot.assignAt {T : Type} {xs : List T} {i : Nat} {x : T} (h : i < xs.length) :
    M.Tot e (assignAt xs i x) fun ys => ys.length = xs.length := by
  unfold Metrix.assignAt
  rw [if_pos h]
  exact .pure (by simp)

namespace SecondsBuckets
variable {T : Type} [Inhabited T]

/-- The ring points at one of its buckets. -/
def Good (b : SecondsBuckets T) : Prop := b.currentIdx < b.buckets.length

theorem Good.idx {b : SecondsBuckets T} (h : b.Good) (o : Nat) :
    M.Tot e (b.idx o) fun i => i < b.buckets.length := by
  unfold SecondsBuckets.Good at h
  unfold SecondsBuckets.idx
  rw [if_neg (by omega)]
  exact .pure (Nat.mod_lt _ (by omega))

theorem Good.advance {b : SecondsBuckets T} (h : b.Good) : M.Tot e b.advance Good := by
  refine .bind (h.idx _) fun i hi => .bind (.assignAt hi) fun bs hbs => .pure ?_
  show i < bs.length
  omega

theorem Good.advanceN (n : Nat) {b : SecondsBuckets T} (h : b.Good) : M.Tot e (b.advanceN n) Good := by
  induction n generalizing b with
  | zero => exact .pure h
  | succ n ih => exact .bind h.advance fun b hb => ih hb

theorem Good.tick {b : SecondsBuckets T} (h : b.Good) : M.Tot e b.tick Good := by
  refine .okBind .now fun now => .ite (fun _ => .pure h) fun _ => ?_
  refine .ite (fun _ => Good.advance h) fun _ => .ite (fun _ => Good.advanceN _ h) fun _ => .pure ?_
  unfold Good at h ⊢
  simp only [List.length_map]
  omega

theorem Good.modifyCurrent {b : SecondsBuckets T} (h : b.Good) {f : T → M T} (hf : ∀ x, M.Ok e (f x)) :
    M.Tot e (b.modifyCurrent f) Good := by
  refine .bind h.tick fun b hb => .bind (.index hb) fun x _ => .okBind (hf x) fun y =>
    .bind (.assignAt hb) fun bs hbs => .pure ?_
  unfold Good at hb ⊢
  simpa [hbs] using hb

theorem ok_iterFrom (n : Nat) (bs : List T) (i : Nat) (hi : i < bs.length) : M.Ok e (iterFrom bs n i) := by
  induction n generalizing i with
  | zero => exact .pure _
  | succ n ih =>
    refine .bind (M.Tot.index hi).ok fun x => .bind (ih _ ?_) fun _ => .pure _
    split <;> omega

theorem Good.iter {b : SecondsBuckets T} (h : b.Good) : M.Tot e b.iter fun r => r.1.Good :=
  .bind h.tick fun b hb => .okBind (ok_iterFrom _ _ _ hb) fun _ => .pure hb

end SecondsBuckets

section
variable (he : e.profile = .release)
include he

theorem ok_durationToDisplayValue (t : Nat) (u v : TimeUnit) : M.Ok e (durationToDisplayValue t u v) := by
  unfold durationToDisplayValue
  repeat' first | exact .pure _ | exact .arithU64 he _ | split | refine .bind ?_ fun _ => ?_

theorem Bucket.ok_update (b : Bucket) (v : Int) : M.Ok e (b.update v) :=
  .bind (.arithI64 he _) fun _ => .bind (.arithU64 he _) fun _ => .pure _

theorem StatsAcc.ok_add (a : StatsAcc) (b : Bucket) : M.Ok e (a.add b) :=
  .ite (.bind (.arithI64 he _) fun _ => .bind (.arithU64 he _) fun _ => .bind (.arithI64 he _) fun _ =>
    .bind (.arithI64 he _) fun _ => .pure _) (.pure _)

theorem StatsAcc.ok_addAll (bs : List Bucket) (a : StatsAcc) : M.Ok e (a.addAll bs) := by
  induction bs generalizing a with
  | nil => exact .pure _
  | cons b bs ih => exact .bind (a.ok_add he b) fun a => ih a

theorem BucketsStats.tot_fromBuckets {b : SecondsBuckets Bucket} (h : b.Good) (v : Int) :
    M.Tot e (BucketsStats.fromBuckets b v) fun r => r.1.Good := by
  refine .bind h.iter fun ⟨b, bs⟩ hb => .okBind (StatsAcc.ok_addAll he bs _) fun a => .ite (fun _ => ?_) fun _ => ?_
  · refine .okBind (.envBind (.pure _)) fun _ => .okBind (.envBind (.pure _)) fun _ =>
      .okBind (.envBind (.pure _)) fun _ => .pure hb
  · exact .okBind (.envBind (.pure _)) fun _ => .pure hb

/-- The ring of the gauge, if there is one, points at one of its buckets. -/
def Gauge.Good (g : Gauge) : Prop := ∀ r, g.tracking = some r → r.currentIdx < r.buckets.length

theorem Gauge.ok_nextValue (u : TimeUnit) (c : Option Int) (v : ObservedValue) : M.Ok e (nextValue u c v) := by
  unfold nextValue
  cases v with
  | changedBy d => cases c with
    | some c => exact .bind (.arithI64 he _) fun _ => .pure _
    | none => exact .pure _
  | duration t u' => exact .bind (ok_durationToDisplayValue he _ _ _) fun _ => .pure _
  | signedInteger _ => exact .pure _
  | unsignedInteger _ => exact .pure _
  | bool _ => exact .pure _
  | float _ => exact .pure _

theorem Gauge.tot_track {t : Option (SecondsBuckets Bucket)} (ht : ∀ r, t = some r → r.Good) (v : Int) :
    M.Tot e (track t v) fun t' => ∀ r, t' = some r → r.Good := by
  cases t with
  | none => exact .pure (fun r hr => nomatch hr)
  | some b =>
    refine .bind ((ht b rfl).modifyCurrent fun x => x.ok_update he v) fun b hb => .pure ?_
    intro r hr; cases hr; exact hb

theorem Gauge.tot_set {g : Gauge} (h : g.Good) (v : ObservedValue) : M.Tot e (g.set v) Gauge.Good := by
  have aux : ∀ c, M.Tot e (do
      match ← nextValue g.displayTimeUnit c v with
      | some next => do
        let t ← track g.tracking next
        return { g with value := some next, tracking := t }
      | none => return { g with value := c } : M Gauge) Gauge.Good := by
    intro c
    refine .okBind (ok_nextValue he _ _ _) fun o => ?_
    cases o with
    | none => exact .pure h
    | some next => exact .bind (tot_track he h next) fun t ht => .pure ht
  unfold Gauge.set
  cases hv : g.value with
  | none => exact aux none
  | some x => exact aux (some x)

theorem Gauge.tot_update {g : Gauge} (h : g.Good) (u : Update) : M.Tot e (g.update u) fun r => r.1.Good := by
  cases u with
  | withValue v t => exact .bind (tot_set he h v) fun g hg => .pure hg
  | observation t => exact .pure h
  | observations n t => exact .pure h

theorem Gauge.tot_putValues {g : Gauge} (h : g.Good) (into : Snapshot) :
    M.Tot e (g.putValues into) fun r => r.1.Good := by
  unfold Gauge.putValues
  cases g.value with
  | none => exact .pure h
  | some v =>
    simp only
    cases ht : g.tracking with
    | none => exact .pure h
    | some b =>
      refine .bind (BucketsStats.tot_fromBuckets he (h b ht) v) fun ⟨b, s⟩ hb => .pure ?_
      intro r hr; cases hr; exact hb

theorem Gauge.tot_putSnapshot {g : Gauge} (h : g.Good) (into : Snapshot) (d : Bool) :
    M.Tot e (g.putSnapshot into d) fun r => r.1.Good := by
  refine .ite (fun _ => .bind (tot_putValues he h _) fun r hr => .pure hr) fun _ => tot_putValues he h _

theorem ValueMeter.ok_mark (m : ValueMeter) (v : Int) : M.Ok e (m.mark v) :=
  .bind (m.meter.inner.ok_mark he v) fun _ => .pure _

theorem ValueMeter.ok_update (m : ValueMeter) (u : Update) : M.Ok e (m.update u) := by
  have conv : ∀ v : ObservedValue, M.Ok e (match v.convertToI64 with
      | some v => do return (← m.mark v, 1)
      | none => return (m, 0) : M (ValueMeter × Nat)) := by
    intro v
    cases v.convertToI64 with
    | none => exact .pure _
    | some v => exact .bind (m.ok_mark he v) fun _ => .pure _
  cases u with
  | observation t => exact .pure _
  | observations n t => exact .pure _
  | withValue v t =>
    cases v with
    | duration time u => exact .bind (ok_durationToDisplayValue he _ _ _) fun _ => .bind (m.ok_mark he _) fun _ => .pure _
    | changedBy x => exact conv (.changedBy x)
    | signedInteger x => exact conv (.signedInteger x)
    | unsignedInteger x => exact conv (.unsignedInteger x)
    | bool x => exact conv (.bool x)
    | float x => exact conv (.float x)

theorem Histogram.ok_update (h : Histogram) (u : Update) : M.Ok e (h.update u) := by
  have reset : M.Ok e h.resetIfDue := by
    unfold Histogram.resetIfDue
    cases h.maxInactivity with
    | none => exact .pure _
    | some d => exact .ite (.bind .now fun _ => .ite (.pure _) (.pure _)) (.pure _)
  have record : ∀ (h : Histogram) v, M.Ok e (h.record v) := fun h v => .bind .now fun _ => .pure _
  refine .bind reset fun h => ?_
  have conv : ∀ v : ObservedValue, M.Ok e (match v.convertToI64 with
      | some v => do return (← h.record v, 1)
      | none => return (h, 0) : M (Histogram × Nat)) := by
    intro v
    cases v.convertToI64 with
    | none => exact .pure _
    | some v => exact .bind (record h v) fun _ => .pure _
  cases u with
  | observation t => exact .pure _
  | observations n t => exact .pure _
  | withValue v t =>
    cases v with
    | duration time u => exact .bind (ok_durationToDisplayValue he _ _ _) fun _ => .bind (record h _) fun _ => .pure _
    | changedBy x => exact conv (.changedBy x)
    | signedInteger x => exact conv (.signedInteger x)
    | unsignedInteger x => exact conv (.unsignedInteger x)
    | bool x => exact conv (.bool x)
    | float x => exact conv (.float x)

end

theorem Histogram.ok_putSnapshot (h : Histogram) (into : Snapshot) (d : Bool) : M.Ok e (h.putSnapshot into d) := by
  have act : M.Ok e h.isActive := by
    unfold Histogram.isActive
    cases h.maxInactivity with
    | none => exact .pure _
    | some d => exact .bind .now fun _ => .pure _
  refine .bind (.bind act fun _ => .ite (.envBind (.bind .readings fun _ => .ite (.pure _) (.pure _))) (.pure _)) fun _ => .pure _

theorem M.Ok.addDurNow {d : Nat} (h : Fits e d) : M.Ok e (M.now >>= fun t => addDur t d) := by
  intro k
  rw [M.run_bind_some (M.run_now _ _)]
  exact ⟨_, k + 1, if_pos (h k).2⟩

theorem M.Ok.subDurNow {d : Nat} (h : Fits e d) : M.Ok e (M.now >>= fun t => subDur t d) := by
  intro k
  rw [M.run_bind_some (M.run_now _ _)]
  exact ⟨_, k + 1, if_pos (h k).1⟩

theorem ok_putTimedSwitch {state : M Bool} (h : M.Ok e state) (name : String) (descr : Descr)
    (inv : Option NameAlternation) (into : Snapshot) (d : Bool) :
    M.Ok e (putTimedSwitch name descr inv state into d) := by
  refine .bind h fun s => ?_
  cases inv with
  | none => exact .pure _
  | some a => exact .bind h fun _ => .pure _

theorem StaircaseTimer.ok_putSnapshot (t : StaircaseTimer) (into : Snapshot) (d : Bool) :
    M.Ok e (t.putSnapshot into d) := by
  refine ok_putTimedSwitch ?_ _ _ _ _ _
  unfold StaircaseTimer.state
  cases t.stayOnUntil with
  | none => exact .pure _
  | some u => exact .bind .now fun _ => .pure _

theorem StaircaseTimer.tot_update {t : StaircaseTimer} (h : Fits e t.switchOffAfter) (u : Update) :
    M.Tot e (t.update u) fun r => Fits e r.1.switchOffAfter := by
  have : t.update u = ((M.now >>= fun n => addDur n t.switchOffAfter) >>= fun x =>
      Pure.pure ({ t with stayOnUntil := some x }, 1)) := by
    simp only [StaircaseTimer.update, bind_assoc]
  rw [this]
  exact .okBind (.addDurNow h) fun _ => .pure h

theorem OccurrenceIndicator.ok_putSnapshot {t : OccurrenceIndicator} (h : Fits e t.ifHappenedWithin)
    (into : Snapshot) (d : Bool) : M.Ok e (t.putSnapshot into d) := by
  refine ok_putTimedSwitch ?_ _ _ _ _ _
  unfold OccurrenceIndicator.state
  simp only
  rw [← bind_assoc]
  exact .bind (.subDurNow h) fun _ => .pure _

theorem NonOccurrenceIndicator.ok_putSnapshot {t : NonOccurrenceIndicator} (h : Fits e t.ifNotHappenedWithin)
    (into : Snapshot) (d : Bool) : M.Ok e (t.putSnapshot into d) := by
  refine ok_putTimedSwitch ?_ _ _ _ _ _
  unfold NonOccurrenceIndicator.state
  simp only
  rw [← bind_assoc]
  exact .bind (.subDurNow h) fun _ => .pure _

theorem DataDisplay.tot_update {t : DataDisplay} (h : ∀ r, t.resetAfter = some r → Fits e r) (u : Update) :
    M.Tot e (t.update u) fun r => ∀ x, r.1.resetAfter = some x → Fits e x := by
  unfold DataDisplay.update
  cases u.observedValue.bind ObservedValue.toItemKind with
  | none => exact .pure h
  | some v =>
    simp only
    cases hr : t.resetAfter with
    | none => exact .pure (by simpa [hr] using h)
    | some r =>
      simp only
      rw [← bind_assoc]
      exact .okBind (.addDurNow (h r hr)) fun _ => .pure (by simpa [hr] using h r hr)

theorem DataDisplay.ok_putSnapshot (t : DataDisplay) (into : Snapshot) (d : Bool) : M.Ok e (t.putSnapshot into d) := by
  have : M.Ok e t.shown := by
    unfold DataDisplay.shown
    cases t.stayOnUntil with
    | none => exact .pure _
    | some u => exact .bind .now fun _ => .pure _
  refine .bind this fun o => ?_
  cases o <;> exact .pure _

theorem LastOccurrenceTracker.ok_putSnapshot (t : LastOccurrenceTracker) (into : Snapshot) (d : Bool) :
    M.Ok e (t.putSnapshot into d) := by
  have : M.Ok e t.elapsed := by
    unfold LastOccurrenceTracker.elapsed
    cases t.happenedLast with
    | none => exact .pure _
    | some u => exact .bind .now fun _ => .pure _
  refine .bind this fun o => ?_
  cases o with
  | none => exact .ite (.pure _) (.pure _)
  | some v => exact .pure _

end Metrix
