import Verif.Proof.Light

/-! Trees of instruments within their limits do not panic, in any build. -/

namespace Metrix
variable {σ L : Type} {e : Env} {safe : σ → Prop} {peak : Nat} {l l' : Load}

theorem Instrument.Within.mono {i : Instrument σ} (h : i.Within e safe peak l) (hl : l ≤ l') : i.Within e safe peak l' := by
  cases i with
  | counter i => exact Nat.le_trans h hl.2.1
  | gauge i => exact Gauge.Within.mono h hl
  | meter i => exact ⟨Nat.le_trans h.1 hl.2.1, h.2⟩
  | valueMeter i => exact ⟨Nat.le_trans h.1 (Load.sum_mono hl), h.2⟩
  | _ => exact h

theorem tame_none : UpdateModifier.Tame (L := L) peak none := fun _ h => nomatch h

theorem UpdateModifier.Tame.costs {m : UpdateModifier L} (hm : m.Tame peak) {o : Observation L} (ho : o.AtMost peak)
    (hs : (l + o.load).Small peak) : Costs peak (m.modify o.label o.toUpdate) l (l + o.load) ∧
      l.occurrences + (m.modify o.label o.toUpdate).occurrences ≤ (l + o.load).occurrences := by
  rw [o.toUpdate_eq]
  cases m with
  | none =>
    refine ⟨⟨Load.le_add _ _, Nat.le_refl _, ?_, ho, hs⟩, Nat.le_refl _⟩
    simp only [UpdateModifier.modify, Load.add_changes, Load.add_observations, Observation.load]; omega
  | some f =>
    obtain ⟨h1, h2, h3⟩ := hm f rfl o.label o.content ho
    refine ⟨⟨Load.le_add _ _, Nat.le_refl _, ?_, h1, hs⟩, ?_⟩
    · simp only [UpdateModifier.modify, Load.add_changes, Load.add_observations, Observation.load]; omega
    · simp only [UpdateModifier.modify, Load.add_occurrences, Observation.load]; omega

section
variable [Custom σ L]

theorem Instrument.within_update (hc : CustomSafe L e safe) {i : Instrument σ} {u : Update} (h : i.Within e safe peak l)
    (hu : Costs peak u l l') (h1 : l.occurrences + u.occurrences ≤ l'.occurrences) :
    M.Tot e (i.update L u) fun r => r.1.Within e safe peak l' := by
  cases i with
  | counter i => exact .bind (Counter.tot_update h hu h1) fun r hr => .pure hr
  | gauge i => exact .bind (Gauge.Within.update h hu) fun r hr => .pure hr
  | meter i => exact .bind (Meter.tot_update h.1 hu h1) fun r hr => .pure ⟨hr.1, h.2.of_start hr.2⟩
  | valueMeter i => exact .bind (ValueMeter.tot_update h.1 hu) fun r hr => .pure ⟨hr.1, h.2.of_start hr.2⟩
  | histogram i => exact .okBind (i.ok_update_within hu) fun r => .pure trivial
  | flag i => exact .okBind (.pure _) fun r => .pure trivial
  | staircaseTimer i => exact .bind (StaircaseTimer.tot_update h u) fun r hr => .pure hr
  | occurrenceIndicator i =>
    have hu : M.Tot e (i.update u) fun r => Fits e r.1.ifHappenedWithin := .okBind .now fun _ => .pure h
    exact .bind hu fun r hr => .pure hr
  | nonOccurrenceIndicator i =>
    have hu : M.Tot e (i.update u) fun r => Fits e r.1.ifNotHappenedWithin := .okBind .now fun _ => .pure h
    exact .bind hu fun r hr => .pure hr
  | dataDisplay i => exact .bind (DataDisplay.tot_update h u) fun r hr => .pure hr
  | lastOccurrenceTracker i =>
    have hu : M.Ok e (i.update u) := .bind .now fun _ => .pure _
    exact .okBind hu fun r => .pure trivial
  | custom s =>
    refine .bind (P := fun r : σ × _ => safe r.1) ?_ fun r hr => .pure hr
    intro k
    obtain ⟨s', n, k', h1, h2⟩ := hc.update s u k h
    exact ⟨(s', n), k', h1, h2⟩

theorem Instrument.within_putSnapshot (hS : l.Small peak) (hc : CustomSafe L e safe) {i : Instrument σ} (h : i.Within e safe peak l)
    (into : Snapshot) (d : Bool) : M.Tot e (i.putSnapshot L into d) fun r => r.1.Within e safe peak l := by
  cases i with
  | counter i => exact .bind (tot_keeping (P := fun i : Counter => i.count ≤ l.occurrences) (.pure _) h) fun r hr => .pure hr
  | gauge i => exact .bind (Gauge.Within.putSnapshot h hS into d) fun r hr => .pure hr
  | meter i =>
    exact .bind (Meter.tot_putSnapshot h.2 into d) fun r hr => .pure ⟨by rw [hr.1]; exact h.1, h.2.of_start hr.2⟩
  | valueMeter i =>
    refine .bind (P := fun r => r.1.meter.inner.count = i.meter.inner.count ∧ r.1.meter.inner.start = i.meter.inner.start)
      (.bind (Meter.tot_putSnapshot h.2 into d) fun r hr => .pure hr)
      fun r hr => .pure ⟨by rw [hr.1]; exact h.1, h.2.of_start hr.2⟩
  | histogram i =>
    exact .okBind (tot_keeping (P := fun _ => True) (i.ok_putSnapshot _ _) trivial).ok fun r => .pure trivial
  | flag i => exact .okBind (tot_keeping (P := fun _ => True) (.pure _) trivial).ok fun r => .pure trivial
  | staircaseTimer i =>
    exact .bind (tot_keeping (P := fun i : StaircaseTimer => Fits e i.switchOffAfter) (i.ok_putSnapshot _ _) h) fun r hr => .pure hr
  | occurrenceIndicator i =>
    exact .bind (tot_keeping (P := fun i : OccurrenceIndicator => Fits e i.ifHappenedWithin) (OccurrenceIndicator.ok_putSnapshot h _ _) h)
      fun r hr => .pure hr
  | nonOccurrenceIndicator i =>
    exact .bind (tot_keeping (P := fun i : NonOccurrenceIndicator => Fits e i.ifNotHappenedWithin)
      (NonOccurrenceIndicator.ok_putSnapshot h _ _) h) fun r hr => .pure hr
  | dataDisplay i =>
    exact .bind (tot_keeping (P := fun i : DataDisplay => ∀ x, i.resetAfter = some x → Fits e x) (i.ok_putSnapshot _ _) h)
      fun r hr => .pure hr
  | lastOccurrenceTracker i =>
    exact .okBind (tot_keeping (P := fun _ => True) (i.ok_putSnapshot _ _) trivial).ok fun r => .pure trivial
  | custom s =>
    refine .bind (P := fun r : σ × _ => safe r.1) ?_ fun r hr => .pure hr
    intro k
    obtain ⟨s', n, k', h1, h2⟩ := hc.putSnapshot s into d k h
    exact ⟨(s', n), k', h1, h2⟩

end

theorem AllWithin.append {a b : List (Tuned σ L)} :
    AllWithin e safe peak l (a ++ b) ↔ AllWithin e safe peak l a ∧ AllWithin e safe peak l b := by
  simp only [AllWithin, List.mem_append, or_imp, forall_and]
  constructor
  · rintro ⟨⟨a, b⟩, c, d⟩; exact ⟨⟨a, c⟩, b, d⟩
  · rintro ⟨⟨a, c⟩, b, d⟩; exact ⟨⟨a, b⟩, c, d⟩

theorem AllWithin.nil : AllWithin e safe peak l ([] : List (Tuned σ L)) := fun _ h => (nomatch h)

theorem AllWithin.single {p : Tuned σ L} : AllWithin e safe peak l [p] ↔ p.instrument.Within e safe peak l ∧ p.modify.Tame peak := by
  simp [AllWithin]

theorem AllWithin.mono {ps : List (Tuned σ L)} (h : AllWithin e safe peak l ps) (hl : l ≤ l') : AllWithin e safe peak l' ps :=
  fun p hp => ⟨(h p hp).1.mono hl, (h p hp).2⟩

/-- An optional adapter is within its limits. -/
theorem AllWithin.slot {A : Type} {a : Option A} {f : A → Tuned σ L} :
    AllWithin e safe peak l (a.toList.map f) ↔ ∀ x, a = some x → (f x).instrument.Within e safe peak l ∧ (f x).modify.Tame peak := by
  cases a <;> simp [AllWithin]

theorem within_handleSlot {A : Type} {f : A → M (A × Nat)} {P Q : A → Prop} (hf : ∀ a, P a → M.Tot e (f a) fun r => Q r.1)
    {a : Option A} (ha : ∀ x, a = some x → P x) : M.Tot e (handleSlot f a) fun r => ∀ x, r.1 = some x → Q x := by
  cases a with
  | none => exact .pure fun x hx => (nomatch hx)
  | some a => exact .bind (hf a (ha a rfl)) fun r hr => .pure fun x hx => by cases hx; exact hr

theorem InstrumentAdapter.within_handle [DecidableEq L] {I : Type} {up : I → Update → M (I × Nat)} {P Q : I → Prop}
    {o : Observation L}
    (hup : ∀ i u, P i → Costs peak u l (l + o.load) → l.occurrences + u.occurrences ≤ (l + o.load).occurrences →
      M.Tot e (up i u) fun r => Q r.1) (hpq : ∀ i, P i → Q i)
    {a : InstrumentAdapter L I} (ha : P a.instrument) (hm : a.modifyUpdate.Tame peak) (hS : (l + o.load).Small peak)
    (ho : o.AtMost peak) : M.Tot e (a.handle up o) fun r => Q r.1.instrument ∧ r.1.modifyUpdate.Tame peak :=
  .ite (fun _ => .bind (hup _ _ ha (hm.costs ho hS).1 (hm.costs ho hS).2) fun _ hr => .pure ⟨hr, hm⟩) fun _ => .pure ⟨hpq _ ha, hm⟩

theorem InstrumentAdapter.within_putSnapshot {I : Type} {put : I → Snapshot → Bool → M (I × Snapshot)} {P : I → Prop}
    (hput : ∀ i s d, P i → M.Tot e (put i s d) fun r => P r.1) {a : InstrumentAdapter L I} (ha : P a.instrument)
    (hm : a.modifyUpdate.Tame peak) (s : Snapshot) (d : Bool) :
    M.Tot e (a.putSnapshot put s d) fun r => P r.1.instrument ∧ r.1.modifyUpdate.Tame peak :=
  .bind (hput _ _ _ ha) fun _ hr => .pure ⟨hr, hm⟩

theorem GaugeAdapter.within_handle [DecidableEq L] {a : GaugeAdapter L} {o : Observation L} (ha : a.gauge.Within peak l)
    (hm : a.modifyUpdate.Tame peak) (hS : (l + o.load).Small peak) (ho : o.AtMost peak) :
    M.Tot e (a.handle o) fun r => r.1.gauge.Within peak (l + o.load) ∧ r.1.modifyUpdate.Tame peak := by
  have up : ∀ u, Costs peak u l (l + o.load) →
      M.Tot e (a.updateGauge u) fun r => r.1.gauge.Within peak (l + o.load) ∧ r.1.modifyUpdate.Tame peak := fun u hu =>
    .bind (Gauge.Within.update ha hu) fun _ hr => .pure ⟨hr, hm⟩
  have same := ha.mono (Load.le_add l o.load)
  have one : ∀ d t, d.natAbs = 1 → Costs peak (.withValue (.changedBy d) t) l (l + o.load) := by
    intro d t hd
    refine ⟨Load.le_add _ _, Nat.le_refl _, ?_, fun x hx => (nomatch hx), hS⟩
    simp only [Update.changing, ObservedValue.changing, Load.add_changes, Load.add_observations, Observation.load]; omega
  have kept := (hm.costs ho hS).1
  unfold GaugeAdapter.handle
  cases a.strategy with
  | filter f => exact .ite (fun _ => up _ kept) fun _ => .pure ⟨same, hm⟩
  | deltasOnly f =>
    refine .ite (fun _ => ?_) fun _ => .pure ⟨same, hm⟩
    split
    · exact up _ (by simp_all)
    · exact .pure ⟨same, hm⟩
  | incDecOnLabels inc dec =>
    exact .ite (fun _ => up _ (one _ _ rfl)) fun _ => .ite (fun _ => up _ (one _ _ rfl)) fun _ => .pure ⟨same, hm⟩

theorem GaugeAdapter.within_putSnapshot (hS : l.Small peak) {a : GaugeAdapter L} (ha : a.gauge.Within peak l)
    (hm : a.modifyUpdate.Tame peak) (s : Snapshot) (d : Bool) :
    M.Tot e (a.putSnapshot s d) fun r => r.1.gauge.Within peak l ∧ r.1.modifyUpdate.Tame peak :=
  .bind (Gauge.Within.putSnapshot ha hS s d) fun _ hr => .pure ⟨hr, hm⟩

theorem PanelHead.within_handle [DecidableEq L] {h : PanelHead L} {o : Observation L} (hS : (l + o.load).Small peak)
    (ho : o.AtMost peak) (hh : AllWithin e safe peak l (h.parts (σ := σ))) :
    M.Tot e (h.handle o) fun r => AllWithin e safe peak (l + o.load) (r.1.parts (σ := σ)) := by
  simp only [PanelHead.parts, AllWithin.append, AllWithin.slot] at hh ⊢
  obtain ⟨h1, h2, h3, h4⟩ := hh
  refine .bind (within_handleSlot (fun a ha => InstrumentAdapter.within_handle (peak := peak) (l := l)
      (P := fun i : Counter => i.count ≤ l.occurrences) (Q := fun i : Counter => i.count ≤ (l + o.load).occurrences)
      (fun i u hi hu h1 => Counter.tot_update hi hu h1) (fun i hi => Nat.le_trans hi (Load.le_add _ _).2.1) ha.1 ha.2 hS ho) h1) fun r hr =>
    .bind (within_handleSlot (fun a ha => GaugeAdapter.within_handle (peak := peak) (l := l) ha.1 ha.2 hS ho) h2) fun r2 hr2 =>
    .bind (within_handleSlot (fun a ha => InstrumentAdapter.within_handle (peak := peak) (l := l)
      (P := fun i : Meter => i.inner.count.natAbs ≤ l.occurrences ∧ i.inner.Recent e)
      (Q := fun i : Meter => i.inner.count.natAbs ≤ (l + o.load).occurrences ∧ i.inner.Recent e)
      (fun i u hi hu h1 => (Meter.tot_update hi.1 hu h1).mono fun r hr => ⟨hr.1, hi.2.of_start hr.2⟩)
      (fun i hi => ⟨Nat.le_trans hi.1 (Load.le_add _ _).2.1, hi.2⟩) ha.1 ha.2 hS ho) h3) fun r3 hr3 =>
    .bind (within_handleSlot (fun a ha => InstrumentAdapter.within_handle (peak := peak) (l := l)
      (P := fun _ : Histogram => True) (Q := fun _ : Histogram => True)
      (fun i u hi hu h1 => .ofOk (i.ok_update_within hu)) (fun _ _ => trivial) trivial ha.2 hS ho) h4) fun r4 hr4 =>
    .pure ⟨hr, hr2, hr3, hr4⟩

theorem PanelHead.within_putSlots (hS : l.Small peak) {h : PanelHead L}
    (hh : AllWithin e safe peak l (h.parts (σ := σ))) (into : Snapshot) (d : Bool) :
    M.Tot e (h.putSlots into d) fun r => AllWithin e safe peak l (r.1.parts (σ := σ)) := by
  simp only [PanelHead.parts, AllWithin.append, AllWithin.slot] at hh ⊢
  obtain ⟨h1, h2, h3, h4⟩ := hh
  refine .bind (tot_putSlot (fun a s ha => InstrumentAdapter.within_putSnapshot (peak := peak)
      (P := fun i : Counter => i.count ≤ l.occurrences)
      (fun i s d hi => tot_keeping (P := fun i : Counter => i.count ≤ l.occurrences) (.pure _) hi) ha.1 ha.2 s d) h1 _) fun r hr =>
    .bind (tot_putSlot (fun a s ha => GaugeAdapter.within_putSnapshot hS ha.1 ha.2 s d) h2 _) fun r2 hr2 =>
    .bind (tot_putSlot (fun a s ha => InstrumentAdapter.within_putSnapshot (peak := peak)
      (P := fun i : Meter => i.inner.count.natAbs ≤ l.occurrences ∧ i.inner.Recent e)
      (fun i s d hi => (Meter.tot_putSnapshot hi.2 s d).mono fun r hr => ⟨by rw [hr.1]; exact hi.1, hi.2.of_start hr.2⟩) ha.1 ha.2 s d) h3 _)
      fun r3 hr3 =>
    .bind (tot_putSlot (fun a s ha => InstrumentAdapter.within_putSnapshot (peak := peak)
      (P := fun _ : Histogram => True)
      (fun i s d hi => tot_keeping (P := fun _ => True) (i.ok_putSnapshot s d) trivial) trivial ha.2 s d) h4 _) fun r4 hr4 =>
    .pure ⟨hr, hr2, hr3, hr4⟩

section
variable [DecidableEq L] [Custom σ L]

mutual
theorem Panel.within_handle (hc : CustomSafe L e safe) (o : Observation L) (hS : (l + o.load).Small peak) (ho : o.AtMost peak) (p : Panel σ L)
    (hp : AllWithin e safe peak l p.parts) : M.Tot e (p.handle o) fun r => AllWithin e safe peak (l + o.load) r.1.parts := by
  match p with
  | .mk h ps hs ss =>
    unfold Panel.handle
    have hp' := hp
    simp only [Panel.parts, AllWithin.append] at hp'
    refine .ite (fun _ => ?_) fun _ => .pure (hp.mono (Load.le_add _ _))
    refine .bind (PanelHead.within_handle hS ho hp'.1) fun r hr =>
      .bind (within_handlePanels hc o hS ho ps hp'.2.1) fun r2 hr2 =>
      .bind (within_handleHandlers hc o hS ho hs hp'.2.2.1) fun r3 hr3 => .pure ?_
    simp only [Panel.parts, AllWithin.append]
    exact ⟨hr, hr2, hr3, hp'.2.2.2.mono (Load.le_add _ _)⟩

theorem within_handlePanels (hc : CustomSafe L e safe) (o : Observation L) (hS : (l + o.load).Small peak) (ho : o.AtMost peak)
    (ps : List (Panel σ L)) (hp : AllWithin e safe peak l (partsOfPanels ps)) :
    M.Tot e (handlePanels o ps) fun r => AllWithin e safe peak (l + o.load) (partsOfPanels r.1) := by
  match ps with
  | [] => unfold handlePanels; exact .pure AllWithin.nil
  | p :: ps =>
    unfold handlePanels
    simp only [partsOfPanels, AllWithin.append] at hp
    refine .bind (p.within_handle hc o hS ho hp.1) fun r hr => .bind (within_handlePanels hc o hS ho ps hp.2) fun r2 hr2 => .pure ?_
    simp only [partsOfPanels, AllWithin.append]
    exact ⟨hr, hr2⟩

theorem Handler.within_handle (hc : CustomSafe L e safe) (o : Observation L) (hS : (l + o.load).Small peak) (ho : o.AtMost peak) (x : Handler σ L)
    (hx : AllWithin e safe peak l x.parts) : M.Tot e (x.handle o) fun r => AllWithin e safe peak (l + o.load) r.1.parts := by
  match x with
  | .instrument a =>
    unfold Handler.handle
    exact .bind (InstrumentAdapter.within_handle (P := fun i => i.Within e safe peak l) (Q := fun i => i.Within e safe peak (l + o.load))
      (fun i u hi hu h1 => Instrument.within_update hc hi hu h1) (fun i hi => hi.mono (Load.le_add _ _))
      (AllWithin.single.mp hx).1 (AllWithin.single.mp hx).2 hS ho) fun r hr => .pure (AllWithin.single.mpr hr)
  | .gauge a =>
    unfold Handler.handle
    exact .bind (GaugeAdapter.within_handle (AllWithin.single.mp hx).1 (AllWithin.single.mp hx).2 hS ho) fun r hr => .pure (AllWithin.single.mpr hr)
  | .panel p =>
    unfold Handler.handle
    refine .bind (p.within_handle hc o hS ho (by simpa only [Handler.parts] using hx)) fun r hr => .pure ?_
    simpa only [Handler.parts] using hr
  | .cockpit h ps hs ss =>
    unfold Handler.handle
    simp only [Handler.parts, AllWithin.append] at hx
    refine .okBind .now fun now => .bind (within_handleHandlers hc o hS ho hs hx.2.1) fun r hr =>
      .bind (within_handlePanels hc o hS ho ps hx.1) fun r2 hr2 => .pure ?_
    simp only [Handler.parts, AllWithin.append]
    exact ⟨hr2, hr, hx.2.2.mono (Load.le_add _ _)⟩
  | .custom s =>
    unfold Handler.handle
    refine .bind (P := fun r : σ × _ => safe r.1) ?_ fun r hr => .pure (AllWithin.single.mpr ⟨hr, tame_none⟩)
    intro k
    obtain ⟨s', n, k', h1, h2⟩ := hc.handle s o k (AllWithin.single.mp hx).1
    exact ⟨(s', n), k', h1, h2⟩

theorem within_handleHandlers (hc : CustomSafe L e safe) (o : Observation L) (hS : (l + o.load).Small peak) (ho : o.AtMost peak)
    (hs : List (Handler σ L)) (hp : AllWithin e safe peak l (partsOfHandlers hs)) :
    M.Tot e (handleHandlers o hs) fun r => AllWithin e safe peak (l + o.load) (partsOfHandlers r.1) := by
  match hs with
  | [] => unfold handleHandlers; exact .pure AllWithin.nil
  | p :: ps =>
    unfold handleHandlers
    simp only [partsOfHandlers, AllWithin.append] at hp
    refine .bind (p.within_handle hc o hS ho hp.1) fun r hr => .bind (within_handleHandlers hc o hS ho ps hp.2) fun r2 hr2 => .pure ?_
    simp only [partsOfHandlers, AllWithin.append]
    exact ⟨hr, hr2⟩
end

omit [DecidableEq L]
mutual
theorem Panel.within_putSnapshot (hS : l.Small peak) (hc : CustomSafe L e safe) (d : Bool) (p : Panel σ L)
    (into : Snapshot) (hp : AllWithin e safe peak l p.parts) :
    M.Tot e (p.putSnapshot d into) fun r => AllWithin e safe peak l r.1.parts := by
  match p with
  | .mk h ps hs ss =>
    unfold Panel.putSnapshot
    have hp' := hp
    simp only [Panel.parts, AllWithin.append] at hp'
    refine .okBind (h.activity.ok_putFlags _) fun g => .ite (fun _ => ?_) fun _ => .pure hp
    refine .bind (PanelHead.within_putSlots hS hp'.1 _ d) fun r hr =>
      .bind (within_putPanels hS hc d ps _ hp'.2.1) fun r2 hr2 =>
      .bind (within_putSnapshooters hS hc d ss _ hp'.2.2.2) fun r3 hr3 =>
      .bind (within_putHandlers hS hc d hs _ hp'.2.2.1) fun r4 hr4 => .pure ?_
    simp only [Panel.parts, AllWithin.append]
    exact ⟨hr, hr2, hr4, hr3⟩

theorem within_putPanels (hS : l.Small peak) (hc : CustomSafe L e safe) (d : Bool)
    (ps : List (Panel σ L)) (into : Snapshot) (hp : AllWithin e safe peak l (partsOfPanels ps)) :
    M.Tot e (putPanels d ps into) fun r => AllWithin e safe peak l (partsOfPanels r.1) := by
  match ps with
  | [] => unfold putPanels; exact .pure hp
  | p :: ps =>
    unfold putPanels
    simp only [partsOfPanels, AllWithin.append] at hp
    refine .bind (p.within_putSnapshot hS hc d _ hp.1) fun r hr => .bind (within_putPanels hS hc d ps _ hp.2) fun r2 hr2 => .pure ?_
    simp only [partsOfPanels, AllWithin.append]
    exact ⟨hr, hr2⟩

theorem Handler.within_putSnapshot (hS : l.Small peak) (hc : CustomSafe L e safe) (d : Bool) (x : Handler σ L)
    (into : Snapshot) (hx : AllWithin e safe peak l x.parts) :
    M.Tot e (x.putSnapshot d into) fun r => AllWithin e safe peak l r.1.parts := by
  match x with
  | .instrument a =>
    unfold Handler.putSnapshot
    exact .bind (InstrumentAdapter.within_putSnapshot (P := fun i => i.Within e safe peak l)
      (fun i s d hi => Instrument.within_putSnapshot hS hc hi s d)
      (AllWithin.single.mp hx).1 (AllWithin.single.mp hx).2 into d) fun r hr => .pure (AllWithin.single.mpr hr)
  | .gauge a =>
    unfold Handler.putSnapshot
    exact .bind (GaugeAdapter.within_putSnapshot hS (AllWithin.single.mp hx).1 (AllWithin.single.mp hx).2 into d) fun r hr => .pure (AllWithin.single.mpr hr)
  | .panel p =>
    unfold Handler.putSnapshot
    refine .bind (p.within_putSnapshot hS hc d into (by simpa only [Handler.parts] using hx)) fun r hr => .pure ?_
    simpa only [Handler.parts] using hr
  | .cockpit h ps hs ss =>
    unfold Handler.putSnapshot
    have hx' := hx
    simp only [Handler.parts, AllWithin.append] at hx'
    refine .okBind (h.activity.ok_putFlags _) fun g => .ite (fun _ => ?_) fun _ => .pure hx
    refine .bind (within_putPanels hS hc d ps _ hx'.1) fun r2 hr2 =>
      .bind (within_putHandlers hS hc d hs _ hx'.2.1) fun r4 hr4 =>
      .bind (within_putSnapshooters hS hc d ss _ hx'.2.2) fun r3 hr3 => .pure ?_
    simp only [Handler.parts, AllWithin.append]
    exact ⟨hr2, hr4, hr3⟩
  | .custom s =>
    unfold Handler.putSnapshot
    refine .bind (P := fun r : σ × _ => safe r.1) ?_ fun r hr => .pure (AllWithin.single.mpr ⟨hr, tame_none⟩)
    intro k
    obtain ⟨s', n, k', h1, h2⟩ := hc.putSnapshot s into d k (AllWithin.single.mp hx).1
    exact ⟨(s', n), k', h1, h2⟩

theorem within_putHandlers (hS : l.Small peak) (hc : CustomSafe L e safe) (d : Bool)
    (hs : List (Handler σ L)) (into : Snapshot) (hp : AllWithin e safe peak l (partsOfHandlers hs)) :
    M.Tot e (putHandlers d hs into) fun r => AllWithin e safe peak l (partsOfHandlers r.1) := by
  match hs with
  | [] => unfold putHandlers; exact .pure hp
  | p :: ps =>
    unfold putHandlers
    simp only [partsOfHandlers, AllWithin.append] at hp
    refine .bind (p.within_putSnapshot hS hc d _ hp.1) fun r hr => .bind (within_putHandlers hS hc d ps _ hp.2) fun r2 hr2 => .pure ?_
    simp only [partsOfHandlers, AllWithin.append]
    exact ⟨hr, hr2⟩

theorem Snapshooter.within_putSnapshot (hS : l.Small peak) (hc : CustomSafe L e safe) (d : Bool)
    (x : Snapshooter σ L) (into : Snapshot) (hx : AllWithin e safe peak l x.parts) :
    M.Tot e (x.putSnapshot d into) fun r => AllWithin e safe peak l r.1.parts := by
  match x with
  | .constant n ds v => unfold Snapshooter.putSnapshot; exact .pure hx
  | .polling n ds g poll =>
    unfold Snapshooter.putSnapshot
    simp only [Snapshooter.parts] at hx
    refine .ite (fun _ => ?_) fun _ => ?_ <;>
      refine .bind (poll.within_putSnapshot hS hc d _ hx) fun r hr => .pure ?_ <;>
      simpa only [Snapshooter.parts] using hr
  | .instrument i =>
    unfold Snapshooter.putSnapshot
    exact .bind (Instrument.within_putSnapshot hS hc (AllWithin.single.mp hx).1 into d) fun r hr =>
      .pure (AllWithin.single.mpr ⟨hr, tame_none⟩)
  | .handler h =>
    unfold Snapshooter.putSnapshot
    refine .bind (h.within_putSnapshot hS hc d into (by simpa only [Snapshooter.parts] using hx)) fun r hr => .pure ?_
    simpa only [Snapshooter.parts] using hr
  | .custom s =>
    unfold Snapshooter.putSnapshot
    refine .bind (P := fun r : σ × _ => safe r.1) ?_ fun r hr => .pure (AllWithin.single.mpr ⟨hr, tame_none⟩)
    intro k
    obtain ⟨s', n, k', h1, h2⟩ := hc.putSnapshot s into d k (AllWithin.single.mp hx).1
    exact ⟨(s', n), k', h1, h2⟩

theorem within_putSnapshooters (hS : l.Small peak) (hc : CustomSafe L e safe) (d : Bool)
    (ss : List (Snapshooter σ L)) (into : Snapshot) (hp : AllWithin e safe peak l (partsOfSnapshooters ss)) :
    M.Tot e (putSnapshooters d ss into) fun r => AllWithin e safe peak l (partsOfSnapshooters r.1) := by
  match ss with
  | [] => unfold putSnapshooters; exact .pure hp
  | p :: ps =>
    unfold putSnapshooters
    simp only [partsOfSnapshooters, AllWithin.append] at hp
    refine .bind (p.within_putSnapshot hS hc d _ hp.1) fun r hr =>
      .bind (within_putSnapshooters hS hc d ps _ hp.2) fun r2 hr2 => .pure ?_
    simp only [partsOfSnapshooters, AllWithin.append]
    exact ⟨hr, hr2⟩
end

end

theorem Cockpit.within_handle [DecidableEq L] [Custom σ L] (hc : CustomSafe L e safe) (o : Observation L)
    (hS : (l + o.load).Small peak) (ho : o.AtMost peak) (c : Cockpit σ L) (h : AllWithin e safe peak l c.parts) :
    M.Tot e (c.handle o) fun r => AllWithin e safe peak (l + o.load) r.1.parts := by
  simp only [Cockpit.parts, AllWithin.append] at h ⊢
  exact .okBind .now fun now => .bind (within_handleHandlers hc o hS ho _ h.2.1) fun r hr =>
      .bind (within_handlePanels hc o hS ho _ h.1) fun r2 hr2 => .pure ⟨hr2, hr, h.2.2.mono (Load.le_add _ _)⟩

theorem Cockpit.within_putSnapshot [Custom σ L] (hS : l.Small peak) (hc : CustomSafe L e safe)
    (d : Bool) (c : Cockpit σ L) (into : Snapshot) (h : AllWithin e safe peak l c.parts) :
    M.Tot e (c.putSnapshot into d) fun r => AllWithin e safe peak l r.1.parts := by
  simp only [Cockpit.parts, AllWithin.append] at h ⊢
  refine .okBind (c.head.activity.ok_putFlags _) fun g => .ite (fun _ => ?_) fun _ => .pure h
  exact .bind (within_putPanels hS hc d _ _ h.1) fun r2 hr2 =>
    .bind (within_putHandlers hS hc d _ _ h.2.1) fun r4 hr4 =>
    .bind (within_putSnapshooters hS hc d _ _ h.2.2) fun r3 hr3 => .pure ⟨hr2, hr4, hr3⟩

end Metrix
