import Verif.Proof.Safe

/-! Trees of safe instruments do not panic in release builds. -/

namespace Metrix
variable {σ L : Type} {e : Env} {safe : σ → Prop}

/-- The result of a `put_snapshot` that cannot change the instrument. -/
theorem tot_keeping {I : Type} {f : I → Snapshot → Bool → M Snapshot} {i : I} {into : Snapshot} {d : Bool}
    {P : I → Prop} (h : M.Ok e (f i into d)) (hp : P i) : M.Tot e (keeping f i into d) fun r => P r.1 :=
  .okBind h fun _ => .pure hp

theorem tot_of_ok {α : Type} {x : M α} {P : α → Prop} (h : M.Ok e x) (hp : ∀ a, P a) : M.Tot e x P :=
  (M.Tot.ofOk h).mono fun a _ => hp a

section
variable (he : e.profile = .release)
include he

theorem Counter.ok_update (c : Counter) (u : Update) : M.Ok e (c.update u) := by
  cases u <;> exact .bind (.bind (.arithU64 he _) fun _ => .pure _) fun _ => .pure _

theorem ValueMeter.ok_putSnapshot (m : ValueMeter) (s : Snapshot) (d : Bool) : M.Ok e (m.putSnapshot s d) :=
  .bind (m.meter.ok_putSnapshot he s d) fun _ => .pure _

variable [Custom σ L] (hc : CustomSafe L e safe)
include hc

theorem Instrument.tot_update {i : Instrument σ} (h : i.Safe e safe) (u : Update) :
    M.Tot e (i.update L u) fun r => r.1.Safe e safe := by
  cases i with
  | counter i => exact .okBind (i.ok_update he u) fun r => .pure trivial
  | gauge i => exact .bind (Gauge.tot_update he h u) fun r hr => .pure hr
  | meter i => exact .okBind (i.ok_update he u) fun r => .pure trivial
  | valueMeter i => exact .okBind (i.ok_update he u) fun r => .pure trivial
  | histogram i => exact .okBind (i.ok_update he u) fun r => .pure trivial
  | flag i => exact .okBind (.pure _) fun r => .pure trivial
  | staircaseTimer i => exact .bind (StaircaseTimer.tot_update h u) fun r hr => .pure hr
  | occurrenceIndicator i =>
    have hu : M.Tot e (i.update u) fun r => Fits e r.1.ifHappenedWithin := .okBind .now fun _ => .pure h
    exact .bind hu fun r hr => .pure hr
  | nonOccurrenceIndicator i =>
    have hu : M.Tot e (i.update u) fun r => Fits e r.1.ifNotHappenedWithin := .okBind .now fun _ => .pure h
    exact .bind hu fun r hr => .pure hr
  | dataDisplay i => exact .bind (DataDisplay.tot_update h u) fun r hr => .pure hr
  | lastOccurrenceTracker i =>
    have hu : M.Ok e (i.update u) := .bind .now fun _ => .pure _
    exact .okBind hu fun r => .pure trivial
  | custom s =>
    refine .bind (P := fun r : σ × _ => safe r.1) ?_ fun r hr => .pure hr
    intro k
    obtain ⟨s', n, k', h1, h2⟩ := hc.update s u k h
    exact ⟨(s', n), k', h1, h2⟩

theorem Instrument.tot_putSnapshot {i : Instrument σ} (h : i.Safe e safe) (into : Snapshot) (d : Bool) :
    M.Tot e (i.putSnapshot L into d) fun r => r.1.Safe e safe := by
  cases i with
  | counter i => exact .okBind (tot_keeping (P := fun _ => True) (.pure _) trivial).ok fun r => .pure trivial
  | gauge i => exact .bind (Gauge.tot_putSnapshot he h into d) fun r hr => .pure hr
  | meter i => exact .okBind (i.ok_putSnapshot he into d) fun r => .pure trivial
  | valueMeter i => exact .okBind (i.ok_putSnapshot he into d) fun r => .pure trivial
  | histogram i =>
    exact .okBind (tot_keeping (P := fun _ => True) (i.ok_putSnapshot _ _) trivial).ok fun r => .pure trivial
  | flag i => exact .okBind (tot_keeping (P := fun _ => True) (.pure _) trivial).ok fun r => .pure trivial
  | staircaseTimer i =>
    exact .bind (tot_keeping (P := fun i : StaircaseTimer => Fits e i.switchOffAfter) (i.ok_putSnapshot _ _) h) fun r hr => .pure hr
  | occurrenceIndicator i =>
    exact .bind (tot_keeping (P := fun i : OccurrenceIndicator => Fits e i.ifHappenedWithin) (OccurrenceIndicator.ok_putSnapshot h _ _) h)
      fun r hr => .pure hr
  | nonOccurrenceIndicator i =>
    exact .bind (tot_keeping (P := fun i : NonOccurrenceIndicator => Fits e i.ifNotHappenedWithin)
      (NonOccurrenceIndicator.ok_putSnapshot h _ _) h) fun r hr => .pure hr
  | dataDisplay i =>
    exact .bind (tot_keeping (P := fun i : DataDisplay => ∀ x, i.resetAfter = some x → Fits e x) (i.ok_putSnapshot _ _) h)
      fun r hr => .pure hr
  | lastOccurrenceTracker i =>
    exact .okBind (tot_keeping (P := fun _ => True) (i.ok_putSnapshot _ _) trivial).ok fun r => .pure trivial
  | custom s =>
    refine .bind (P := fun r : σ × _ => safe r.1) ?_ fun r hr => .pure hr
    intro k
    obtain ⟨s', n, k', h1, h2⟩ := hc.putSnapshot s into d k h
    exact ⟨(s', n), k', h1, h2⟩

end

theorem AllSafe.append {a b : List (Instrument σ)} : AllSafe e safe (a ++ b) ↔ AllSafe e safe a ∧ AllSafe e safe b := by
  simp only [AllSafe, List.mem_append, or_imp, forall_and]

theorem AllSafe.nil : AllSafe e safe ([] : List (Instrument σ)) := fun _ h => (nomatch h)

theorem AllSafe.single {i : Instrument σ} : AllSafe e safe [i] ↔ i.Safe e safe := by
  simp [AllSafe]

/-- An optional adapter is safe. -/
theorem AllSafe.slot {A : Type} {a : Option A} {f : A → Instrument σ} :
    AllSafe e safe (a.toList.map f) ↔ ∀ x, a = some x → (f x).Safe e safe := by
  cases a <;> simp [AllSafe]

theorem tot_handleSlot {A : Type} {f : A → M (A × Nat)} {P : A → Prop} (hf : ∀ a, P a → M.Tot e (f a) fun r => P r.1)
    {a : Option A} (ha : ∀ x, a = some x → P x) : M.Tot e (handleSlot f a) fun r => ∀ x, r.1 = some x → P x := by
  cases a with
  | none => exact .pure fun x hx => (nomatch hx)
  | some a => exact .bind (hf a (ha a rfl)) fun r hr => .pure fun x hx => by cases hx; exact hr

theorem tot_putSlot {A : Type} {f : A → Snapshot → M (A × Snapshot)} {P : A → Prop}
    (hf : ∀ a s, P a → M.Tot e (f a s) fun r => P r.1) {a : Option A} (ha : ∀ x, a = some x → P x) (into : Snapshot) :
    M.Tot e (putSlot f a into) fun r => ∀ x, r.1 = some x → P x := by
  cases a with
  | none => exact .pure fun x hx => (nomatch hx)
  | some a => exact .bind (hf a into (ha a rfl)) fun r hr => .pure fun x hx => by cases hx; exact hr

theorem InstrumentAdapter.tot_handle [DecidableEq L] {I : Type} {up : I → Update → M (I × Nat)} {P : I → Prop}
    (hup : ∀ i u, P i → M.Tot e (up i u) fun r => P r.1) {a : InstrumentAdapter L I} (ha : P a.instrument)
    (o : Observation L) : M.Tot e (a.handle up o) fun r => P r.1.instrument :=
  .ite (fun _ => .bind (hup _ _ ha) fun _ hr => .pure hr) fun _ => .pure ha

theorem InstrumentAdapter.tot_putSnapshot {I : Type} {put : I → Snapshot → Bool → M (I × Snapshot)} {P : I → Prop}
    (hput : ∀ i s d, P i → M.Tot e (put i s d) fun r => P r.1) {a : InstrumentAdapter L I} (ha : P a.instrument)
    (s : Snapshot) (d : Bool) : M.Tot e (a.putSnapshot put s d) fun r => P r.1.instrument :=
  .bind (hput _ _ _ ha) fun _ hr => .pure hr

theorem GaugeAdapter.tot_handle [DecidableEq L] (he : e.profile = .release) {a : GaugeAdapter L} (ha : a.gauge.Good)
    (o : Observation L) : M.Tot e (a.handle o) fun r => r.1.gauge.Good := by
  have up : ∀ u, M.Tot e (a.updateGauge u) fun r => r.1.gauge.Good := fun u =>
    .bind (Gauge.tot_update he ha u) fun _ hr => .pure hr
  unfold GaugeAdapter.handle
  cases a.strategy with
  | filter f => exact .ite (fun _ => up _) fun _ => .pure ha
  | deltasOnly f =>
    refine .ite (fun _ => ?_) fun _ => .pure ha
    split
    · exact up _
    · exact .pure ha
  | incDecOnLabels inc dec => exact .ite (fun _ => up _) fun _ => .ite (fun _ => up _) fun _ => .pure ha

theorem GaugeAdapter.tot_putSnapshot (he : e.profile = .release) {a : GaugeAdapter L} (ha : a.gauge.Good)
    (s : Snapshot) (d : Bool) : M.Tot e (a.putSnapshot s d) fun r => r.1.gauge.Good :=
  .bind (Gauge.tot_putSnapshot he ha s d) fun _ hr => .pure hr

theorem PanelHead.allSafe {h : PanelHead L} : AllSafe e safe (h.instruments (σ := σ)) ↔
    ∀ a, h.gauge = some a → a.gauge.Good := by
  simp only [PanelHead.instruments, AllSafe.append, AllSafe.slot, Instrument.Safe, implies_true, true_and, and_true]
  rfl

theorem PanelHead.tot_handle [DecidableEq L] (he : e.profile = .release) {h : PanelHead L}
    (hh : AllSafe e safe (h.instruments (σ := σ))) (o : Observation L) :
    M.Tot e (h.handle o) fun r => AllSafe e safe (r.1.instruments (σ := σ)) := by
  have any : ∀ {I : Type} [IsInstrument I] (_ : ∀ (i : I) u, M.Ok e (IsInstrument.update i u))
      (a : Option (InstrumentAdapter L I)), M.Ok e (handleSlot (·.handle IsInstrument.update o) a) := by
    intro I _ hi a
    exact (tot_handleSlot (P := fun _ => True) (fun a _ =>
      InstrumentAdapter.tot_handle (P := fun _ => True) (fun i u _ => .ofOk (hi i u)) trivial o) fun _ _ => trivial).ok
  refine .okBind (any (fun i u => Counter.ok_update he i u) _) fun _ =>
    .bind (tot_handleSlot (fun a ha => GaugeAdapter.tot_handle he ha o) (PanelHead.allSafe.mp hh)) fun r hr =>
    .okBind (any (fun i u => Meter.ok_update he i u) _) fun _ =>
    .okBind (any (fun i u => Histogram.ok_update he i u) _) fun _ => .pure (PanelHead.allSafe.mpr hr)

theorem PanelHead.tot_putSlots (he : e.profile = .release) {h : PanelHead L}
    (hh : AllSafe e safe (h.instruments (σ := σ))) (into : Snapshot) (d : Bool) :
    M.Tot e (h.putSlots into d) fun r => AllSafe e safe (r.1.instruments (σ := σ)) := by
  have any : ∀ {I : Type} [IsInstrument I] (_ : ∀ (i : I) s d, M.Ok e (IsInstrument.putSnapshot i s d))
      (a : Option (InstrumentAdapter L I)) (into : Snapshot),
      M.Ok e (putSlot (fun a s => a.putSnapshot IsInstrument.putSnapshot s d) a into) := by
    intro I _ hi a into
    exact (tot_putSlot (P := fun _ => True) (fun a s _ =>
      InstrumentAdapter.tot_putSnapshot (P := fun _ => True) (fun i s d _ => .ofOk (hi i s d)) trivial s d)
      (fun _ _ => trivial) into).ok
  refine .okBind (any (fun i s d => (tot_keeping (P := fun _ => True) (.pure _) trivial).ok) _ _) fun _ =>
    .bind (tot_putSlot (fun a s ha => GaugeAdapter.tot_putSnapshot he ha s d) (PanelHead.allSafe.mp hh) _) fun r hr =>
    .okBind (any (fun i s d => Meter.ok_putSnapshot he i s d) _ _) fun _ =>
    .okBind (any (fun i s d => (tot_keeping (P := fun _ => True) (i.ok_putSnapshot s d) trivial).ok) _ _) fun _ =>
    .pure (PanelHead.allSafe.mpr hr)

theorem Activity.ok_putFlags (a : Activity) (into : Snapshot) : M.Ok e (a.putFlags into) := by
  unfold Activity.putFlags
  cases a.maxInactivity with
  | none => exact .pure _
  | some d => exact .ite (.bind .now fun _ => .ite (.pure _) (.pure _)) (.pure _)

section
variable [DecidableEq L] [Custom σ L]

mutual
theorem Panel.tot_handle (he : e.profile = .release) (hc : CustomSafe L e safe) (o : Observation L) (p : Panel σ L)
    (hp : AllSafe e safe p.instruments) : M.Tot e (p.handle o) fun r => AllSafe e safe r.1.instruments := by
  match p with
  | .mk h ps hs ss =>
    unfold Panel.handle
    have hp' := hp
    simp only [Panel.instruments, AllSafe.append] at hp'
    refine .ite (fun _ => ?_) fun _ => .pure hp
    refine .bind (PanelHead.tot_handle he hp'.1 o) fun r hr =>
      .bind (tot_handlePanels he hc o ps hp'.2.1) fun r2 hr2 =>
      .bind (tot_handleHandlers he hc o hs hp'.2.2.1) fun r3 hr3 => .pure ?_
    simp only [Panel.instruments, AllSafe.append]
    exact ⟨hr, hr2, hr3, hp'.2.2.2⟩

theorem tot_handlePanels (he : e.profile = .release) (hc : CustomSafe L e safe) (o : Observation L)
    (ps : List (Panel σ L)) (hp : AllSafe e safe (instrumentsOfPanels ps)) :
    M.Tot e (handlePanels o ps) fun r => AllSafe e safe (instrumentsOfPanels r.1) := by
  match ps with
  | [] => unfold handlePanels; exact .pure hp
  | p :: ps =>
    unfold handlePanels
    simp only [instrumentsOfPanels, AllSafe.append] at hp
    refine .bind (p.tot_handle he hc o hp.1) fun r hr => .bind (tot_handlePanels he hc o ps hp.2) fun r2 hr2 => .pure ?_
    simp only [instrumentsOfPanels, AllSafe.append]
    exact ⟨hr, hr2⟩

theorem Handler.tot_handle (he : e.profile = .release) (hc : CustomSafe L e safe) (o : Observation L) (x : Handler σ L)
    (hx : AllSafe e safe x.instruments) : M.Tot e (x.handle o) fun r => AllSafe e safe r.1.instruments := by
  match x with
  | .instrument a =>
    unfold Handler.handle
    refine .bind (InstrumentAdapter.tot_handle (P := fun i => i.Safe e safe) (fun i u hi => Instrument.tot_update he hc hi u)
      (AllSafe.single.mp hx) o) fun r hr => .pure (AllSafe.single.mpr hr)
  | .gauge a =>
    unfold Handler.handle
    exact .bind (GaugeAdapter.tot_handle he (AllSafe.single.mp hx) o) fun r hr => .pure (AllSafe.single.mpr hr)
  | .panel p =>
    unfold Handler.handle
    refine .bind (p.tot_handle he hc o (by simpa only [Handler.instruments] using hx)) fun r hr => .pure ?_
    simpa only [Handler.instruments] using hr
  | .cockpit h ps hs ss =>
    unfold Handler.handle
    simp only [Handler.instruments, AllSafe.append] at hx
    refine .okBind .now fun now => .bind (tot_handleHandlers he hc o hs hx.2.1) fun r hr =>
      .bind (tot_handlePanels he hc o ps hx.1) fun r2 hr2 => .pure ?_
    simp only [Handler.instruments, AllSafe.append]
    exact ⟨hr2, hr, hx.2.2⟩
  | .custom s =>
    unfold Handler.handle
    refine .bind (P := fun r : σ × _ => safe r.1) ?_ fun r hr => .pure (AllSafe.single.mpr hr)
    intro k
    obtain ⟨s', n, k', h1, h2⟩ := hc.handle s o k (AllSafe.single.mp hx)
    exact ⟨(s', n), k', h1, h2⟩

theorem tot_handleHandlers (he : e.profile = .release) (hc : CustomSafe L e safe) (o : Observation L)
    (hs : List (Handler σ L)) (hp : AllSafe e safe (instrumentsOfHandlers hs)) :
    M.Tot e (handleHandlers o hs) fun r => AllSafe e safe (instrumentsOfHandlers r.1) := by
  match hs with
  | [] => unfold handleHandlers; exact .pure hp
  | p :: ps =>
    unfold handleHandlers
    simp only [instrumentsOfHandlers, AllSafe.append] at hp
    refine .bind (p.tot_handle he hc o hp.1) fun r hr => .bind (tot_handleHandlers he hc o ps hp.2) fun r2 hr2 => .pure ?_
    simp only [instrumentsOfHandlers, AllSafe.append]
    exact ⟨hr, hr2⟩
end

omit [DecidableEq L]
mutual
theorem Panel.tot_putSnapshot (he : e.profile = .release) (hc : CustomSafe L e safe) (d : Bool) (p : Panel σ L)
    (into : Snapshot) (hp : AllSafe e safe p.instruments) :
    M.Tot e (p.putSnapshot d into) fun r => AllSafe e safe r.1.instruments := by
  match p with
  | .mk h ps hs ss =>
    unfold Panel.putSnapshot
    have hp' := hp
    simp only [Panel.instruments, AllSafe.append] at hp'
    refine .okBind (h.activity.ok_putFlags _) fun g => .ite (fun _ => ?_) fun _ => .pure hp
    refine .bind (PanelHead.tot_putSlots he hp'.1 _ d) fun r hr =>
      .bind (tot_putPanels he hc d ps _ hp'.2.1) fun r2 hr2 =>
      .bind (tot_putSnapshooters he hc d ss _ hp'.2.2.2) fun r3 hr3 =>
      .bind (tot_putHandlers he hc d hs _ hp'.2.2.1) fun r4 hr4 => .pure ?_
    simp only [Panel.instruments, AllSafe.append]
    exact ⟨hr, hr2, hr4, hr3⟩

theorem tot_putPanels (he : e.profile = .release) (hc : CustomSafe L e safe) (d : Bool)
    (ps : List (Panel σ L)) (into : Snapshot) (hp : AllSafe e safe (instrumentsOfPanels ps)) :
    M.Tot e (putPanels d ps into) fun r => AllSafe e safe (instrumentsOfPanels r.1) := by
  match ps with
  | [] => unfold putPanels; exact .pure hp
  | p :: ps =>
    unfold putPanels
    simp only [instrumentsOfPanels, AllSafe.append] at hp
    refine .bind (p.tot_putSnapshot he hc d _ hp.1) fun r hr => .bind (tot_putPanels he hc d ps _ hp.2) fun r2 hr2 => .pure ?_
    simp only [instrumentsOfPanels, AllSafe.append]
    exact ⟨hr, hr2⟩

theorem Handler.tot_putSnapshot (he : e.profile = .release) (hc : CustomSafe L e safe) (d : Bool) (x : Handler σ L)
    (into : Snapshot) (hx : AllSafe e safe x.instruments) :
    M.Tot e (x.putSnapshot d into) fun r => AllSafe e safe r.1.instruments := by
  match x with
  | .instrument a =>
    unfold Handler.putSnapshot
    refine .bind (InstrumentAdapter.tot_putSnapshot (P := fun i => i.Safe e safe)
      (fun i s d hi => Instrument.tot_putSnapshot he hc hi s d)
      (AllSafe.single.mp hx) into d) fun r hr => .pure (AllSafe.single.mpr hr)
  | .gauge a =>
    unfold Handler.putSnapshot
    exact .bind (GaugeAdapter.tot_putSnapshot he (AllSafe.single.mp hx) into d) fun r hr => .pure (AllSafe.single.mpr hr)
  | .panel p =>
    unfold Handler.putSnapshot
    refine .bind (p.tot_putSnapshot he hc d into (by simpa only [Handler.instruments] using hx)) fun r hr => .pure ?_
    simpa only [Handler.instruments] using hr
  | .cockpit h ps hs ss =>
    unfold Handler.putSnapshot
    have hx' := hx
    simp only [Handler.instruments, AllSafe.append] at hx'
    refine .okBind (h.activity.ok_putFlags _) fun g => .ite (fun _ => ?_) fun _ => .pure hx
    refine .bind (tot_putPanels he hc d ps _ hx'.1) fun r2 hr2 =>
      .bind (tot_putHandlers he hc d hs _ hx'.2.1) fun r4 hr4 =>
      .bind (tot_putSnapshooters he hc d ss _ hx'.2.2) fun r3 hr3 => .pure ?_
    simp only [Handler.instruments, AllSafe.append]
    exact ⟨hr2, hr4, hr3⟩
  | .custom s =>
    unfold Handler.putSnapshot
    refine .bind (P := fun r : σ × _ => safe r.1) ?_ fun r hr => .pure (AllSafe.single.mpr hr)
    intro k
    obtain ⟨s', n, k', h1, h2⟩ := hc.putSnapshot s into d k (AllSafe.single.mp hx)
    exact ⟨(s', n), k', h1, h2⟩

theorem tot_putHandlers (he : e.profile = .release) (hc : CustomSafe L e safe) (d : Bool)
    (hs : List (Handler σ L)) (into : Snapshot) (hp : AllSafe e safe (instrumentsOfHandlers hs)) :
    M.Tot e (putHandlers d hs into) fun r => AllSafe e safe (instrumentsOfHandlers r.1) := by
  match hs with
  | [] => unfold putHandlers; exact .pure hp
  | p :: ps =>
    unfold putHandlers
    simp only [instrumentsOfHandlers, AllSafe.append] at hp
    refine .bind (p.tot_putSnapshot he hc d _ hp.1) fun r hr => .bind (tot_putHandlers he hc d ps _ hp.2) fun r2 hr2 => .pure ?_
    simp only [instrumentsOfHandlers, AllSafe.append]
    exact ⟨hr, hr2⟩

theorem Snapshooter.tot_putSnapshot (he : e.profile = .release) (hc : CustomSafe L e safe) (d : Bool)
    (x : Snapshooter σ L) (into : Snapshot) (hx : AllSafe e safe x.instruments) :
    M.Tot e (x.putSnapshot d into) fun r => AllSafe e safe r.1.instruments := by
  match x with
  | .constant n ds v => unfold Snapshooter.putSnapshot; exact .pure hx
  | .polling n ds g poll =>
    unfold Snapshooter.putSnapshot
    simp only [Snapshooter.instruments] at hx
    refine .ite (fun _ => ?_) fun _ => ?_ <;>
      refine .bind (poll.tot_putSnapshot he hc d _ hx) fun r hr => .pure ?_ <;>
      simpa only [Snapshooter.instruments] using hr
  | .instrument i =>
    unfold Snapshooter.putSnapshot
    exact .bind (Instrument.tot_putSnapshot he hc (AllSafe.single.mp hx) into d) fun r hr =>
      .pure (AllSafe.single.mpr hr)
  | .handler h =>
    unfold Snapshooter.putSnapshot
    refine .bind (h.tot_putSnapshot he hc d into (by simpa only [Snapshooter.instruments] using hx)) fun r hr => .pure ?_
    simpa only [Snapshooter.instruments] using hr
  | .custom s =>
    unfold Snapshooter.putSnapshot
    refine .bind (P := fun r : σ × _ => safe r.1) ?_ fun r hr => .pure (AllSafe.single.mpr hr)
    intro k
    obtain ⟨s', n, k', h1, h2⟩ := hc.putSnapshot s into d k (AllSafe.single.mp hx)
    exact ⟨(s', n), k', h1, h2⟩

theorem tot_putSnapshooters (he : e.profile = .release) (hc : CustomSafe L e safe) (d : Bool)
    (ss : List (Snapshooter σ L)) (into : Snapshot) (hp : AllSafe e safe (instrumentsOfSnapshooters ss)) :
    M.Tot e (putSnapshooters d ss into) fun r => AllSafe e safe (instrumentsOfSnapshooters r.1) := by
  match ss with
  | [] => unfold putSnapshooters; exact .pure hp
  | p :: ps =>
    unfold putSnapshooters
    simp only [instrumentsOfSnapshooters, AllSafe.append] at hp
    refine .bind (p.tot_putSnapshot he hc d _ hp.1) fun r hr =>
      .bind (tot_putSnapshooters he hc d ps _ hp.2) fun r2 hr2 => .pure ?_
    simp only [instrumentsOfSnapshooters, AllSafe.append]
    exact ⟨hr, hr2⟩
end

end

theorem Cockpit.tot_handle [DecidableEq L] [Custom σ L] (he : e.profile = .release) (hc : CustomSafe L e safe)
    (o : Observation L) (c : Cockpit σ L) (h : AllSafe e safe c.instruments) :
    M.Tot e (c.handle o) fun r => AllSafe e safe r.1.instruments := by
  simp only [Cockpit.instruments, AllSafe.append] at h ⊢
  exact .okBind .now fun now => .bind (tot_handleHandlers he hc o _ h.2.1) fun r hr =>
      .bind (tot_handlePanels he hc o _ h.1) fun r2 hr2 => .pure ⟨hr2, hr, h.2.2⟩

theorem Cockpit.tot_putSnapshot [Custom σ L] (he : e.profile = .release) (hc : CustomSafe L e safe)
    (d : Bool) (c : Cockpit σ L) (into : Snapshot) (h : AllSafe e safe c.instruments) :
    M.Tot e (c.putSnapshot into d) fun r => AllSafe e safe r.1.instruments := by
  simp only [Cockpit.instruments, AllSafe.append] at h ⊢
  refine .okBind (c.head.activity.ok_putFlags _) fun g => .ite (fun _ => ?_) fun _ => .pure h
  exact .bind (tot_putPanels he hc d _ _ h.1) fun r2 hr2 =>
    .bind (tot_putHandlers he hc d _ _ h.2.1) fun r4 hr4 =>
    .bind (tot_putSnapshooters he hc d _ _ h.2.2) fun r3 hr3 => .pure ⟨hr2, hr4, hr3⟩

/-- If each operation keeps a property and does not panic, no sequence of operations panics. -/
theorem tot_runOps {C A : Type} [Component C A] {P : C → Prop}
    (ht : ∀ c a, P c → M.Tot e (Component.take c a) fun r => P r.1)
    (hp : ∀ c s d, P c → M.Tot e (Component.putSnapshot c s d) fun r => P r.1) (ops : List (Op A)) {c : C} (h : P c) :
    M.Tot e (runOps c ops) fun r => P r.1 := by
  have hs : ∀ c op, P c → M.Tot e (step c op) fun r => P r.1 := by
    intro c op h
    cases op with
    | input a => exact .bind (ht c a h) fun r hr => .pure hr
    | snapshot s d => exact .bind (hp c s d h) fun r hr => .pure hr
  induction ops generalizing c with
  | nil => exact .pure h
  | cons op ops ih => exact .bind (hs c op h) fun r hr => .bind (ih hr) fun r2 hr2 => .pure hr2

end Metrix
