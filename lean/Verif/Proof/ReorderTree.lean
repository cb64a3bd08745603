import Verif.Proof.Reorder

/-! The same for panels, handlers, cockpits, snapshooters and processors. -/

namespace Metrix
variable {σ L : Type} {e : Env} {t : Int}

/-! ## Parts are their own reorderings -/

mutual
theorem Panel.Reordered.refl : ∀ p : Panel σ L, p.Reordered p
  | .mk h ps hs ss => .mk h (PanelsReordered.refl ps) (HandlersReordered.refl hs) (SnapshootersReordered.refl ss)
theorem PanelsReordered.refl : ∀ ps : List (Panel σ L), PanelsReordered ps ps
  | [] => .nil
  | p :: ps => .cons (Panel.Reordered.refl p) (PanelsReordered.refl ps)
theorem Handler.Reordered.refl : ∀ h : Handler σ L, h.Reordered h
  | .instrument a => .instrument a
  | .gauge a => .gauge a
  | .panel p => .panel (Panel.Reordered.refl p)
  | .cockpit h ps hs ss => .cockpit h (PanelsReordered.refl ps) (HandlersReordered.refl hs) (SnapshootersReordered.refl ss)
  | .custom s => .custom s
theorem HandlersReordered.refl : ∀ hs : List (Handler σ L), HandlersReordered hs hs
  | [] => .nil
  | h :: hs => .cons (Handler.Reordered.refl h) (HandlersReordered.refl hs)
theorem Snapshooter.Reordered.refl : ∀ s : Snapshooter σ L, s.Reordered s
  | .constant n d v => .constant n d v
  | .polling n d g s => .polling n d g (Snapshooter.Reordered.refl s)
  | .instrument i => .instrument i
  | .handler h => .handler (Handler.Reordered.refl h)
  | .custom s => .custom s
theorem SnapshootersReordered.refl : ∀ ss : List (Snapshooter σ L), SnapshootersReordered ss ss
  | [] => .nil
  | s :: ss => .cons (Snapshooter.Reordered.refl s) (SnapshootersReordered.refl ss)
end

theorem Cockpit.Reordered.refl (c : Cockpit σ L) : c.Reordered c := ⟨rfl, .refl _, .refl _, .refl _⟩

theorem CockpitsReordered.refl : ∀ cs : List (Cockpit σ L), CockpitsReordered cs cs
  | [] => .nil
  | c :: cs => .cons (.refl c) (CockpitsReordered.refl cs)

theorem ProcessorState.Reordered.refl (s : ProcessorState σ L) : s.Reordered s := ⟨rfl, rfl, rfl, .refl _, .refl _, .refl _⟩

theorem ProcessorState.Reordered.trans {s s' s'' : ProcessorState σ L} (h : s.Reordered s') (h' : s'.Reordered s'') : s.Reordered s'' :=
  ⟨h.name.trans h'.name, h.descr.trans h'.descr, h.activity.trans h'.activity, h.cockpits.trans h'.cockpits, h.handlers.trans h'.handlers,
    h.snapshooters.trans h'.snapshooters⟩

theorem PanelHead.Gives.name {h h' : PanelHead L} {x : Handler σ L} (g : h.Gives x h') : h.name = h'.name := by cases g <;> rfl

theorem Panel.Reordered.name : ∀ {p p' : Panel σ L}, p.Reordered p' → p.name = p'.name
  | _, _, .mk _ _ _ _ => rfl
  | _, _, .place g _ _ _ => g.name
  | _, _, .handler _ _ _ _ _ => rfl
  | _, _, .ungroup _ _ _ _ _ _ _ => rfl
  | _, _, .symm h => (Panel.Reordered.name h).symm
  | _, _, .trans h h' => (Panel.Reordered.name h).trans (Panel.Reordered.name h')

theorem Cockpit.Reordered.name {c c' : Cockpit σ L} (h : c.Reordered c') : c.name = c'.name := congrArg CockpitHead.name h.head

/-! ## Panels -/

theorem sync_panelHead [DecidableEq L] (hf : Frozen e t) (h : PanelHead L) (o : Observation L) :
    M.Sync e Eq (h.handle o) (h.handle o) :=
  .bindEq (sync_slot (fun a => sync_adapter sync_counterUpdate a o) _) fun _ =>
    .bindEq (sync_slot (fun a => sync_gaugeAdapter hf a o) _) fun _ =>
    .bindEq (sync_slot (fun a => sync_adapter (fun i u => sync_meterUpdate hf i u) a o) _) fun _ =>
    .bindEq (sync_slot (fun a => sync_adapter (fun i u => sync_histogramUpdate hf i u) a o) _) fun _ => .pure rfl

theorem sync_panelHead_filter [DecidableEq L] (hf : Frozen e t) (h : PanelHead L) (o : Observation L) :
    M.Sync e (fun r r' => r = r' ∧ r.1.labelFilter = h.labelFilter) (h.handle o) (h.handle o) :=
  .bindEq (sync_slot (fun a => sync_adapter sync_counterUpdate a o) _) fun _ =>
    .bindEq (sync_slot (fun a => sync_gaugeAdapter hf a o) _) fun _ =>
    .bindEq (sync_slot (fun a => sync_adapter (fun i u => sync_meterUpdate hf i u) a o) _) fun _ =>
    .bindEq (sync_slot (fun a => sync_adapter (fun i u => sync_histogramUpdate hf i u) a o) _) fun _ => .pure ⟨rfl, rfl⟩

theorem also_slot {A : Type} {f : A → Snapshot → M (A × Snapshot)} (hfun : ∀ a s s', PutsAlso e s s' (f a s) (f a s')) (a : Option A)
    (s s' : Snapshot) : PutsReordered e s s' (putSlot f a s) (putSlot f a s') := by
  cases a with
  | none => exact .pure (.refl _ _)
  | some a => exact .bind _ (hfun a s s') fun _ _ h => .pure (.of_same h)

theorem also_panelHead (hf : Frozen e t) (h : PanelHead L) (s s' : Snapshot) :
    M.Sync e (fun r r' => r.1.name = h.name ∧ r'.1.name = h.name ∧ AddsReordered s s' r.2 r'.2) (h.putSlots s false) (h.putSlots s' false) := by
  have slot : ∀ {I : Type} [IsInstrument I] (a : Option (InstrumentAdapter L I)) (s s' : Snapshot),
      (∀ (i : I) s s', PutsAlso e s s' (IsInstrument.putSnapshot i s false) (IsInstrument.putSnapshot i s' false)) →
      PutsReordered e s s' (putSlot (fun a s => a.putSnapshot IsInstrument.putSnapshot s false) a s)
        (putSlot (fun a s => a.putSnapshot IsInstrument.putSnapshot s false) a s') :=
    fun a s s' h1 => also_slot (fun a s s' => .bind _ (h1 a.instrument s s') fun _ _ h => .pure h) a s s'
  unfold PanelHead.putSlots
  refine .bind _ (slot h.counter s s' fun i s s' => also_keeping s s' (.pure ((AddsSame.refl _ _).push _ _))) ?_
  rintro ⟨a, s₁⟩ ⟨a', s₁'⟩ h1
  refine .bind _ (also_slot (fun a s s' => .bind _ (also_gauge s s' hf a.gauge) fun _ _ h => .pure h) h.gauge s₁ s₁') ?_
  rintro ⟨b, s₂⟩ ⟨b', s₂'⟩ h2
  refine .bind _ (slot h.meter s₂ s₂' fun i s s' => also_meter s s' hf i) ?_
  rintro ⟨c, s₃⟩ ⟨c', s₃'⟩ h3
  refine .bind _ (slot h.histogram s₃ s₃' fun i s s' => also_keeping s s' (also_histogram s s' hf i)) ?_
  rintro ⟨d, s₄⟩ ⟨d', s₄'⟩ h4
  exact .pure ⟨rfl, rfl, ((h1.andThen h2).andThen h3).andThen h4⟩

variable [Custom σ L]

theorem handlePanels_eq [DecidableEq L] (o : Observation L) (ps : List (Panel σ L)) : handlePanels o ps = handleAll (Panel.handle o) ps := by
  induction ps with
  | nil => rw [handlePanels, handleAll]
  | cons p ps ih => rw [handlePanels, handleAll, ih]

theorem handleHandlers_eq [DecidableEq L] (o : Observation L) (ps : List (Handler σ L)) :
    handleHandlers o ps = handleAll (Handler.handle o) ps := by
  induction ps with
  | nil => rw [handleHandlers, handleAll]
  | cons p ps ih => rw [handleHandlers, handleAll, ih]

theorem handleCockpits_eq [DecidableEq L] (o : Observation L) (ps : List (Cockpit σ L)) :
    handleCockpits o ps = handleAll (fun c => c.handle o) ps := by
  induction ps with
  | nil => rw [handleCockpits, handleAll]
  | cons p ps ih => rw [handleCockpits, handleAll, ih]

theorem putPanels_eq (d : Bool) (ps : List (Panel σ L)) (s : Snapshot) : putPanels d ps s = putAll (Panel.putSnapshot d) ps s := by
  induction ps generalizing s with
  | nil => rw [putPanels, putAll]
  | cons p ps ih => simp only [putPanels, putAll, ih]

theorem putHandlers_eq (d : Bool) (ps : List (Handler σ L)) (s : Snapshot) : putHandlers d ps s = putAll (Handler.putSnapshot d) ps s := by
  induction ps generalizing s with
  | nil => rw [putHandlers, putAll]
  | cons p ps ih => simp only [putHandlers, putAll, ih]

theorem putSnapshooters_eq (d : Bool) (ps : List (Snapshooter σ L)) (s : Snapshot) :
    putSnapshooters d ps s = putAll (Snapshooter.putSnapshot d) ps s := by
  induction ps generalizing s with
  | nil => rw [putSnapshooters, putAll]
  | cons p ps ih => simp only [putSnapshooters, putAll, ih]

theorem putCockpits_eq [DecidableEq L] (d : Bool) (ps : List (Cockpit σ L)) (s : Snapshot) :
    putCockpits d ps s = putAll (fun c s => c.putSnapshot s d) ps s := by
  induction ps generalizing s with
  | nil => rw [putCockpits, putAll]
  | cons p ps ih => simp only [putCockpits, putAll, ih]

/-! ## The place for the first instrument of a kind -/

theorem handleMapped [DecidableEq L] {I : Type} [IsInstrument I] {wrap : I → Instrument σ}
    (hw : ∀ i u, Instrument.update L (wrap i) u = (fun r => (wrap r.1, r.2)) <$> IsInstrument.update i u) (a : InstrumentAdapter L I)
    (o : Observation L) :
    (Handler.instrument (a.map wrap) : Handler σ L).handle o =
      (fun r => (Handler.instrument (r.1.map wrap), r.2)) <$> a.handle IsInstrument.update o := by
  rw [Handler.handle]
  unfold InstrumentAdapter.handle InstrumentAdapter.map
  dsimp only
  split
  · rw [hw]
    simp only [map_bind, bind_map_left, bind_assoc, pure_bind, map_pure]
  · simp only [pure_bind, map_pure]

theorem putMapped {I : Type} [IsInstrument I] {wrap : I → Instrument σ}
    (hw : ∀ i s d, Instrument.putSnapshot L (wrap i) s d = (fun r => (wrap r.1, r.2)) <$> IsInstrument.putSnapshot i s d)
    (a : InstrumentAdapter L I) (s : Snapshot) (d : Bool) :
    (Handler.instrument (a.map wrap) : Handler σ L).putSnapshot d s =
      (fun r => (Handler.instrument (r.1.map wrap), r.2)) <$> a.putSnapshot IsInstrument.putSnapshot s d := by
  rw [Handler.putSnapshot]
  unfold InstrumentAdapter.putSnapshot InstrumentAdapter.map
  simp only [hw, map_bind, bind_map_left, bind_assoc, pure_bind, map_pure]

section Place
variable [DecidableEq L] (hf : Frozen e t) (o : Observation L)
include hf

theorem PanelHead.Gives.handle {h h' : PanelHead L} {x : Handler σ L} (g : h.Gives x h') {ps ps' : List (Panel σ L)}
    {hs hs' : List (Handler σ L)} {ss ss' : List (Snapshooter σ L)} (h2 : PanelsReordered ps ps') (h3 : HandlersReordered hs hs')
    (h4 : SnapshootersReordered ss ss') (hp : HandlesAs e PanelsReordered (handlePanels o ps) (handlePanels o ps'))
    (hh : HandlesAs e HandlersReordered (handleHandlers o hs) (handleHandlers o hs')) :
    HandlesAs e Panel.Reordered ((Panel.mk h ps hs ss).handle o) ((Panel.mk h' ps' (x :: hs') ss').handle o) := by
  have sc := sync_slot (e := e) (fun a : InstrumentAdapter L Counter => sync_adapter sync_counterUpdate a o)
  have sg := sync_slot (e := e) (fun a : GaugeAdapter L => sync_gaugeAdapter hf a o)
  have sm := sync_slot (e := e) (fun a : InstrumentAdapter L Meter => sync_adapter (fun i u => sync_meterUpdate hf i u) a o)
  have sh := sync_slot (e := e) (fun a : InstrumentAdapter L Histogram => sync_adapter (fun i u => sync_histogramUpdate hf i u) a o)
  rw [Panel.handle, Panel.handle]
  cases g with
  | counter h a =>
    refine .ite ?_ (.pure ⟨.place (.counter h a) h2 h3 h4, rfl⟩)
    let y := fun ps : List (Panel σ L) => (do
      let gauge ← handleSlot (·.handle o) h.gauge
      let meter ← handleSlot (·.handle IsInstrument.update o) h.meter
      let histogram ← handleSlot (·.handle IsInstrument.update o) h.histogram
      let panels ← handlePanels o ps
      pure (gauge, meter, histogram, panels) : M _)
    have e1 : (do
        let (h, n₁) ← PanelHead.handle { h with counter := some a } o
        let (ps, n₂) ← handlePanels o ps
        let (hs, n₃) ← handleHandlers o hs
        return (Panel.mk h ps hs ss, n₁ + n₂ + n₃)) =
      (a.handle IsInstrument.update o >>= fun a => y ps >>= fun b => handleHandlers o hs >>=
        fun c => pure (Panel.mk { h with counter := some a.1, gauge := b.1.1, meter := b.2.1.1, histogram := b.2.2.1.1 } b.2.2.2.1 c.1 ss, a.2 + b.1.2 + b.2.1.2 + b.2.2.1.2 + b.2.2.2.2 + c.2)) := by
      simp only [PanelHead.handle, handleSlot, bind_assoc, pure_bind, y]
    have e2 : (do
        let (h, n₁) ← PanelHead.handle { h with counter := none } o
        let (ps, n₂) ← handlePanels o ps'
        let (hs, n₃) ← handleHandlers o (.instrument (a.map .counter) :: hs')
        return (Panel.mk h ps hs ss', n₁ + n₂ + n₃)) =
      (y ps' >>= fun b => a.handle IsInstrument.update o >>= fun a => handleHandlers o hs' >>=
        fun c => pure (Panel.mk { h with counter := none, gauge := b.1.1, meter := b.2.1.1, histogram := b.2.2.1.1 } b.2.2.2.1 (.instrument (a.1.map .counter) :: c.1) ss', 0 + b.1.2 + b.2.1.2 + b.2.2.1.2 + b.2.2.2.2 + (a.2 + c.2))) := by
      simp only [PanelHead.handle, handleSlot, handleHandlers, handleMapped (wrap := Instrument.counter) (fun _ _ => rfl), bind_assoc, pure_bind, bind_map_left, y]
    rw [e1, e2]
    have hy : M.Sync e (fun b b' => b.1 = b'.1 ∧ b.2.1 = b'.2.1 ∧ b.2.2.1 = b'.2.2.1 ∧ PanelsReordered b.2.2.2.1 b'.2.2.2.1 ∧ b.2.2.2.2 = b'.2.2.2.2) (y ps) (y ps') :=
      .bindEq (sg h.gauge) fun _ => .bindEq (sm h.meter) fun _ => .bindEq (sh h.histogram) fun _ => .bind _ hp fun _ _ hb => .pure ⟨rfl, rfl, rfl, hb.1, hb.2⟩
    skip
    refine .comm (sync_adapter sync_counterUpdate a o) hy ?_
    rintro a _ b b' rfl hb
    obtain ⟨e0, e1, e2, hb1, hb2⟩ := hb
    refine .bind _ hh fun c c' hc => .pure ⟨?_, ?_⟩
    · rw [e0, e1, e2]
      exact .place (.counter { h with gauge := b'.1.1, meter := b'.2.1.1, histogram := b'.2.2.1.1 } a.1) hb1 hc.1 h4
    · rw [e0, e1, e2, hb2, hc.2]; omega
  | gauge h a =>
    refine .ite ?_ (.pure ⟨.place (.gauge h a) h2 h3 h4, rfl⟩)
    let y := fun ps : List (Panel σ L) => (do
      let meter ← handleSlot (·.handle IsInstrument.update o) h.meter
      let histogram ← handleSlot (·.handle IsInstrument.update o) h.histogram
      let panels ← handlePanels o ps
      pure (meter, histogram, panels) : M _)
    have e1 : (do
        let (h, n₁) ← PanelHead.handle { h with gauge := some a } o
        let (ps, n₂) ← handlePanels o ps
        let (hs, n₃) ← handleHandlers o hs
        return (Panel.mk h ps hs ss, n₁ + n₂ + n₃)) =
      (handleSlot (·.handle IsInstrument.update o) h.counter >>= fun counter => a.handle o >>= fun a => y ps >>= fun b => handleHandlers o hs >>=
        fun c => pure (Panel.mk { h with gauge := some a.1, counter := counter.1, meter := b.1.1, histogram := b.2.1.1 } b.2.2.1 c.1 ss, counter.2 + a.2 + b.1.2 + b.2.1.2 + b.2.2.2 + c.2)) := by
      simp only [PanelHead.handle, handleSlot, bind_assoc, pure_bind, y]
    have e2 : (do
        let (h, n₁) ← PanelHead.handle { h with gauge := none } o
        let (ps, n₂) ← handlePanels o ps'
        let (hs, n₃) ← handleHandlers o (.gauge a :: hs')
        return (Panel.mk h ps hs ss', n₁ + n₂ + n₃)) =
      (handleSlot (·.handle IsInstrument.update o) h.counter >>= fun counter => y ps' >>= fun b => a.handle o >>= fun a => handleHandlers o hs' >>=
        fun c => pure (Panel.mk { h with gauge := none, counter := counter.1, meter := b.1.1, histogram := b.2.1.1 } b.2.2.1 (.gauge a.1 :: c.1) ss', counter.2 + 0 + b.1.2 + b.2.1.2 + b.2.2.2 + (a.2 + c.2))) := by
      simp only [PanelHead.handle, handleSlot, handleHandlers, Handler.handle, bind_assoc, pure_bind, bind_map_left, y]
    rw [e1, e2]
    have hy : M.Sync e (fun b b' => b.1 = b'.1 ∧ b.2.1 = b'.2.1 ∧ PanelsReordered b.2.2.1 b'.2.2.1 ∧ b.2.2.2 = b'.2.2.2) (y ps) (y ps') :=
      .bindEq (sm h.meter) fun _ => .bindEq (sh h.histogram) fun _ => .bind _ hp fun _ _ hb => .pure ⟨rfl, rfl, hb.1, hb.2⟩
    refine .bindEq (sc h.counter) fun counter => ?_
    refine .comm (sync_gaugeAdapter hf a o) hy ?_
    rintro a _ b b' rfl hb
    obtain ⟨e0, e1, hb1, hb2⟩ := hb
    refine .bind _ hh fun c c' hc => .pure ⟨?_, ?_⟩
    · rw [e0, e1]
      exact .place (.gauge { h with counter := counter.1, meter := b'.1.1, histogram := b'.2.1.1 } a.1) hb1 hc.1 h4
    · rw [e0, e1, hb2, hc.2]; omega
  | meter h a =>
    refine .ite ?_ (.pure ⟨.place (.meter h a) h2 h3 h4, rfl⟩)
    let y := fun ps : List (Panel σ L) => (do
      let histogram ← handleSlot (·.handle IsInstrument.update o) h.histogram
      let panels ← handlePanels o ps
      pure (histogram, panels) : M _)
    have e1 : (do
        let (h, n₁) ← PanelHead.handle { h with meter := some a } o
        let (ps, n₂) ← handlePanels o ps
        let (hs, n₃) ← handleHandlers o hs
        return (Panel.mk h ps hs ss, n₁ + n₂ + n₃)) =
      (handleSlot (·.handle IsInstrument.update o) h.counter >>= fun counter => handleSlot (·.handle o) h.gauge >>= fun gauge => a.handle IsInstrument.update o >>= fun a => y ps >>= fun b => handleHandlers o hs >>=
        fun c => pure (Panel.mk { h with meter := some a.1, counter := counter.1, gauge := gauge.1, histogram := b.1.1 } b.2.1 c.1 ss, counter.2 + gauge.2 + a.2 + b.1.2 + b.2.2 + c.2)) := by
      simp only [PanelHead.handle, handleSlot, bind_assoc, pure_bind, y]
    have e2 : (do
        let (h, n₁) ← PanelHead.handle { h with meter := none } o
        let (ps, n₂) ← handlePanels o ps'
        let (hs, n₃) ← handleHandlers o (.instrument (a.map .meter) :: hs')
        return (Panel.mk h ps hs ss', n₁ + n₂ + n₃)) =
      (handleSlot (·.handle IsInstrument.update o) h.counter >>= fun counter => handleSlot (·.handle o) h.gauge >>= fun gauge => y ps' >>= fun b => a.handle IsInstrument.update o >>= fun a => handleHandlers o hs' >>=
        fun c => pure (Panel.mk { h with meter := none, counter := counter.1, gauge := gauge.1, histogram := b.1.1 } b.2.1 (.instrument (a.1.map .meter) :: c.1) ss', counter.2 + gauge.2 + 0 + b.1.2 + b.2.2 + (a.2 + c.2))) := by
      simp only [PanelHead.handle, handleSlot, handleHandlers, handleMapped (wrap := Instrument.meter) (fun _ _ => rfl), bind_assoc, pure_bind, bind_map_left, y]
    rw [e1, e2]
    have hy : M.Sync e (fun b b' => b.1 = b'.1 ∧ PanelsReordered b.2.1 b'.2.1 ∧ b.2.2 = b'.2.2) (y ps) (y ps') :=
      .bindEq (sh h.histogram) fun _ => .bind _ hp fun _ _ hb => .pure ⟨rfl, hb.1, hb.2⟩
    refine .bindEq (sc h.counter) fun counter => .bindEq (sg h.gauge) fun gauge => ?_
    refine .comm (sync_adapter (fun i u => sync_meterUpdate hf i u) a o) hy ?_
    rintro a _ b b' rfl hb
    obtain ⟨e0, hb1, hb2⟩ := hb
    refine .bind _ hh fun c c' hc => .pure ⟨?_, ?_⟩
    · rw [e0]
      exact .place (.meter { h with counter := counter.1, gauge := gauge.1, histogram := b'.1.1 } a.1) hb1 hc.1 h4
    · rw [e0, hb2, hc.2]; omega
  | histogram h a =>
    refine .ite ?_ (.pure ⟨.place (.histogram h a) h2 h3 h4, rfl⟩)
    let y := fun ps : List (Panel σ L) => (do
      let panels ← handlePanels o ps
      pure (panels) : M _)
    have e1 : (do
        let (h, n₁) ← PanelHead.handle { h with histogram := some a } o
        let (ps, n₂) ← handlePanels o ps
        let (hs, n₃) ← handleHandlers o hs
        return (Panel.mk h ps hs ss, n₁ + n₂ + n₃)) =
      (handleSlot (·.handle IsInstrument.update o) h.counter >>= fun counter => handleSlot (·.handle o) h.gauge >>= fun gauge => handleSlot (·.handle IsInstrument.update o) h.meter >>= fun meter => a.handle IsInstrument.update o >>= fun a => y ps >>= fun b => handleHandlers o hs >>=
        fun c => pure (Panel.mk { h with histogram := some a.1, counter := counter.1, gauge := gauge.1, meter := meter.1 } b.1 c.1 ss, counter.2 + gauge.2 + meter.2 + a.2 + b.2 + c.2)) := by
      simp only [PanelHead.handle, handleSlot, bind_assoc, pure_bind, y]
    have e2 : (do
        let (h, n₁) ← PanelHead.handle { h with histogram := none } o
        let (ps, n₂) ← handlePanels o ps'
        let (hs, n₃) ← handleHandlers o (.instrument (a.map .histogram) :: hs')
        return (Panel.mk h ps hs ss', n₁ + n₂ + n₃)) =
      (handleSlot (·.handle IsInstrument.update o) h.counter >>= fun counter => handleSlot (·.handle o) h.gauge >>= fun gauge => handleSlot (·.handle IsInstrument.update o) h.meter >>= fun meter => y ps' >>= fun b => a.handle IsInstrument.update o >>= fun a => handleHandlers o hs' >>=
        fun c => pure (Panel.mk { h with histogram := none, counter := counter.1, gauge := gauge.1, meter := meter.1 } b.1 (.instrument (a.1.map .histogram) :: c.1) ss', counter.2 + gauge.2 + meter.2 + 0 + b.2 + (a.2 + c.2))) := by
      simp only [PanelHead.handle, handleSlot, handleHandlers, handleMapped (wrap := Instrument.histogram) (fun _ _ => rfl), bind_assoc, pure_bind, bind_map_left, y]
    rw [e1, e2]
    have hy : M.Sync e (fun b b' => PanelsReordered b.1 b'.1 ∧ b.2 = b'.2) (y ps) (y ps') :=
      hp
    refine .bindEq (sc h.counter) fun counter => .bindEq (sg h.gauge) fun gauge => .bindEq (sm h.meter) fun meter => ?_
    refine .comm (sync_adapter (fun i u => sync_histogramUpdate hf i u) a o) hy ?_
    rintro a _ b b' rfl hb
    obtain ⟨hb1, hb2⟩ := hb
    refine .bind _ hh fun c c' hc => .pure ⟨?_, ?_⟩
    · skip
      exact .place (.histogram { h with counter := counter.1, gauge := gauge.1, meter := meter.1 } a.1) hb1 hc.1 h4
    · rw [hb2, hc.2]; omega

end Place

/-- An instrument's place in a panel is as good as one among the handlers: what they put. -/
theorem PanelHead.Gives.put (hf : Frozen e t) {h h' : PanelHead L} {x : Handler σ L} (g : h.Gives x h') {ps ps' : List (Panel σ L)}
    {hs hs' : List (Handler σ L)} {ss ss' : List (Snapshooter σ L)}
    (hp : ∀ s s', PutsReordered e s s' (putPanels false ps s) (putPanels false ps' s'))
    (hq : ∀ s s', PutsReordered e s s' (putSnapshooters false ss s) (putSnapshooters false ss' s'))
    (hh : ∀ s s', PutsReordered e s s' (putHandlers false hs s) (putHandlers false hs' s')) (s s' : Snapshot) :
    PutsReordered e s s' ((Panel.mk h ps hs ss).putSnapshot false s) ((Panel.mk h' ps' (x :: hs') ss').putSnapshot false s') := by
  have slot : ∀ {I : Type} [IsInstrument I] (a : Option (InstrumentAdapter L I)) (s s' : Snapshot),
      (∀ (i : I) s s', PutsAlso e s s' (IsInstrument.putSnapshot i s false) (IsInstrument.putSnapshot i s' false)) →
      PutsReordered e s s' (putSlot (fun a s => a.putSnapshot IsInstrument.putSnapshot s false) a s)
        (putSlot (fun a s => a.putSnapshot IsInstrument.putSnapshot s false) a s') :=
    fun a s s' h1 => also_slot (fun a s s' => .bind _ (h1 a.instrument s s') fun _ _ h => .pure h) a s s'
  rw [Panel.putSnapshot, Panel.putSnapshot]
  cases g with
  | counter h a =>
    refine .bind _ (also_putFlags hf h.activity (levelFor h.name s) (levelFor h.name s')) ?_
    rintro ⟨g, l⟩ ⟨_, l'⟩ ⟨rfl, hl⟩
    have hl := AddsReordered.of_same hl
    refine .ite ?_ (.pure (.closeLevel _ hl))
    let x := fun s : Snapshot => a.putSnapshot IsInstrument.putSnapshot s false
    let y := fun (ps : List (Panel σ L)) (ss : List (Snapshooter σ L)) (l : Snapshot) => (do
      let gauge ← putSlot (fun a s => a.putSnapshot s false) h.gauge l
      let meter ← putSlot (fun a s => a.putSnapshot IsInstrument.putSnapshot s false) h.meter gauge.2
      let histogram ← putSlot (fun a s => a.putSnapshot IsInstrument.putSnapshot s false) h.histogram meter.2
      let panels ← putPanels false ps histogram.2
      let snaps ← putSnapshooters false ss panels.2
      pure ((gauge.1, meter.1, histogram.1, panels.1, snaps.1), snaps.2) : M (_ × Snapshot))
    have e1 : (do
        let (h, level) ← PanelHead.putSlots { h with counter := some a } l false
        let (ps, level) ← putPanels false ps level
        let (ss, level) ← putSnapshooters false ss level
        let (hs, level) ← putHandlers false hs level
        return (Panel.mk h ps hs ss, closeLevel h.name s level)) =
      (x l >>= fun a => y ps ss a.2 >>= fun b =>
        (fun (a : InstrumentAdapter L Counter) (b : _) (u : Snapshot) => putHandlers false hs u >>= fun c => pure (Panel.mk { h with counter := some a, gauge := b.1, meter := b.2.1, histogram := b.2.2.1 } b.2.2.2.1 c.1 b.2.2.2.2, closeLevel h.name s c.2)) a.1 b.1 b.2) := by
      simp only [PanelHead.putSlots, putSlot, bind_assoc, pure_bind, x, y]
    have e2 : (do
        let (h, level) ← PanelHead.putSlots { h with counter := none } l' false
        let (ps, level) ← putPanels false ps' level
        let (ss, level) ← putSnapshooters false ss' level
        let (hs, level) ← putHandlers false (.instrument (a.map .counter) :: hs') level
        return (Panel.mk h ps hs ss, closeLevel h.name s' level)) =
      (y ps' ss' l' >>= fun b => x b.2 >>= fun a =>
        (fun (a : InstrumentAdapter L Counter) (b : _) (u : Snapshot) => putHandlers false hs' u >>= fun c => pure (Panel.mk { h with counter := none, gauge := b.1, meter := b.2.1, histogram := b.2.2.1 } b.2.2.2.1 (.instrument (a.map .counter) :: c.1) b.2.2.2.2, closeLevel h.name s' c.2)) a.1 b.1 a.2) := by
      simp only [PanelHead.putSlots, putSlot, putHandlers, putMapped (wrap := Instrument.counter) (fun _ _ _ => rfl), bind_assoc, pure_bind, bind_map_left, x, y]
    have hx : ∀ s s', M.Sync e (fun r r' => AddsReordered s s' r.2 r'.2) (x s) (x s') := fun s s' =>
      .bind _ ((fun i s s' => also_keeping s s' (.pure ((AddsSame.refl _ _).push _ _))) a.instrument s s') fun _ _ h => .pure (.of_same h)
    have hy : ∀ u u', M.Sync e (fun r r' => AddsReordered u u' r.2 r'.2) (y ps ss u) (y ps' ss' u') := by
      intro u u'
      refine .bind _ (also_slot (fun a s s' => .bind _ (also_gauge s s' hf a.gauge) fun _ _ h => .pure h) h.gauge u u') ?_
      rintro ⟨r0, u0⟩ ⟨r0', u0'⟩ l0
      refine .bind _ (slot h.meter u0 u0' fun i s s' => also_meter s s' hf i) ?_
      rintro ⟨r1, u1⟩ ⟨r1', u1'⟩ l1
      refine .bind _ (slot h.histogram u1 u1' fun i s s' => also_keeping s s' (also_histogram s s' hf i)) ?_
      rintro ⟨r2, u2⟩ ⟨r2', u2'⟩ l2
      refine .bind _ (hp u2 u2') ?_
      rintro ⟨p, v⟩ ⟨p', v'⟩ lp
      refine .bind _ (hq v v') ?_
      rintro ⟨q, w⟩ ⟨q', w'⟩ lq
      exact .pure (((((l0).andThen l1).andThen l2).andThen lp).andThen lq)
    refine Eq.mpr (congrArg₂ (M.Sync e fun r r' : Panel σ L × Snapshot => AddsReordered s s' r.2 r'.2) e1 e2) ?_
    refine PutsReordered.comm hx hy (f := fun (a : InstrumentAdapter L Counter) (b : _) (u : Snapshot) => putHandlers false hs u >>= fun c => pure (Panel.mk { h with counter := some a, gauge := b.1, meter := b.2.1, histogram := b.2.2.1 } b.2.2.2.1 c.1 b.2.2.2.2, closeLevel h.name s c.2)) (g := fun (a : InstrumentAdapter L Counter) (b : _) (u : Snapshot) => putHandlers false hs' u >>= fun c => pure (Panel.mk { h with counter := none, gauge := b.1, meter := b.2.1, histogram := b.2.2.1 } b.2.2.2.1 (.instrument (a.map .counter) :: c.1) b.2.2.2.2, closeLevel h.name s' c.2)) ?_
    intro _ _ _ _ u u' hu
    refine .bind _ (hh u u') ?_
    rintro ⟨c, v⟩ ⟨c', v'⟩ lc
    exact .pure (.closeLevel _ (((hl).andThen hu).andThen lc))
  | gauge h a =>
    refine .bind _ (also_putFlags hf h.activity (levelFor h.name s) (levelFor h.name s')) ?_
    rintro ⟨g, l⟩ ⟨_, l'⟩ ⟨rfl, hl⟩
    have hl := AddsReordered.of_same hl
    refine .ite ?_ (.pure (.closeLevel _ hl))
    let x := fun s : Snapshot => a.putSnapshot s false
    let y := fun (ps : List (Panel σ L)) (ss : List (Snapshooter σ L)) (l : Snapshot) => (do
      let meter ← putSlot (fun a s => a.putSnapshot IsInstrument.putSnapshot s false) h.meter l
      let histogram ← putSlot (fun a s => a.putSnapshot IsInstrument.putSnapshot s false) h.histogram meter.2
      let panels ← putPanels false ps histogram.2
      let snaps ← putSnapshooters false ss panels.2
      pure ((meter.1, histogram.1, panels.1, snaps.1), snaps.2) : M (_ × Snapshot))
    have e1 : (do
        let (h, level) ← PanelHead.putSlots { h with gauge := some a } l false
        let (ps, level) ← putPanels false ps level
        let (ss, level) ← putSnapshooters false ss level
        let (hs, level) ← putHandlers false hs level
        return (Panel.mk h ps hs ss, closeLevel h.name s level)) =
      (putSlot (fun a s => a.putSnapshot IsInstrument.putSnapshot s false) h.counter l >>= fun counter => x counter.2 >>= fun a => y ps ss a.2 >>= fun b =>
        (fun (a : GaugeAdapter L) (b : _) (u : Snapshot) => putHandlers false hs u >>= fun c => pure (Panel.mk { h with gauge := some a, counter := counter.1, meter := b.1, histogram := b.2.1 } b.2.2.1 c.1 b.2.2.2, closeLevel h.name s c.2)) a.1 b.1 b.2) := by
      simp only [PanelHead.putSlots, putSlot, bind_assoc, pure_bind, x, y]
    have e2 : (do
        let (h, level) ← PanelHead.putSlots { h with gauge := none } l' false
        let (ps, level) ← putPanels false ps' level
        let (ss, level) ← putSnapshooters false ss' level
        let (hs, level) ← putHandlers false (.gauge a :: hs') level
        return (Panel.mk h ps hs ss, closeLevel h.name s' level)) =
      (putSlot (fun a s => a.putSnapshot IsInstrument.putSnapshot s false) h.counter l' >>= fun counter => y ps' ss' counter.2 >>= fun b => x b.2 >>= fun a =>
        (fun (a : GaugeAdapter L) (b : _) (u : Snapshot) => putHandlers false hs' u >>= fun c => pure (Panel.mk { h with gauge := none, counter := counter.1, meter := b.1, histogram := b.2.1 } b.2.2.1 (.gauge a :: c.1) b.2.2.2, closeLevel h.name s' c.2)) a.1 b.1 a.2) := by
      simp only [PanelHead.putSlots, putSlot, putHandlers, Handler.putSnapshot, bind_assoc, pure_bind, x, y]
    have hx : ∀ s s', M.Sync e (fun r r' => AddsReordered s s' r.2 r'.2) (x s) (x s') := fun s s' =>
      .bind _ (also_gauge s s' hf a.gauge) fun _ _ h => .pure (.of_same h)
    have hy : ∀ u u', M.Sync e (fun r r' => AddsReordered u u' r.2 r'.2) (y ps ss u) (y ps' ss' u') := by
      intro u u'
      refine .bind _ (slot h.meter u u' fun i s s' => also_meter s s' hf i) ?_
      rintro ⟨r0, u0⟩ ⟨r0', u0'⟩ l0
      refine .bind _ (slot h.histogram u0 u0' fun i s s' => also_keeping s s' (also_histogram s s' hf i)) ?_
      rintro ⟨r1, u1⟩ ⟨r1', u1'⟩ l1
      refine .bind _ (hp u1 u1') ?_
      rintro ⟨p, v⟩ ⟨p', v'⟩ lp
      refine .bind _ (hq v v') ?_
      rintro ⟨q, w⟩ ⟨q', w'⟩ lq
      exact .pure ((((l0).andThen l1).andThen lp).andThen lq)
    refine Eq.mpr (congrArg₂ (M.Sync e fun r r' : Panel σ L × Snapshot => AddsReordered s s' r.2 r'.2) e1 e2) ?_
    refine .bind _ (slot h.counter l l' fun i s s' => also_keeping s s' (.pure ((AddsSame.refl _ _).push _ _))) ?_
    rintro ⟨r0, u0⟩ ⟨r0', u0'⟩ l0
    refine PutsReordered.comm hx hy (f := fun (a : GaugeAdapter L) (b : _) (u : Snapshot) => putHandlers false hs u >>= fun c => pure (Panel.mk { h with gauge := some a, counter := r0, meter := b.1, histogram := b.2.1 } b.2.2.1 c.1 b.2.2.2, closeLevel h.name s c.2)) (g := fun (a : GaugeAdapter L) (b : _) (u : Snapshot) => putHandlers false hs' u >>= fun c => pure (Panel.mk { h with gauge := none, counter := r0', meter := b.1, histogram := b.2.1 } b.2.2.1 (.gauge a :: c.1) b.2.2.2, closeLevel h.name s' c.2)) ?_
    intro _ _ _ _ u u' hu
    refine .bind _ (hh u u') ?_
    rintro ⟨c, v⟩ ⟨c', v'⟩ lc
    exact .pure (.closeLevel _ ((((hl).andThen l0).andThen hu).andThen lc))
  | meter h a =>
    refine .bind _ (also_putFlags hf h.activity (levelFor h.name s) (levelFor h.name s')) ?_
    rintro ⟨g, l⟩ ⟨_, l'⟩ ⟨rfl, hl⟩
    have hl := AddsReordered.of_same hl
    refine .ite ?_ (.pure (.closeLevel _ hl))
    let x := fun s : Snapshot => a.putSnapshot IsInstrument.putSnapshot s false
    let y := fun (ps : List (Panel σ L)) (ss : List (Snapshooter σ L)) (l : Snapshot) => (do
      let histogram ← putSlot (fun a s => a.putSnapshot IsInstrument.putSnapshot s false) h.histogram l
      let panels ← putPanels false ps histogram.2
      let snaps ← putSnapshooters false ss panels.2
      pure ((histogram.1, panels.1, snaps.1), snaps.2) : M (_ × Snapshot))
    have e1 : (do
        let (h, level) ← PanelHead.putSlots { h with meter := some a } l false
        let (ps, level) ← putPanels false ps level
        let (ss, level) ← putSnapshooters false ss level
        let (hs, level) ← putHandlers false hs level
        return (Panel.mk h ps hs ss, closeLevel h.name s level)) =
      (putSlot (fun a s => a.putSnapshot IsInstrument.putSnapshot s false) h.counter l >>= fun counter => putSlot (fun a s => a.putSnapshot s false) h.gauge counter.2 >>= fun gauge => x gauge.2 >>= fun a => y ps ss a.2 >>= fun b =>
        (fun (a : InstrumentAdapter L Meter) (b : _) (u : Snapshot) => putHandlers false hs u >>= fun c => pure (Panel.mk { h with meter := some a, counter := counter.1, gauge := gauge.1, histogram := b.1 } b.2.1 c.1 b.2.2, closeLevel h.name s c.2)) a.1 b.1 b.2) := by
      simp only [PanelHead.putSlots, putSlot, bind_assoc, pure_bind, x, y]
    have e2 : (do
        let (h, level) ← PanelHead.putSlots { h with meter := none } l' false
        let (ps, level) ← putPanels false ps' level
        let (ss, level) ← putSnapshooters false ss' level
        let (hs, level) ← putHandlers false (.instrument (a.map .meter) :: hs') level
        return (Panel.mk h ps hs ss, closeLevel h.name s' level)) =
      (putSlot (fun a s => a.putSnapshot IsInstrument.putSnapshot s false) h.counter l' >>= fun counter => putSlot (fun a s => a.putSnapshot s false) h.gauge counter.2 >>= fun gauge => y ps' ss' gauge.2 >>= fun b => x b.2 >>= fun a =>
        (fun (a : InstrumentAdapter L Meter) (b : _) (u : Snapshot) => putHandlers false hs' u >>= fun c => pure (Panel.mk { h with meter := none, counter := counter.1, gauge := gauge.1, histogram := b.1 } b.2.1 (.instrument (a.map .meter) :: c.1) b.2.2, closeLevel h.name s' c.2)) a.1 b.1 a.2) := by
      simp only [PanelHead.putSlots, putSlot, putHandlers, putMapped (wrap := Instrument.meter) (fun _ _ _ => rfl), bind_assoc, pure_bind, bind_map_left, x, y]
    have hx : ∀ s s', M.Sync e (fun r r' => AddsReordered s s' r.2 r'.2) (x s) (x s') := fun s s' =>
      .bind _ ((fun i s s' => also_meter s s' hf i) a.instrument s s') fun _ _ h => .pure (.of_same h)
    have hy : ∀ u u', M.Sync e (fun r r' => AddsReordered u u' r.2 r'.2) (y ps ss u) (y ps' ss' u') := by
      intro u u'
      refine .bind _ (slot h.histogram u u' fun i s s' => also_keeping s s' (also_histogram s s' hf i)) ?_
      rintro ⟨r0, u0⟩ ⟨r0', u0'⟩ l0
      refine .bind _ (hp u0 u0') ?_
      rintro ⟨p, v⟩ ⟨p', v'⟩ lp
      refine .bind _ (hq v v') ?_
      rintro ⟨q, w⟩ ⟨q', w'⟩ lq
      exact .pure (((l0).andThen lp).andThen lq)
    refine Eq.mpr (congrArg₂ (M.Sync e fun r r' : Panel σ L × Snapshot => AddsReordered s s' r.2 r'.2) e1 e2) ?_
    refine .bind _ (slot h.counter l l' fun i s s' => also_keeping s s' (.pure ((AddsSame.refl _ _).push _ _))) ?_
    rintro ⟨r0, u0⟩ ⟨r0', u0'⟩ l0
    refine .bind _ (also_slot (fun a s s' => .bind _ (also_gauge s s' hf a.gauge) fun _ _ h => .pure h) h.gauge u0 u0') ?_
    rintro ⟨r1, u1⟩ ⟨r1', u1'⟩ l1
    refine PutsReordered.comm hx hy (f := fun (a : InstrumentAdapter L Meter) (b : _) (u : Snapshot) => putHandlers false hs u >>= fun c => pure (Panel.mk { h with meter := some a, counter := r0, gauge := r1, histogram := b.1 } b.2.1 c.1 b.2.2, closeLevel h.name s c.2)) (g := fun (a : InstrumentAdapter L Meter) (b : _) (u : Snapshot) => putHandlers false hs' u >>= fun c => pure (Panel.mk { h with meter := none, counter := r0', gauge := r1', histogram := b.1 } b.2.1 (.instrument (a.map .meter) :: c.1) b.2.2, closeLevel h.name s' c.2)) ?_
    intro _ _ _ _ u u' hu
    refine .bind _ (hh u u') ?_
    rintro ⟨c, v⟩ ⟨c', v'⟩ lc
    exact .pure (.closeLevel _ (((((hl).andThen l0).andThen l1).andThen hu).andThen lc))
  | histogram h a =>
    refine .bind _ (also_putFlags hf h.activity (levelFor h.name s) (levelFor h.name s')) ?_
    rintro ⟨g, l⟩ ⟨_, l'⟩ ⟨rfl, hl⟩
    have hl := AddsReordered.of_same hl
    refine .ite ?_ (.pure (.closeLevel _ hl))
    let x := fun s : Snapshot => a.putSnapshot IsInstrument.putSnapshot s false
    let y := fun (ps : List (Panel σ L)) (ss : List (Snapshooter σ L)) (l : Snapshot) => (do
      let panels ← putPanels false ps l
      let snaps ← putSnapshooters false ss panels.2
      pure ((panels.1, snaps.1), snaps.2) : M (_ × Snapshot))
    have e1 : (do
        let (h, level) ← PanelHead.putSlots { h with histogram := some a } l false
        let (ps, level) ← putPanels false ps level
        let (ss, level) ← putSnapshooters false ss level
        let (hs, level) ← putHandlers false hs level
        return (Panel.mk h ps hs ss, closeLevel h.name s level)) =
      (putSlot (fun a s => a.putSnapshot IsInstrument.putSnapshot s false) h.counter l >>= fun counter => putSlot (fun a s => a.putSnapshot s false) h.gauge counter.2 >>= fun gauge => putSlot (fun a s => a.putSnapshot IsInstrument.putSnapshot s false) h.meter gauge.2 >>= fun meter => x meter.2 >>= fun a => y ps ss a.2 >>= fun b =>
        (fun (a : InstrumentAdapter L Histogram) (b : _) (u : Snapshot) => putHandlers false hs u >>= fun c => pure (Panel.mk { h with histogram := some a, counter := counter.1, gauge := gauge.1, meter := meter.1 } b.1 c.1 b.2, closeLevel h.name s c.2)) a.1 b.1 b.2) := by
      simp only [PanelHead.putSlots, putSlot, bind_assoc, pure_bind, x, y]
    have e2 : (do
        let (h, level) ← PanelHead.putSlots { h with histogram := none } l' false
        let (ps, level) ← putPanels false ps' level
        let (ss, level) ← putSnapshooters false ss' level
        let (hs, level) ← putHandlers false (.instrument (a.map .histogram) :: hs') level
        return (Panel.mk h ps hs ss, closeLevel h.name s' level)) =
      (putSlot (fun a s => a.putSnapshot IsInstrument.putSnapshot s false) h.counter l' >>= fun counter => putSlot (fun a s => a.putSnapshot s false) h.gauge counter.2 >>= fun gauge => putSlot (fun a s => a.putSnapshot IsInstrument.putSnapshot s false) h.meter gauge.2 >>= fun meter => y ps' ss' meter.2 >>= fun b => x b.2 >>= fun a =>
        (fun (a : InstrumentAdapter L Histogram) (b : _) (u : Snapshot) => putHandlers false hs' u >>= fun c => pure (Panel.mk { h with histogram := none, counter := counter.1, gauge := gauge.1, meter := meter.1 } b.1 (.instrument (a.map .histogram) :: c.1) b.2, closeLevel h.name s' c.2)) a.1 b.1 a.2) := by
      simp only [PanelHead.putSlots, putSlot, putHandlers, putMapped (wrap := Instrument.histogram) (fun _ _ _ => rfl), bind_assoc, pure_bind, bind_map_left, x, y]
    have hx : ∀ s s', M.Sync e (fun r r' => AddsReordered s s' r.2 r'.2) (x s) (x s') := fun s s' =>
      .bind _ ((fun i s s' => also_keeping s s' (also_histogram s s' hf i)) a.instrument s s') fun _ _ h => .pure (.of_same h)
    have hy : ∀ u u', M.Sync e (fun r r' => AddsReordered u u' r.2 r'.2) (y ps ss u) (y ps' ss' u') := by
      intro u u'
      refine .bind _ (hp u u') ?_
      rintro ⟨p, v⟩ ⟨p', v'⟩ lp
      refine .bind _ (hq v v') ?_
      rintro ⟨q, w⟩ ⟨q', w'⟩ lq
      exact .pure ((lp).andThen lq)
    refine Eq.mpr (congrArg₂ (M.Sync e fun r r' : Panel σ L × Snapshot => AddsReordered s s' r.2 r'.2) e1 e2) ?_
    refine .bind _ (slot h.counter l l' fun i s s' => also_keeping s s' (.pure ((AddsSame.refl _ _).push _ _))) ?_
    rintro ⟨r0, u0⟩ ⟨r0', u0'⟩ l0
    refine .bind _ (also_slot (fun a s s' => .bind _ (also_gauge s s' hf a.gauge) fun _ _ h => .pure h) h.gauge u0 u0') ?_
    rintro ⟨r1, u1⟩ ⟨r1', u1'⟩ l1
    refine .bind _ (slot h.meter u1 u1' fun i s s' => also_meter s s' hf i) ?_
    rintro ⟨r2, u2⟩ ⟨r2', u2'⟩ l2
    refine PutsReordered.comm hx hy (f := fun (a : InstrumentAdapter L Histogram) (b : _) (u : Snapshot) => putHandlers false hs u >>= fun c => pure (Panel.mk { h with histogram := some a, counter := r0, gauge := r1, meter := r2 } b.1 c.1 b.2, closeLevel h.name s c.2)) (g := fun (a : InstrumentAdapter L Histogram) (b : _) (u : Snapshot) => putHandlers false hs' u >>= fun c => pure (Panel.mk { h with histogram := none, counter := r0', gauge := r1', meter := r2' } b.1 (.instrument (a.map .histogram) :: c.1) b.2, closeLevel h.name s' c.2)) ?_
    intro _ _ _ _ u u' hu
    refine .bind _ (hh u u') ?_
    rintro ⟨c, v⟩ ⟨c', v'⟩ lc
    exact .pure (.closeLevel _ ((((((hl).andThen l0).andThen l1).andThen l2).andThen hu).andThen lc))

/-! ## Panels and cockpits that only group -/

theorem PanelHead.Plain.handle [DecidableEq L] {g : PanelHead L} (hg : g.Plain) (o : Observation L) : g.handle o = pure (g, 0) := by
  obtain ⟨_, _, _, counter, gauge, meter, histogram, _⟩ := g
  obtain ⟨_, _, h1, h2, h3, h4⟩ := hg
  dsimp only at h1 h2 h3 h4
  subst h1 h2 h3 h4
  rfl

theorem PanelHead.Plain.putSlots {g : PanelHead L} (hg : g.Plain) (s : Snapshot) (d : Bool) : g.putSlots s d = pure (g, s) := by
  obtain ⟨_, _, _, counter, gauge, meter, histogram, _⟩ := g
  obtain ⟨_, _, h1, h2, h3, h4⟩ := hg
  dsimp only at h1 h2 h3 h4
  subst h1 h2 h3 h4
  rfl

theorem handle_group [DecidableEq L] {g : PanelHead L} (hg : g.Plain) (o : Observation L) (ha : g.labelFilter.accepts o.label = true)
    (ks : List (Handler σ L)) (ts : List (Snapshooter σ L)) :
    (Handler.panel (.mk g [] ks ts)).handle o = handleHandlers o ks >>= fun r => pure (.panel (.mk g [] r.1 ts), r.2) := by
  rw [Handler.handle, Panel.handle, if_pos ha, hg.handle]
  simp only [handlePanels, pure_bind, bind_assoc, Nat.zero_add]

theorem putFlags_unlimited {a : Activity} (h : a.maxInactivity = none) (s : Snapshot) : a.putFlags s = pure (true, s) := by
  rw [Activity.putFlags, h]

theorem put_group {g : PanelHead L} (hg : g.Plain) (ks : List (Handler σ L)) (ts : List (Snapshooter σ L)) (s : Snapshot) :
    (Handler.panel (.mk g [] ks ts)).putSnapshot false s =
      putSnapshooters false ts s >>= fun r => putHandlers false ks r.2 >>= fun r' => pure (.panel (.mk g [] r'.1 r.1), r'.2) := by
  rw [Handler.putSnapshot, Panel.putSnapshot]
  simp only [hg.name, levelFor, putDefaultDescriptives, Bool.false_eq_true, if_false, putFlags_unlimited hg.limit, pure_bind, if_true,
    hg.putSlots, putPanels, closeLevel, bind_assoc]

theorem handle_panels [DecidableEq L] (o : Observation L) (ps : List (Panel σ L)) :
    handleHandlers o (ps.map .panel) = handlePanels o ps >>= fun r => pure (r.1.map .panel, r.2) := by
  induction ps with
  | nil => simp only [List.map_nil, handleHandlers, handlePanels, pure_bind]
  | cons p ps ih =>
    simp only [List.map_cons, handleHandlers, handlePanels, Handler.handle, ih, pure_bind, bind_assoc]

theorem put_panels (ps : List (Panel σ L)) (s : Snapshot) :
    putHandlers (σ := σ) (L := L) false (ps.map .panel) s = putPanels false ps s >>= fun r => pure (r.1.map .panel, r.2) := by
  induction ps generalizing s with
  | nil => simp only [List.map_nil, putHandlers, putPanels, pure_bind]
  | cons p ps ih =>
    simp only [List.map_cons, putHandlers, putPanels, Handler.putSnapshot, ih, pure_bind, bind_assoc]

theorem put_cockpitGroup {g : CockpitHead} (hg : g.Plain) (qs : List (Panel σ L)) (ks : List (Handler σ L)) (s : Snapshot) :
    (Handler.cockpit g qs ks []).putSnapshot false s =
      putPanels false qs s >>= fun r => putHandlers false ks r.2 >>= fun r' => pure (.cockpit g r.1 r'.1 [], r'.2) := by
  rw [Handler.putSnapshot]
  simp only [hg.name, levelFor, putDefaultDescriptives, Bool.false_eq_true, if_false, putFlags_unlimited hg.limit, pure_bind, if_true,
    putSnapshooters, closeLevel]

theorem handleHandlers_append [DecidableEq L] (o : Observation L) (ps qs : List (Handler σ L)) :
    handleHandlers o (ps ++ qs) = handleHandlers o ps >>= fun a => handleHandlers o qs >>= fun b => pure (a.1 ++ b.1, a.2 + b.2) := by
  simp only [handleHandlers_eq, handleAll_append]

theorem handlePanels_append [DecidableEq L] (o : Observation L) (ps qs : List (Panel σ L)) :
    handlePanels o (ps ++ qs) = handlePanels o ps >>= fun a => handlePanels o qs >>= fun b => pure (a.1 ++ b.1, a.2 + b.2) := by
  simp only [handlePanels_eq, handleAll_append]

theorem putHandlers_append (d : Bool) (ps qs : List (Handler σ L)) (s : Snapshot) :
    putHandlers d (ps ++ qs) s = putHandlers d ps s >>= fun a => putHandlers d qs a.2 >>= fun b => pure (a.1 ++ b.1, b.2) := by
  simp only [putHandlers_eq, putAll_append]

theorem putSnapshooters_append (d : Bool) (ps qs : List (Snapshooter σ L)) (s : Snapshot) :
    putSnapshooters d (ps ++ qs) s = putSnapshooters d ps s >>= fun a => putSnapshooters d qs a.2 >>= fun b => pure (a.1 ++ b.1, b.2) := by
  simp only [putSnapshooters_eq, putAll_append]

theorem putPanels_append (d : Bool) (ps qs : List (Panel σ L)) (s : Snapshot) :
    putPanels d (ps ++ qs) s = putPanels d ps s >>= fun a => putPanels d qs a.2 >>= fun b => pure (a.1 ++ b.1, b.2) := by
  simp only [putPanels_eq, putAll_append]

section Handle
variable [DecidableEq L] (hc : StillAt σ L e) (hf : Frozen e t) (o : Observation L)
include hc hf

mutual
theorem Panel.Reordered.handle : ∀ {p p' : Panel σ L}, p.Reordered p' → HandlesAs e Panel.Reordered (p.handle o) (p'.handle o)
  | _, _, .mk h h2 h3 h4 => by
    rw [Panel.handle, Panel.handle]
    refine .ite (.bindEq (sync_panelHead hf h o) ?_) (.pure ⟨.mk h h2 h3 h4, rfl⟩)
    rintro ⟨a, n₁⟩
    refine .bind _ (PanelsReordered.handle h2) ?_
    rintro ⟨b, n₂⟩ ⟨b', m₂⟩ ⟨h2, l2⟩
    refine .bind _ (HandlersReordered.handle h3) ?_
    rintro ⟨c, n₃⟩ ⟨c', m₃⟩ ⟨h3, l3⟩
    refine .pure ⟨.mk a h2 h3 h4, ?_⟩
    dsimp only at l2 l3 ⊢
    omega
  | _, _, .place g h2 h3 h4 => g.handle hf o h2 h3 h4 (PanelsReordered.handle h2) (HandlersReordered.handle h3)
  | _, _, .handler h h1 h2 h3 h4 => by
    have l1 := Panel.Reordered.handle h1
    have l2 := PanelsReordered.handle h2
    have l3 := HandlersReordered.handle h3
    rw [Panel.handle, Panel.handle]
    refine .ite (.bindEq (sync_panelHead hf h o) ?_) (.pure ⟨.handler h h1 h2 h3 h4, rfl⟩)
    rintro ⟨a, n₁⟩
    simp only [handlePanels_append, handlePanels, handleHandlers, Handler.handle, bind_assoc, pure_bind]
    refine .bind _ l2 ?_
    rintro ⟨b, n₂⟩ ⟨b', _⟩ ⟨h2, rfl⟩
    refine .bind _ l1 ?_
    rintro ⟨c, n₃⟩ ⟨c', _⟩ ⟨h1, rfl⟩
    refine .bind _ l3 ?_
    rintro ⟨d, n₄⟩ ⟨d', _⟩ ⟨h3, rfl⟩
    refine .pure ⟨.handler a h1 h2 h3 h4, ?_⟩
    dsimp only
    omega
  | _, _, .ungroup (h := h) (g := g) hg hl h1 h2 h3 h4 h5 => by
    have l1 := PanelsReordered.handle h1
    have l2 := HandlersReordered.handle h2
    have l3 := HandlersReordered.handle h3
    rw [Panel.handle, Panel.handle]
    by_cases hacc : h.labelFilter.accepts o.label = true
    · have hacc' : g.labelFilter.accepts o.label = true := by
        rcases hl with hl | hl
        · rw [hl]; exact hacc
        · rw [hl]; rfl
      simp only [hacc, if_true, handleHandlers_append, handleHandlers, handle_group hg o hacc', bind_assoc, pure_bind]
      refine .bind (fun r r' => r = r' ∧ r.1.labelFilter = h.labelFilter) (sync_panelHead_filter hf h o) ?_
      rintro ⟨a, n₁⟩ ⟨_, _⟩ ⟨⟨⟩, ha⟩
      refine .bind _ l1 ?_
      rintro ⟨b, n₂⟩ ⟨b', _⟩ ⟨h1, rfl⟩
      refine .bind _ l2 ?_
      rintro ⟨c, n₃⟩ ⟨c', _⟩ ⟨h2, rfl⟩
      refine .bind _ l3 ?_
      rintro ⟨d, n₄⟩ ⟨d', _⟩ ⟨h3, rfl⟩
      refine .pure ⟨.ungroup hg ?_ h1 h2 h3 h4 h5, rfl⟩
      dsimp only at ha
      rw [ha]; exact hl
    · simp only [hacc, if_false]
      exact .pure ⟨.ungroup hg hl h1 h2 h3 h4 h5, rfl⟩
  | _, _, .symm h => (Panel.Reordered.handle h).symm.mono fun _ _ h => ⟨.symm h.1, h.2.symm⟩
  | _, _, .trans h1 h2 => (Panel.Reordered.handle h1).trans (Panel.Reordered.handle h2) fun _ _ _ a b => ⟨.trans a.1 b.1, a.2.trans b.2⟩
theorem PanelsReordered.handle : ∀ {ps ps' : List (Panel σ L)}, PanelsReordered ps ps' →
    HandlesAs e PanelsReordered (handlePanels o ps) (handlePanels o ps')
  | _, _, .nil => by rw [handlePanels]; exact .pure ⟨.nil, rfl⟩
  | _, _, .cons h1 h2 => by
    have l1 := Panel.Reordered.handle h1
    have l2 := PanelsReordered.handle h2
    rw [handlePanels_eq, handlePanels_eq] at l2 ⊢
    exact handleAll_cons l1 l2 .cons
  | _, _, .swap h1 h2 h3 => by
    have l1 := Panel.Reordered.handle h1
    have l2 := Panel.Reordered.handle h2
    have l3 := PanelsReordered.handle h3
    rw [handlePanels_eq, handlePanels_eq] at l3 ⊢
    exact handleAll_swap l1 l2 l3 .swap
  | _, _, .trans h1 h2 => (PanelsReordered.handle h1).trans (PanelsReordered.handle h2) fun _ _ _ a b => ⟨.trans a.1 b.1, a.2.trans b.2⟩
theorem Handler.Reordered.handle : ∀ {h h' : Handler σ L}, h.Reordered h' → HandlesAs e Handler.Reordered (h.handle o) (h'.handle o)
  | _, _, .instrument a => by
    rw [Handler.handle]
    exact .bindEq (sync_adapter (fun i u => sync_update hc hf i u) a o) fun _ => .pure ⟨.instrument _, rfl⟩
  | _, _, .gauge a => by
    rw [Handler.handle]
    exact .bindEq (sync_gaugeAdapter hf a o) fun _ => .pure ⟨.gauge _, rfl⟩
  | _, _, .panel h => by
    rw [Handler.handle, Handler.handle]
    exact .bind _ (Panel.Reordered.handle h) fun _ _ h => .pure ⟨.panel h.1, h.2⟩
  | _, _, .cockpit _ h1 h2 h3 => by
    rw [Handler.handle, Handler.handle]
    refine .bindEq hf.now fun now => ?_
    refine .bind _ (HandlersReordered.handle h2) ?_
    rintro ⟨a, n₁⟩ ⟨a', m₁⟩ ⟨h2, l2⟩
    refine .bind _ (PanelsReordered.handle h1) ?_
    rintro ⟨b, n₂⟩ ⟨b', m₂⟩ ⟨h1, l1⟩
    refine .pure ⟨.cockpit _ h1 h2 h3, ?_⟩
    dsimp only at l1 l2 ⊢
    omega
  | _, _, .custom s => by
    rw [Handler.handle]
    exact .bindEq (hc.handle s o) fun _ => .pure ⟨.custom _, rfl⟩
theorem HandlersReordered.handle : ∀ {hs hs' : List (Handler σ L)}, HandlersReordered hs hs' →
    HandlesAs e HandlersReordered (handleHandlers o hs) (handleHandlers o hs')
  | _, _, .nil => by rw [handleHandlers]; exact .pure ⟨.nil, rfl⟩
  | _, _, .cons h1 h2 => by
    have l1 := Handler.Reordered.handle h1
    have l2 := HandlersReordered.handle h2
    rw [handleHandlers_eq, handleHandlers_eq] at l2 ⊢
    exact handleAll_cons l1 l2 .cons
  | _, _, .swap h1 h2 h3 => by
    have l1 := Handler.Reordered.handle h1
    have l2 := Handler.Reordered.handle h2
    have l3 := HandlersReordered.handle h3
    rw [handleHandlers_eq, handleHandlers_eq] at l3 ⊢
    exact handleAll_swap l1 l2 l3 .swap
  | _, _, .panel (g := g) hg hl h1 h2 => by
    have l1 := HandlersReordered.handle h1
    have l2 := HandlersReordered.handle h2
    have hacc : g.labelFilter.accepts o.label = true := by rw [hl]; rfl
    simp only [handleHandlers_append, handleHandlers, handle_group hg o hacc, bind_assoc, pure_bind]
    refine .bind _ l1 ?_
    rintro ⟨c, n₃⟩ ⟨c', _⟩ ⟨h1, rfl⟩
    refine .bind _ l2 ?_
    rintro ⟨d, n₄⟩ ⟨d', _⟩ ⟨h2, rfl⟩
    exact .pure ⟨.panel hg hl h1 h2, rfl⟩
  | _, _, .cockpit hg h1 h2 h3 => by
    have l1 := PanelsReordered.handle h1
    have l2 := HandlersReordered.handle h2
    have l3 := HandlersReordered.handle h3
    simp only [handleHandlers_append, handle_panels, handleHandlers, Handler.handle, bind_assoc, pure_bind]
    refine .nowLeft fun now => ?_
    refine .bind _ l2 ?_
    rintro ⟨c, n₃⟩ ⟨c', _⟩ ⟨h2, rfl⟩
    refine .bind _ l1 ?_
    rintro ⟨b, n₂⟩ ⟨b', _⟩ ⟨h1, rfl⟩
    refine .bind _ l3 ?_
    rintro ⟨d, n₄⟩ ⟨d', _⟩ ⟨h3, rfl⟩
    refine .pure ⟨.cockpit ⟨hg.name, hg.limit⟩ h1 h2 h3, ?_⟩
    dsimp only
    omega
  | _, _, .symm h => (HandlersReordered.handle h).symm.mono fun _ _ h => ⟨.symm h.1, h.2.symm⟩
  | _, _, .trans h1 h2 => (HandlersReordered.handle h1).trans (HandlersReordered.handle h2) fun _ _ _ a b => ⟨.trans a.1 b.1, a.2.trans b.2⟩
end
end Handle

section Put
variable (hc : StillAt σ L e) (ha : CustomFrames σ L) (hf : Frozen e t)
include hc ha hf

mutual
theorem Panel.Reordered.put : ∀ {p p' : Panel σ L}, p.Reordered p' → ∀ (s s' : Snapshot),
    PutsReordered e s s' (p.putSnapshot false s) (p'.putSnapshot false s')
  | _, _, .mk h h2 h3 h4, s, s' => by
    rw [Panel.putSnapshot, Panel.putSnapshot]
    refine .bind _ (also_putFlags hf h.activity (levelFor h.name s) (levelFor h.name s')) ?_
    rintro ⟨g, l⟩ ⟨_, l'⟩ ⟨rfl, hl⟩
    have hl := AddsReordered.of_same hl
    refine .ite (.bind (fun r r' => r.1.name = h.name ∧ r'.1.name = h.name ∧ AddsReordered l l' r.2 r'.2) ?_ ?_) (.pure (.closeLevel _ hl))
    · exact also_panelHead hf h l l'
    · rintro ⟨a, s₁⟩ ⟨a', s₁'⟩ ⟨n1, n2, l1⟩
      refine .bind _ (PanelsReordered.put h2 s₁ s₁') ?_
      rintro ⟨b, s₂⟩ ⟨b', s₂'⟩ l2
      refine .bind _ (SnapshootersReordered.put h4 s₂ s₂') ?_
      rintro ⟨c, s₃⟩ ⟨c', s₃'⟩ l3
      refine .bind _ (HandlersReordered.put h3 s₃ s₃') ?_
      rintro ⟨d, s₄⟩ ⟨d', s₄'⟩ l4
      refine .pure ?_
      dsimp only at n1 n2 ⊢
      rw [n1, n2]
      exact .closeLevel _ ((((hl.andThen l1).andThen l2).andThen l3).andThen l4)
  | _, _, .place g h2 h3 h4, s, s' =>
    g.put hf (PanelsReordered.put h2) (SnapshootersReordered.put h4) (HandlersReordered.put h3) s s'
  | _, _, .handler (p := p) (p' := p') (ps := ps) (ps' := ps') (hs := hs) (hs' := hs') (ss := ss) (ss' := ss') h h1 h2 h3 h4, s, s' => by
    have l1 := Panel.Reordered.put h1
    have l2 := PanelsReordered.put h2
    have l3 := HandlersReordered.put h3
    have l4 := SnapshootersReordered.put h4
    rw [Panel.putSnapshot, Panel.putSnapshot]
    refine .bind _ (also_putFlags hf h.activity (levelFor h.name s) (levelFor h.name s')) ?_
    rintro ⟨g, l⟩ ⟨_, l'⟩ ⟨rfl, hl⟩
    have hl := AddsReordered.of_same hl
    refine .ite (.bind (fun r r' => r.1.name = h.name ∧ r'.1.name = h.name ∧ AddsReordered l l' r.2 r'.2) ?_ ?_) (.pure (.closeLevel _ hl))
    · exact also_panelHead hf h l l'
    · rintro ⟨a, s₁⟩ ⟨a', s₁'⟩ ⟨n1, n2, m1⟩
      simp only [putPanels_append, putPanels, putHandlers, Handler.putSnapshot, bind_assoc, pure_bind]
      refine .bind _ (l2 s₁ s₁') ?_
      rintro ⟨b, s₂⟩ ⟨b', s₂'⟩ m2
      refine PutsReordered.comm l1 l4
        (f := fun c d u => putHandlers false hs u >>= fun r => pure (Panel.mk a (b ++ [c]) r.1 d, closeLevel a.name s r.2))
        (g := fun c d u => putHandlers false hs' u >>= fun r => pure (Panel.mk a' b' (.panel c :: r.1) d, closeLevel a'.name s' r.2)) ?_
      intro c c' d d' u u' hu
      refine .bind _ (l3 u u') ?_
      rintro ⟨x, s₄⟩ ⟨x', s₄'⟩ m4
      refine .pure ?_
      dsimp only at n1 n2 ⊢
      rw [n1, n2]
      exact .closeLevel _ ((((hl.andThen m1).andThen m2).andThen hu).andThen m4)
  | _, _, .ungroup (h := h) hg hf' h1 h2 h3 h4 h5, s, s' => by
    have l1 := PanelsReordered.put h1
    have l2 := HandlersReordered.put h2
    have l3 := HandlersReordered.put h3
    have l4 := SnapshootersReordered.put h4
    have l5 := SnapshootersReordered.put h5
    rw [Panel.putSnapshot, Panel.putSnapshot]
    refine .bind _ (also_putFlags hf h.activity (levelFor h.name s) (levelFor h.name s')) ?_
    rintro ⟨g, l⟩ ⟨_, l'⟩ ⟨rfl, hl⟩
    have hl := AddsReordered.of_same hl
    refine .ite (.bind (fun r r' => r.1.name = h.name ∧ r'.1.name = h.name ∧ AddsReordered l l' r.2 r'.2) ?_ ?_) (.pure (.closeLevel _ hl))
    · exact also_panelHead hf h l l'
    · rintro ⟨a, s₁⟩ ⟨a', s₁'⟩ ⟨n1, n2, m1⟩
      simp only [putSnapshooters_append, putHandlers_append, putHandlers, put_group hg, bind_assoc, pure_bind]
      refine .bind _ (l1 s₁ s₁') ?_
      rintro ⟨b, s₂⟩ ⟨b', s₂'⟩ m2
      refine .bind _ (l4 s₂ s₂') ?_
      rintro ⟨c, s₃⟩ ⟨c', s₃'⟩ m3
      refine .bind _ (l5 s₃ s₃') ?_
      rintro ⟨d, s₄⟩ ⟨d', s₄'⟩ m4
      refine .bind _ (l2 s₄ s₄') ?_
      rintro ⟨x, s₅⟩ ⟨x', s₅'⟩ m5
      refine .bind _ (l3 s₅ s₅') ?_
      rintro ⟨y, s₆⟩ ⟨y', s₆'⟩ m6
      refine .pure ?_
      dsimp only at n1 n2 ⊢
      rw [n1, n2]
      exact .closeLevel _ ((((((hl.andThen m1).andThen m2).andThen m3).andThen m4).andThen m5).andThen m6)
  | _, _, .symm h, s, s' => (Panel.Reordered.put h s' s).symm.mono fun _ _ h => h.symm
  | _, _, .trans h1 h2, s, s' => puts_trans (Panel.Reordered.put h1 s s') (Panel.Reordered.put h2 s' s')
theorem PanelsReordered.put : ∀ {ps ps' : List (Panel σ L)}, PanelsReordered ps ps' → ∀ (s s' : Snapshot),
    PutsReordered e s s' (putPanels false ps s) (putPanels false ps' s')
  | _, _, .nil, s, s' => by rw [putPanels, putPanels]; exact .pure (.refl _ _)
  | _, _, .cons h1 h2, s, s' => by
    have l1 := Panel.Reordered.put h1
    have l2 := PanelsReordered.put h2
    simp only [putPanels_eq] at l2 ⊢
    exact putAll_cons (l1 s s') l2
  | _, _, .swap h1 h2 h3, s, s' => by
    have l1 := Panel.Reordered.put h1
    have l2 := Panel.Reordered.put h2
    have l3 := PanelsReordered.put h3
    simp only [putPanels_eq] at l3 ⊢
    exact putAll_swap l1 l2 l3
  | _, _, .trans h1 h2, s, s' => by
    have l1 := PanelsReordered.put h1
    have l2 := PanelsReordered.put h2
    simp only [putPanels_eq] at l1 l2 ⊢
    exact putAll_trans l1 l2
theorem Handler.Reordered.put : ∀ {h h' : Handler σ L}, h.Reordered h' → ∀ (s s' : Snapshot),
    PutsReordered e s s' (h.putSnapshot false s) (h'.putSnapshot false s')
  | _, _, .instrument a, s, s' => by
    rw [Handler.putSnapshot, Handler.putSnapshot]
    refine .bind (fun r r' => AddsSame s s' r.2 r'.2) ?_ fun _ _ h => .pure (.of_same h)
    exact .bind _ (also_put s s' hc ha hf a.instrument) fun _ _ h => .pure h
  | _, _, .gauge a, s, s' => by
    rw [Handler.putSnapshot, Handler.putSnapshot]
    refine .bind (fun r r' => AddsSame s s' r.2 r'.2) ?_ fun _ _ h => .pure (.of_same h)
    exact .bind _ (also_gauge s s' hf a.gauge) fun _ _ h => .pure h
  | _, _, .panel h, s, s' => by
    rw [Handler.putSnapshot, Handler.putSnapshot]
    exact .bind _ (Panel.Reordered.put h s s') fun _ _ h => .pure h
  | _, _, .cockpit h h1 h2 h3, s, s' => by
    rw [Handler.putSnapshot, Handler.putSnapshot]
    refine .bind _ (also_putFlags hf h.activity (levelFor h.name s) (levelFor h.name s')) ?_
    rintro ⟨g, l⟩ ⟨_, l'⟩ ⟨rfl, hl⟩
    have hl := AddsReordered.of_same hl
    refine .ite (.bind _ (PanelsReordered.put h1 l l') ?_) (.pure (.closeLevel _ hl))
    rintro ⟨b, s₂⟩ ⟨b', s₂'⟩ l2
    refine .bind _ (HandlersReordered.put h2 s₂ s₂') ?_
    rintro ⟨d, s₄⟩ ⟨d', s₄'⟩ l3
    refine .bind _ (SnapshootersReordered.put h3 s₄ s₄') ?_
    rintro ⟨c, s₃⟩ ⟨c', s₃'⟩ l4
    exact .pure (.closeLevel _ (((hl.andThen l2).andThen l3).andThen l4))
  | _, _, .custom x, s, s' => by
    rw [Handler.putSnapshot, Handler.putSnapshot]
    exact .bind _ (also_custom s s' hc ha x) fun _ _ h => .pure (.of_same h)
theorem HandlersReordered.put : ∀ {hs hs' : List (Handler σ L)}, HandlersReordered hs hs' → ∀ (s s' : Snapshot),
    PutsReordered e s s' (putHandlers false hs s) (putHandlers false hs' s')
  | _, _, .nil, s, s' => by rw [putHandlers, putHandlers]; exact .pure (.refl _ _)
  | _, _, .cons h1 h2, s, s' => by
    have l1 := Handler.Reordered.put h1
    have l2 := HandlersReordered.put h2
    simp only [putHandlers_eq] at l2 ⊢
    exact putAll_cons (l1 s s') l2
  | _, _, .swap h1 h2 h3, s, s' => by
    have l1 := Handler.Reordered.put h1
    have l2 := Handler.Reordered.put h2
    have l3 := HandlersReordered.put h3
    simp only [putHandlers_eq] at l3 ⊢
    exact putAll_swap l1 l2 l3
  | _, _, .panel hg _ h1 h2, s, s' => by
    have l1 := HandlersReordered.put h1
    have l2 := HandlersReordered.put h2
    simp only [putHandlers_append, putHandlers, put_group hg, putSnapshooters, bind_assoc, pure_bind]
    refine .bind _ (l1 s s') ?_
    rintro ⟨x, s₅⟩ ⟨x', s₅'⟩ m5
    refine .bind _ (l2 s₅ s₅') ?_
    rintro ⟨y, s₆⟩ ⟨y', s₆'⟩ m6
    exact .pure (m5.andThen m6)
  | _, _, .cockpit (g := g) (hs := hs) (hs' := hs') hg h1 h2 h3, s, s' => by
    have l1 := PanelsReordered.put h1
    have l2 := HandlersReordered.put h2
    have l3 := HandlersReordered.put h3
    simp only [putHandlers_append, put_panels, putHandlers, put_cockpitGroup hg, bind_assoc, pure_bind]
    refine PutsReordered.comm l1 l2
      (f := fun c d u => putHandlers false hs u >>= fun r => pure (.cockpit g c d [] :: r.1, r.2))
      (g := fun c d u => putHandlers false hs' u >>= fun r => pure (d ++ (c.map .panel ++ r.1), r.2)) ?_
    intro c c' d d' u u' hu
    refine .bind _ (l3 u u') ?_
    rintro ⟨x, s₄⟩ ⟨x', s₄'⟩ m4
    exact .pure (hu.andThen m4)
  | _, _, .symm h, s, s' => (HandlersReordered.put h s' s).symm.mono fun _ _ h => h.symm
  | _, _, .trans h1 h2, s, s' => by
    have l1 := HandlersReordered.put h1
    have l2 := HandlersReordered.put h2
    simp only [putHandlers_eq] at l1 l2 ⊢
    exact putAll_trans l1 l2
theorem Snapshooter.Reordered.put : ∀ {x x' : Snapshooter σ L}, x.Reordered x' → ∀ (s s' : Snapshot),
    PutsReordered e s s' (x.putSnapshot false s) (x'.putSnapshot false s')
  | _, _, .constant n ds v, s, s' => by
    rw [Snapshooter.putSnapshot, Snapshooter.putSnapshot]
    exact .pure (.push n v)
  | _, _, .polling n ds g h, s, s' => by
    rw [Snapshooter.putSnapshot, Snapshooter.putSnapshot]
    exact .ite (.bind _ (Snapshooter.Reordered.put h [] []) fun _ _ h => .pure (.pushGroup h n))
      (.bind _ (Snapshooter.Reordered.put h s s') fun _ _ h => .pure h)
  | _, _, .instrument i, s, s' => by
    rw [Snapshooter.putSnapshot, Snapshooter.putSnapshot]
    exact .bind _ (also_put s s' hc ha hf i) fun _ _ h => .pure (.of_same h)
  | _, _, .handler h, s, s' => by
    rw [Snapshooter.putSnapshot, Snapshooter.putSnapshot]
    exact .bind _ (Handler.Reordered.put h s s') fun _ _ h => .pure h
  | _, _, .custom x, s, s' => by
    rw [Snapshooter.putSnapshot, Snapshooter.putSnapshot]
    exact .bind _ (also_custom s s' hc ha x) fun _ _ h => .pure (.of_same h)
theorem SnapshootersReordered.put : ∀ {ss ss' : List (Snapshooter σ L)}, SnapshootersReordered ss ss' → ∀ (s s' : Snapshot),
    PutsReordered e s s' (putSnapshooters false ss s) (putSnapshooters false ss' s')
  | _, _, .nil, s, s' => by rw [putSnapshooters, putSnapshooters]; exact .pure (.refl _ _)
  | _, _, .cons h1 h2, s, s' => by
    have l1 := Snapshooter.Reordered.put h1
    have l2 := SnapshootersReordered.put h2
    simp only [putSnapshooters_eq] at l2 ⊢
    exact putAll_cons (l1 s s') l2
  | _, _, .swap h1 h2 h3, s, s' => by
    have l1 := Snapshooter.Reordered.put h1
    have l2 := Snapshooter.Reordered.put h2
    have l3 := SnapshootersReordered.put h3
    simp only [putSnapshooters_eq] at l3 ⊢
    exact putAll_swap l1 l2 l3
  | _, _, .trans h1 h2, s, s' => by
    have l1 := SnapshootersReordered.put h1
    have l2 := SnapshootersReordered.put h2
    simp only [putSnapshooters_eq] at l1 l2 ⊢
    exact putAll_trans l1 l2
end
end Put

end Metrix
