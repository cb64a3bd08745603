import Verif.Proof.Later

/-! # Everything happens alike at another time: panels, cockpits, processors and mounts -/

namespace Metrix
variable {σ L : Type} {c : Int} {w : σ → σ}

/-! ## Instruments and adapters -/

theorem later_keeping {I : Type} {f : I → Snapshot → Bool → M Snapshot} {T : I → I} (i : I) (into : Snapshot) (d : Bool)
    (h : M.Later c id (f i into d) (f (T i) into d)) : M.Later c (laterFst T) (keeping f i into d) (keeping f (T i) into d) := by
  unfold keeping
  exact .bind h fun _ => .pure rfl

theorem Instrument.later_update [Custom σ L] (hc : CustomLater σ L c w) (i : Instrument σ) (u : Update) :
    M.Later c (laterFst (Instrument.later c w)) (i.update L u) ((i.later c w).update L (u.later c)) := by
  cases i with
  | counter i => exact .wrap (i.later_update c u) fun _ => rfl
  | gauge i => exact .wrap (i.later_update c u) fun _ => rfl
  | meter i => exact .wrap (i.later_update c u) fun _ => rfl
  | valueMeter i => exact .wrap (i.later_update c u) fun _ => rfl
  | histogram i => exact .wrap (i.later_update c u) fun _ => rfl
  | flag i =>
    exact .wrap (S := id) (x := IsInstrument.update i u) (y := IsInstrument.update i (u.later c))
      (.pure (i.later_update c u)) fun _ => rfl
  | staircaseTimer i => exact .wrap (i.later_update c u) fun _ => rfl
  | occurrenceIndicator i => exact .wrap (i.later_update c u) fun _ => rfl
  | nonOccurrenceIndicator i => exact .wrap (i.later_update c u) fun _ => rfl
  | dataDisplay i => exact .wrap (i.later_update c u) fun _ => rfl
  | lastOccurrenceTracker i => exact .wrap (i.later_update c u) fun _ => rfl
  | custom s => exact .wrap (hc.update s u) fun _ => rfl

theorem Instrument.later_put [Custom σ L] (hc : CustomLater σ L c w) (i : Instrument σ) (into : Snapshot) (d : Bool) :
    M.Later c (laterFst (Instrument.later c w)) (i.putSnapshot L into d) ((i.later c w).putSnapshot L into d) := by
  cases i with
  | counter i => exact .wrap (S := id) (later_keeping i into d (.pure rfl)) fun _ => rfl
  | gauge i => exact .wrap (i.later_put c into d) fun _ => rfl
  | meter i => exact .wrap (i.later_put c into d) fun _ => rfl
  | valueMeter i => exact .wrap (i.later_put c into d) fun _ => rfl
  | histogram i => exact .wrap (later_keeping i into d (i.later_put c into d)) fun _ => rfl
  | flag i => exact .wrap (S := id) (later_keeping i into d (.pure rfl)) fun _ => rfl
  | staircaseTimer i => exact .wrap (later_keeping i into d (i.later_put c into d)) fun _ => rfl
  | occurrenceIndicator i => exact .wrap (later_keeping i into d (i.later_put c into d)) fun _ => rfl
  | nonOccurrenceIndicator i => exact .wrap (later_keeping i into d (i.later_put c into d)) fun _ => rfl
  | dataDisplay i => exact .wrap (later_keeping i into d (i.later_put c into d)) fun _ => rfl
  | lastOccurrenceTracker i => exact .wrap (later_keeping i into d (i.later_put c into d)) fun _ => rfl
  | custom s => exact .wrap (hc.put s into d) fun _ => rfl

theorem Observation.later_label (c : Int) (o : Observation L) : (o.later c).label = o.label := by cases o <;> rfl

theorem Observation.later_timestamp (c : Int) (o : Observation L) : (o.later c).timestamp = o.timestamp + c := by cases o <;> rfl

theorem Observation.later_isDelta (c : Int) (o : Observation L) : (o.later c).isDelta = o.isDelta := by cases o <;> rfl

theorem Observation.later_toUpdate (c : Int) (o : Observation L) : (o.later c).toUpdate = o.toUpdate.later c := by cases o <;> rfl

theorem Update.later_back (c : Int) (u : Update) : (u.later c).later (-c) = u := by
  cases u <;> simp only [Update.later, Int.add_neg_cancel_right]

theorem UpdateModifier.later_modify (c : Int) (m : UpdateModifier L) (l : L) (u : Update) :
    UpdateModifier.modify (UpdateModifier.later c m) l (u.later c) = (UpdateModifier.modify m l u).later c := by
  cases m with
  | none => rfl
  | some f => simp only [UpdateModifier.later, Option.map_some, UpdateModifier.modify, Update.later_back]

variable [DecidableEq L]

theorem InstrumentAdapter.later_handle {I : Type} {T : I → I} {update : I → Update → M (I × Nat)}
    (h : ∀ i u, M.Later c (laterFst T) (update i u) (update (T i) (u.later c))) (a : InstrumentAdapter L I) (o : Observation L) :
    M.Later c (laterFst (InstrumentAdapter.later c T)) (a.handle update o) ((a.later c T).handle update (o.later c)) := by
  unfold InstrumentAdapter.handle
  rw [o.later_label, o.later_toUpdate]
  refine .iteSame ?_ (.pure rfl)
  rw [show (a.later c T).modifyUpdate = UpdateModifier.later c a.modifyUpdate from rfl, UpdateModifier.later_modify]
  exact .bind (h _ _) fun _ => .pure rfl

omit [DecidableEq L] in
theorem InstrumentAdapter.later_put {I : Type} {T : I → I} {put : I → Snapshot → Bool → M (I × Snapshot)}
    (h : ∀ i into d, M.Later c (laterFst T) (put i into d) (put (T i) into d)) (a : InstrumentAdapter L I) (into : Snapshot) (d : Bool) :
    M.Later c (laterFst (InstrumentAdapter.later c T)) (a.putSnapshot put into d) ((a.later c T).putSnapshot put into d) := by
  unfold InstrumentAdapter.putSnapshot
  exact .bind (h _ _ _) fun _ => .pure rfl

omit [DecidableEq L] in
theorem GaugeAdapter.later_updateGauge (a : GaugeAdapter L) (u : Update) :
    M.Later c (laterFst (GaugeAdapter.later c)) (a.updateGauge u) ((a.later c).updateGauge (u.later c)) := by
  unfold GaugeAdapter.updateGauge
  exact .bind (a.gauge.later_update c u) fun _ => .pure rfl

theorem GaugeAdapter.later_handle (a : GaugeAdapter L) (o : Observation L) :
    M.Later c (laterFst (GaugeAdapter.later c)) (a.handle o) ((a.later c).handle (o.later c)) := by
  unfold GaugeAdapter.handle
  rw [show (a.later c).strategy = a.strategy from rfl, o.later_label, o.later_toUpdate, o.later_timestamp,
    show (a.later c).modifyUpdate = UpdateModifier.later c a.modifyUpdate from rfl, UpdateModifier.later_modify]
  cases a.strategy with
  | filter f => exact .iteSame (a.later_updateGauge _) (.pure rfl)
  | deltasOnly f =>
    refine .iteSame ?_ (.pure rfl)
    cases UpdateModifier.modify a.modifyUpdate o.label o.toUpdate with
    | withValue v t =>
      cases v with
      | changedBy d => exact a.later_updateGauge (.withValue (.changedBy d) t)
      | _ => exact .pure rfl
    | _ => exact .pure rfl
  | incDecOnLabels inc dec =>
    exact .iteSame (a.later_updateGauge (.withValue (.changedBy 1) o.timestamp))
      (.iteSame (a.later_updateGauge (.withValue (.changedBy (-1)) o.timestamp)) (.pure rfl))

omit [DecidableEq L] in
theorem GaugeAdapter.later_put (a : GaugeAdapter L) (into : Snapshot) (d : Bool) :
    M.Later c (laterFst (GaugeAdapter.later c)) (a.putSnapshot into d) ((a.later c).putSnapshot into d) := by
  unfold GaugeAdapter.putSnapshot
  exact .bind (a.gauge.later_put c into d) fun _ => .pure rfl

/-! ## Panels -/

omit [DecidableEq L] in
theorem later_handleSlot {A : Type} {T : A → A} {f g : A → M (A × Nat)} (h : ∀ a, M.Later c (laterFst T) (f a) (g (T a)))
    (a : Option A) : M.Later c (laterFst (Option.map T)) (handleSlot f a) (handleSlot g (a.map T)) := by
  cases a with
  | none => exact .pure rfl
  | some a => exact .bind (h a) fun _ => .pure rfl

omit [DecidableEq L] in
theorem later_putSlot {A : Type} {T : A → A} {f : A → Snapshot → M (A × Snapshot)}
    (h : ∀ a s, M.Later c (laterFst T) (f a s) (f (T a) s)) (a : Option A) (s : Snapshot) :
    M.Later c (laterFst (Option.map T)) (putSlot f a s) (putSlot f (a.map T) s) := by
  cases a with
  | none => exact .pure rfl
  | some a => exact .bind (h a s) fun _ => .pure rfl

theorem PanelHead.later_handle (h : PanelHead L) (o : Observation L) :
    M.Later c (laterFst (PanelHead.later c)) (h.handle o) ((h.later c).handle (o.later c)) := by
  unfold PanelHead.handle
  refine .bind (later_handleSlot (fun a => a.later_handle (fun i u => i.later_update c u) o) h.counter) fun r₁ => ?_
  refine .bind (later_handleSlot (fun a => a.later_handle o) h.gauge) fun r₂ => ?_
  refine .bind (later_handleSlot (fun a => a.later_handle (fun i u => i.later_update c u) o) h.meter) fun r₃ => ?_
  refine .bind (later_handleSlot (fun a => a.later_handle (fun i u => i.later_update c u) o) h.histogram) fun r₄ => ?_
  exact .pure rfl

omit [DecidableEq L] in
theorem PanelHead.later_putSlots (h : PanelHead L) (into : Snapshot) (d : Bool) :
    M.Later c (laterFst (PanelHead.later c)) (h.putSlots into d) ((h.later c).putSlots into d) := by
  unfold PanelHead.putSlots
  refine .bind (later_putSlot (fun a s => a.later_put (T := id) (fun i s d => later_keeping i s d (.pure rfl)) s d) h.counter into)
    fun r₁ => ?_
  refine .bind (later_putSlot (fun a s => a.later_put s d) h.gauge _) fun r₂ => ?_
  refine .bind (later_putSlot (fun a s => a.later_put (fun i s d => i.later_put c s d) s d) h.meter _) fun r₃ => ?_
  refine .bind (later_putSlot (fun a s => a.later_put (T := Histogram.later c) (fun i s d => later_keeping i s d (i.later_put c s d)) s d) h.histogram _)
    fun r₄ => ?_
  exact .pure rfl

omit [DecidableEq L] in
theorem Activity.later_putFlags (a : Activity) (into : Snapshot) : M.Later c id (a.putFlags into) ((a.later c).putFlags into) := by
  unfold Activity.putFlags
  rw [show (a.later c).maxInactivity = a.maxInactivity from rfl]
  cases a.maxInactivity with
  | none => exact .pure rfl
  | some d =>
    refine .iteSame (.bind .now fun now => ?_) (.pure rfl)
    rw [show sinceNs (now + c) (a.later c).lastActivity = sinceNs now a.lastActivity from sinceNs_later _ _ _]
    exact .iteSame (.pure rfl) (.pure rfl)

variable [Custom σ L]

mutual
theorem Panel.later_handle (hc : CustomLater σ L c w) (o : Observation L) : ∀ p : Panel σ L,
    M.Later c (laterFst (Panel.later c w)) (p.handle o) ((p.later c w).handle (o.later c))
  | .mk h ps hs ss => by
    rw [Panel.later, Panel.handle, Panel.handle, o.later_label]
    refine .iteSame ?_ (.pure (by rw [laterFst, Panel.later]))
    refine .bind (h.later_handle o) fun r₁ => .bind (later_handlePanels hc o ps) fun r₂ =>
      .bind (later_handleHandlers hc o hs) fun r₃ => .pure ?_
    simp only [laterFst, Panel.later]
theorem later_handlePanels (hc : CustomLater σ L c w) (o : Observation L) : ∀ ps : List (Panel σ L),
    M.Later c (laterFst (laterPanels c w)) (handlePanels o ps) (handlePanels (o.later c) (laterPanels c w ps))
  | [] => by rw [laterPanels, handlePanels, handlePanels]; exact .pure (by rw [laterFst, laterPanels])
  | p :: ps => by
    rw [laterPanels, handlePanels, handlePanels]
    refine .bind (Panel.later_handle hc o p) fun r₁ => .bind (later_handlePanels hc o ps) fun r₂ => .pure ?_
    simp only [laterFst, laterPanels]
theorem Handler.later_handle (hc : CustomLater σ L c w) (o : Observation L) : ∀ h : Handler σ L,
    M.Later c (laterFst (Handler.later c w)) (h.handle o) ((h.later c w).handle (o.later c))
  | .instrument a => by
    rw [Handler.later, Handler.handle, Handler.handle]
    exact .wrap (a.later_handle (fun i u => i.later_update hc u) o) fun _ => by rw [Handler.later]
  | .gauge a => by
    rw [Handler.later, Handler.handle, Handler.handle]
    exact .wrap (a.later_handle o) fun _ => by rw [Handler.later]
  | .panel p => by
    rw [Handler.later, Handler.handle, Handler.handle]
    exact .wrap (Panel.later_handle hc o p) fun _ => by rw [Handler.later]
  | .cockpit h ps hs ss => by
    rw [Handler.later, Handler.handle, Handler.handle]
    refine .bind .now fun now => .bind (later_handleHandlers hc o hs) fun r₁ => .bind (later_handlePanels hc o ps) fun r₂ => .pure ?_
    simp only [laterFst, Handler.later]; rfl
  | .custom s => by
    rw [Handler.later, Handler.handle, Handler.handle]
    exact .wrap (hc.handle s o) fun _ => by rw [Handler.later]
theorem later_handleHandlers (hc : CustomLater σ L c w) (o : Observation L) : ∀ hs : List (Handler σ L),
    M.Later c (laterFst (laterHandlers c w)) (handleHandlers o hs) (handleHandlers (o.later c) (laterHandlers c w hs))
  | [] => by rw [laterHandlers, handleHandlers, handleHandlers]; exact .pure (by rw [laterFst, laterHandlers])
  | h :: hs => by
    rw [laterHandlers, handleHandlers, handleHandlers]
    refine .bind (Handler.later_handle hc o h) fun r₁ => .bind (later_handleHandlers hc o hs) fun r₂ => .pure ?_
    simp only [laterFst, laterHandlers]
end

omit [DecidableEq L] in
mutual
theorem Panel.later_put (hc : CustomLater σ L c w) (d : Bool) : ∀ (p : Panel σ L) (into : Snapshot),
    M.Later c (laterFst (Panel.later c w)) (p.putSnapshot d into) ((p.later c w).putSnapshot d into)
  | .mk h ps hs ss, into => by
    rw [Panel.later, Panel.putSnapshot, Panel.putSnapshot]
    refine .bind (h.activity.later_putFlags _) fun r => .iteSame ?_ (.pure (by rw [laterFst, Panel.later]; rfl))
    refine .bind (h.later_putSlots _ d) fun r₁ => .bind (later_putPanels hc d ps _) fun r₂ =>
      .bind (later_putSnapshooters hc d ss _) fun r₃ => .bind (later_putHandlers hc d hs _) fun r₄ => .pure ?_
    simp only [laterFst, Panel.later]; rfl
theorem later_putPanels (hc : CustomLater σ L c w) (d : Bool) : ∀ (ps : List (Panel σ L)) (into : Snapshot),
    M.Later c (laterFst (laterPanels c w)) (putPanels d ps into) (putPanels d (laterPanels c w ps) into)
  | [], into => by rw [laterPanels, putPanels]; exact .pure (by rw [laterFst, laterPanels])
  | p :: ps, into => by
    rw [laterPanels, putPanels, putPanels]
    refine .bind (Panel.later_put hc d p into) fun r₁ => .bind (later_putPanels hc d ps _) fun r₂ => .pure ?_
    simp only [laterFst, laterPanels]
theorem Handler.later_put (hc : CustomLater σ L c w) (d : Bool) : ∀ (h : Handler σ L) (into : Snapshot),
    M.Later c (laterFst (Handler.later c w)) (h.putSnapshot d into) ((h.later c w).putSnapshot d into)
  | .instrument a, into => by
    rw [Handler.later, Handler.putSnapshot, Handler.putSnapshot]
    exact .wrap (a.later_put (fun i s d => i.later_put hc s d) into d) fun _ => by rw [Handler.later]
  | .gauge a, into => by
    rw [Handler.later, Handler.putSnapshot, Handler.putSnapshot]
    exact .wrap (a.later_put into d) fun _ => by rw [Handler.later]
  | .panel p, into => by
    rw [Handler.later, Handler.putSnapshot, Handler.putSnapshot]
    exact .wrap (Panel.later_put hc d p into) fun _ => by rw [Handler.later]
  | .cockpit h ps hs ss, into => by
    rw [Handler.later, Handler.putSnapshot, Handler.putSnapshot]
    refine .bind (h.activity.later_putFlags _) fun r => .iteSame ?_ (.pure (by rw [laterFst, Handler.later]; rfl))
    refine .bind (later_putPanels hc d ps _) fun r₂ => .bind (later_putHandlers hc d hs _) fun r₄ =>
      .bind (later_putSnapshooters hc d ss _) fun r₃ => .pure ?_
    simp only [laterFst, Handler.later]; rfl
  | .custom s, into => by
    rw [Handler.later, Handler.putSnapshot, Handler.putSnapshot]
    exact .wrap (hc.put s into d) fun _ => by rw [Handler.later]
theorem later_putHandlers (hc : CustomLater σ L c w) (d : Bool) : ∀ (hs : List (Handler σ L)) (into : Snapshot),
    M.Later c (laterFst (laterHandlers c w)) (putHandlers d hs into) (putHandlers d (laterHandlers c w hs) into)
  | [], into => by rw [laterHandlers, putHandlers]; exact .pure (by rw [laterFst, laterHandlers])
  | h :: hs, into => by
    rw [laterHandlers, putHandlers, putHandlers]
    refine .bind (Handler.later_put hc d h into) fun r₁ => .bind (later_putHandlers hc d hs _) fun r₂ => .pure ?_
    simp only [laterFst, laterHandlers]
theorem Snapshooter.later_put (hc : CustomLater σ L c w) (d : Bool) : ∀ (s : Snapshooter σ L) (into : Snapshot),
    M.Later c (laterFst (Snapshooter.later c w)) (s.putSnapshot d into) ((s.later c w).putSnapshot d into)
  | .constant n ds v, into => by
    rw [Snapshooter.later, Snapshooter.putSnapshot]
    exact .pure (by rw [laterFst, Snapshooter.later])
  | .polling n ds g s, into => by
    rw [Snapshooter.later, Snapshooter.putSnapshot, Snapshooter.putSnapshot]
    refine .iteSame (.bind (Snapshooter.later_put hc d s []) fun _ => .pure ?_) (.bind (Snapshooter.later_put hc d s _) fun _ => .pure ?_)
    · simp only [laterFst, Snapshooter.later]
    · simp only [laterFst, Snapshooter.later]
  | .instrument i, into => by
    rw [Snapshooter.later, Snapshooter.putSnapshot, Snapshooter.putSnapshot]
    exact .wrap (i.later_put hc into d) fun _ => by rw [Snapshooter.later]
  | .handler h, into => by
    rw [Snapshooter.later, Snapshooter.putSnapshot, Snapshooter.putSnapshot]
    exact .wrap (Handler.later_put hc d h into) fun _ => by rw [Snapshooter.later]
  | .custom s, into => by
    rw [Snapshooter.later, Snapshooter.putSnapshot, Snapshooter.putSnapshot]
    exact .wrap (hc.put s into d) fun _ => by rw [Snapshooter.later]
theorem later_putSnapshooters (hc : CustomLater σ L c w) (d : Bool) : ∀ (ss : List (Snapshooter σ L)) (into : Snapshot),
    M.Later c (laterFst (laterSnapshooters c w)) (putSnapshooters d ss into) (putSnapshooters d (laterSnapshooters c w ss) into)
  | [], into => by rw [laterSnapshooters, putSnapshooters]; exact .pure (by rw [laterFst, laterSnapshooters])
  | s :: ss, into => by
    rw [laterSnapshooters, putSnapshooters, putSnapshooters]
    refine .bind (Snapshooter.later_put hc d s into) fun r₁ => .bind (later_putSnapshooters hc d ss _) fun r₂ => .pure ?_
    simp only [laterFst, laterSnapshooters]
end

/-! ## Cockpits -/

omit [DecidableEq L] [Custom σ L] in
theorem laterPanels_eq (ps : List (Panel σ L)) : laterPanels c w ps = ps.map (·.later c w) := by
  induction ps with
  | nil => rw [laterPanels, List.map_nil]
  | cons p ps ih => rw [laterPanels, List.map_cons, ih]

omit [DecidableEq L] [Custom σ L] in
theorem laterHandlers_eq (hs : List (Handler σ L)) : laterHandlers c w hs = hs.map (·.later c w) := by
  induction hs with
  | nil => rw [laterHandlers, List.map_nil]
  | cons h hs ih => rw [laterHandlers, List.map_cons, ih]

omit [DecidableEq L] [Custom σ L] in
theorem laterSnapshooters_eq (ss : List (Snapshooter σ L)) : laterSnapshooters c w ss = ss.map (·.later c w) := by
  induction ss with
  | nil => rw [laterSnapshooters, List.map_nil]
  | cons s ss ih => rw [laterSnapshooters, List.map_cons, ih]

theorem later_panels_handle (hc : CustomLater σ L c w) (o : Observation L) (ps : List (Panel σ L)) :
    M.Later c (laterFst (List.map (Panel.later c w))) (handlePanels o ps) (handlePanels (o.later c) (ps.map (·.later c w))) := by
  have h := later_handlePanels hc o ps
  rwa [laterPanels_eq, show laterPanels c w = List.map (Panel.later (L := L) c w) from funext laterPanels_eq] at h

theorem later_handlers_handle (hc : CustomLater σ L c w) (o : Observation L) (hs : List (Handler σ L)) :
    M.Later c (laterFst (List.map (Handler.later c w))) (handleHandlers o hs) (handleHandlers (o.later c) (hs.map (·.later c w))) := by
  have h := later_handleHandlers hc o hs
  rwa [laterHandlers_eq, show laterHandlers c w = List.map (Handler.later (L := L) c w) from funext laterHandlers_eq] at h

omit [DecidableEq L] in
theorem later_panels_put (hc : CustomLater σ L c w) (d : Bool) (ps : List (Panel σ L)) (into : Snapshot) :
    M.Later c (laterFst (List.map (Panel.later c w))) (putPanels d ps into) (putPanels d (ps.map (·.later c w)) into) := by
  have h := later_putPanels hc d ps into
  rwa [laterPanels_eq, show laterPanels c w = List.map (Panel.later (L := L) c w) from funext laterPanels_eq] at h

omit [DecidableEq L] in
theorem later_handlers_put (hc : CustomLater σ L c w) (d : Bool) (hs : List (Handler σ L)) (into : Snapshot) :
    M.Later c (laterFst (List.map (Handler.later c w))) (putHandlers d hs into) (putHandlers d (hs.map (·.later c w)) into) := by
  have h := later_putHandlers hc d hs into
  rwa [laterHandlers_eq, show laterHandlers c w = List.map (Handler.later (L := L) c w) from funext laterHandlers_eq] at h

omit [DecidableEq L] in
theorem later_snapshooters_put (hc : CustomLater σ L c w) (d : Bool) (ss : List (Snapshooter σ L)) (into : Snapshot) :
    M.Later c (laterFst (List.map (Snapshooter.later c w))) (putSnapshooters d ss into)
      (putSnapshooters d (ss.map (·.later c w)) into) := by
  have h := later_putSnapshooters hc d ss into
  rwa [laterSnapshooters_eq, show laterSnapshooters c w = List.map (Snapshooter.later (L := L) c w) from funext laterSnapshooters_eq] at h

theorem Cockpit.later_handle (hc : CustomLater σ L c w) (x : Cockpit σ L) (o : Observation L) :
    M.Later c (laterFst (Cockpit.later c w)) (x.handle o) ((x.later c w).handle (o.later c)) := by
  unfold Cockpit.handle
  exact .bind .now fun now => .bind (later_handlers_handle hc o _) fun r₁ => .bind (later_panels_handle hc o _) fun r₂ => .pure rfl

omit [DecidableEq L] in
theorem Cockpit.later_put (hc : CustomLater σ L c w) (x : Cockpit σ L) (into : Snapshot) (d : Bool) :
    M.Later c (laterFst (Cockpit.later c w)) (x.putSnapshot into d) ((x.later c w).putSnapshot into d) := by
  unfold Cockpit.putSnapshot
  refine .bind (x.head.activity.later_putFlags _) fun r => .iteSame ?_ (.pure rfl)
  exact .bind (later_panels_put hc d _ _) fun r₂ => .bind (later_handlers_put hc d _ _) fun r₄ =>
      .bind (later_snapshooters_put hc d _ _) fun r₃ => .pure rfl

theorem later_handleCockpits (hc : CustomLater σ L c w) (o : Observation L) (xs : List (Cockpit σ L)) :
    M.Later c (laterFst (List.map (Cockpit.later c w))) (handleCockpits o xs) (handleCockpits (o.later c) (xs.map (·.later c w))) := by
  induction xs with
  | nil => exact .pure rfl
  | cons x xs ih => exact .bind (x.later_handle hc o) fun _ => .bind ih fun _ => .pure rfl

omit [DecidableEq L] in
theorem later_putCockpits (hc : CustomLater σ L c w) (d : Bool) (xs : List (Cockpit σ L)) (into : Snapshot) :
    M.Later c (laterFst (List.map (Cockpit.later c w))) (putCockpits d xs into) (putCockpits d (xs.map (·.later c w)) into) := by
  induction xs generalizing into with
  | nil => exact .pure rfl
  | cons x xs ih => exact .bind (x.later_put hc into d) fun _ => .bind (ih _) fun _ => .pure rfl

section Shape
omit [DecidableEq L] [Custom σ L]

theorem Panel.later_name (p : Panel σ L) : (p.later c w).name = p.name := by
  obtain ⟨h, ps, hs, ss⟩ := p
  rw [Panel.later]; rfl

theorem Cockpit.later_name (x : Cockpit σ L) : (x.later c w).name = x.name := rfl

theorem Cockpit.later_addPanel (x : Cockpit σ L) (p : Panel σ L) :
    (x.later c w).addPanel (p.later c w) = (x.addPanel p).later c w := by
  unfold Cockpit.addPanel
  rw [p.later_name]
  cases p.name with
  | none => simp only [Cockpit.later, List.map_append, List.map_cons, List.map_nil]
  | some n =>
    simp only [show (x.later c w).panels = x.panels.map (·.later c w) from rfl, List.any_map, Function.comp_def, Panel.later_name]
    split
    · rfl
    · simp only [Cockpit.later, List.map_append, List.map_cons, List.map_nil]

theorem Cockpit.later_removePanel (x : Cockpit σ L) (n : String) : (x.later c w).removePanel n = (x.removePanel n).later c w := by
  simp only [Cockpit.removePanel, Cockpit.later, List.filter_map, Function.comp_def, Panel.later_name]

theorem ProcessorState.later_addCockpit (s : ProcessorState σ L) (x : Cockpit σ L) :
    (s.later c w).addCockpit (x.later c w) = (s.addCockpit x).later c w := by
  unfold ProcessorState.addCockpit
  rw [x.later_name]
  cases x.name with
  | none => simp only [ProcessorState.later, List.map_append, List.map_cons, List.map_nil]
  | some n =>
    simp only [show (s.later c w).cockpits = s.cockpits.map (·.later c w) from rfl, List.any_map, Function.comp_def,
      Cockpit.later_name]
    split
    · rfl
    · simp only [ProcessorState.later, List.map_append, List.map_cons, List.map_nil]

theorem ProcessorState.later_removeCockpit (s : ProcessorState σ L) (n : String) :
    (s.later c w).removeCockpit n = (s.removeCockpit n).later c w := by
  simp only [ProcessorState.removeCockpit, ProcessorState.later, List.filter_map, Function.comp_def, Cockpit.later_name]

theorem ProcessorState.later_addHandler (s : ProcessorState σ L) (h : Handler σ L) :
    (s.later c w).addHandler (h.later c w) = (s.addHandler h).later c w := by
  simp only [ProcessorState.addHandler, ProcessorState.later, List.map_append, List.map_cons, List.map_nil]

theorem ProcessorState.later_modifyFirst {f g : Cockpit σ L → Cockpit σ L} (h : ∀ x, g (x.later c w) = (f x).later c w) (n : String)
    (xs : List (Cockpit σ L)) :
    ProcessorState.modifyFirst n g (xs.map (·.later c w)) = (ProcessorState.modifyFirst n f xs).map (·.later c w) := by
  induction xs with
  | nil => rfl
  | cons x xs ih =>
    rw [List.map_cons, ProcessorState.modifyFirst, ProcessorState.modifyFirst, x.later_name]
    by_cases hn : x.name == some n
    · rw [if_pos hn, if_pos hn, h, List.map_cons]
    · rw [if_neg hn, if_neg hn, ih, List.map_cons]

end Shape

/-! ## Processors -/

def Decider.later (c : Int) : Decider → Decider
  | .processAll => .processAll
  | .dropAll => .dropAll
  | .dropBeforeDeadline t b => .dropBeforeDeadline (t + c) b

theorem Strategy.later_decider (s : Strategy) : M.Later c (Decider.later c) s.decider s.decider := by
  cases s with
  | processAll => exact .pure rfl
  | dropAll => exact .pure rfl
  | dropOlderThan n b => exact .bind .now fun now => .bind (.subDur now n) fun _ => .pure rfl

omit [DecidableEq L] in
theorem Decider.later_shouldBeProcessed (d : Decider) (o : Observation L) :
    (d.later c).shouldBeProcessed (o.later c) = d.shouldBeProcessed o := by
  cases d with
  | processAll => rfl
  | dropAll => rfl
  | dropBeforeDeadline t b =>
    simp only [Decider.later, Decider.shouldBeProcessed, o.later_timestamp, o.later_isDelta, ge_iff_le, Int.add_le_add_iff_right]

theorem ProcessorState.later_receive (hc : CustomLater σ L c w) (d : Decider) (s : ProcessorState σ L) (t : Tally) (m : Message σ L) :
    M.Later c (laterFst (ProcessorState.later c w)) (s.receive d t m) ((s.later c w).receive (d.later c) t (m.later c w)) := by
  cases m with
  | observation o =>
    simp only [Message.later, ProcessorState.receive, Decider.later_shouldBeProcessed]
    exact .iteSame (.bind (later_handleCockpits hc o _) fun _ => .bind (later_handlers_handle hc o _) fun _ => .pure rfl) (.pure rfl)
  | addCockpit x => exact .pure (by simp only [laterFst, ProcessorState.later_addCockpit])
  | removeCockpit n => exact .pure (by simp only [laterFst, ProcessorState.later_removeCockpit])
  | addHandler h => exact .pure (by simp only [laterFst, ProcessorState.later_addHandler])
  | addPanelToCockpit n p =>
    refine .pure ?_
    have := ProcessorState.later_modifyFirst (c := c) (w := w) (f := (·.addPanel p)) (g := (·.addPanel (p.later c w)))
      (fun x => x.later_addPanel p) n s.cockpits
    simp only [laterFst, ProcessorState.later, this]
  | removePanelFromCockpit n m =>
    refine .pure ?_
    have := ProcessorState.later_modifyFirst (c := c) (w := w) (f := (·.removePanel m)) (g := (·.removePanel m))
      (fun x => x.later_removePanel m) n s.cockpits
    simp only [laterFst, ProcessorState.later, this]

omit [DecidableEq L] in
theorem ProcessorState.later_put (hc : CustomLater σ L c w) (s : ProcessorState σ L) (into : Snapshot) (d : Bool) :
    M.Later c (laterFst (ProcessorState.later c w)) (s.putSnapshot into d) ((s.later c w).putSnapshot into d) := by
  unfold ProcessorState.putSnapshot
  refine .bind (s.activity.later_putFlags _) fun r => .iteSame ?_ (.pure rfl)
  exact .bind (later_putCockpits hc d _ _) fun r₂ => .bind (later_handlers_put hc d _ _) fun r₄ =>
      .bind (later_snapshooters_put hc d _ _) fun r₃ => .pure rfl

omit [DecidableEq L] in
theorem Processor.later_put (hc : CustomLater σ L c w) (p : Processor σ L) (into : Snapshot) (d : Bool) :
    M.Later c (laterFst (Processor.later c w)) (p.putSnapshot into d) ((p.later c w).putSnapshot into d) := by
  unfold Processor.putSnapshot
  exact .bind (p.state.later_put hc into d) fun _ => .pure rfl

/-! ## Channels -/

section Channel
variable {μ ν : Type} (f : μ → ν)

theorem Channel.map_isFull (x : Channel μ) : (x.map f).isFull = x.isFull := by
  simp only [Channel.isFull, Channel.map, List.length_map]

theorem Channel.map_send (x : Channel μ) (t : Nat) (m : μ) :
    (x.map f).send t (f m) = ((x.send t m).1.map f, (x.send t m).2) := by
  unfold Channel.send
  rw [x.map_isFull, show (x.map f).receiver = x.receiver from rfl, show (x.map f).useSend = x.useSend from rfl]
  split
  · simp only [Channel.map, List.map_append, List.map_cons, List.map_nil]
  · split
    · split
      · rfl
      · simp only [Channel.map, List.map_append, List.map_cons, List.map_nil]
    · simp only [Channel.map, List.map_append, List.map_cons, List.map_nil]

theorem Channel.map_step (x : Channel μ) (t : Nat) : (x.map f).step t = (x.step t).map f := by
  unfold Channel.step
  rw [show (x.map f).threads = x.threads.map fun t => { todo := t.todo.map f, drops := t.drops, holds := t.holds } from rfl,
    List.getElem?_map]
  cases x.threads[t]? with
  | none => rfl
  | some th =>
    obtain ⟨todo, drops, holds⟩ := th
    simp only [Option.map_some]
    split
    · cases todo with
      | nil =>
        simp only [List.map_nil]
        split
        · simp only [Channel.map, List.map_set, List.map_nil]
        · rfl
      | cons m ms =>
        simp only [List.map_cons, x.map_send]
        split
        · rfl
        · simp only [Channel.map, List.map_set]
    · rfl

theorem Channel.map_run (s : List Nat) (x : Channel μ) : (x.map f).run s = (x.run s).map f := by
  unfold Channel.run
  induction s generalizing x with
  | nil => rfl
  | cons t s ih => rw [List.foldl_cons, List.foldl_cons, x.map_step, ih]

theorem Channel.map_abandoned (x : Channel μ) : (x.map f).abandoned = x.abandoned := by
  simp only [Channel.abandoned, Channel.map, List.all_map, Function.comp_def]

theorem Receiver.map_wait (r : Receiver μ) : (r.map f).wait = r.wait.map f := by
  unfold Receiver.wait
  rw [show (r.map f).ahead = r.ahead from rfl]
  cases r.ahead with
  | nil => rfl
  | cons s ss => simp only [Receiver.map, Channel.map_run]

def TryRecv.map : TryRecv μ → TryRecv ν
  | .ok m => .ok (f m)
  | .empty => .empty
  | .disconnected => .disconnected

theorem Receiver.map_tryRecv (r : Receiver μ) : (r.map f).tryRecv = (r.tryRecv.1.map f, r.tryRecv.2.map f) := by
  unfold Receiver.tryRecv
  rw [r.map_wait]
  generalize r.wait = x
  obtain ⟨⟨queue, cap, useSend, receiver, threads, log, taken⟩, ahead⟩ := x
  cases queue with
  | nil =>
    have h := Channel.map_abandoned f ⟨[], cap, useSend, receiver, threads, log, taken⟩
    show ((_, if (Channel.map f _).abandoned then _ else _) : Receiver ν × TryRecv ν) = _
    rw [h]
    simp only
    split <;> rfl
  | cons q qs => simp only [Receiver.map, Channel.map, Channel.take, List.map_cons, List.map_append, List.map_nil, TryRecv.map]

theorem Receiver.map_len (r : Receiver μ) : (r.map f).len = (r.len.1.map f, r.len.2) := by
  unfold Receiver.len
  rw [r.map_wait]
  simp only [Receiver.map, Channel.map, List.length_map]

end Channel

theorem Processor.later_receiveLoop (hc : CustomLater σ L c w) (d : Decider) (n : Nat) (p : Processor σ L) (t : Tally) :
    M.Later c (laterFst (Processor.later c w)) (p.receiveLoop d n t) ((p.later c w).receiveLoop (d.later c) n t) := by
  induction n generalizing p t with
  | zero => exact .pure rfl
  | succ n ih =>
    unfold Processor.receiveLoop
    rw [show (p.later c w).receiver = p.receiver.map (Message.later c w) from rfl, Receiver.map_tryRecv]
    generalize p.receiver.tryRecv = x
    obtain ⟨r, x⟩ := x
    cases x with
    | ok m => exact .bind (p.state.later_receive hc d t m) fun s => ih { p with state := s.1, receiver := r } s.2
    | empty => exact ih { p with receiver := r } t
    | disconnected => exact .pure rfl

theorem Processor.later_process (hc : CustomLater σ L c w) (p : Processor σ L) (max : Nat) (s : Strategy) :
    M.Later c (laterFst (Processor.later c w)) (p.process max s) ((p.later c w).process max s) := by
  unfold Processor.process
  refine .iteSame (.pure rfl) (.bind s.later_decider fun d => .bind (p.later_receiveLoop hc d max {}) fun r => ?_)
  simp only [laterFst]
  rw [show (r.1.later c w).receiver = r.1.receiver.map (Message.later c w) from rfl, Receiver.map_len]
  exact .iteSame (.bind .now fun now => .pure rfl) (.pure rfl)

/-! ## Mounts -/

omit [DecidableEq L] in
theorem MountHead.later_afterRun (h : MountHead) (o : Outcome) : M.Later c (MountHead.later c) (h.afterRun o) ((h.later c).afterRun o) := by
  unfold MountHead.afterRun
  exact .iteSame (.bind .now fun now => .pure rfl) (.pure rfl)

omit [DecidableEq L] [Custom σ L] in
theorem laterNodes_eq (ns : List (Node σ L)) : laterNodes c w ns = ns.map (·.later c w) := by
  induction ns with
  | nil => rw [laterNodes, List.map_nil]
  | cons n ns ih => rw [laterNodes, List.map_cons, ih]

variable [CustomProcessor σ]

mutual
theorem Node.later_process (hc : CustomLater σ L c w) (hp : CustomProcessorLater σ c w) (max : Nat) (s : Strategy) : ∀ n : Node σ L,
    M.Later c (laterFst (Node.later c w)) (n.process max s) ((n.later c w).process max s)
  | .processor p => by
    rw [Node.later, Node.process, Node.process]
    exact .wrap (p.later_process hc max s) fun _ => by rw [Node.later]
  | .mount h ns ss => by
    rw [Node.later, Node.process, Node.process]
    refine .bind (later_processNodes hc hp max s ns) fun r => .bind (h.later_afterRun r.2) fun h => .pure ?_
    simp only [laterFst, Node.later]
  | .attached h ns ss [] => by
    rw [Node.later, arrivalsLater, Node.process, Node.process]
    refine .bind (later_processNodes hc hp max s ns) fun r => .bind (h.later_afterRun r.2) fun h => .pure ?_
    simp only [laterFst, Node.later, arrivalsLater]
  | .attached h ns ss (⟨ps, ss', closed⟩ :: inbox) => by
    rw [Node.later, arrivalsLater, Node.process, Node.process]
    refine .bind (later_processNodes hc hp max s ns) fun r₁ => .bind (later_processNodes hc hp max s ps) fun r₂ =>
      .bind (h.later_afterRun _) fun h => .pure ?_
    simp only [laterFst, Node.later, laterNodes_eq, List.map_append]
    cases closed <;> simp only [arrivalsLater, if_true, Bool.false_eq_true, if_false]
  | .driver as => by
    rw [Node.later, Node.process]
    exact .pure (by rw [laterFst, Node.later])
  | .custom x => by
    rw [Node.later, Node.process, Node.process]
    exact .wrap (hp.process x max s) fun _ => by rw [Node.later]
theorem later_processNodes (hc : CustomLater σ L c w) (hp : CustomProcessorLater σ c w) (max : Nat) (s : Strategy) :
    ∀ ns : List (Node σ L), M.Later c (laterFst (laterNodes c w)) (processNodes max s ns) (processNodes max s (laterNodes c w ns))
  | [] => by rw [laterNodes, processNodes]; exact .pure (by rw [laterFst, laterNodes])
  | n :: ns => by
    rw [laterNodes, processNodes, processNodes]
    refine .bind (Node.later_process hc hp max s n) fun r₁ => .bind (later_processNodes hc hp max s ns) fun r₂ => .pure ?_
    simp only [laterFst, laterNodes]
end

omit [DecidableEq L] in
mutual
theorem Node.later_put (hc : CustomLater σ L c w) (hp : CustomProcessorLater σ c w) (d : Bool) : ∀ (n : Node σ L) (into : Snapshot),
    M.Later c (laterFst (Node.later c w)) (n.putSnapshot d into) ((n.later c w).putSnapshot d into)
  | .processor p, into => by
    rw [Node.later, Node.putSnapshot, Node.putSnapshot]
    exact .wrap (p.later_put hc into d) fun _ => by rw [Node.later]
  | .mount h ns ss, into => by
    rw [Node.later, Node.putSnapshot, Node.putSnapshot]
    refine .bind (h.activity.later_putFlags _) fun r => .iteSame ?_ (.pure (by rw [laterFst, Node.later]; rfl))
    refine .bind (later_putNodes hc hp d ns _) fun r₁ => .bind (later_snapshooters_put hc d ss _) fun r₂ => .pure ?_
    simp only [laterFst, Node.later]; rfl
  | .attached h ns ss inbox, into => by
    rw [Node.later, Node.putSnapshot, Node.putSnapshot]
    refine .bind (h.activity.later_putFlags _) fun r => .iteSame ?_ (.pure (by rw [laterFst, Node.later]; rfl))
    refine .bind (later_putNodes hc hp d ns _) fun r₁ => .bind (later_snapshooters_put hc d ss _) fun r₂ => .pure ?_
    simp only [laterFst, Node.later]; rfl
  | .driver as, into => by
    rw [Node.later, Node.putSnapshot]
    exact .pure (by simp only [laterFst, Node.later])
  | .custom x, into => by
    rw [Node.later, Node.putSnapshot, Node.putSnapshot]
    exact .wrap (hp.put x into d) fun _ => by rw [Node.later]
theorem later_putNodes (hc : CustomLater σ L c w) (hp : CustomProcessorLater σ c w) (d : Bool) :
    ∀ (ns : List (Node σ L)) (into : Snapshot),
      M.Later c (laterFst (laterNodes c w)) (putNodes d ns into) (putNodes d (laterNodes c w ns) into)
  | [], into => by rw [laterNodes, putNodes]; exact .pure (by rw [laterFst, laterNodes])
  | n :: ns, into => by
    rw [laterNodes, putNodes, putNodes]
    refine .bind (Node.later_put hc hp d n into) fun r₁ => .bind (later_putNodes hc hp d ns _) fun r₂ => .pure ?_
    simp only [laterFst, laterNodes]
end

end Metrix
