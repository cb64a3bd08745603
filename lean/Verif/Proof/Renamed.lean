import Verif.Proof.RenamedParts

/-! Panels, cockpits, processors, mounts and drivers, with other names. -/

namespace Metrix
variable {σ L : Type} {ρ : String → String}

/-! ## Panels -/

theorem reshows_putSlot {A B : Type} {R : A → B → Prop} {g : A → Snapshot → M (A × Snapshot)} {h : B → Snapshot → M (B × Snapshot)}
    (hs : ∀ a b s s', R a b → Snapshot.unnamed s = Snapshot.unnamed s' → Reshows R (g a s) (h b s')) {a : Option A} {b : Option B}
    (hr : Option.Rel R a b) {s s' : Snapshot} (h0 : Snapshot.unnamed s = Snapshot.unnamed s') :
    Reshows (Option.Rel R) (putSlot g a s) (putSlot h b s') := by
  cases hr with
  | none => exact .pure ⟨h0, .none⟩
  | some hr => exact reshows_wrap (hs _ _ _ _ hr h0) fun _ _ => .some

theorem PanelHead.Renamed.handle [DecidableEq L] {a b : PanelHead L} (h : a.Renamed ρ b) (o : Observation L) :
    Same (PanelHead.Renamed ρ) (a.handle o) (b.handle o) := by
  unfold PanelHead.handle
  refine .bind _ (same_handleSlot (fun a b h => h.handle Counter.takesAlike o) h.counter) ?_
  rintro ⟨c, n₁⟩ ⟨c', _⟩ ⟨rfl, h1⟩
  refine .bind _ (same_handleSlot (fun a b h => h.handle o) h.gauge) ?_
  rintro ⟨g, n₂⟩ ⟨g', _⟩ ⟨rfl, h2⟩
  refine .bind _ (same_handleSlot (fun a b h => h.handle Meter.takesAlike o) h.meter) ?_
  rintro ⟨m, n₃⟩ ⟨m', _⟩ ⟨rfl, h3⟩
  refine .bind _ (same_handleSlot (fun a b h => h.handle Histogram.takesAlike o) h.histogram) ?_
  rintro ⟨i, n₄⟩ ⟨i', _⟩ ⟨rfl, h4⟩
  exact .pure ⟨rfl, h.labelFilter, h.name, h1, h2, h3, h4, h.activity⟩

theorem PanelHead.Renamed.putSlots {a b : PanelHead L} (h : a.Renamed ρ b) {s s' : Snapshot}
    (hs : Snapshot.unnamed s = Snapshot.unnamed s') : Reshows (PanelHead.Renamed ρ) (a.putSlots s false) (b.putSlots s' false) := by
  unfold PanelHead.putSlots
  refine .bind _ (reshows_putSlot (fun a b s s' h hs => h.put Counter.showsAlike hs) h.counter hs) ?_
  rintro ⟨c, s₁⟩ ⟨c', t₁⟩ ⟨hs, h1⟩
  refine .bind _ (reshows_putSlot (fun a b s s' h hs => h.put hs) h.gauge hs) ?_
  rintro ⟨g, s₂⟩ ⟨g', t₂⟩ ⟨hs, h2⟩
  refine .bind _ (reshows_putSlot (fun a b s s' h hs => h.put Meter.showsAlike hs) h.meter hs) ?_
  rintro ⟨m, s₃⟩ ⟨m', t₃⟩ ⟨hs, h3⟩
  refine .bind _ (reshows_putSlot (fun a b s s' h hs => h.put Histogram.showsAlike hs) h.histogram hs) ?_
  rintro ⟨i, s₄⟩ ⟨i', t₄⟩ ⟨hs, h4⟩
  exact .pure ⟨hs, h.labelFilter, h.name, h1, h2, h3, h4, h.activity⟩

theorem unnamed_levelFor (n : Option String) {s s' : Snapshot} (hs : Snapshot.unnamed s = Snapshot.unnamed s') :
    Snapshot.unnamed (levelFor n s) = Snapshot.unnamed (levelFor (n.map ρ) s') := by
  cases n with
  | none => exact hs
  | some _ => rfl

theorem unnamed_closeLevel (n : Option String) {s s' t t' : Snapshot} (hs : Snapshot.unnamed s = Snapshot.unnamed s')
    (ht : Snapshot.unnamed t = Snapshot.unnamed t') :
    Snapshot.unnamed (closeLevel n s t) = Snapshot.unnamed (closeLevel (n.map ρ) s' t') := by
  cases n with
  | none => exact ht
  | some _ => exact unnamed_push hs _ _ (unnamed_group ht)

theorem reshows_putFlags (a : Activity) {s s' : Snapshot} (hs : Snapshot.unnamed s = Snapshot.unnamed s') :
    Reshows Eq (a.putFlags s) (a.putFlags s') := by
  unfold Activity.putFlags
  cases a.maxInactivity with
  | none => exact .pure ⟨hs, rfl⟩
  | some d =>
    exact .ite (.bindEq _ fun now => .ite (.pure ⟨unnamed_push (unnamed_push hs _ _ rfl) _ _ rfl, rfl⟩)
      (.pure ⟨unnamed_push (unnamed_push hs _ _ rfl) _ _ rfl, rfl⟩)) (.pure ⟨hs, rfl⟩)

variable [Custom σ L]

section Handle
variable [DecidableEq L] (o : Observation L)

mutual
theorem Panel.Renamed.handle : ∀ {p p' : Panel σ L}, p.Renamed ρ p' → Same (Panel.Renamed ρ) (p.handle o) (p'.handle o)
  | .mk h ps hs ss, _, .mk (h' := h') h1 h2 h3 h4 => by
    rw [Panel.handle, Panel.handle, h1.labelFilter]
    refine .ite (.bind _ (h1.handle o) ?_) (.pure ⟨rfl, .mk h1 h2 h3 h4⟩)
    rintro ⟨a, n₁⟩ ⟨a', _⟩ ⟨rfl, h1⟩
    refine .bind _ (renamed_handlePanels h2) ?_
    rintro ⟨b, n₂⟩ ⟨b', _⟩ ⟨rfl, h2⟩
    refine .bind _ (renamed_handleHandlers h3) ?_
    rintro ⟨c, n₃⟩ ⟨c', _⟩ ⟨rfl, h3⟩
    exact .pure ⟨rfl, .mk h1 h2 h3 h4⟩
theorem renamed_handlePanels : ∀ {ps ps' : List (Panel σ L)}, List.Forall₂ (Panel.Renamed ρ) ps ps' →
    Same (List.Forall₂ (Panel.Renamed ρ)) (handlePanels o ps) (handlePanels o ps')
  | [], _, .nil => by rw [handlePanels]; exact .pure ⟨rfl, .nil⟩
  | p :: ps, _, .cons h1 h2 => by
    rw [handlePanels, handlePanels]
    refine .bind _ (Panel.Renamed.handle h1) ?_
    rintro ⟨a, n₁⟩ ⟨a', _⟩ ⟨rfl, h1⟩
    refine .bind _ (renamed_handlePanels h2) ?_
    rintro ⟨b, n₂⟩ ⟨b', _⟩ ⟨rfl, h2⟩
    exact .pure ⟨rfl, .cons h1 h2⟩
theorem Handler.Renamed.handle : ∀ {h h' : Handler σ L}, h.Renamed ρ h' → Same (Handler.Renamed ρ) (h.handle o) (h'.handle o)
  | .instrument a, _, .instrument h => by
    rw [Handler.handle, Handler.handle]
    exact same_wrap (h.handle Instrument.takesAlike o) fun _ _ => .instrument
  | .gauge a, _, .gauge h => by
    rw [Handler.handle, Handler.handle]
    exact same_wrap (h.handle o) fun _ _ => .gauge
  | .panel p, _, .panel h => by
    rw [Handler.handle, Handler.handle]
    exact same_wrap (Panel.Renamed.handle h) fun _ _ => .panel
  | .cockpit h ps hs ss, _, .cockpit (h' := h') h0 h1 h2 h3 => by
    rw [Handler.handle, Handler.handle]
    refine .bindEq _ fun now => ?_
    refine .bind _ (renamed_handleHandlers h2) ?_
    rintro ⟨a, n₁⟩ ⟨a', _⟩ ⟨rfl, h2⟩
    refine .bind _ (renamed_handlePanels h1) ?_
    rintro ⟨b, n₂⟩ ⟨b', _⟩ ⟨rfl, h1⟩
    exact .pure ⟨rfl, .cockpit ⟨h0.name, by rw [h0.activity]⟩ h1 h2 h3⟩
  | .custom s, _, .custom _ => by
    rw [Handler.handle]
    exact .bindEq _ fun r => .pure ⟨rfl, .custom _⟩
theorem renamed_handleHandlers : ∀ {hs hs' : List (Handler σ L)}, List.Forall₂ (Handler.Renamed ρ) hs hs' →
    Same (List.Forall₂ (Handler.Renamed ρ)) (handleHandlers o hs) (handleHandlers o hs')
  | [], _, .nil => by rw [handleHandlers]; exact .pure ⟨rfl, .nil⟩
  | p :: ps, _, .cons h1 h2 => by
    rw [handleHandlers, handleHandlers]
    refine .bind _ (Handler.Renamed.handle h1) ?_
    rintro ⟨a, n₁⟩ ⟨a', _⟩ ⟨rfl, h1⟩
    refine .bind _ (renamed_handleHandlers h2) ?_
    rintro ⟨b, n₂⟩ ⟨b', _⟩ ⟨rfl, h2⟩
    exact .pure ⟨rfl, .cons h1 h2⟩
end
end Handle

section Put
variable (hc : CustomFrames σ L)
include hc

mutual
theorem Panel.Renamed.put : ∀ {p p' : Panel σ L}, p.Renamed ρ p' → ∀ {s s' : Snapshot}, Snapshot.unnamed s = Snapshot.unnamed s' →
    Reshows (Panel.Renamed ρ) (p.putSnapshot false s) (p'.putSnapshot false s')
  | .mk h ps hs ss, _, .mk (h' := h') h1 h2 h3 h4, s, s', e => by
    rw [Panel.putSnapshot, Panel.putSnapshot, h1.name, h1.activity]
    refine .bind _ (reshows_putFlags h.activity (unnamed_levelFor h.name e)) ?_
    rintro ⟨go, t⟩ ⟨_, t'⟩ ⟨e0, rfl⟩
    refine .ite (.bind _ (h1.putSlots e0) ?_) (.pure ⟨unnamed_closeLevel h.name e e0, .mk h1 h2 h3 h4⟩)
    rintro ⟨a, s₁⟩ ⟨a', t₁⟩ ⟨e1, h1⟩
    refine .bind _ (renamed_putPanels h2 e1) ?_
    rintro ⟨b, s₂⟩ ⟨b', t₂⟩ ⟨e2, h2⟩
    refine .bind _ (renamed_putSnapshooters h4 e2) ?_
    rintro ⟨c, s₃⟩ ⟨c', t₃⟩ ⟨e3, h4⟩
    refine .bind _ (renamed_putHandlers h3 e3) ?_
    rintro ⟨c, s₄⟩ ⟨c', t₄⟩ ⟨e4, h3⟩
    refine .pure ⟨?_, .mk h1 h2 h3 h4⟩
    dsimp only
    rw [h1.name]
    exact unnamed_closeLevel a.name e e4
theorem renamed_putPanels : ∀ {ps ps' : List (Panel σ L)}, List.Forall₂ (Panel.Renamed ρ) ps ps' → ∀ {s s' : Snapshot},
    Snapshot.unnamed s = Snapshot.unnamed s' →
    Reshows (List.Forall₂ (Panel.Renamed ρ)) (putPanels false ps s) (putPanels false ps' s')
  | [], _, .nil, s, s', e => by rw [putPanels, putPanels]; exact .pure ⟨e, .nil⟩
  | p :: ps, _, .cons h1 h2, s, s', e => by
    rw [putPanels, putPanels]
    refine .bind _ (Panel.Renamed.put h1 e) ?_
    rintro ⟨a, n₁⟩ ⟨a', m₁⟩ ⟨e, h1⟩
    refine .bind _ (renamed_putPanels h2 e) ?_
    rintro ⟨b, n₂⟩ ⟨b', m₂⟩ ⟨e, h2⟩
    exact .pure ⟨e, .cons h1 h2⟩
theorem Handler.Renamed.put : ∀ {h h' : Handler σ L}, h.Renamed ρ h' → ∀ {s s' : Snapshot}, Snapshot.unnamed s = Snapshot.unnamed s' →
    Reshows (Handler.Renamed ρ) (h.putSnapshot false s) (h'.putSnapshot false s')
  | .instrument a, _, .instrument h, s, s', e => by
    rw [Handler.putSnapshot, Handler.putSnapshot]
    exact reshows_wrap (h.put (Instrument.showsAlike hc) e) fun _ _ => .instrument
  | .gauge a, _, .gauge h, s, s', e => by
    rw [Handler.putSnapshot, Handler.putSnapshot]
    exact reshows_wrap (h.put e) fun _ _ => .gauge
  | .panel p, _, .panel h, s, s', e => by
    rw [Handler.putSnapshot, Handler.putSnapshot]
    exact reshows_wrap (Panel.Renamed.put h e) fun _ _ => .panel
  | .cockpit h ps hs ss, _, .cockpit (h' := h') h0 h1 h2 h3, s, s', e => by
    rw [Handler.putSnapshot, Handler.putSnapshot, h0.name, h0.activity]
    refine .bind _ (reshows_putFlags h.activity (unnamed_levelFor h.name e)) ?_
    rintro ⟨go, t⟩ ⟨_, t'⟩ ⟨e0, rfl⟩
    refine .ite (.bind _ (renamed_putPanels h1 e0) ?_) (.pure ⟨unnamed_closeLevel h.name e e0, .cockpit h0 h1 h2 h3⟩)
    rintro ⟨a, s₁⟩ ⟨a', t₁⟩ ⟨e1, h1⟩
    refine .bind _ (renamed_putHandlers h2 e1) ?_
    rintro ⟨a, s₂⟩ ⟨a', t₂⟩ ⟨e2, h2⟩
    refine .bind _ (renamed_putSnapshooters h3 e2) ?_
    rintro ⟨a, s₃⟩ ⟨a', t₃⟩ ⟨e3, h3⟩
    exact .pure ⟨unnamed_closeLevel h.name e e3, .cockpit h0 h1 h2 h3⟩
  | .custom c, _, .custom _, s, s', e => by
    rw [Handler.putSnapshot, Handler.putSnapshot]
    refine reshows_wrap (Custom.reshows hc c e) ?_
    rintro a _ rfl
    exact .custom _
theorem renamed_putHandlers : ∀ {hs hs' : List (Handler σ L)}, List.Forall₂ (Handler.Renamed ρ) hs hs' → ∀ {s s' : Snapshot},
    Snapshot.unnamed s = Snapshot.unnamed s' →
    Reshows (List.Forall₂ (Handler.Renamed ρ)) (putHandlers false hs s) (putHandlers false hs' s')
  | [], _, .nil, s, s', e => by rw [putHandlers, putHandlers]; exact .pure ⟨e, .nil⟩
  | p :: ps, _, .cons h1 h2, s, s', e => by
    rw [putHandlers, putHandlers]
    refine .bind _ (Handler.Renamed.put h1 e) ?_
    rintro ⟨a, n₁⟩ ⟨a', m₁⟩ ⟨e, h1⟩
    refine .bind _ (renamed_putHandlers h2 e) ?_
    rintro ⟨b, n₂⟩ ⟨b', m₂⟩ ⟨e, h2⟩
    exact .pure ⟨e, .cons h1 h2⟩
theorem Snapshooter.Renamed.put : ∀ {x x' : Snapshooter σ L}, x.Renamed ρ x' → ∀ {s s' : Snapshot},
    Snapshot.unnamed s = Snapshot.unnamed s' → Reshows (Snapshooter.Renamed ρ) (x.putSnapshot false s) (x'.putSnapshot false s')
  | .constant .., _, .constant n n' d d' v, s, s', e => by
    rw [Snapshooter.putSnapshot, Snapshooter.putSnapshot]
    exact .pure ⟨unnamed_push e _ _ rfl, .constant n n' d d' v⟩
  | .polling .., _, .polling n n' d d' g h, s, s', e => by
    rw [Snapshooter.putSnapshot, Snapshooter.putSnapshot]
    refine .ite (.bind _ (Snapshooter.Renamed.put h (s := []) (s' := []) rfl) ?_) (.bind _ (Snapshooter.Renamed.put h e) ?_)
    · rintro ⟨a, n₁⟩ ⟨a', m₁⟩ ⟨e1, h1⟩
      exact .pure ⟨unnamed_push e _ _ (unnamed_group e1), .polling n n' d d' g h1⟩
    · rintro ⟨a, n₁⟩ ⟨a', m₁⟩ ⟨e1, h1⟩
      exact .pure ⟨e1, .polling n n' d d' g h1⟩
  | .instrument _, _, .instrument h, s, s', e => by
    rw [Snapshooter.putSnapshot, Snapshooter.putSnapshot]
    exact reshows_wrap (Instrument.showsAlike hc _ _ h _ _ e) fun _ _ => .instrument
  | .handler _, _, .handler h, s, s', e => by
    rw [Snapshooter.putSnapshot, Snapshooter.putSnapshot]
    exact reshows_wrap (Handler.Renamed.put h e) fun _ _ => .handler
  | .custom c, _, .custom _, s, s', e => by
    rw [Snapshooter.putSnapshot, Snapshooter.putSnapshot]
    refine reshows_wrap (Custom.reshows hc c e) ?_
    rintro a _ rfl
    exact .custom _
theorem renamed_putSnapshooters : ∀ {ss ss' : List (Snapshooter σ L)}, List.Forall₂ (Snapshooter.Renamed ρ) ss ss' → ∀ {s s' : Snapshot},
    Snapshot.unnamed s = Snapshot.unnamed s' →
    Reshows (List.Forall₂ (Snapshooter.Renamed ρ)) (putSnapshooters false ss s) (putSnapshooters false ss' s')
  | [], _, .nil, s, s', e => by rw [putSnapshooters, putSnapshooters]; exact .pure ⟨e, .nil⟩
  | p :: ps, _, .cons h1 h2, s, s', e => by
    rw [putSnapshooters, putSnapshooters]
    refine .bind _ (Snapshooter.Renamed.put h1 e) ?_
    rintro ⟨a, n₁⟩ ⟨a', m₁⟩ ⟨e, h1⟩
    refine .bind _ (renamed_putSnapshooters h2 e) ?_
    rintro ⟨b, n₂⟩ ⟨b', m₂⟩ ⟨e, h2⟩
    exact .pure ⟨e, .cons h1 h2⟩
end
end Put

/-! ## Cockpits -/

theorem Cockpit.Renamed.handle [DecidableEq L] (o : Observation L) {c c' : Cockpit σ L} (h : c.Renamed ρ c') :
    Same (Cockpit.Renamed ρ) (c.handle o) (c'.handle o) := by
  unfold Cockpit.handle
  refine .bindEq _ fun now => ?_
  refine .bind _ (renamed_handleHandlers o h.handlers) ?_
  rintro ⟨a, n₁⟩ ⟨a', _⟩ ⟨rfl, h2⟩
  refine .bind _ (renamed_handlePanels o h.panels) ?_
  rintro ⟨b, n₂⟩ ⟨b', _⟩ ⟨rfl, h1⟩
  exact .pure ⟨rfl, ⟨h.head.name, by dsimp only; rw [h.head.activity]⟩, h1, h2, h.snapshooters⟩

theorem Cockpit.Renamed.put (hc : CustomFrames σ L) {c c' : Cockpit σ L} (h : c.Renamed ρ c') {s s' : Snapshot}
    (e : Snapshot.unnamed s = Snapshot.unnamed s') :
    Reshows (Cockpit.Renamed ρ) (c.putSnapshot s false) (c'.putSnapshot s' false) := by
  unfold Cockpit.putSnapshot
  rw [h.head.name, h.head.activity]
  refine .bind _ (reshows_putFlags c.head.activity (unnamed_levelFor c.head.name e)) ?_
  rintro ⟨go, t⟩ ⟨_, t'⟩ ⟨e0, rfl⟩
  refine .ite (.bind _ (renamed_putPanels hc h.panels e0) ?_) (.pure ⟨unnamed_closeLevel c.head.name e e0, h⟩)
  rintro ⟨a, s₁⟩ ⟨a', t₁⟩ ⟨e1, h1⟩
  refine .bind _ (renamed_putHandlers hc h.handlers e1) ?_
  rintro ⟨a, s₂⟩ ⟨a', t₂⟩ ⟨e2, h2⟩
  refine .bind _ (renamed_putSnapshooters hc h.snapshooters e2) ?_
  rintro ⟨a, s₃⟩ ⟨a', t₃⟩ ⟨e3, h3⟩
  exact .pure ⟨unnamed_closeLevel c.head.name e e3, h.head, h1, h2, h3⟩

omit [Custom σ L] in
theorem Panel.Renamed.name {p p' : Panel σ L} (h : p.Renamed ρ p') : p'.name = p.name.map ρ := by
  cases h with
  | mk h _ _ _ => exact h.name

omit [Custom σ L] in
theorem Cockpit.Renamed.name {c c' : Cockpit σ L} (h : c.Renamed ρ c') : c'.name = c.name.map ρ := h.head.name

end Metrix
