import Verif.Spec.Filtered
import Verif.Proof.Relabel

/-! Where labels are filtered does not matter. -/

namespace Metrix
variable {σ L : Type}

/-- What happens when something is handled only if it gets there. -/
def offered {α : Type} (b : Bool) (a : α) (x : M (α × Nat)) : M (α × Nat) := if b then x else pure (a, 0)

theorem offered_true {α : Type} (a : α) (x : M (α × Nat)) : offered true a x = x := rfl
theorem offered_false {α : Type} (a : α) (x : M (α × Nat)) : offered false a x = pure (a, 0) := rfl

theorem offered_map {α β : Type} (b : Bool) (g : α → β) (a : α) (x : M (α × Nat)) :
    offered b (g a) (do let (a, n) ← x; return (g a, n)) = do let (a, n) ← offered b a x; return (g a, n) := by
  cases b with
  | true => rfl
  | false => simp only [offered_false, pure_bind]

theorem offered_two {α β γ : Type} (b : Bool) (g : α → β → γ) (a : α) (c : β) (x : M (α × Nat)) (y : M (β × Nat)) :
    offered b (g a c) (do let (a, n) ← x; let (c, m) ← y; return (g a c, n + m)) =
      do let (a, n) ← offered b a x; let (c, m) ← offered b c y; return (g a c, n + m) := by
  cases b with
  | true => rfl
  | false => simp only [offered_false, pure_bind, Nat.add_zero]

/-- Nested gates. -/
theorem offered_if {α : Type} (b c : Bool) (a : α) (x : M (α × Nat)) :
    offered b a (if c then x else pure (a, 0)) = offered (b && c) a x := by
  cases b <;> rfl

theorem offered_slot {A : Type} (b : Bool) (g : A → M (A × Nat)) (a : Option A) :
    offered b a (handleSlot g a) = handleSlot (fun a => offered b a (g a)) a := by
  cases a with
  | none => cases b <;> rfl
  | some a => exact offered_map b some a (g a)

variable [DecidableEq L]

/-! ## Adapters -/

theorem InstrumentAdapter.Sifted.handle {I : Type} (up : I → Update → M (I × Nat)) {A A' : L → Bool}
    {a a' : InstrumentAdapter L I} (h : a.Sifted A A' a') (o : Observation L) :
    Same (InstrumentAdapter.Sifted A A') (offered (A o.label) a (a.handle up o)) (offered (A' o.label) a' (a'.handle up o)) := by
  obtain ⟨f, i, m⟩ := a
  obtain ⟨f', i', m'⟩ := a'
  obtain ⟨h1, h2, h3⟩ := h
  simp only at h1 h2 h3
  subst h2 h3
  have hl := h1 o.label
  unfold InstrumentAdapter.handle
  rw [offered_if, offered_if]
  simp only [LabelFilter.of] at hl
  rw [hl]
  exact .ite (.bindEq _ fun r => .pure ⟨rfl, h1, rfl, rfl⟩) (.pure ⟨rfl, h1, rfl, rfl⟩)

theorem InstrumentAdapter.Sifted.put {I : Type} (put : I → Snapshot → Bool → M (I × Snapshot)) {A A' : L → Bool}
    {a a' : InstrumentAdapter L I} (h : a.Sifted A A' a') (into : Snapshot) (d : Bool) :
    Same (InstrumentAdapter.Sifted A A') (a.putSnapshot put into d) (a'.putSnapshot put into d) := by
  unfold InstrumentAdapter.putSnapshot
  rw [h.instrument]
  exact .bindEq _ fun r => .pure ⟨rfl, h.filter, h.modifier, rfl⟩

theorem GaugeAdapter.Sifted.updateGauge {A A' : L → Bool} {a a' : GaugeAdapter L} (h : a.Sifted A A' a') (u : Update) :
    Same (GaugeAdapter.Sifted A A') (a.updateGauge u) (a'.updateGauge u) := by
  unfold GaugeAdapter.updateGauge
  rw [h.gauge]
  exact .bindEq _ fun r => .pure ⟨rfl, h.strategy, h.modifier, rfl⟩

theorem GaugeAdapter.Sifted.handle {A A' : L → Bool} {a a' : GaugeAdapter L} (h : a.Sifted A A' a') (o : Observation L) :
    Same (GaugeAdapter.Sifted A A') (offered (A o.label) a (a.handle o)) (offered (A' o.label) a' (a'.handle o)) := by
  have hu := h.updateGauge
  have hm := h.modifier
  have hs := h.strategy
  unfold GaugeAdapter.handle
  generalize hx : a.strategy = x at hs
  generalize hy : a'.strategy = y at hs
  cases hs with
  | filter hf =>
    have hl := hf o.label
    simp only [LabelFilter.of] at hl
    simp only [offered_if, hl, hm]
    exact .ite (hu _) (.pure ⟨rfl, h⟩)
  | deltasOnly hf =>
    have hl := hf o.label
    simp only [LabelFilter.of] at hl
    simp only [offered_if, hl, hm]
    refine .ite ?_ (.pure ⟨rfl, h⟩)
    split
    · exact hu _
    · exact .pure ⟨rfl, h⟩
  | @incDecOnLabels inc inc' dec dec' h1 h2 =>
    have h1 := h1 o.label
    have h2 := h2 o.label
    simp only [LabelFilter.of] at h1 h2
    simp only
    have hi := hu (.withValue (.changedBy 1) o.timestamp)
    have hd := hu (.withValue (.changedBy (-1)) o.timestamp)
    cases hA : A o.label <;> cases hA' : A' o.label <;> cases hi1 : inc.accepts o.label <;>
      cases hi2 : inc'.accepts o.label <;> cases hd1 : dec.accepts o.label <;> cases hd2 : dec'.accepts o.label <;>
      simp [hA, hA', hi1, hi2, hd1, hd2] at h1 h2 <;>
      simp only [offered_false, offered_true, if_true, if_false, Bool.false_eq_true] <;>
      first
        | exact hi
        | exact hd
        | exact .pure ⟨rfl, h⟩

theorem GaugeAdapter.Sifted.put {A A' : L → Bool} {a a' : GaugeAdapter L} (h : a.Sifted A A' a') (into : Snapshot) (d : Bool) :
    Same (GaugeAdapter.Sifted A A') (a.putSnapshot into d) (a'.putSnapshot into d) := by
  unfold GaugeAdapter.putSnapshot
  rw [h.gauge]
  exact .bindEq _ fun r => .pure ⟨rfl, h.strategy, h.modifier, rfl⟩

/-! ## Panels -/

theorem offered_head (b : Bool) (h : PanelHead L) (o : Observation L) :
    offered b h (h.handle o) = do
      let (counter, n₁) ← handleSlot (fun a => offered b a (a.handle IsInstrument.update o)) h.counter
      let (gauge, n₂) ← handleSlot (fun a => offered b a (a.handle o)) h.gauge
      let (meter, n₃) ← handleSlot (fun a => offered b a (a.handle IsInstrument.update o)) h.meter
      let (histogram, n₄) ← handleSlot (fun a => offered b a (a.handle IsInstrument.update o)) h.histogram
      return ({ h with counter, gauge, meter, histogram }, n₁ + n₂ + n₃ + n₄) := by
  simp only [← offered_slot]
  cases b with
  | true => rfl
  | false => simp only [offered_false, pure_bind]

theorem PanelHead.Sifted.handle {A A' : L → Bool} {h h' : PanelHead L} (hh : h.Sifted A A' h') (o : Observation L) :
    Same (fun x y => x.labelFilter = h.labelFilter ∧ y.labelFilter = h'.labelFilter ∧ PanelHead.Sifted A A' x y)
      (offered (A o.label) h (h.handle o)) (offered (A' o.label) h' (h'.handle o)) := by
  rw [offered_head, offered_head]
  refine .bind _ (same_handleSlot (fun a b h => h.handle _ o) hh.counter) ?_
  rintro ⟨c, n₁⟩ ⟨c', _⟩ ⟨rfl, h1⟩
  refine .bind _ (same_handleSlot (fun a b h => h.handle o) hh.gauge) ?_
  rintro ⟨g, n₂⟩ ⟨g', _⟩ ⟨rfl, h2⟩
  refine .bind _ (same_handleSlot (fun a b h => h.handle _ o) hh.meter) ?_
  rintro ⟨m, n₃⟩ ⟨m', _⟩ ⟨rfl, h3⟩
  refine .bind _ (same_handleSlot (fun a b h => h.handle _ o) hh.histogram) ?_
  rintro ⟨i, n₄⟩ ⟨i', _⟩ ⟨rfl, h4⟩
  exact .pure ⟨rfl, rfl, rfl, hh.name, hh.descr, h1, h2, h3, h4, hh.activity⟩

theorem PanelHead.Sifted.putSlots {A A' : L → Bool} {h h' : PanelHead L} (hh : h.Sifted A A' h') (into : Snapshot) (d : Bool) :
    Same (fun x y => x.labelFilter = h.labelFilter ∧ y.labelFilter = h'.labelFilter ∧ PanelHead.Sifted A A' x y)
      (h.putSlots into d) (h'.putSlots into d) := by
  unfold PanelHead.putSlots
  refine .bind _ (same_putSlot (fun a b s h => h.put _ s d) hh.counter into) ?_
  rintro ⟨c, s₁⟩ ⟨c', _⟩ ⟨rfl, h1⟩
  refine .bind _ (same_putSlot (fun a b s h => h.put s d) hh.gauge s₁) ?_
  rintro ⟨g, s₂⟩ ⟨g', _⟩ ⟨rfl, h2⟩
  refine .bind _ (same_putSlot (fun a b s h => h.put _ s d) hh.meter s₂) ?_
  rintro ⟨m, s₃⟩ ⟨m', _⟩ ⟨rfl, h3⟩
  refine .bind _ (same_putSlot (fun a b s h => h.put _ s d) hh.histogram s₃) ?_
  rintro ⟨i, s₄⟩ ⟨i', _⟩ ⟨rfl, h4⟩
  exact .pure ⟨rfl, rfl, rfl, hh.name, hh.descr, h1, h2, h3, h4, hh.activity⟩

variable [Custom σ L]

set_option linter.unusedSectionVars false

theorem offered_panel (b : Bool) (o : Observation L) (h : PanelHead L) (ps : List (Panel σ L)) (hs : List (Handler σ L))
    (ss : List (Snapshooter σ L)) :
    offered b (.mk h ps hs ss) (Panel.handle o (.mk h ps hs ss)) = do
      let (h', n₁) ← offered (b && h.labelFilter.accepts o.label) h (h.handle o)
      let (ps, n₂) ← offered (b && h.labelFilter.accepts o.label) ps (handlePanels o ps)
      let (hs, n₃) ← offered (b && h.labelFilter.accepts o.label) hs (handleHandlers o hs)
      return (.mk h' ps hs ss, n₁ + n₂ + n₃) := by
  rw [Panel.handle, offered_if]
  cases b && h.labelFilter.accepts o.label with
  | true => rfl
  | false => simp only [offered_false, pure_bind]

section Handle
variable (o : Observation L)

mutual
theorem Panel.Sifted.handle : ∀ {A A' : L → Bool} {p p' : Panel σ L}, p.Sifted A A' p' →
    Same (Panel.Sifted A A') (offered (A o.label) p (p.handle o)) (offered (A' o.label) p' (p'.handle o))
  | A, A', _, _, .mk (h := h) (h' := h') ss h1 h2 h3 => by
    rw [offered_panel, offered_panel]
    refine .bind _ (h1.handle o) ?_
    rintro ⟨a, n₁⟩ ⟨a', _⟩ ⟨rfl, e1, e2, h1⟩
    refine .bind _ (sifted_handlePanels h2) ?_
    rintro ⟨b, n₂⟩ ⟨b', _⟩ ⟨rfl, h2⟩
    refine .bind _ (sifted_handleHandlers h3) ?_
    rintro ⟨c, n₃⟩ ⟨c', _⟩ ⟨rfl, h3⟩
    simp only at e1 e2
    rw [← e1, ← e2] at h1 h2 h3
    exact .pure ⟨rfl, .mk ss h1 h2 h3⟩
theorem sifted_handlePanels : ∀ {A A' : L → Bool} {ps ps' : List (Panel σ L)}, PanelsSifted A A' ps ps' →
    Same (PanelsSifted A A') (offered (A o.label) ps (handlePanels o ps)) (offered (A' o.label) ps' (handlePanels o ps'))
  | _, _, _, _, .nil => by
    rw [handlePanels]
    unfold offered
    rw [ite_self, ite_self]
    exact .pure ⟨rfl, .nil⟩
  | _, _, _, _, .cons h1 h2 => by
    rw [handlePanels, handlePanels, offered_two _ List.cons, offered_two _ List.cons]
    refine .bind _ (Panel.Sifted.handle h1) ?_
    rintro ⟨a, n₁⟩ ⟨a', _⟩ ⟨rfl, h1⟩
    refine .bind _ (sifted_handlePanels h2) ?_
    rintro ⟨b, n₂⟩ ⟨b', _⟩ ⟨rfl, h2⟩
    exact .pure ⟨rfl, .cons h1 h2⟩
theorem Handler.Sifted.handle : ∀ {A A' : L → Bool} {h h' : Handler σ L}, h.Sifted A A' h' →
    Same (Handler.Sifted A A') (offered (A o.label) h (h.handle o)) (offered (A' o.label) h' (h'.handle o))
  | _, _, _, _, .instrument h => by
    rw [Handler.handle, Handler.handle, offered_map _ Handler.instrument, offered_map _ Handler.instrument]
    exact same_wrap (h.handle _ o) fun _ _ => .instrument
  | _, _, _, _, .gauge h => by
    rw [Handler.handle, Handler.handle, offered_map _ Handler.gauge, offered_map _ Handler.gauge]
    exact same_wrap (h.handle o) fun _ _ => .gauge
  | _, _, _, _, .panel h => by
    rw [Handler.handle, Handler.handle, offered_map _ Handler.panel, offered_map _ Handler.panel]
    exact same_wrap (Panel.Sifted.handle h) fun _ _ => .panel
  | A, A', _, _, .cockpit h ss hA h1 h2 => by
    have i1 := sifted_handlePanels h1
    have i2 := sifted_handleHandlers h2
    rw [← hA o.label] at i1 i2 ⊢
    cases hb : A o.label with
    | false => exact .pure ⟨rfl, .cockpit h ss hA h1 h2⟩
    | true =>
      rw [hb] at i1 i2
      rw [offered_true, offered_true, Handler.handle, Handler.handle]
      refine .bindEq _ fun now => ?_
      refine .bind _ i2 ?_
      rintro ⟨a, n₁⟩ ⟨a', _⟩ ⟨rfl, h2⟩
      refine .bind _ i1 ?_
      rintro ⟨b, n₂⟩ ⟨b', _⟩ ⟨rfl, h1⟩
      exact .pure ⟨rfl, .cockpit _ ss hA h1 h2⟩
  | A, A', _, _, .custom s hA => by
    rw [← hA o.label]
    cases hb : A o.label with
    | false => exact .pure ⟨rfl, .custom s hA⟩
    | true =>
      rw [offered_true, Handler.handle]
      exact .bindEq _ fun r => .pure ⟨rfl, .custom _ hA⟩
theorem sifted_handleHandlers : ∀ {A A' : L → Bool} {hs hs' : List (Handler σ L)}, HandlersSifted A A' hs hs' →
    Same (HandlersSifted A A') (offered (A o.label) hs (handleHandlers o hs)) (offered (A' o.label) hs' (handleHandlers o hs'))
  | _, _, _, _, .nil => by
    rw [handleHandlers]
    unfold offered
    rw [ite_self, ite_self]
    exact .pure ⟨rfl, .nil⟩
  | _, _, _, _, .cons h1 h2 => by
    rw [handleHandlers, handleHandlers, offered_two _ List.cons, offered_two _ List.cons]
    refine .bind _ (Handler.Sifted.handle h1) ?_
    rintro ⟨a, n₁⟩ ⟨a', _⟩ ⟨rfl, h1⟩
    refine .bind _ (sifted_handleHandlers h2) ?_
    rintro ⟨b, n₂⟩ ⟨b', _⟩ ⟨rfl, h2⟩
    exact .pure ⟨rfl, .cons h1 h2⟩
end
end Handle

section Put
variable (d : Bool)

mutual
theorem Panel.Sifted.put : ∀ {A A' : L → Bool} {p p' : Panel σ L}, p.Sifted A A' p' → ∀ into,
    Same (Panel.Sifted A A') (p.putSnapshot d into) (p'.putSnapshot d into)
  | A, A', _, _, .mk (h := h) (h' := h') ss h1 h2 h3, into => by
    rw [Panel.putSnapshot, Panel.putSnapshot]
    rw [← h1.descr, ← h1.activity, ← h1.name]
    refine .bindEq _ fun r => .ite (.bind _ (h1.putSlots r.2 d) ?_) (.pure ⟨rfl, .mk ss h1 h2 h3⟩)
    rintro ⟨a, s₁⟩ ⟨a', _⟩ ⟨rfl, e1, e2, h1⟩
    refine .bind _ (sifted_putPanels h2 s₁) ?_
    rintro ⟨b, s₂⟩ ⟨b', _⟩ ⟨rfl, h2⟩
    refine .bindEq _ fun r => ?_
    refine .bind _ (sifted_putHandlers h3 r.2) ?_
    rintro ⟨c, s₄⟩ ⟨c', _⟩ ⟨rfl, h3⟩
    simp only at e1 e2
    rw [← e1, ← e2] at h1 h2 h3
    refine .pure ⟨?_, .mk _ h1 h2 h3⟩
    rw [h1.name]
theorem sifted_putPanels : ∀ {A A' : L → Bool} {ps ps' : List (Panel σ L)}, PanelsSifted A A' ps ps' → ∀ into,
    Same (PanelsSifted A A') (putPanels d ps into) (putPanels d ps' into)
  | _, _, _, _, .nil, into => by rw [putPanels]; exact .pure ⟨rfl, .nil⟩
  | _, _, _, _, .cons h1 h2, into => by
    rw [putPanels, putPanels]
    refine .bind _ (Panel.Sifted.put h1 into) ?_
    rintro ⟨a, n₁⟩ ⟨a', _⟩ ⟨rfl, h1⟩
    refine .bind _ (sifted_putPanels h2 n₁) ?_
    rintro ⟨b, n₂⟩ ⟨b', _⟩ ⟨rfl, h2⟩
    exact .pure ⟨rfl, .cons h1 h2⟩
theorem Handler.Sifted.put : ∀ {A A' : L → Bool} {h h' : Handler σ L}, h.Sifted A A' h' → ∀ into,
    Same (Handler.Sifted A A') (h.putSnapshot d into) (h'.putSnapshot d into)
  | _, _, _, _, .instrument h, into => by
    rw [Handler.putSnapshot, Handler.putSnapshot]
    exact same_wrap (h.put _ into d) fun _ _ => .instrument
  | _, _, _, _, .gauge h, into => by
    rw [Handler.putSnapshot, Handler.putSnapshot]
    exact same_wrap (h.put into d) fun _ _ => .gauge
  | _, _, _, _, .panel h, into => by
    rw [Handler.putSnapshot, Handler.putSnapshot]
    exact same_wrap (Panel.Sifted.put h into) fun _ _ => .panel
  | _, _, _, _, .cockpit h ss hA h1 h2, into => by
    rw [Handler.putSnapshot, Handler.putSnapshot]
    refine .bindEq _ fun r => .ite (.bind _ (sifted_putPanels h1 r.2) ?_) (.pure ⟨rfl, .cockpit h ss hA h1 h2⟩)
    rintro ⟨a, s₁⟩ ⟨a', _⟩ ⟨rfl, h1⟩
    refine .bind _ (sifted_putHandlers h2 s₁) ?_
    rintro ⟨a, s₂⟩ ⟨a', _⟩ ⟨rfl, h2⟩
    exact .bindEq _ fun r => .pure ⟨rfl, .cockpit _ _ hA h1 h2⟩
  | _, _, _, _, .custom s hA, into => by
    rw [Handler.putSnapshot]
    exact .bindEq _ fun r => .pure ⟨rfl, .custom _ hA⟩
theorem sifted_putHandlers : ∀ {A A' : L → Bool} {hs hs' : List (Handler σ L)}, HandlersSifted A A' hs hs' → ∀ into,
    Same (HandlersSifted A A') (putHandlers d hs into) (putHandlers d hs' into)
  | _, _, _, _, .nil, into => by rw [putHandlers]; exact .pure ⟨rfl, .nil⟩
  | _, _, _, _, .cons h1 h2, into => by
    rw [putHandlers, putHandlers]
    refine .bind _ (Handler.Sifted.put h1 into) ?_
    rintro ⟨a, n₁⟩ ⟨a', _⟩ ⟨rfl, h1⟩
    refine .bind _ (sifted_putHandlers h2 n₁) ?_
    rintro ⟨b, n₂⟩ ⟨b', _⟩ ⟨rfl, h2⟩
    exact .pure ⟨rfl, .cons h1 h2⟩
end
end Put

/-! ## Lists of parts that get every label -/

theorem filtered_panels {ps ps' : List (Panel σ L)} :
    PanelsSifted (fun _ => true) (fun _ => true) ps ps' ↔ List.Forall₂ Panel.Filtered ps ps' := by
  constructor
  · intro h
    induction ps generalizing ps' with
    | nil => cases h; exact .nil
    | cons p ps ih => cases h with | cons h1 h2 => exact .cons h1 (ih h2)
  · intro h
    induction h with
    | nil => exact .nil
    | cons h1 _ ih => exact .cons h1 ih

theorem filtered_handlers {hs hs' : List (Handler σ L)} :
    HandlersSifted (fun _ => true) (fun _ => true) hs hs' ↔ List.Forall₂ Handler.Filtered hs hs' := by
  constructor
  · intro h
    induction hs generalizing hs' with
    | nil => cases h; exact .nil
    | cons p ps ih => cases h with | cons h1 h2 => exact .cons h1 (ih h2)
  · intro h
    induction h with
    | nil => exact .nil
    | cons h1 _ ih => exact .cons h1 ih

theorem filtered_handlePanels (o : Observation L) {ps ps' : List (Panel σ L)} (h : List.Forall₂ Panel.Filtered ps ps') :
    Same (List.Forall₂ Panel.Filtered) (handlePanels o ps) (handlePanels o ps') :=
  (sifted_handlePanels o (filtered_panels.2 h)).mono fun _ _ h => ⟨h.1, filtered_panels.1 h.2⟩

theorem filtered_handleHandlers (o : Observation L) {hs hs' : List (Handler σ L)} (h : List.Forall₂ Handler.Filtered hs hs') :
    Same (List.Forall₂ Handler.Filtered) (handleHandlers o hs) (handleHandlers o hs') :=
  (sifted_handleHandlers o (filtered_handlers.2 h)).mono fun _ _ h => ⟨h.1, filtered_handlers.1 h.2⟩

theorem filtered_putPanels (d : Bool) {ps ps' : List (Panel σ L)} (h : List.Forall₂ Panel.Filtered ps ps') (into : Snapshot) :
    Same (List.Forall₂ Panel.Filtered) (putPanels d ps into) (putPanels d ps' into) :=
  (sifted_putPanels d (filtered_panels.2 h) into).mono fun _ _ h => ⟨h.1, filtered_panels.1 h.2⟩

theorem filtered_putHandlers (d : Bool) {hs hs' : List (Handler σ L)} (h : List.Forall₂ Handler.Filtered hs hs') (into : Snapshot) :
    Same (List.Forall₂ Handler.Filtered) (putHandlers d hs into) (putHandlers d hs' into) :=
  (sifted_putHandlers d (filtered_handlers.2 h) into).mono fun _ _ h => ⟨h.1, filtered_handlers.1 h.2⟩

theorem filtered_putSnapshooters (d : Bool) {ss ss' : List (Snapshooter σ L)} (h : ss = ss') (into : Snapshot) :
    Same Eq (putSnapshooters d ss into) (putSnapshooters d ss' into) := by
  subst h
  exact (M.Rel.eq _).mono fun _ _ h => ⟨by rw [h], by rw [h]⟩

/-! ## Cockpits -/

theorem Cockpit.Filtered.handle (o : Observation L) {c c' : Cockpit σ L}
    (h : c.Filtered c') : Same Cockpit.Filtered (c.handle o) (c'.handle o) := by
  unfold Cockpit.handle
  rw [h.head]
  refine .bindEq _ fun now => ?_
  refine .bind _ (filtered_handleHandlers o h.handlers) ?_
  rintro ⟨a, n₁⟩ ⟨a', _⟩ ⟨rfl, h2⟩
  refine .bind _ (filtered_handlePanels o h.panels) ?_
  rintro ⟨b, n₂⟩ ⟨b', _⟩ ⟨rfl, h1⟩
  exact .pure ⟨rfl, rfl, h1, h2, h.snapshooters⟩

theorem Cockpit.Filtered.put {c c' : Cockpit σ L} (h : c.Filtered c')
    (into : Snapshot) (d : Bool) : Same Cockpit.Filtered (c.putSnapshot into d) (c'.putSnapshot into d) := by
  unfold Cockpit.putSnapshot
  rw [h.head]
  refine .bindEq _ fun r => .ite (.bind _ (filtered_putPanels d h.panels r.2) ?_) (.pure ⟨rfl, h⟩)
  rintro ⟨a, s₁⟩ ⟨a', _⟩ ⟨rfl, h1⟩
  refine .bind _ (filtered_putHandlers d h.handlers s₁) ?_
  rintro ⟨a, s₂⟩ ⟨a', _⟩ ⟨rfl, h2⟩
  refine .bind _ (filtered_putSnapshooters d h.snapshooters s₂) ?_
  rintro ⟨a, s₃⟩ ⟨a', _⟩ ⟨rfl, h3⟩
  exact .pure ⟨rfl, rfl, h1, h2, h3⟩

omit [Custom σ L] in
theorem Panel.Filtered.name {p p' : Panel σ L} (h : p.Filtered p') : p.name = p'.name := by
  cases h with
  | mk _ h _ _ => exact h.name

omit [Custom σ L] in
theorem Cockpit.Filtered.name {c c' : Cockpit σ L} (h : c.Filtered c') : c.name = c'.name := by
  unfold Cockpit.name
  rw [h.head]

omit [Custom σ L] in
theorem Cockpit.Filtered.addPanel {c c' : Cockpit σ L} (h : c.Filtered c') {p p' : Panel σ L}
    (hp : p.Filtered p') : (c.addPanel p).Filtered (c'.addPanel p') := by
  unfold Cockpit.addPanel
  have hadd : Cockpit.Filtered { c with panels := c.panels ++ [p] } { c' with panels := c'.panels ++ [p'] } :=
    ⟨h.head, like_append h.panels (.cons hp .nil), h.handlers, h.snapshooters⟩
  rw [hp.name]
  split
  · rw [like_any (fun a b hab => by rw [Panel.Filtered.name hab]) h.panels]
    split
    · exact h
    · exact hadd
  · exact hadd

omit [Custom σ L] in
theorem Cockpit.Filtered.removePanel {c c' : Cockpit σ L} (h : c.Filtered c') (n : String) :
    (c.removePanel n).Filtered (c'.removePanel n) :=
  ⟨h.head, like_filter (fun a b hab => by rw [Panel.Filtered.name hab]) h.panels, h.handlers, h.snapshooters⟩

/-! ## Processors -/

theorem filtered_handleCockpits (o : Observation L) {cs cs' : List (Cockpit σ L)}
    (h : List.Forall₂ Cockpit.Filtered cs cs') :
    Same (List.Forall₂ Cockpit.Filtered) (handleCockpits o cs) (handleCockpits o cs') := by
  induction h with
  | nil => exact .pure ⟨rfl, .nil⟩
  | cons h1 _ ih =>
    refine .bind _ (h1.handle o) ?_
    rintro ⟨a, n₁⟩ ⟨a', _⟩ ⟨rfl, h1⟩
    refine .bind _ ih ?_
    rintro ⟨b, n₂⟩ ⟨b', _⟩ ⟨rfl, h2⟩
    exact .pure ⟨rfl, .cons h1 h2⟩

theorem filtered_putCockpits (d : Bool) {cs cs' : List (Cockpit σ L)}
    (h : List.Forall₂ Cockpit.Filtered cs cs') (into : Snapshot) :
    Same (List.Forall₂ Cockpit.Filtered) (putCockpits d cs into) (putCockpits d cs' into) := by
  induction h generalizing into with
  | nil => exact .pure ⟨rfl, .nil⟩
  | cons h1 _ ih =>
    refine .bind _ (h1.put into d) ?_
    rintro ⟨a, n₁⟩ ⟨a', _⟩ ⟨rfl, h1⟩
    refine .bind _ (ih n₁) ?_
    rintro ⟨b, n₂⟩ ⟨b', _⟩ ⟨rfl, h2⟩
    exact .pure ⟨rfl, .cons h1 h2⟩

theorem ProcessorState.Filtered.put {s s' : ProcessorState σ L} (h : s.Filtered s')
    (into : Snapshot) (d : Bool) : Same ProcessorState.Filtered (s.putSnapshot into d) (s'.putSnapshot into d) := by
  unfold ProcessorState.putSnapshot
  rw [h.name, h.descr, h.activity]
  refine .bindEq _ fun r => .ite (.bind _ (filtered_putCockpits d h.cockpits r.2) ?_) (.pure ⟨rfl, h⟩)
  rintro ⟨a, s₁⟩ ⟨a', _⟩ ⟨rfl, h1⟩
  refine .bind _ (filtered_putHandlers d h.handlers s₁) ?_
  rintro ⟨a, s₂⟩ ⟨a', _⟩ ⟨rfl, h2⟩
  refine .bind _ (filtered_putSnapshooters d h.snapshooters s₂) ?_
  rintro ⟨a, s₃⟩ ⟨a', _⟩ ⟨rfl, h3⟩
  exact .pure ⟨rfl, rfl, rfl, h1, h2, h3, rfl⟩

theorem Processor.Filtered.put {p p' : Processor σ L} (h : p.Filtered p')
    (into : Snapshot) (d : Bool) : Same Processor.Filtered (p.putSnapshot into d) (p'.putSnapshot into d) := by
  unfold Processor.putSnapshot
  refine .bind _ (h.state.put into d) ?_
  rintro ⟨a, s⟩ ⟨a', _⟩ ⟨rfl, hs⟩
  exact .pure ⟨rfl, hs, h.receiver, h.isDisconnected⟩

omit [Custom σ L] in
theorem filtered_modifyFirst {g : Cockpit σ L → Cockpit σ L} {g' : Cockpit σ L → Cockpit σ L}
    (hg : ∀ c c', Cockpit.Filtered c c' → Cockpit.Filtered (g c) (g' c')) (n : String) {cs : List (Cockpit σ L)}
    {cs' : List (Cockpit σ L)} (h : List.Forall₂ Cockpit.Filtered cs cs') :
    List.Forall₂ Cockpit.Filtered (ProcessorState.modifyFirst n g cs) (ProcessorState.modifyFirst n g' cs') := by
  induction h with
  | nil => exact .nil
  | cons h1 h2 ih =>
    simp only [ProcessorState.modifyFirst, h1.name]
    split
    · exact .cons (hg _ _ h1) h2
    · exact .cons h1 ih

theorem ProcessorState.Filtered.receive {s s' : ProcessorState σ L} (h : s.Filtered s')
    (decider : Decider) (t : Tally) {m m' : Message σ L} (hm : m.Filtered m') :
    Same ProcessorState.Filtered (s.receive decider t m) (s'.receive decider t m') := by
  cases hm with
  | observation o =>
    simp only [ProcessorState.receive]
    refine .ite (.bind _ (filtered_handleCockpits o h.cockpits) ?_) (.pure ⟨rfl, h⟩)
    rintro ⟨a, n₁⟩ ⟨a', _⟩ ⟨rfl, h1⟩
    refine .bind _ (filtered_handleHandlers o h.handlers) ?_
    rintro ⟨b, n₂⟩ ⟨b', _⟩ ⟨rfl, h2⟩
    exact .pure ⟨rfl, h.name, h.descr, h1, h2, h.snapshooters, h.activity⟩
  | addCockpit hcp =>
    refine .pure ⟨rfl, ?_⟩
    have hadd := like_append h.cockpits (.cons hcp .nil)
    unfold ProcessorState.addCockpit
    rw [hcp.name]
    simp only
    split
    · rw [like_any (fun a b hab => by rw [Cockpit.Filtered.name hab]) h.cockpits]
      split
      · exact h
      · exact ⟨h.name, h.descr, hadd, h.handlers, h.snapshooters, h.activity⟩
    · exact ⟨h.name, h.descr, hadd, h.handlers, h.snapshooters, h.activity⟩
  | removeCockpit n =>
    exact .pure ⟨rfl, h.name, h.descr, like_filter (fun a b hab => by rw [Cockpit.Filtered.name hab]) h.cockpits,
      h.handlers, h.snapshooters, h.activity⟩
  | addHandler hh =>
    exact .pure ⟨rfl, h.name, h.descr, h.cockpits, like_append h.handlers (.cons hh .nil), h.snapshooters, h.activity⟩
  | addPanelToCockpit n hp =>
    exact .pure ⟨rfl, h.name, h.descr, filtered_modifyFirst (fun c c' hcc => hcc.addPanel hp) n h.cockpits, h.handlers,
      h.snapshooters, h.activity⟩
  | removePanelFromCockpit n k =>
    exact .pure ⟨rfl, h.name, h.descr, filtered_modifyFirst (fun c c' hcc => hcc.removePanel k) n h.cockpits, h.handlers,
      h.snapshooters, h.activity⟩

theorem Processor.Filtered.receiveLoop (decider : Decider) (n : Nat) {p p' : Processor σ L}
    (h : p.Filtered p') (t : Tally) :
    Same Processor.Filtered (p.receiveLoop decider n t) (p'.receiveLoop decider n t) := by
  induction n generalizing p p' t with
  | zero => exact .pure ⟨rfl, h⟩
  | succ n ih =>
    unfold Processor.receiveLoop
    obtain ⟨h1, h2⟩ := h.receiver.tryRecv
    generalize p.receiver.tryRecv = a at h1 h2 ⊢
    generalize p'.receiver.tryRecv = b at h1 h2 ⊢
    obtain ⟨ra, xa⟩ := a
    obtain ⟨rb, xb⟩ := b
    cases h2 with
    | ok hm =>
      refine .bind _ (h.state.receive decider t hm) ?_
      rintro ⟨s, t⟩ ⟨s', _⟩ ⟨rfl, hs⟩
      exact ih (p := { p with state := s, receiver := ra }) (p' := { p' with state := s', receiver := rb })
        ⟨hs, h1, h.isDisconnected⟩ _
    | empty =>
      exact ih (p := { p with receiver := ra }) (p' := { p' with receiver := rb }) ⟨h.state, h1, h.isDisconnected⟩ _
    | disconnected => exact .pure ⟨rfl, h.state, h1, rfl⟩

theorem Processor.Filtered.process {p p' : Processor σ L} (h : p.Filtered p') (max : Nat)
    (strategy : Strategy) : Same Processor.Filtered (p.process max strategy) (p'.process max strategy) := by
  unfold Processor.process
  rw [h.isDisconnected]
  refine .ite (.pure ⟨rfl, h⟩) (.bindEq _ fun decider => .bind _ (h.receiveLoop decider max {}) ?_)
  rintro ⟨p, t⟩ ⟨p', _⟩ ⟨rfl, h⟩
  obtain ⟨h1, h2⟩ := h.receiver.len
  simp only [h2]
  refine .ite (.bindEq _ fun now => .pure ⟨rfl, ?_, h1, h.isDisconnected⟩) (.pure ⟨rfl, h.state, h1, h.isDisconnected⟩)
  exact ⟨h.state.name, h.state.descr, h.state.cockpits, h.state.handlers, h.state.snapshooters, by rw [h.state.activity]⟩

/-! ## Mounts -/

variable [CustomProcessor σ]

mutual
theorem Node.Filtered.process (max : Nat) (strategy : Strategy) : ∀ {n n' : Node σ L}, n.Filtered n' →
    Same Node.Filtered (n.process max strategy) (n'.process max strategy)
  | .processor p, _, .processor h => by
    rw [Node.process, Node.process]
    exact same_wrap (h.process max strategy) fun _ _ => .processor
  | .mount h ns ss, _, .mount _ _ h1 => by
    rw [Node.process, Node.process]
    refine .bind _ (filtered_processNodes max strategy h1) ?_
    rintro ⟨a, o⟩ ⟨a', _⟩ ⟨rfl, h1⟩
    exact .bindEq _ fun h => .pure ⟨rfl, .mount h _ h1⟩
  | .attached h ns ss [], _, .attached _ _ h1 .nil => by
    rw [Node.process, Node.process]
    refine .bind _ (filtered_processNodes max strategy h1) ?_
    rintro ⟨a, o⟩ ⟨a', _⟩ ⟨rfl, h1⟩
    exact .bindEq _ fun h => .pure ⟨rfl, .attached h _ h1 .nil⟩
  | .attached h ns ss (⟨ps, ss', closed⟩ :: inbox), _, .attached _ _ h1 (.cons (.mk _ _ h3) h5) => by
    rw [Node.process, Node.process]
    refine .bind _ (filtered_processNodes max strategy h1) ?_
    rintro ⟨a, o⟩ ⟨a', _⟩ ⟨rfl, h1⟩
    refine .bind _ (filtered_processNodes max strategy h3) ?_
    rintro ⟨b, o'⟩ ⟨b', _⟩ ⟨rfl, h3⟩
    refine .bindEq _ fun h => .pure ⟨rfl, .attached h _ (like_append h1 h3) ?_⟩
    split
    · exact .nil
    · exact h5
  | .driver _, _, .driver as => by
    rw [Node.process]
    exact .pure ⟨rfl, .driver as⟩
  | .custom _, _, .custom s => by
    rw [Node.process]
    exact .bindEq _ fun r => .pure ⟨rfl, .custom _⟩
theorem filtered_processNodes (max : Nat) (strategy : Strategy) : ∀ {ns ns' : List (Node σ L)},
    List.Forall₂ Node.Filtered ns ns' →
    Same (List.Forall₂ Node.Filtered) (processNodes max strategy ns) (processNodes max strategy ns')
  | [], _, .nil => by rw [processNodes]; exact .pure ⟨rfl, .nil⟩
  | n :: ns, _, .cons h1 h2 => by
    rw [processNodes, processNodes]
    refine .bind _ (Node.Filtered.process max strategy h1) ?_
    rintro ⟨a, n₁⟩ ⟨a', _⟩ ⟨rfl, h1⟩
    refine .bind _ (filtered_processNodes max strategy h2) ?_
    rintro ⟨b, n₂⟩ ⟨b', _⟩ ⟨rfl, h2⟩
    exact .pure ⟨rfl, .cons h1 h2⟩
end

mutual
theorem Node.Filtered.put (d : Bool) : ∀ {n n' : Node σ L}, n.Filtered n' → ∀ into,
    Same Node.Filtered (n.putSnapshot d into) (n'.putSnapshot d into)
  | .processor p, _, .processor h, into => by
    rw [Node.putSnapshot, Node.putSnapshot]
    exact same_wrap (h.put into d) fun _ _ => .processor
  | .mount h ns ss, _, .mount _ _ h1, into => by
    rw [Node.putSnapshot, Node.putSnapshot]
    refine .bindEq _ fun r => .ite (.bind _ (filtered_putNodes d h1 r.2) ?_) (.pure ⟨rfl, .mount h _ h1⟩)
    rintro ⟨a, s⟩ ⟨a', _⟩ ⟨rfl, h1⟩
    exact .bindEq _ fun r => .pure ⟨rfl, .mount h _ h1⟩
  | .attached h ns ss inbox, _, .attached _ _ h1 h3, into => by
    rw [Node.putSnapshot, Node.putSnapshot]
    refine .bindEq _ fun r => .ite (.bind _ (filtered_putNodes d h1 r.2) ?_) (.pure ⟨rfl, .attached h _ h1 h3⟩)
    rintro ⟨a, s⟩ ⟨a', _⟩ ⟨rfl, h1⟩
    exact .bindEq _ fun r => .pure ⟨rfl, .attached h _ h1 h3⟩
  | .driver _, _, .driver as, into => by
    rw [Node.putSnapshot]
    exact .pure ⟨rfl, .driver _⟩
  | .custom _, _, .custom s, into => by
    rw [Node.putSnapshot]
    exact .bindEq _ fun r => .pure ⟨rfl, .custom _⟩
theorem filtered_putNodes (d : Bool) : ∀ {ns ns' : List (Node σ L)},
    List.Forall₂ Node.Filtered ns ns' → ∀ into,
    Same (List.Forall₂ Node.Filtered) (putNodes d ns into) (putNodes d ns' into)
  | [], _, .nil, into => by rw [putNodes]; exact .pure ⟨rfl, .nil⟩
  | n :: ns, _, .cons h1 h2, into => by
    rw [putNodes, putNodes]
    refine .bind _ (Node.Filtered.put d h1 into) ?_
    rintro ⟨a, n₁⟩ ⟨a', _⟩ ⟨rfl, h1⟩
    refine .bind _ (filtered_putNodes d h2 n₁) ?_
    rintro ⟨b, n₂⟩ ⟨b', _⟩ ⟨rfl, h2⟩
    exact .pure ⟨rfl, .cons h1 h2⟩
end

/-! ## Drivers -/

theorem LoopState.Filtered.addSnapshotValues {l l' : LoopState σ L} (h : l.Filtered l')
    (into : Snapshot) (d : Bool) (started : Int) :
    Same LoopState.Filtered (l.addSnapshotValues into d started) (l'.addSnapshotValues into d started) := by
  unfold LoopState.addSnapshotValues
  rw [h.descr, h.metrics]
  refine .bind _ (filtered_putNodes d h.processors _) ?_
  rintro ⟨a, s⟩ ⟨a', _⟩ ⟨rfl, h1⟩
  refine .bind _ (filtered_putSnapshooters d h.snapshooters s) ?_
  rintro ⟨b, s⟩ ⟨b', _⟩ ⟨rfl, h2⟩
  cases l'.metrics with
  | none => exact .pure ⟨rfl, h.name, rfl, rfl, h.lastOutcomeLogged, h.droppedSinceLastLogged, h1, h2, h.strategy, h.paused, h.warned⟩
  | some i =>
    exact .bindEq _ fun i => .bindEq _ fun r =>
      .pure ⟨rfl, h.name, rfl, rfl, h.lastOutcomeLogged, h.droppedSinceLastLogged, h1, h2, h.strategy, h.paused, h.warned⟩

theorem LoopState.Filtered.makeSnapshot {l l' : LoopState σ L} (h : l.Filtered l') (d : Bool) :
    Same LoopState.Filtered (l.makeSnapshot d) (l'.makeSnapshot d) := by
  unfold LoopState.makeSnapshot
  rw [h.name]
  refine .bindEq _ fun started => ?_
  cases l'.name with
  | none => exact h.addSnapshotValues [] d started
  | some n =>
    refine .bind _ (h.addSnapshotValues [] d started) ?_
    rintro ⟨a, s⟩ ⟨a', _⟩ ⟨rfl, h1⟩
    exact .pure ⟨rfl, h1⟩

theorem LoopState.Filtered.handle {l l' : LoopState σ L} (h : l.Filtered l') {m : DriverMsg σ L}
    {m' : DriverMsg σ L} (hm : m.Filtered m') : Same LoopState.Filtered (l.handle m) (l'.handle m') := by
  obtain ⟨h1, h2, h3, h4, h5, h6, h7, h8, h9, h10⟩ := h
  cases hm with
  | addProcessor hn => exact .pure ⟨rfl, h1, h2, h3, h4, h5, like_append h6 (.cons hn .nil), h7, h8, h9, h10⟩
  | addSnapshooter s => exact .pure ⟨rfl, h1, h2, h3, h4, h5, h6, by simp only [h7], h8, h9, h10⟩
  | getSnapshot id d =>
    refine .bind _ (LoopState.Filtered.makeSnapshot ⟨h1, h2, h3, h4, h5, h6, h7, h8, h9, h10⟩ d) ?_
    rintro ⟨a, s⟩ ⟨a', _⟩ ⟨rfl, h1⟩
    exact .pure ⟨rfl, h1⟩
  | setStrategy s => exact .pure ⟨rfl, h1, h2, h3, h4, h5, h6, h7, rfl, h9, h10⟩
  | pause => exact .pure ⟨rfl, h1, h2, h3, h4, h5, h6, h7, h8, rfl, h10⟩
  | resume => exact .pure ⟨rfl, h1, h2, h3, h4, h5, h6, h7, h8, rfl, h10⟩

theorem LoopState.Filtered.begin {l l' : LoopState σ L} (h : l.Filtered l')
    {m : Option (DriverMsg σ L)} {m' : Option (DriverMsg σ L)} (hm : Option.Rel DriverMsg.Filtered m m') :
    Same LoopState.Filtered (l.begin m) (l'.begin m') := by
  unfold LoopState.begin
  refine .bindEq _ fun started => ?_
  cases hm with
  | none => exact .pure ⟨rfl, h⟩
  | some hm =>
    refine .bind _ (h.handle hm) ?_
    rintro ⟨a, s⟩ ⟨a', _⟩ ⟨rfl, h1⟩
    exact .pure ⟨rfl, h1⟩

omit [Custom σ L] [CustomProcessor σ] in
theorem LoopState.Filtered.logDropped {l l' : LoopState σ L} (h : l.Filtered l') (n : Nat) :
    M.Rel LoopState.Filtered (l.logDropped n) (l'.logDropped n) := by
  obtain ⟨h1, h2, h3, h4, h5, h6, h7, h8, h9, h10⟩ := h
  unfold LoopState.logDropped
  simp only [h4, h5, h10]
  have hsame : LoopState.Filtered { l with droppedSinceLastLogged := l'.droppedSinceLastLogged + n }
      { l' with droppedSinceLastLogged := l'.droppedSinceLastLogged + n } := ⟨h1, h2, h3, h4, rfl, h6, h7, h8, h9, h10⟩
  refine .ite (.bindEq _ fun now => .ite (.bindEq _ fun readings => .bindEq _ fun now => .pure ⟨h1, h2, h3, rfl, rfl, h6, h7, h8, h9, rfl⟩) ?_) ?_
  · exact .pure ⟨h1, h2, h3, rfl, rfl, h6, h7, h8, h9, rfl⟩
  · exact .pure ⟨h1, h2, h3, rfl, rfl, h6, h7, h8, h9, rfl⟩

omit [Custom σ L] [CustomProcessor σ] in
theorem LoopState.Filtered.noteRun {l l' : LoopState σ L} (h : l.Filtered l') (o : Outcome) (started : Int) :
    M.Rel LoopState.Filtered (l.noteRun o started) (l'.noteRun o started) := by
  unfold LoopState.noteRun
  rw [h.metrics]
  cases l'.metrics with
  | none => exact .pure h
  | some i =>
    obtain ⟨h1, h2, h3, h4, h5, h6, h7, h8, h9, h10⟩ := h
    exact .bindEq _ fun i => .pure ⟨h1, h2, rfl, h4, h5, h6, h7, h8, h9, h10⟩

omit [Custom σ L] [CustomProcessor σ] in
theorem LoopState.Filtered.reportElapsed {l l' : LoopState σ L} (h : l.Filtered l') (started : Int) (t : Nat) :
    M.Rel LoopState.Filtered (l.reportElapsed started t) (l'.reportElapsed started t) := by
  unfold LoopState.reportElapsed
  rw [h.metrics]
  cases l'.metrics with
  | none => exact .pure h
  | some i =>
    refine .bindEq _ fun now => .bindEq _ fun it => .bindEq _ fun rt => .ite (.bindEq _ fun e => .bindEq _ fun i => ?_) (.pure h)
    obtain ⟨h1, h2, h3, h4, h5, h6, h7, h8, h9, h10⟩ := h
    exact .pure ⟨h1, h2, rfl, h4, h5, h6, h7, h8, h9, h10⟩

theorem LoopState.Filtered.work {l l' : LoopState σ L} (h : l.Filtered l') (started : Int) :
    Same LoopState.Filtered (l.work started) (l'.work started) := by
  unfold LoopState.work
  rw [h.paused, h.strategy]
  refine .ite (.bindEq _ fun r => .pure ⟨rfl, h⟩) (.bindEq _ fun runStarted => ?_)
  refine .bind _ (filtered_processNodes 1000 l'.strategy h.processors) ?_
  rintro ⟨a, o⟩ ⟨a', _⟩ ⟨rfl, h1⟩
  refine .bindEq _ fun now => ?_
  have hl : LoopState.Filtered { l with processors := a, strategy := l'.strategy, paused := l'.paused }
      { l' with processors := a' } :=
    ⟨h.name, h.descr, h.metrics, h.lastOutcomeLogged, h.droppedSinceLastLogged, h1, h.snapshooters, rfl, rfl, h.warned⟩
  refine .bind _ (hl.logDropped o.dropped) fun b b' hb => ?_
  refine .bind _ (hb.noteRun o runStarted) fun c c' hc => ?_
  refine .ite (.pure ⟨rfl, hc⟩) (.bindEq _ fun finished => .bindEq _ fun readings => ?_)
  refine .bind _ (hc.reportElapsed started _) fun d d' hd => .pure ⟨rfl, hd⟩

omit [Custom σ L] [CustomProcessor σ] in
theorem filtered_pollDriver (blind : Bool) {a b : Receiver (DriverMsg σ L)}
    (h : a.Like DriverMsg.Filtered b) :
    (pollDriver blind a).1.Like DriverMsg.Filtered (pollDriver blind b).1 ∧
    match (pollDriver blind a).2, (pollDriver blind b).2 with
    | .stop, .stop => True
    | .go m, .go m' => Option.Rel DriverMsg.Filtered m m'
    | _, _ => False := by
  have hw := h.wait
  obtain ⟨h1, h2⟩ := hw.tryRecv
  unfold pollDriver
  simp only [hw.chan.abandoned]
  split
  · exact ⟨hw, trivial⟩
  · generalize a.wait.tryRecv = x at h1 h2 ⊢
    generalize b.wait.tryRecv = y at h1 h2 ⊢
    obtain ⟨ra, xa⟩ := x
    obtain ⟨rb, xb⟩ := y
    cases h2 with
    | ok hm => exact ⟨h1, .some hm⟩
    | empty => exact ⟨h1, .none⟩
    | disconnected => exact ⟨h1, trivial⟩

theorem DriverThread.Filtered.iterate {t t' : DriverThread σ L} (h : t.Filtered t') (e : Env)
    (k : Nat) : (t.iterate e k).1.Filtered (t'.iterate e k).1 ∧
      Option.Rel Iteration.Filtered (t.iterate e k).2.1 (t'.iterate e k).2.1 ∧ (t.iterate e k).2.2 = (t'.iterate e k).2.2 := by
  cases h with
  | ended h => exact ⟨.ended h, .none, rfl⟩
  | @running a b h1 h2 h3 =>
    unfold DriverThread.iterate
    obtain ⟨h4, h5⟩ := filtered_pollDriver (b.blind.headD false) h2
    simp only [h3]
    generalize pollDriver (b.blind.headD false) a.receiver = x at h4 h5 ⊢
    generalize pollDriver (b.blind.headD false) b.receiver = y at h4 h5 ⊢
    obtain ⟨ra, xa⟩ := x
    obtain ⟨rb, xb⟩ := y
    cases xa with
    | stop => cases xb with
      | stop => exact ⟨.ended h4.chan.dropReceiver, .none, rfl⟩
      | go _ => exact h5.elim
    | go m => cases xb with
      | stop => exact h5.elim
      | go m' =>
        have hb := h1.begin h5 e k
        simp only at hb h4 h5 ⊢
        generalize a.state.begin m e k = p at hb ⊢
        generalize b.state.begin m' e k = q at hb ⊢
        cases hb with
        | none => exact ⟨.ended h4.chan.dropReceiver, .some ⟨h5, rfl, rfl, rfl⟩, rfl⟩
        | @some r r' hb =>
          obtain ⟨⟨s, started, answer⟩, k₁⟩ := r
          obtain ⟨⟨s', started', answer'⟩, k₁'⟩ := r'
          obtain ⟨rfl, hp, hs⟩ := hb
          simp only [Prod.mk.injEq] at hp hs ⊢
          obtain ⟨rfl, rfl⟩ := hp
          have hw := hs.work started e k₁
          generalize s.work started e k₁ = p at hw ⊢
          generalize s'.work started e k₁ = q at hw ⊢
          cases hw with
          | none => exact ⟨.ended h4.chan.dropReceiver, .some ⟨h5, rfl, rfl, rfl⟩, rfl⟩
          | @some r r' hw =>
            obtain ⟨⟨s, outcome, rest⟩, k₂⟩ := r
            obtain ⟨⟨s', outcome', rest'⟩, k₂'⟩ := r'
            obtain ⟨rfl, hp, hs⟩ := hw
            simp only [Prod.mk.injEq] at hp hs ⊢
            obtain ⟨rfl, rfl⟩ := hp
            exact ⟨.running hs h4 rfl, .some ⟨h5, rfl, rfl, rfl⟩, trivial⟩

end Metrix
