import Mathlib.Data.List.Forall2
import Verif.Spec.Relabel
import Verif.Proof.Describe

/-! Programs that differ in their labels only. -/

namespace Metrix
variable {σ L L' : Type} {f : L → L'}

/-- Equal second results and related states. -/
abbrev Same {A B X : Type} (R : A → B → Prop) (x : M (A × X)) (y : M (B × X)) : Prop :=
  M.Rel (fun a b => a.2 = b.2 ∧ R a.1 b.1) x y

theorem M.Rel.bindEq {α β γ : Type} {S : β → γ → Prop} (x : M α) {g : α → M β} {h : α → M γ}
    (hg : ∀ a, M.Rel S (g a) (h a)) : M.Rel S (x >>= g) (x >>= h) :=
  .bind Eq (.eq x) fun a _ hab => hab ▸ hg a

theorem same_wrap {A B A' B' X : Type} {R : A → B → Prop} {S : A' → B' → Prop} {x : M (A × X)} {y : M (B × X)}
    {v : A → A'} {w : B → B'} (h : Same R x y) (hs : ∀ a b, R a b → S (v a) (w b)) :
    Same S (do let (a, n) ← x; return (v a, n)) (do let (b, n) ← y; return (w b, n)) := by
  refine .bind _ h ?_
  rintro ⟨a, n⟩ ⟨b, _⟩ ⟨rfl, h⟩
  exact .pure ⟨rfl, hs _ _ h⟩

/-! ## Observations -/

theorem Observation.relabel_label (o : Observation L) : (o.relabel f).label = f o.label := by cases o <;> rfl
theorem Observation.relabel_toUpdate (o : Observation L) : (o.relabel f).toUpdate = o.toUpdate := by cases o <;> rfl
theorem Observation.relabel_timestamp (o : Observation L) : (o.relabel f).timestamp = o.timestamp := by cases o <;> rfl
theorem Observation.relabel_isDelta (o : Observation L) : (o.relabel f).isDelta = o.isDelta := by cases o <;> rfl

theorem Instrument.update_like [Custom σ L] [Custom σ L'] (hc : CustomLike σ f) (i : Instrument σ) (u : Update) :
    i.update L' u = i.update L u := by
  cases i with
  | custom s => simp only [Instrument.update, hc.update]
  | _ => rfl

theorem Instrument.put_like [Custom σ L] [Custom σ L'] (hc : CustomLike σ f) (i : Instrument σ) (into : Snapshot) (d : Bool) :
    i.putSnapshot L' into d = i.putSnapshot L into d := by
  cases i with
  | custom s => simp only [Instrument.putSnapshot, hc.put]
  | _ => rfl

variable [DecidableEq L] [DecidableEq L']

/-! ## Adapters -/

theorem InstrumentAdapter.Like.handle {I : Type} {up up' : I → Update → M (I × Nat)} (hu : ∀ i u, up' i u = up i u)
    {a : InstrumentAdapter L I} {b : InstrumentAdapter L' I} (h : a.Like f b) (o : Observation L) :
    Same (InstrumentAdapter.Like f) (a.handle up o) (b.handle up' (o.relabel f)) := by
  obtain ⟨fa, ia, ma⟩ := a
  obtain ⟨fb, ib, mb⟩ := b
  obtain ⟨h1, h2, h3⟩ := h
  simp only at h1 h2 h3
  subst h3
  unfold InstrumentAdapter.handle
  simp only [o.relabel_label, o.relabel_toUpdate, h1 o.label, h2 o.label o.toUpdate, hu]
  refine .ite (.bindEq _ fun r => .pure ⟨rfl, h1, h2, rfl⟩) (.pure ⟨rfl, h1, h2, rfl⟩)

theorem InstrumentAdapter.Like.put {I : Type} {put put' : I → Snapshot → Bool → M (I × Snapshot)}
    (hp : ∀ i s d, put' i s d = put i s d)
    {a : InstrumentAdapter L I} {b : InstrumentAdapter L' I} (h : a.Like f b) (into : Snapshot) (d : Bool) :
    Same (InstrumentAdapter.Like f) (a.putSnapshot put into d) (b.putSnapshot put' into d) := by
  obtain ⟨fa, ia, ma⟩ := a
  obtain ⟨fb, ib, mb⟩ := b
  obtain ⟨h1, h2, h3⟩ := h
  simp only at h1 h2 h3
  subst h3
  unfold InstrumentAdapter.putSnapshot
  simp only [hp]
  exact .bindEq _ fun r => .pure ⟨rfl, h1, h2, rfl⟩

theorem GaugeAdapter.Like.updateGauge {a : GaugeAdapter L} {b : GaugeAdapter L'} (h : a.Like f b) (u : Update) :
    Same (GaugeAdapter.Like f) (a.updateGauge u) (b.updateGauge u) := by
  unfold GaugeAdapter.updateGauge
  rw [h.gauge]
  exact .bindEq _ fun r => .pure ⟨rfl, h.strategy, h.modifier, rfl⟩

theorem GaugeAdapter.Like.handle {a : GaugeAdapter L} {b : GaugeAdapter L'} (h : a.Like f b) (o : Observation L) :
    Same (GaugeAdapter.Like f) (a.handle o) (b.handle (o.relabel f)) := by
  have hu := h.updateGauge
  have hm := h.modifier o.label o.toUpdate
  have hs := h.strategy
  unfold GaugeAdapter.handle
  cases ha : a.strategy with
  | filter fa =>
    rw [ha] at hs
    cases hb : b.strategy with
    | filter fb =>
      rw [hb] at hs
      cases hs with
      | filter hf =>
        simp only [o.relabel_label, o.relabel_toUpdate, hf o.label, hm]
        exact .ite (hu _) (.pure ⟨rfl, h⟩)
    | deltasOnly _ => rw [hb] at hs; cases hs
    | incDecOnLabels _ _ => rw [hb] at hs; cases hs
  | deltasOnly fa =>
    rw [ha] at hs
    cases hb : b.strategy with
    | deltasOnly fb =>
      rw [hb] at hs
      cases hs with
      | deltasOnly hf =>
        simp only [o.relabel_label, o.relabel_toUpdate, hf o.label, hm]
        refine .ite ?_ (.pure ⟨rfl, h⟩)
        split
        · exact hu _
        · exact .pure ⟨rfl, h⟩
    | filter _ => rw [hb] at hs; cases hs
    | incDecOnLabels _ _ => rw [hb] at hs; cases hs
  | incDecOnLabels inc dec =>
    rw [ha] at hs
    cases hb : b.strategy with
    | incDecOnLabels inc' dec' =>
      rw [hb] at hs
      cases hs with
      | incDecOnLabels h1 h2 =>
        simp only [o.relabel_label, o.relabel_timestamp, h1 o.label, h2 o.label]
        exact .ite (hu _) (.ite (hu _) (.pure ⟨rfl, h⟩))
    | filter _ => rw [hb] at hs; cases hs
    | deltasOnly _ => rw [hb] at hs; cases hs

theorem GaugeAdapter.Like.put {a : GaugeAdapter L} {b : GaugeAdapter L'} (h : a.Like f b) (into : Snapshot) (d : Bool) :
    Same (GaugeAdapter.Like f) (a.putSnapshot into d) (b.putSnapshot into d) := by
  unfold GaugeAdapter.putSnapshot
  rw [h.gauge]
  exact .bindEq _ fun r => .pure ⟨rfl, h.strategy, h.modifier, rfl⟩

/-! ## Panels -/

theorem same_handleSlot {A B : Type} {R : A → B → Prop} {g : A → M (A × Nat)} {h : B → M (B × Nat)}
    (hs : ∀ a b, R a b → Same R (g a) (h b)) {a : Option A} {b : Option B} (hr : Option.Rel R a b) :
    Same (Option.Rel R) (handleSlot g a) (handleSlot h b) := by
  cases hr with
  | none => exact .pure ⟨rfl, .none⟩
  | some hr => exact same_wrap (hs _ _ hr) fun _ _ => .some

theorem same_putSlot {A B : Type} {R : A → B → Prop} {g : A → Snapshot → M (A × Snapshot)} {h : B → Snapshot → M (B × Snapshot)}
    (hs : ∀ a b s, R a b → Same R (g a s) (h b s)) {a : Option A} {b : Option B} (hr : Option.Rel R a b) (into : Snapshot) :
    Same (Option.Rel R) (putSlot g a into) (putSlot h b into) := by
  cases hr with
  | none => exact .pure ⟨rfl, .none⟩
  | some hr => exact same_wrap (hs _ _ _ hr) fun _ _ => .some

theorem PanelHead.Like.handle {a : PanelHead L} {b : PanelHead L'} (h : a.Like f b) (o : Observation L) :
    Same (PanelHead.Like f) (a.handle o) (b.handle (o.relabel f)) := by
  unfold PanelHead.handle
  refine .bind _ (same_handleSlot (fun a b h => h.handle (fun _ _ => rfl) o) h.counter) ?_
  rintro ⟨c, n₁⟩ ⟨c', _⟩ ⟨rfl, h1⟩
  refine .bind _ (same_handleSlot (fun a b h => h.handle o) h.gauge) ?_
  rintro ⟨g, n₂⟩ ⟨g', _⟩ ⟨rfl, h2⟩
  refine .bind _ (same_handleSlot (fun a b h => h.handle (fun _ _ => rfl) o) h.meter) ?_
  rintro ⟨m, n₃⟩ ⟨m', _⟩ ⟨rfl, h3⟩
  refine .bind _ (same_handleSlot (fun a b h => h.handle (fun _ _ => rfl) o) h.histogram) ?_
  rintro ⟨i, n₄⟩ ⟨i', _⟩ ⟨rfl, h4⟩
  exact .pure ⟨rfl, h.filter, h.name, h.descr, h1, h2, h3, h4, h.activity⟩

theorem PanelHead.Like.putSlots {a : PanelHead L} {b : PanelHead L'} (h : a.Like f b) (into : Snapshot) (d : Bool) :
    Same (PanelHead.Like f) (a.putSlots into d) (b.putSlots into d) := by
  unfold PanelHead.putSlots
  refine .bind _ (same_putSlot (fun a b s h => h.put (fun _ _ _ => rfl) s d) h.counter into) ?_
  rintro ⟨c, s₁⟩ ⟨c', _⟩ ⟨rfl, h1⟩
  refine .bind _ (same_putSlot (fun a b s h => h.put s d) h.gauge s₁) ?_
  rintro ⟨g, s₂⟩ ⟨g', _⟩ ⟨rfl, h2⟩
  refine .bind _ (same_putSlot (fun a b s h => h.put (fun _ _ _ => rfl) s d) h.meter s₂) ?_
  rintro ⟨m, s₃⟩ ⟨m', _⟩ ⟨rfl, h3⟩
  refine .bind _ (same_putSlot (fun a b s h => h.put (fun _ _ _ => rfl) s d) h.histogram s₃) ?_
  rintro ⟨i, s₄⟩ ⟨i', _⟩ ⟨rfl, h4⟩
  exact .pure ⟨rfl, h.filter, h.name, h.descr, h1, h2, h3, h4, h.activity⟩

variable [Custom σ L] [Custom σ L']

set_option linter.unusedSectionVars false

section Handle
variable (hc : CustomLike σ f) (o : Observation L)
include hc

mutual
theorem Panel.Like.handle : ∀ {p : Panel σ L} {p' : Panel σ L'}, p.Like f p' →
    Same (Panel.Like f) (p.handle o) (p'.handle (o.relabel f))
  | .mk h ps hs ss, _, .mk (h' := h') h1 h2 h3 h4 => by
    rw [Panel.handle, Panel.handle, o.relabel_label, h1.filter o.label]
    refine .ite (.bind _ (h1.handle o) ?_) (.pure ⟨rfl, .mk h1 h2 h3 h4⟩)
    rintro ⟨a, n₁⟩ ⟨a', _⟩ ⟨rfl, h1⟩
    refine .bind _ (like_handlePanels h2) ?_
    rintro ⟨b, n₂⟩ ⟨b', _⟩ ⟨rfl, h2⟩
    refine .bind _ (like_handleHandlers h3) ?_
    rintro ⟨c, n₃⟩ ⟨c', _⟩ ⟨rfl, h3⟩
    exact .pure ⟨rfl, .mk h1 h2 h3 h4⟩
theorem like_handlePanels : ∀ {ps : List (Panel σ L)} {ps' : List (Panel σ L')}, List.Forall₂ (Panel.Like f) ps ps' →
    Same (List.Forall₂ (Panel.Like f)) (handlePanels o ps) (handlePanels (o.relabel f) ps')
  | [], _, .nil => by rw [handlePanels, handlePanels]; exact .pure ⟨rfl, .nil⟩
  | p :: ps, _, .cons h1 h2 => by
    rw [handlePanels, handlePanels]
    refine .bind _ (Panel.Like.handle h1) ?_
    rintro ⟨a, n₁⟩ ⟨a', _⟩ ⟨rfl, h1⟩
    refine .bind _ (like_handlePanels h2) ?_
    rintro ⟨b, n₂⟩ ⟨b', _⟩ ⟨rfl, h2⟩
    exact .pure ⟨rfl, .cons h1 h2⟩
theorem Handler.Like.handle : ∀ {h : Handler σ L} {h' : Handler σ L'}, h.Like f h' →
    Same (Handler.Like f) (h.handle o) (h'.handle (o.relabel f))
  | .instrument a, _, .instrument h => by
    rw [Handler.handle, Handler.handle]
    exact same_wrap (h.handle (fun i u => i.update_like hc u) o) fun _ _ => .instrument
  | .gauge a, _, .gauge h => by
    rw [Handler.handle, Handler.handle]
    exact same_wrap (h.handle o) fun _ _ => .gauge
  | .panel p, _, .panel h => by
    rw [Handler.handle, Handler.handle]
    exact same_wrap (Panel.Like.handle h) fun _ _ => .panel
  | .cockpit h ps hs ss, _, .cockpit h1 h2 h3 => by
    rw [Handler.handle, Handler.handle]
    refine .bindEq _ fun now => ?_
    refine .bind _ (like_handleHandlers h2) ?_
    rintro ⟨a, n₁⟩ ⟨a', _⟩ ⟨rfl, h2⟩
    refine .bind _ (like_handlePanels h1) ?_
    rintro ⟨b, n₂⟩ ⟨b', _⟩ ⟨rfl, h1⟩
    exact .pure ⟨rfl, .cockpit h1 h2 h3⟩
  | .custom s, _, .custom _ => by
    rw [Handler.handle, Handler.handle, hc.handle]
    exact .bindEq _ fun r => .pure ⟨rfl, .custom _⟩
theorem like_handleHandlers : ∀ {hs : List (Handler σ L)} {hs' : List (Handler σ L')}, List.Forall₂ (Handler.Like f) hs hs' →
    Same (List.Forall₂ (Handler.Like f)) (handleHandlers o hs) (handleHandlers (o.relabel f) hs')
  | [], _, .nil => by rw [handleHandlers, handleHandlers]; exact .pure ⟨rfl, .nil⟩
  | p :: ps, _, .cons h1 h2 => by
    rw [handleHandlers, handleHandlers]
    refine .bind _ (Handler.Like.handle h1) ?_
    rintro ⟨a, n₁⟩ ⟨a', _⟩ ⟨rfl, h1⟩
    refine .bind _ (like_handleHandlers h2) ?_
    rintro ⟨b, n₂⟩ ⟨b', _⟩ ⟨rfl, h2⟩
    exact .pure ⟨rfl, .cons h1 h2⟩
end
end Handle

section Put
variable (hc : CustomLike σ f) (d : Bool)
include hc

mutual
theorem Panel.Like.put : ∀ {p : Panel σ L} {p' : Panel σ L'}, p.Like f p' → ∀ into,
    Same (Panel.Like f) (p.putSnapshot d into) (p'.putSnapshot d into)
  | .mk h ps hs ss, _, .mk (h' := h') h1 h2 h3 h4, into => by
    rw [Panel.putSnapshot, Panel.putSnapshot]
    rw [← h1.descr, ← h1.activity, ← h1.name]
    refine .bindEq _ fun r => .ite (.bind _ (h1.putSlots r.2 d) ?_) (.pure ⟨rfl, .mk h1 h2 h3 h4⟩)
    rintro ⟨a, s₁⟩ ⟨a', _⟩ ⟨rfl, h1⟩
    refine .bind _ (like_putPanels h2 s₁) ?_
    rintro ⟨b, s₂⟩ ⟨b', _⟩ ⟨rfl, h2⟩
    refine .bind _ (like_putSnapshooters h4 s₂) ?_
    rintro ⟨c, s₃⟩ ⟨c', _⟩ ⟨rfl, h4⟩
    refine .bind _ (like_putHandlers h3 s₃) ?_
    rintro ⟨c, s₄⟩ ⟨c', _⟩ ⟨rfl, h3⟩
    refine .pure ⟨?_, .mk h1 h2 h3 h4⟩
    rw [h1.name]
theorem like_putPanels : ∀ {ps : List (Panel σ L)} {ps' : List (Panel σ L')}, List.Forall₂ (Panel.Like f) ps ps' → ∀ into,
    Same (List.Forall₂ (Panel.Like f)) (putPanels d ps into) (putPanels d ps' into)
  | [], _, .nil, into => by rw [putPanels, putPanels]; exact .pure ⟨rfl, .nil⟩
  | p :: ps, _, .cons h1 h2, into => by
    rw [putPanels, putPanels]
    refine .bind _ (Panel.Like.put h1 into) ?_
    rintro ⟨a, n₁⟩ ⟨a', _⟩ ⟨rfl, h1⟩
    refine .bind _ (like_putPanels h2 n₁) ?_
    rintro ⟨b, n₂⟩ ⟨b', _⟩ ⟨rfl, h2⟩
    exact .pure ⟨rfl, .cons h1 h2⟩
theorem Handler.Like.put : ∀ {h : Handler σ L} {h' : Handler σ L'}, h.Like f h' → ∀ into,
    Same (Handler.Like f) (h.putSnapshot d into) (h'.putSnapshot d into)
  | .instrument a, _, .instrument h, into => by
    rw [Handler.putSnapshot, Handler.putSnapshot]
    exact same_wrap (h.put (fun i s d => i.put_like hc s d) into d) fun _ _ => .instrument
  | .gauge a, _, .gauge h, into => by
    rw [Handler.putSnapshot, Handler.putSnapshot]
    exact same_wrap (h.put into d) fun _ _ => .gauge
  | .panel p, _, .panel h, into => by
    rw [Handler.putSnapshot, Handler.putSnapshot]
    exact same_wrap (Panel.Like.put h into) fun _ _ => .panel
  | .cockpit h ps hs ss, _, .cockpit h1 h2 h3, into => by
    rw [Handler.putSnapshot, Handler.putSnapshot]
    refine .bindEq _ fun r => .ite (.bind _ (like_putPanels h1 r.2) ?_) (.pure ⟨rfl, .cockpit h1 h2 h3⟩)
    rintro ⟨a, s₁⟩ ⟨a', _⟩ ⟨rfl, h1⟩
    refine .bind _ (like_putHandlers h2 s₁) ?_
    rintro ⟨a, s₂⟩ ⟨a', _⟩ ⟨rfl, h2⟩
    refine .bind _ (like_putSnapshooters h3 s₂) ?_
    rintro ⟨a, s₃⟩ ⟨a', _⟩ ⟨rfl, h3⟩
    exact .pure ⟨rfl, .cockpit h1 h2 h3⟩
  | .custom s, _, .custom _, into => by
    rw [Handler.putSnapshot, Handler.putSnapshot, hc.put]
    exact .bindEq _ fun r => .pure ⟨rfl, .custom _⟩
theorem like_putHandlers : ∀ {hs : List (Handler σ L)} {hs' : List (Handler σ L')}, List.Forall₂ (Handler.Like f) hs hs' → ∀ into,
    Same (List.Forall₂ (Handler.Like f)) (putHandlers d hs into) (putHandlers d hs' into)
  | [], _, .nil, into => by rw [putHandlers, putHandlers]; exact .pure ⟨rfl, .nil⟩
  | p :: ps, _, .cons h1 h2, into => by
    rw [putHandlers, putHandlers]
    refine .bind _ (Handler.Like.put h1 into) ?_
    rintro ⟨a, n₁⟩ ⟨a', _⟩ ⟨rfl, h1⟩
    refine .bind _ (like_putHandlers h2 n₁) ?_
    rintro ⟨b, n₂⟩ ⟨b', _⟩ ⟨rfl, h2⟩
    exact .pure ⟨rfl, .cons h1 h2⟩
theorem Snapshooter.Like.put : ∀ {s : Snapshooter σ L} {s' : Snapshooter σ L'}, s.Like f s' → ∀ into,
    Same (Snapshooter.Like f) (s.putSnapshot d into) (s'.putSnapshot d into)
  | .constant .., _, .constant n ds v, into => by
    rw [Snapshooter.putSnapshot, Snapshooter.putSnapshot]
    exact .pure ⟨rfl, .constant n ds v⟩
  | .polling .., _, .polling n ds g h, into => by
    rw [Snapshooter.putSnapshot, Snapshooter.putSnapshot]
    refine .ite (.bind _ (Snapshooter.Like.put h []) ?_) (.bind _ (Snapshooter.Like.put h _) ?_)
    · rintro ⟨a, n₁⟩ ⟨a', _⟩ ⟨rfl, h1⟩
      exact .pure ⟨rfl, .polling n ds g h1⟩
    · rintro ⟨a, n₁⟩ ⟨a', _⟩ ⟨rfl, h1⟩
      exact .pure ⟨rfl, .polling n ds g h1⟩
  | .instrument _, _, .instrument i, into => by
    rw [Snapshooter.putSnapshot, Snapshooter.putSnapshot, i.put_like hc]
    exact .bindEq _ fun r => .pure ⟨rfl, .instrument _⟩
  | .handler _, _, .handler h, into => by
    rw [Snapshooter.putSnapshot, Snapshooter.putSnapshot]
    exact same_wrap (Handler.Like.put h into) fun _ _ => .handler
  | .custom s, _, .custom _, into => by
    rw [Snapshooter.putSnapshot, Snapshooter.putSnapshot, hc.put]
    exact .bindEq _ fun r => .pure ⟨rfl, .custom _⟩
theorem like_putSnapshooters : ∀ {ss : List (Snapshooter σ L)} {ss' : List (Snapshooter σ L')},
    List.Forall₂ (Snapshooter.Like f) ss ss' → ∀ into,
    Same (List.Forall₂ (Snapshooter.Like f)) (putSnapshooters d ss into) (putSnapshooters d ss' into)
  | [], _, .nil, into => by rw [putSnapshooters, putSnapshooters]; exact .pure ⟨rfl, .nil⟩
  | p :: ps, _, .cons h1 h2, into => by
    rw [putSnapshooters, putSnapshooters]
    refine .bind _ (Snapshooter.Like.put h1 into) ?_
    rintro ⟨a, n₁⟩ ⟨a', _⟩ ⟨rfl, h1⟩
    refine .bind _ (like_putSnapshooters h2 n₁) ?_
    rintro ⟨b, n₂⟩ ⟨b', _⟩ ⟨rfl, h2⟩
    exact .pure ⟨rfl, .cons h1 h2⟩
end
end Put

/-! ## Cockpits -/

theorem Cockpit.Like.handle (hc : CustomLike σ f) (o : Observation L) {c : Cockpit σ L} {c' : Cockpit σ L'}
    (h : c.Like f c') : Same (Cockpit.Like f) (c.handle o) (c'.handle (o.relabel f)) := by
  unfold Cockpit.handle
  rw [h.head]
  refine .bindEq _ fun now => ?_
  refine .bind _ (like_handleHandlers hc o h.handlers) ?_
  rintro ⟨a, n₁⟩ ⟨a', _⟩ ⟨rfl, h2⟩
  refine .bind _ (like_handlePanels hc o h.panels) ?_
  rintro ⟨b, n₂⟩ ⟨b', _⟩ ⟨rfl, h1⟩
  exact .pure ⟨rfl, rfl, h1, h2, h.snapshooters⟩

theorem Cockpit.Like.put (hc : CustomLike σ f) {c : Cockpit σ L} {c' : Cockpit σ L'} (h : c.Like f c')
    (into : Snapshot) (d : Bool) : Same (Cockpit.Like f) (c.putSnapshot into d) (c'.putSnapshot into d) := by
  unfold Cockpit.putSnapshot
  rw [h.head]
  refine .bindEq _ fun r => .ite (.bind _ (like_putPanels hc d h.panels r.2) ?_) (.pure ⟨rfl, h⟩)
  rintro ⟨a, s₁⟩ ⟨a', _⟩ ⟨rfl, h1⟩
  refine .bind _ (like_putHandlers hc d h.handlers s₁) ?_
  rintro ⟨a, s₂⟩ ⟨a', _⟩ ⟨rfl, h2⟩
  refine .bind _ (like_putSnapshooters hc d h.snapshooters s₂) ?_
  rintro ⟨a, s₃⟩ ⟨a', _⟩ ⟨rfl, h3⟩
  exact .pure ⟨rfl, rfl, h1, h2, h3⟩

omit [Custom σ L] [Custom σ L'] in
theorem Panel.Like.name {p : Panel σ L} {p' : Panel σ L'} (h : p.Like f p') : p.name = p'.name := by
  cases h with
  | mk h _ _ _ => exact h.name

omit [Custom σ L] [Custom σ L'] in
theorem Cockpit.Like.name {c : Cockpit σ L} {c' : Cockpit σ L'} (h : c.Like f c') : c.name = c'.name := by
  unfold Cockpit.name
  rw [h.head]

theorem like_any {A B : Type} {R : A → B → Prop} {p : A → Bool} {q : B → Bool} (h : ∀ a b, R a b → p a = q b)
    {as : List A} {bs : List B} (hr : List.Forall₂ R as bs) : as.any p = bs.any q := by
  induction hr with
  | nil => rfl
  | cons h1 _ ih => simp only [List.any_cons, h _ _ h1, ih]

theorem like_filter {A B : Type} {R : A → B → Prop} {p : A → Bool} {q : B → Bool} (h : ∀ a b, R a b → p a = q b)
    {as : List A} {bs : List B} (hr : List.Forall₂ R as bs) : List.Forall₂ R (as.filter p) (bs.filter q) := by
  induction hr with
  | nil => exact .nil
  | cons h1 _ ih =>
    simp only [List.filter_cons, h _ _ h1]
    split
    · exact .cons h1 ih
    · exact ih

theorem like_append {A B : Type} {R : A → B → Prop} {as as' : List A} {bs bs' : List B} (h : List.Forall₂ R as bs)
    (h' : List.Forall₂ R as' bs') : List.Forall₂ R (as ++ as') (bs ++ bs') := by
  induction h with
  | nil => exact h'
  | cons h1 _ ih => exact .cons h1 ih

omit [Custom σ L] [Custom σ L'] in
theorem Cockpit.Like.addPanel {c : Cockpit σ L} {c' : Cockpit σ L'} (h : c.Like f c') {p : Panel σ L} {p' : Panel σ L'}
    (hp : p.Like f p') : (c.addPanel p).Like f (c'.addPanel p') := by
  unfold Cockpit.addPanel
  have hadd : Cockpit.Like f { c with panels := c.panels ++ [p] } { c' with panels := c'.panels ++ [p'] } :=
    ⟨h.head, like_append h.panels (.cons hp .nil), h.handlers, h.snapshooters⟩
  rw [hp.name]
  split
  · rw [like_any (fun a b hab => by rw [Panel.Like.name hab]) h.panels]
    split
    · exact h
    · exact hadd
  · exact hadd

omit [Custom σ L] [Custom σ L'] in
theorem Cockpit.Like.removePanel {c : Cockpit σ L} {c' : Cockpit σ L'} (h : c.Like f c') (n : String) :
    (c.removePanel n).Like f (c'.removePanel n) :=
  ⟨h.head, like_filter (fun a b hab => by rw [Panel.Like.name hab]) h.panels, h.handlers, h.snapshooters⟩

/-! ## Processors -/

theorem like_handleCockpits (hc : CustomLike σ f) (o : Observation L) {cs : List (Cockpit σ L)} {cs' : List (Cockpit σ L')}
    (h : List.Forall₂ (Cockpit.Like f) cs cs') :
    Same (List.Forall₂ (Cockpit.Like f)) (handleCockpits o cs) (handleCockpits (o.relabel f) cs') := by
  induction h with
  | nil => exact .pure ⟨rfl, .nil⟩
  | cons h1 _ ih =>
    refine .bind _ (h1.handle hc o) ?_
    rintro ⟨a, n₁⟩ ⟨a', _⟩ ⟨rfl, h1⟩
    refine .bind _ ih ?_
    rintro ⟨b, n₂⟩ ⟨b', _⟩ ⟨rfl, h2⟩
    exact .pure ⟨rfl, .cons h1 h2⟩

theorem like_putCockpits (hc : CustomLike σ f) (d : Bool) {cs : List (Cockpit σ L)} {cs' : List (Cockpit σ L')}
    (h : List.Forall₂ (Cockpit.Like f) cs cs') (into : Snapshot) :
    Same (List.Forall₂ (Cockpit.Like f)) (putCockpits d cs into) (putCockpits d cs' into) := by
  induction h generalizing into with
  | nil => exact .pure ⟨rfl, .nil⟩
  | cons h1 _ ih =>
    refine .bind _ (h1.put hc into d) ?_
    rintro ⟨a, n₁⟩ ⟨a', _⟩ ⟨rfl, h1⟩
    refine .bind _ (ih n₁) ?_
    rintro ⟨b, n₂⟩ ⟨b', _⟩ ⟨rfl, h2⟩
    exact .pure ⟨rfl, .cons h1 h2⟩

theorem ProcessorState.Like.put (hc : CustomLike σ f) {s : ProcessorState σ L} {s' : ProcessorState σ L'} (h : s.Like f s')
    (into : Snapshot) (d : Bool) : Same (ProcessorState.Like f) (s.putSnapshot into d) (s'.putSnapshot into d) := by
  unfold ProcessorState.putSnapshot
  rw [h.name, h.descr, h.activity]
  refine .bindEq _ fun r => .ite (.bind _ (like_putCockpits hc d h.cockpits r.2) ?_) (.pure ⟨rfl, h⟩)
  rintro ⟨a, s₁⟩ ⟨a', _⟩ ⟨rfl, h1⟩
  refine .bind _ (like_putHandlers hc d h.handlers s₁) ?_
  rintro ⟨a, s₂⟩ ⟨a', _⟩ ⟨rfl, h2⟩
  refine .bind _ (like_putSnapshooters hc d h.snapshooters s₂) ?_
  rintro ⟨a, s₃⟩ ⟨a', _⟩ ⟨rfl, h3⟩
  exact .pure ⟨rfl, rfl, rfl, h1, h2, h3, rfl⟩

theorem Processor.Like.put (hc : CustomLike σ f) {p : Processor σ L} {p' : Processor σ L'} (h : p.Like f p')
    (into : Snapshot) (d : Bool) : Same (Processor.Like f) (p.putSnapshot into d) (p'.putSnapshot into d) := by
  unfold Processor.putSnapshot
  refine .bind _ (h.state.put hc into d) ?_
  rintro ⟨a, s⟩ ⟨a', _⟩ ⟨rfl, hs⟩
  exact .pure ⟨rfl, hs, h.receiver, h.isDisconnected⟩

omit [DecidableEq L] [DecidableEq L'] in
theorem Decider.shouldBeProcessed_relabel (d : Decider) (o : Observation L) :
    d.shouldBeProcessed (o.relabel f) = d.shouldBeProcessed o := by
  unfold Decider.shouldBeProcessed
  rw [o.relabel_timestamp, o.relabel_isDelta]

omit [Custom σ L] [Custom σ L'] in
theorem like_modifyFirst {g : Cockpit σ L → Cockpit σ L} {g' : Cockpit σ L' → Cockpit σ L'}
    (hg : ∀ c c', Cockpit.Like f c c' → Cockpit.Like f (g c) (g' c')) (n : String) {cs : List (Cockpit σ L)}
    {cs' : List (Cockpit σ L')} (h : List.Forall₂ (Cockpit.Like f) cs cs') :
    List.Forall₂ (Cockpit.Like f) (ProcessorState.modifyFirst n g cs) (ProcessorState.modifyFirst n g' cs') := by
  induction h with
  | nil => exact .nil
  | cons h1 h2 ih =>
    simp only [ProcessorState.modifyFirst, h1.name]
    split
    · exact .cons (hg _ _ h1) h2
    · exact .cons h1 ih

theorem ProcessorState.Like.receive (hc : CustomLike σ f) {s : ProcessorState σ L} {s' : ProcessorState σ L'} (h : s.Like f s')
    (decider : Decider) (t : Tally) {m : Message σ L} {m' : Message σ L'} (hm : m.Like f m') :
    Same (ProcessorState.Like f) (s.receive decider t m) (s'.receive decider t m') := by
  cases hm with
  | observation o =>
    simp only [ProcessorState.receive, decider.shouldBeProcessed_relabel]
    refine .ite (.bind _ (like_handleCockpits hc o h.cockpits) ?_) (.pure ⟨rfl, h⟩)
    rintro ⟨a, n₁⟩ ⟨a', _⟩ ⟨rfl, h1⟩
    refine .bind _ (like_handleHandlers hc o h.handlers) ?_
    rintro ⟨b, n₂⟩ ⟨b', _⟩ ⟨rfl, h2⟩
    exact .pure ⟨rfl, h.name, h.descr, h1, h2, h.snapshooters, h.activity⟩
  | addCockpit hcp =>
    refine .pure ⟨rfl, ?_⟩
    have hadd := like_append h.cockpits (.cons hcp .nil)
    unfold ProcessorState.addCockpit
    rw [hcp.name]
    simp only
    split
    · rw [like_any (fun a b hab => by rw [Cockpit.Like.name hab]) h.cockpits]
      split
      · exact h
      · exact ⟨h.name, h.descr, hadd, h.handlers, h.snapshooters, h.activity⟩
    · exact ⟨h.name, h.descr, hadd, h.handlers, h.snapshooters, h.activity⟩
  | removeCockpit n =>
    exact .pure ⟨rfl, h.name, h.descr, like_filter (fun a b hab => by rw [Cockpit.Like.name hab]) h.cockpits,
      h.handlers, h.snapshooters, h.activity⟩
  | addHandler hh =>
    exact .pure ⟨rfl, h.name, h.descr, h.cockpits, like_append h.handlers (.cons hh .nil), h.snapshooters, h.activity⟩
  | addPanelToCockpit n hp =>
    exact .pure ⟨rfl, h.name, h.descr, like_modifyFirst (fun c c' hcc => hcc.addPanel hp) n h.cockpits, h.handlers,
      h.snapshooters, h.activity⟩
  | removePanelFromCockpit n k =>
    exact .pure ⟨rfl, h.name, h.descr, like_modifyFirst (fun c c' hcc => hcc.removePanel k) n h.cockpits, h.handlers,
      h.snapshooters, h.activity⟩

/-! ## Channels -/

section Channel
variable {μ ν : Type} {R : μ → ν → Prop}

theorem Channel.Like.isFull {a : Channel μ} {b : Channel ν} (h : a.Like R b) : a.isFull = b.isFull := by
  unfold Channel.isFull
  rw [h.cap, h.queue.length_eq]

theorem Channel.Like.send {a : Channel μ} {b : Channel ν} (h : a.Like R b) (t : Nat) {m : μ} {n : ν} (hm : R m n) :
    (a.send t m).2 = (b.send t n).2 ∧ (a.send t m).1.Like R (b.send t n).1 ∧ (a.send t m).1.threads = a.threads ∧
      (b.send t n).1.threads = b.threads := by
  unfold Channel.send
  rw [h.receiver, h.isFull, h.useSend]
  split
  · exact ⟨rfl, ⟨h.queue, h.cap, rfl, rfl, h.threads⟩, rfl, rfl⟩
  · split
    · split
      · exact ⟨rfl, h, rfl, rfl⟩
      · exact ⟨rfl, ⟨h.queue, h.cap, rfl, rfl, h.threads⟩, rfl, rfl⟩
    · exact ⟨rfl, ⟨like_append h.queue (.cons ⟨rfl, hm⟩ .nil), h.cap, rfl, rfl, h.threads⟩, rfl, rfl⟩

theorem like_getElem? {A B : Type} {S : A → B → Prop} {as : List A} {bs : List B} (h : List.Forall₂ S as bs) (t : Nat) :
    Option.Rel S as[t]? bs[t]? := by
  induction h generalizing t with
  | nil => simp only [List.getElem?_nil]; exact .none
  | cons h1 _ ih =>
    cases t with
    | zero => exact .some h1
    | succ t => simpa only [List.getElem?_cons_succ] using ih t

theorem like_set {A B : Type} {S : A → B → Prop} {as : List A} {bs : List B} (h : List.Forall₂ S as bs) (t : Nat)
    {a : A} {b : B} (hab : S a b) : List.Forall₂ S (as.set t a) (bs.set t b) := by
  induction h generalizing t with
  | nil => exact .nil
  | cons h1 h2 ih =>
    cases t with
    | zero => exact .cons hab h2
    | succ t => exact .cons h1 (ih t)

theorem Channel.Like.step {a : Channel μ} {b : Channel ν} (h : a.Like R b) (t : Nat) : (a.step t).Like R (b.step t) := by
  unfold Channel.step
  have ht := like_getElem? h.threads t
  revert ht
  cases a.threads[t]? with
  | none => cases b.threads[t]? with
    | none => intro _; exact h
    | some _ => intro ht; cases ht
  | some ta => cases b.threads[t]? with
    | none => intro ht; cases ht
    | some tb =>
      intro ht
      cases ht with
      | some ht =>
        obtain ⟨todo, drops, holds⟩ := ta
        obtain ⟨todo', drops', holds'⟩ := tb
        obtain ⟨h1, rfl, rfl⟩ := ht
        simp only at h1 ⊢
        split
        · cases h1 with
          | nil =>
            simp only
            split
            · exact ⟨h.queue, h.cap, h.useSend, h.receiver, like_set h.threads t ⟨.nil, rfl, rfl⟩⟩
            · exact h
          | cons hm hrest =>
            obtain ⟨hr, hl, _, _⟩ := h.send t hm
            simp only [hr]
            split
            · exact h
            · exact ⟨hl.queue, hl.cap, hl.useSend, hl.receiver, like_set h.threads t ⟨hrest, rfl, rfl⟩⟩
        · exact h

theorem Channel.Like.run {a : Channel μ} {b : Channel ν} (h : a.Like R b) (s : List Nat) : (a.run s).Like R (b.run s) := by
  unfold Channel.run
  induction s generalizing a b with
  | nil => exact h
  | cons t s ih => exact ih (h.step t)

theorem Channel.Like.abandoned {a : Channel μ} {b : Channel ν} (h : a.Like R b) : a.abandoned = b.abandoned := by
  have key : ∀ {as : List (SendThread μ)} {bs : List (SendThread ν)}, List.Forall₂ (SendThread.Like R) as bs →
      (as.all fun th => !th.holds) = bs.all fun th => !th.holds := by
    intro as bs hr
    induction hr with
    | nil => rfl
    | cons h1 _ ih => simp only [List.all_cons, h1.holds, ih]
  exact key h.threads

theorem Channel.Like.dropReceiver {a : Channel μ} {b : Channel ν} (h : a.Like R b) : a.dropReceiver.Like R b.dropReceiver :=
  ⟨.nil, h.cap, h.useSend, rfl, h.threads⟩

theorem Receiver.Like.wait {a : Receiver μ} {b : Receiver ν} (h : a.Like R b) : a.wait.Like R b.wait := by
  unfold Receiver.wait
  rw [h.ahead]
  split
  · exact h
  · exact ⟨h.chan.run _, rfl⟩

/-- What was received. -/
inductive TryRecv.Like (R : μ → ν → Prop) : TryRecv μ → TryRecv ν → Prop
  | ok {m : μ} {n : ν} : R m n → TryRecv.Like R (.ok m) (.ok n)
  | empty : TryRecv.Like R .empty .empty
  | disconnected : TryRecv.Like R .disconnected .disconnected

theorem Receiver.Like.tryRecv {a : Receiver μ} {b : Receiver ν} (h : a.Like R b) :
    a.tryRecv.1.Like R b.tryRecv.1 ∧ TryRecv.Like R a.tryRecv.2 b.tryRecv.2 := by
  have hw := h.wait
  unfold Receiver.tryRecv
  generalize a.wait = x at hw
  generalize b.wait = y at hw
  obtain ⟨x, ax⟩ := x
  obtain ⟨y, ay⟩ := y
  obtain ⟨hc, rfl⟩ := hw
  have hq := hc.queue
  simp only at hc hq ⊢
  revert hq
  cases hx : x.queue with
  | nil =>
    cases hy : y.queue with
    | nil =>
      intro _
      simp only [hc.abandoned]
      refine ⟨⟨hc, rfl⟩, ?_⟩
      split
      · exact .disconnected
      · exact .empty
    | cons q qs => intro hq; cases hq
  | cons p ps =>
    cases hy : y.queue with
    | nil => intro hq; cases hq
    | cons q qs =>
      intro hq
      cases hq with
      | cons h1 h2 =>
        obtain ⟨t, m⟩ := p
        obtain ⟨t', n⟩ := q
        refine ⟨⟨?_, rfl⟩, .ok h1.2⟩
        simp only [Channel.take, hx, hy]
        exact ⟨h2, hc.cap, hc.useSend, hc.receiver, hc.threads⟩

theorem Receiver.Like.len {a : Receiver μ} {b : Receiver ν} (h : a.Like R b) :
    a.len.1.Like R b.len.1 ∧ a.len.2 = b.len.2 :=
  ⟨h.wait, h.wait.chan.queue.length_eq⟩

end Channel

theorem Processor.Like.receiveLoop (hc : CustomLike σ f) (decider : Decider) (n : Nat) {p : Processor σ L} {p' : Processor σ L'}
    (h : p.Like f p') (t : Tally) :
    Same (Processor.Like f) (p.receiveLoop decider n t) (p'.receiveLoop decider n t) := by
  induction n generalizing p p' t with
  | zero => exact .pure ⟨rfl, h⟩
  | succ n ih =>
    unfold Processor.receiveLoop
    obtain ⟨h1, h2⟩ := h.receiver.tryRecv
    generalize p.receiver.tryRecv = a at h1 h2 ⊢
    generalize p'.receiver.tryRecv = b at h1 h2 ⊢
    obtain ⟨ra, xa⟩ := a
    obtain ⟨rb, xb⟩ := b
    cases h2 with
    | ok hm =>
      refine .bind _ (h.state.receive hc decider t hm) ?_
      rintro ⟨s, t⟩ ⟨s', _⟩ ⟨rfl, hs⟩
      exact ih (p := { p with state := s, receiver := ra }) (p' := { p' with state := s', receiver := rb })
        ⟨hs, h1, h.isDisconnected⟩ _
    | empty =>
      exact ih (p := { p with receiver := ra }) (p' := { p' with receiver := rb }) ⟨h.state, h1, h.isDisconnected⟩ _
    | disconnected => exact .pure ⟨rfl, h.state, h1, rfl⟩

theorem Processor.Like.process (hc : CustomLike σ f) {p : Processor σ L} {p' : Processor σ L'} (h : p.Like f p') (max : Nat)
    (strategy : Strategy) : Same (Processor.Like f) (p.process max strategy) (p'.process max strategy) := by
  unfold Processor.process
  rw [h.isDisconnected]
  refine .ite (.pure ⟨rfl, h⟩) (.bindEq _ fun decider => .bind _ (h.receiveLoop hc decider max {}) ?_)
  rintro ⟨p, t⟩ ⟨p', _⟩ ⟨rfl, h⟩
  obtain ⟨h1, h2⟩ := h.receiver.len
  simp only [h2]
  refine .ite (.bindEq _ fun now => .pure ⟨rfl, ?_, h1, h.isDisconnected⟩) (.pure ⟨rfl, h.state, h1, h.isDisconnected⟩)
  exact ⟨h.state.name, h.state.descr, h.state.cockpits, h.state.handlers, h.state.snapshooters, by rw [h.state.activity]⟩

/-! ## Mounts -/

variable [CustomProcessor σ]

mutual
theorem Node.Like.process (hc : CustomLike σ f) (max : Nat) (strategy : Strategy) : ∀ {n : Node σ L} {n' : Node σ L'}, n.Like f n' →
    Same (Node.Like f) (n.process max strategy) (n'.process max strategy)
  | .processor p, _, .processor h => by
    rw [Node.process, Node.process]
    exact same_wrap (h.process hc max strategy) fun _ _ => .processor
  | .mount h ns ss, _, .mount _ h1 h2 => by
    rw [Node.process, Node.process]
    refine .bind _ (like_processNodes hc max strategy h1) ?_
    rintro ⟨a, o⟩ ⟨a', _⟩ ⟨rfl, h1⟩
    exact .bindEq _ fun h => .pure ⟨rfl, .mount h h1 h2⟩
  | .attached h ns ss [], _, .attached _ h1 h2 .nil => by
    rw [Node.process, Node.process]
    refine .bind _ (like_processNodes hc max strategy h1) ?_
    rintro ⟨a, o⟩ ⟨a', _⟩ ⟨rfl, h1⟩
    exact .bindEq _ fun h => .pure ⟨rfl, .attached h h1 h2 .nil⟩
  | .attached h ns ss (⟨ps, ss', closed⟩ :: inbox), _, .attached _ h1 h2 (.cons (.mk _ h3 h4) h5) => by
    rw [Node.process, Node.process]
    refine .bind _ (like_processNodes hc max strategy h1) ?_
    rintro ⟨a, o⟩ ⟨a', _⟩ ⟨rfl, h1⟩
    refine .bind _ (like_processNodes hc max strategy h3) ?_
    rintro ⟨b, o'⟩ ⟨b', _⟩ ⟨rfl, h3⟩
    refine .bindEq _ fun h => .pure ⟨rfl, .attached h (like_append h1 h3) (like_append h2 h4) ?_⟩
    split
    · exact .nil
    · exact h5
  | .driver _, _, .driver as => by
    rw [Node.process, Node.process]
    exact .pure ⟨rfl, .driver as⟩
  | .custom _, _, .custom s => by
    rw [Node.process, Node.process]
    exact .bindEq _ fun r => .pure ⟨rfl, .custom _⟩
theorem like_processNodes (hc : CustomLike σ f) (max : Nat) (strategy : Strategy) : ∀ {ns : List (Node σ L)} {ns' : List (Node σ L')},
    List.Forall₂ (Node.Like f) ns ns' →
    Same (List.Forall₂ (Node.Like f)) (processNodes max strategy ns) (processNodes max strategy ns')
  | [], _, .nil => by rw [processNodes, processNodes]; exact .pure ⟨rfl, .nil⟩
  | n :: ns, _, .cons h1 h2 => by
    rw [processNodes, processNodes]
    refine .bind _ (Node.Like.process hc max strategy h1) ?_
    rintro ⟨a, n₁⟩ ⟨a', _⟩ ⟨rfl, h1⟩
    refine .bind _ (like_processNodes hc max strategy h2) ?_
    rintro ⟨b, n₂⟩ ⟨b', _⟩ ⟨rfl, h2⟩
    exact .pure ⟨rfl, .cons h1 h2⟩
end

mutual
theorem Node.Like.put (hc : CustomLike σ f) (d : Bool) : ∀ {n : Node σ L} {n' : Node σ L'}, n.Like f n' → ∀ into,
    Same (Node.Like f) (n.putSnapshot d into) (n'.putSnapshot d into)
  | .processor p, _, .processor h, into => by
    rw [Node.putSnapshot, Node.putSnapshot]
    exact same_wrap (h.put hc into d) fun _ _ => .processor
  | .mount h ns ss, _, .mount _ h1 h2, into => by
    rw [Node.putSnapshot, Node.putSnapshot]
    refine .bindEq _ fun r => .ite (.bind _ (like_putNodes hc d h1 r.2) ?_) (.pure ⟨rfl, .mount h h1 h2⟩)
    rintro ⟨a, s⟩ ⟨a', _⟩ ⟨rfl, h1⟩
    refine .bind _ (like_putSnapshooters hc d h2 s) ?_
    rintro ⟨b, s⟩ ⟨b', _⟩ ⟨rfl, h2⟩
    exact .pure ⟨rfl, .mount h h1 h2⟩
  | .attached h ns ss inbox, _, .attached _ h1 h2 h3, into => by
    rw [Node.putSnapshot, Node.putSnapshot]
    refine .bindEq _ fun r => .ite (.bind _ (like_putNodes hc d h1 r.2) ?_) (.pure ⟨rfl, .attached h h1 h2 h3⟩)
    rintro ⟨a, s⟩ ⟨a', _⟩ ⟨rfl, h1⟩
    refine .bind _ (like_putSnapshooters hc d h2 s) ?_
    rintro ⟨b, s⟩ ⟨b', _⟩ ⟨rfl, h2⟩
    exact .pure ⟨rfl, .attached h h1 h2 h3⟩
  | .driver _, _, .driver as, into => by
    rw [Node.putSnapshot, Node.putSnapshot]
    exact .pure ⟨rfl, .driver _⟩
  | .custom _, _, .custom s, into => by
    rw [Node.putSnapshot, Node.putSnapshot]
    exact .bindEq _ fun r => .pure ⟨rfl, .custom _⟩
theorem like_putNodes (hc : CustomLike σ f) (d : Bool) : ∀ {ns : List (Node σ L)} {ns' : List (Node σ L')},
    List.Forall₂ (Node.Like f) ns ns' → ∀ into,
    Same (List.Forall₂ (Node.Like f)) (putNodes d ns into) (putNodes d ns' into)
  | [], _, .nil, into => by rw [putNodes, putNodes]; exact .pure ⟨rfl, .nil⟩
  | n :: ns, _, .cons h1 h2, into => by
    rw [putNodes, putNodes]
    refine .bind _ (Node.Like.put hc d h1 into) ?_
    rintro ⟨a, n₁⟩ ⟨a', _⟩ ⟨rfl, h1⟩
    refine .bind _ (like_putNodes hc d h2 n₁) ?_
    rintro ⟨b, n₂⟩ ⟨b', _⟩ ⟨rfl, h2⟩
    exact .pure ⟨rfl, .cons h1 h2⟩
end

/-! ## Drivers -/

theorem LoopState.Like.addSnapshotValues (hc : CustomLike σ f) {l : LoopState σ L} {l' : LoopState σ L'} (h : l.Like f l')
    (into : Snapshot) (d : Bool) (started : Int) :
    Same (LoopState.Like f) (l.addSnapshotValues into d started) (l'.addSnapshotValues into d started) := by
  unfold LoopState.addSnapshotValues
  rw [h.descr, h.metrics]
  refine .bind _ (like_putNodes hc d h.processors _) ?_
  rintro ⟨a, s⟩ ⟨a', _⟩ ⟨rfl, h1⟩
  refine .bind _ (like_putSnapshooters hc d h.snapshooters s) ?_
  rintro ⟨b, s⟩ ⟨b', _⟩ ⟨rfl, h2⟩
  cases l'.metrics with
  | none => exact .pure ⟨rfl, h.name, rfl, rfl, h.lastOutcomeLogged, h.droppedSinceLastLogged, h1, h2, h.strategy, h.paused, h.warned⟩
  | some i =>
    exact .bindEq _ fun i => .bindEq _ fun r =>
      .pure ⟨rfl, h.name, rfl, rfl, h.lastOutcomeLogged, h.droppedSinceLastLogged, h1, h2, h.strategy, h.paused, h.warned⟩

theorem LoopState.Like.makeSnapshot (hc : CustomLike σ f) {l : LoopState σ L} {l' : LoopState σ L'} (h : l.Like f l') (d : Bool) :
    Same (LoopState.Like f) (l.makeSnapshot d) (l'.makeSnapshot d) := by
  unfold LoopState.makeSnapshot
  rw [h.name]
  refine .bindEq _ fun started => ?_
  cases l'.name with
  | none => exact h.addSnapshotValues hc [] d started
  | some n =>
    refine .bind _ (h.addSnapshotValues hc [] d started) ?_
    rintro ⟨a, s⟩ ⟨a', _⟩ ⟨rfl, h1⟩
    exact .pure ⟨rfl, h1⟩

theorem LoopState.Like.handle (hc : CustomLike σ f) {l : LoopState σ L} {l' : LoopState σ L'} (h : l.Like f l') {m : DriverMsg σ L}
    {m' : DriverMsg σ L'} (hm : m.Like f m') : Same (LoopState.Like f) (l.handle m) (l'.handle m') := by
  obtain ⟨h1, h2, h3, h4, h5, h6, h7, h8, h9, h10⟩ := h
  cases hm with
  | addProcessor hn => exact .pure ⟨rfl, h1, h2, h3, h4, h5, like_append h6 (.cons hn .nil), h7, h8, h9, h10⟩
  | addSnapshooter hs => exact .pure ⟨rfl, h1, h2, h3, h4, h5, h6, like_append h7 (.cons hs .nil), h8, h9, h10⟩
  | getSnapshot id d =>
    refine .bind _ (LoopState.Like.makeSnapshot hc ⟨h1, h2, h3, h4, h5, h6, h7, h8, h9, h10⟩ d) ?_
    rintro ⟨a, s⟩ ⟨a', _⟩ ⟨rfl, h1⟩
    exact .pure ⟨rfl, h1⟩
  | setStrategy s => exact .pure ⟨rfl, h1, h2, h3, h4, h5, h6, h7, rfl, h9, h10⟩
  | pause => exact .pure ⟨rfl, h1, h2, h3, h4, h5, h6, h7, h8, rfl, h10⟩
  | resume => exact .pure ⟨rfl, h1, h2, h3, h4, h5, h6, h7, h8, rfl, h10⟩

theorem LoopState.Like.begin (hc : CustomLike σ f) {l : LoopState σ L} {l' : LoopState σ L'} (h : l.Like f l')
    {m : Option (DriverMsg σ L)} {m' : Option (DriverMsg σ L')} (hm : Option.Rel (DriverMsg.Like f) m m') :
    Same (LoopState.Like f) (l.begin m) (l'.begin m') := by
  unfold LoopState.begin
  refine .bindEq _ fun started => ?_
  cases hm with
  | none => exact .pure ⟨rfl, h⟩
  | some hm =>
    refine .bind _ (h.handle hc hm) ?_
    rintro ⟨a, s⟩ ⟨a', _⟩ ⟨rfl, h1⟩
    exact .pure ⟨rfl, h1⟩

omit [Custom σ L] [Custom σ L'] [CustomProcessor σ] in
theorem LoopState.Like.logDropped {l : LoopState σ L} {l' : LoopState σ L'} (h : l.Like f l') (n : Nat) :
    M.Rel (LoopState.Like f) (l.logDropped n) (l'.logDropped n) := by
  obtain ⟨h1, h2, h3, h4, h5, h6, h7, h8, h9, h10⟩ := h
  unfold LoopState.logDropped
  simp only [h4, h5, h10]
  have hsame : LoopState.Like f { l with droppedSinceLastLogged := l'.droppedSinceLastLogged + n }
      { l' with droppedSinceLastLogged := l'.droppedSinceLastLogged + n } := ⟨h1, h2, h3, h4, rfl, h6, h7, h8, h9, h10⟩
  refine .ite (.bindEq _ fun now => .ite (.bindEq _ fun readings => .bindEq _ fun now => .pure ⟨h1, h2, h3, rfl, rfl, h6, h7, h8, h9, rfl⟩) ?_) ?_
  · exact .pure ⟨h1, h2, h3, rfl, rfl, h6, h7, h8, h9, rfl⟩
  · exact .pure ⟨h1, h2, h3, rfl, rfl, h6, h7, h8, h9, rfl⟩

omit [Custom σ L] [Custom σ L'] [CustomProcessor σ] in
theorem LoopState.Like.noteRun {l : LoopState σ L} {l' : LoopState σ L'} (h : l.Like f l') (o : Outcome) (started : Int) :
    M.Rel (LoopState.Like f) (l.noteRun o started) (l'.noteRun o started) := by
  unfold LoopState.noteRun
  rw [h.metrics]
  cases l'.metrics with
  | none => exact .pure h
  | some i =>
    obtain ⟨h1, h2, h3, h4, h5, h6, h7, h8, h9, h10⟩ := h
    exact .bindEq _ fun i => .pure ⟨h1, h2, rfl, h4, h5, h6, h7, h8, h9, h10⟩

omit [Custom σ L] [Custom σ L'] [CustomProcessor σ] in
theorem LoopState.Like.reportElapsed {l : LoopState σ L} {l' : LoopState σ L'} (h : l.Like f l') (started : Int) (t : Nat) :
    M.Rel (LoopState.Like f) (l.reportElapsed started t) (l'.reportElapsed started t) := by
  unfold LoopState.reportElapsed
  rw [h.metrics]
  cases l'.metrics with
  | none => exact .pure h
  | some i =>
    refine .bindEq _ fun now => .bindEq _ fun it => .bindEq _ fun rt => .ite (.bindEq _ fun e => .bindEq _ fun i => ?_) (.pure h)
    obtain ⟨h1, h2, h3, h4, h5, h6, h7, h8, h9, h10⟩ := h
    exact .pure ⟨h1, h2, rfl, h4, h5, h6, h7, h8, h9, h10⟩

theorem LoopState.Like.work (hc : CustomLike σ f) {l : LoopState σ L} {l' : LoopState σ L'} (h : l.Like f l') (started : Int) :
    Same (LoopState.Like f) (l.work started) (l'.work started) := by
  unfold LoopState.work
  rw [h.paused, h.strategy]
  refine .ite (.bindEq _ fun r => .pure ⟨rfl, h⟩) (.bindEq _ fun runStarted => ?_)
  refine .bind _ (like_processNodes hc 1000 l'.strategy h.processors) ?_
  rintro ⟨a, o⟩ ⟨a', _⟩ ⟨rfl, h1⟩
  refine .bindEq _ fun now => ?_
  have hl : LoopState.Like f { l with processors := a, strategy := l'.strategy, paused := l'.paused }
      { l' with processors := a' } :=
    ⟨h.name, h.descr, h.metrics, h.lastOutcomeLogged, h.droppedSinceLastLogged, h1, h.snapshooters, rfl, rfl, h.warned⟩
  refine .bind _ (hl.logDropped o.dropped) fun b b' hb => ?_
  refine .bind _ (hb.noteRun o runStarted) fun c c' hc => ?_
  refine .ite (.pure ⟨rfl, hc⟩) (.bindEq _ fun finished => .bindEq _ fun readings => ?_)
  refine .bind _ (hc.reportElapsed started _) fun d d' hd => .pure ⟨rfl, hd⟩

omit [Custom σ L] [Custom σ L'] [CustomProcessor σ] in
theorem like_pollDriver (blind : Bool) {a : Receiver (DriverMsg σ L)} {b : Receiver (DriverMsg σ L')}
    (h : a.Like (DriverMsg.Like f) b) :
    (pollDriver blind a).1.Like (DriverMsg.Like f) (pollDriver blind b).1 ∧
    match (pollDriver blind a).2, (pollDriver blind b).2 with
    | .stop, .stop => True
    | .go m, .go m' => Option.Rel (DriverMsg.Like f) m m'
    | _, _ => False := by
  have hw := h.wait
  obtain ⟨h1, h2⟩ := hw.tryRecv
  unfold pollDriver
  simp only [hw.chan.abandoned]
  split
  · exact ⟨hw, trivial⟩
  · generalize a.wait.tryRecv = x at h1 h2 ⊢
    generalize b.wait.tryRecv = y at h1 h2 ⊢
    obtain ⟨ra, xa⟩ := x
    obtain ⟨rb, xb⟩ := y
    cases h2 with
    | ok hm => exact ⟨h1, .some hm⟩
    | empty => exact ⟨h1, .none⟩
    | disconnected => exact ⟨h1, trivial⟩

theorem DriverThread.Like.iterate (hc : CustomLike σ f) {t : DriverThread σ L} {t' : DriverThread σ L'} (h : t.Like f t') (e : Env)
    (k : Nat) : (t.iterate e k).1.Like f (t'.iterate e k).1 ∧
      Option.Rel (Iteration.Like f) (t.iterate e k).2.1 (t'.iterate e k).2.1 ∧ (t.iterate e k).2.2 = (t'.iterate e k).2.2 := by
  cases h with
  | ended h => exact ⟨.ended h, .none, rfl⟩
  | @running a b h1 h2 h3 =>
    unfold DriverThread.iterate
    obtain ⟨h4, h5⟩ := like_pollDriver (b.blind.headD false) h2
    simp only [h3]
    generalize pollDriver (b.blind.headD false) a.receiver = x at h4 h5 ⊢
    generalize pollDriver (b.blind.headD false) b.receiver = y at h4 h5 ⊢
    obtain ⟨ra, xa⟩ := x
    obtain ⟨rb, xb⟩ := y
    cases xa with
    | stop => cases xb with
      | stop => exact ⟨.ended h4.chan.dropReceiver, .none, rfl⟩
      | go _ => exact h5.elim
    | go m => cases xb with
      | stop => exact h5.elim
      | go m' =>
        have hb := h1.begin hc h5 e k
        simp only at hb h4 h5 ⊢
        generalize a.state.begin m e k = p at hb ⊢
        generalize b.state.begin m' e k = q at hb ⊢
        cases hb with
        | none => exact ⟨.ended h4.chan.dropReceiver, .some ⟨h5, rfl, rfl, rfl⟩, rfl⟩
        | @some r r' hb =>
          obtain ⟨⟨s, started, answer⟩, k₁⟩ := r
          obtain ⟨⟨s', started', answer'⟩, k₁'⟩ := r'
          obtain ⟨rfl, hp, hs⟩ := hb
          simp only [Prod.mk.injEq] at hp hs ⊢
          obtain ⟨rfl, rfl⟩ := hp
          have hw := hs.work hc started e k₁
          generalize s.work started e k₁ = p at hw ⊢
          generalize s'.work started e k₁ = q at hw ⊢
          cases hw with
          | none => exact ⟨.ended h4.chan.dropReceiver, .some ⟨h5, rfl, rfl, rfl⟩, rfl⟩
          | @some r r' hw =>
            obtain ⟨⟨s, outcome, rest⟩, k₂⟩ := r
            obtain ⟨⟨s', outcome', rest'⟩, k₂'⟩ := r'
            obtain ⟨rfl, hp, hs⟩ := hw
            simp only [Prod.mk.injEq] at hp hs ⊢
            obtain ⟨rfl, rfl⟩ := hp
            exact ⟨.running hs h4 rfl, .some ⟨h5, rfl, rfl, rfl⟩, trivial⟩

end Metrix
