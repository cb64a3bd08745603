import Verif.Proof.Undisturbed

/-! The same for panels, handlers, cockpits and snapshooters. -/

namespace Metrix
variable {σ L : Type}

mutual
/-- Panels that are the same after everything in them is ticked. -/
inductive Panel.Alike (rnd : Rat → Rat) (t : Int) : Panel σ L → Panel σ L → Prop
  | mk {h h' : PanelHead L} {ps ps' : List (Panel σ L)} {hs hs' : List (Handler σ L)} {ss ss' : List (Snapshooter σ L)} :
      h.Alike rnd t h' → PanelsAlike rnd t ps ps' → HandlersAlike rnd t hs hs' → SnapshootersAlike rnd t ss ss' →
      Panel.Alike rnd t (.mk h ps hs ss) (.mk h' ps' hs' ss')
inductive PanelsAlike (rnd : Rat → Rat) (t : Int) : List (Panel σ L) → List (Panel σ L) → Prop
  | nil : PanelsAlike rnd t [] []
  | cons {p p' : Panel σ L} {ps ps' : List (Panel σ L)} :
      p.Alike rnd t p' → PanelsAlike rnd t ps ps' → PanelsAlike rnd t (p :: ps) (p' :: ps')
inductive Handler.Alike (rnd : Rat → Rat) (t : Int) : Handler σ L → Handler σ L → Prop
  | instrument {a a' : InstrumentAdapter L (Instrument σ)} :
      a.Alike (Instrument.Alike rnd t) a' → Handler.Alike rnd t (.instrument a) (.instrument a')
  | gauge {a a' : GaugeAdapter L} : a.Alike t a' → Handler.Alike rnd t (.gauge a) (.gauge a')
  | panel {p p' : Panel σ L} : p.Alike rnd t p' → Handler.Alike rnd t (.panel p) (.panel p')
  | cockpit {h : CockpitHead} {ps ps' : List (Panel σ L)} {hs hs' : List (Handler σ L)}
      {ss ss' : List (Snapshooter σ L)} :
      PanelsAlike rnd t ps ps' → HandlersAlike rnd t hs hs' → SnapshootersAlike rnd t ss ss' →
      Handler.Alike rnd t (.cockpit h ps hs ss) (.cockpit h ps' hs' ss')
  | custom (s : σ) : Handler.Alike rnd t (.custom s) (.custom s)
inductive HandlersAlike (rnd : Rat → Rat) (t : Int) : List (Handler σ L) → List (Handler σ L) → Prop
  | nil : HandlersAlike rnd t [] []
  | cons {h h' : Handler σ L} {hs hs' : List (Handler σ L)} :
      h.Alike rnd t h' → HandlersAlike rnd t hs hs' → HandlersAlike rnd t (h :: hs) (h' :: hs')
inductive Snapshooter.Alike (rnd : Rat → Rat) (t : Int) : Snapshooter σ L → Snapshooter σ L → Prop
  | constant (n : String) (d : Descr) (v : ItemKind) : Snapshooter.Alike rnd t (.constant n d v) (.constant n d v)
  | polling (n : String) (d : Descr) (g : Bool) {s s' : Snapshooter σ L} :
      s.Alike rnd t s' → Snapshooter.Alike rnd t (.polling n d g s) (.polling n d g s')
  | instrument {i i' : Instrument σ} : i.Alike rnd t i' → Snapshooter.Alike rnd t (.instrument i) (.instrument i')
  | handler {h h' : Handler σ L} : h.Alike rnd t h' → Snapshooter.Alike rnd t (.handler h) (.handler h')
  | custom (s : σ) : Snapshooter.Alike rnd t (.custom s) (.custom s)
inductive SnapshootersAlike (rnd : Rat → Rat) (t : Int) : List (Snapshooter σ L) → List (Snapshooter σ L) → Prop
  | nil : SnapshootersAlike rnd t [] []
  | cons {s s' : Snapshooter σ L} {ss ss' : List (Snapshooter σ L)} :
      s.Alike rnd t s' → SnapshootersAlike rnd t ss ss' → SnapshootersAlike rnd t (s :: ss) (s' :: ss')
end

/-! ## Reflexivity -/

theorem RingsOk.left {a b : List (Instrument σ)} (h : RingsOk (a ++ b)) : RingsOk a :=
  fun g r hg => h g r (List.mem_append_left _ hg)

theorem RingsOk.right {a b : List (Instrument σ)} (h : RingsOk (a ++ b)) : RingsOk b :=
  fun g r hg => h g r (List.mem_append_right _ hg)

section Refl
variable (rnd : Rat → Rat) (t : Int)

mutual
theorem Panel.alike_refl : ∀ {p : Panel σ L}, RingsOk p.instruments → p.Alike rnd t p
  | .mk h ps hs ss, hr => by
    rw [Panel.instruments] at hr
    exact .mk (.refl (σ := σ) rnd t hr.left) (panelsAlike_refl hr.right.left) (handlersAlike_refl hr.right.right.left)
      (snapshootersAlike_refl hr.right.right.right)
theorem panelsAlike_refl : ∀ {ps : List (Panel σ L)}, RingsOk (instrumentsOfPanels ps) → PanelsAlike rnd t ps ps
  | [], _ => .nil
  | p :: ps, hr => by
    rw [instrumentsOfPanels] at hr
    exact .cons (Panel.alike_refl hr.left) (panelsAlike_refl hr.right)
theorem Handler.alike_refl : ∀ {h : Handler σ L}, RingsOk h.instruments → h.Alike rnd t h
  | .instrument a, hr => .instrument ⟨a.instrument, rfl, .refl hr⟩
  | .gauge a, hr => .gauge ⟨a.gauge, rfl, .refl fun r h => hr a.gauge r (by simp [Handler.instruments]) h⟩
  | .panel p, hr => by
    rw [Handler.instruments] at hr
    exact .panel (Panel.alike_refl hr)
  | .cockpit h ps hs ss, hr => by
    rw [Handler.instruments] at hr
    exact .cockpit (panelsAlike_refl hr.left) (handlersAlike_refl hr.right.left) (snapshootersAlike_refl hr.right.right)
  | .custom s, _ => .custom s
theorem handlersAlike_refl : ∀ {hs : List (Handler σ L)}, RingsOk (instrumentsOfHandlers hs) → HandlersAlike rnd t hs hs
  | [], _ => .nil
  | h :: hs, hr => by
    rw [instrumentsOfHandlers] at hr
    exact .cons (Handler.alike_refl hr.left) (handlersAlike_refl hr.right)
theorem Snapshooter.alike_refl : ∀ {s : Snapshooter σ L}, RingsOk s.instruments → s.Alike rnd t s
  | .constant n d v, _ => .constant n d v
  | .polling n d g s, hr => by
    rw [Snapshooter.instruments] at hr
    exact .polling n d g (Snapshooter.alike_refl hr)
  | .instrument i, hr => .instrument (.refl hr)
  | .handler h, hr => by
    rw [Snapshooter.instruments] at hr
    exact .handler (Handler.alike_refl hr)
  | .custom s, _ => .custom s
theorem snapshootersAlike_refl : ∀ {ss : List (Snapshooter σ L)}, RingsOk (instrumentsOfSnapshooters ss) →
    SnapshootersAlike rnd t ss ss
  | [], _ => .nil
  | s :: ss, hr => by
    rw [instrumentsOfSnapshooters] at hr
    exact .cons (Snapshooter.alike_refl hr.left) (snapshootersAlike_refl hr.right)
end
end Refl

/-! ## Later moments -/

section Mono
variable {rnd : Rat → Rat} {t t' : Int} (ht : t ≤ t')
include ht

mutual
theorem Panel.Alike.mono : ∀ {p p' : Panel σ L}, p.Alike rnd t p' → p.Alike rnd t' p'
  | .mk .., _, .mk h1 h2 h3 h4 =>
    .mk (h1.mono ht) (PanelsAlike.mono h2) (HandlersAlike.mono h3) (SnapshootersAlike.mono h4)
theorem PanelsAlike.mono : ∀ {ps ps' : List (Panel σ L)}, PanelsAlike rnd t ps ps' → PanelsAlike rnd t' ps ps'
  | [], _, .nil => .nil
  | _ :: _, _, .cons h1 h2 => .cons (Panel.Alike.mono h1) (PanelsAlike.mono h2)
theorem Handler.Alike.mono : ∀ {h h' : Handler σ L}, h.Alike rnd t h' → h.Alike rnd t' h'
  | .instrument _, _, .instrument h => .instrument (h.mono fun _ _ h => h.mono ht)
  | .gauge _, _, .gauge h => .gauge (h.mono ht)
  | .panel _, _, .panel h => .panel (Panel.Alike.mono h)
  | .cockpit .., _, .cockpit h1 h2 h3 => .cockpit (PanelsAlike.mono h1) (HandlersAlike.mono h2) (SnapshootersAlike.mono h3)
  | .custom _, _, .custom s => .custom s
theorem HandlersAlike.mono : ∀ {hs hs' : List (Handler σ L)}, HandlersAlike rnd t hs hs' → HandlersAlike rnd t' hs hs'
  | [], _, .nil => .nil
  | _ :: _, _, .cons h1 h2 => .cons (Handler.Alike.mono h1) (HandlersAlike.mono h2)
theorem Snapshooter.Alike.mono : ∀ {s s' : Snapshooter σ L}, s.Alike rnd t s' → s.Alike rnd t' s'
  | .constant .., _, .constant n d v => .constant n d v
  | .polling .., _, .polling n d g h => .polling n d g (Snapshooter.Alike.mono h)
  | .instrument _, _, .instrument h => .instrument (h.mono ht)
  | .handler _, _, .handler h => .handler (Handler.Alike.mono h)
  | .custom _, _, .custom s => .custom s
theorem SnapshootersAlike.mono : ∀ {ss ss' : List (Snapshooter σ L)}, SnapshootersAlike rnd t ss ss' →
    SnapshootersAlike rnd t' ss ss'
  | [], _, .nil => .nil
  | _ :: _, _, .cons h1 h2 => .cons (Snapshooter.Alike.mono h1) (SnapshootersAlike.mono h2)
end
end Mono

/-! ## Observations -/

variable {e : Env} {t : Int} [Custom σ L]

section Handle
variable [DecidableEq L] (hc : StillAt σ L e) (hf : Frozen e t) (o : Observation L)
include hc hf

mutual
theorem Panel.Alike.handle : ∀ {p p' : Panel σ L}, p.Alike e.rnd t p' →
    Takes e (Panel.Alike e.rnd t) (p.handle o) (p'.handle o)
  | .mk h ps hs ss, _, .mk (h' := h') h1 h2 h3 h4 => by
    rw [Panel.handle, Panel.handle]
    have hl : h'.labelFilter = h.labelFilter := by obtain ⟨g, m, rfl, _⟩ := h1; rfl
    rw [hl]
    refine .ite (.bind _ (h1.handle hf o) ?_) (.pure ⟨rfl, .mk h1 h2 h3 h4⟩)
    rintro ⟨a, n₁⟩ ⟨a', _⟩ ⟨rfl, h1⟩
    refine .bind _ (PanelsAlike.handle h2) ?_
    rintro ⟨b, n₂⟩ ⟨b', _⟩ ⟨rfl, h2⟩
    refine .bind _ (HandlersAlike.handle h3) ?_
    rintro ⟨c, n₃⟩ ⟨c', _⟩ ⟨rfl, h3⟩
    exact .pure ⟨rfl, .mk h1 h2 h3 h4⟩
theorem PanelsAlike.handle : ∀ {ps ps' : List (Panel σ L)}, PanelsAlike e.rnd t ps ps' →
    Takes e (PanelsAlike e.rnd t) (handlePanels o ps) (handlePanels o ps')
  | [], _, .nil => by rw [handlePanels]; exact .pure ⟨rfl, .nil⟩
  | p :: ps, _, .cons h1 h2 => by
    rw [handlePanels, handlePanels]
    refine .bind _ (Panel.Alike.handle h1) ?_
    rintro ⟨a, n₁⟩ ⟨a', _⟩ ⟨rfl, h1⟩
    refine .bind _ (PanelsAlike.handle h2) ?_
    rintro ⟨b, n₂⟩ ⟨b', _⟩ ⟨rfl, h2⟩
    exact .pure ⟨rfl, .cons h1 h2⟩
theorem Handler.Alike.handle : ∀ {h h' : Handler σ L}, h.Alike e.rnd t h' →
    Takes e (Handler.Alike e.rnd t) (h.handle o) (h'.handle o)
  | .instrument a, _, .instrument h => by
    rw [Handler.handle, Handler.handle]
    exact takes_wrap (h.handle (fun i i' u h => h.update hc hf u) o) fun _ _ => .instrument
  | .gauge a, _, .gauge h => by
    rw [Handler.handle, Handler.handle]
    exact takes_wrap (h.handle hf o) fun _ _ => .gauge
  | .panel p, _, .panel h => by
    rw [Handler.handle, Handler.handle]
    exact takes_wrap (Panel.Alike.handle h) fun _ _ => .panel
  | .cockpit h ps hs ss, _, .cockpit h1 h2 h3 => by
    rw [Handler.handle, Handler.handle]
    refine .bindEq hf.now fun now => ?_
    refine .bind _ (HandlersAlike.handle h2) ?_
    rintro ⟨a, n₁⟩ ⟨a', _⟩ ⟨rfl, h2⟩
    refine .bind _ (PanelsAlike.handle h1) ?_
    rintro ⟨b, n₂⟩ ⟨b', _⟩ ⟨rfl, h1⟩
    exact .pure ⟨rfl, .cockpit h1 h2 h3⟩
  | .custom s, _, .custom _ => by
    rw [Handler.handle]
    exact takes_of_eq (hc.handle s o) .custom
theorem HandlersAlike.handle : ∀ {hs hs' : List (Handler σ L)}, HandlersAlike e.rnd t hs hs' →
    Takes e (HandlersAlike e.rnd t) (handleHandlers o hs) (handleHandlers o hs')
  | [], _, .nil => by rw [handleHandlers]; exact .pure ⟨rfl, .nil⟩
  | p :: ps, _, .cons h1 h2 => by
    rw [handleHandlers, handleHandlers]
    refine .bind _ (Handler.Alike.handle h1) ?_
    rintro ⟨a, n₁⟩ ⟨a', _⟩ ⟨rfl, h1⟩
    refine .bind _ (HandlersAlike.handle h2) ?_
    rintro ⟨b, n₂⟩ ⟨b', _⟩ ⟨rfl, h2⟩
    exact .pure ⟨rfl, .cons h1 h2⟩
end
end Handle

/-! ## Snapshots -/

section Put
variable (hc : StillAt σ L e) (hf : Frozen e t) (d : Bool)

omit [Custom σ L] in
theorem sync_putFlags (hf : Frozen e t) (a : Activity) (into : Snapshot) :
    M.Sync e Eq (a.putFlags into) (a.putFlags into) := by
  unfold Activity.putFlags
  split
  · exact .ite (.bindEq hf.now fun _ => .ite (.pure rfl) (.pure rfl)) (.pure rfl)
  · exact .pure rfl

include hc hf

mutual
theorem Panel.Alike.put : ∀ {p p' : Panel σ L}, p.Alike e.rnd t p' → ∀ into,
    PutsSame e (Panel.Alike e.rnd t) p' (p.putSnapshot d into) (p'.putSnapshot d into)
  | .mk h ps hs ss, _, .mk (h' := h') h1 h2 h3 h4, into => by
    rw [Panel.putSnapshot, Panel.putSnapshot]
    have hl : h'.descr = h.descr ∧ h'.name = h.name ∧ h'.activity = h.activity := by
      obtain ⟨g, m, rfl, _⟩ := h1; exact ⟨rfl, rfl, rfl⟩
    rw [hl.1, hl.2.1, hl.2.2]
    refine .bindEq (sync_putFlags hf _ _) fun f => .ite (.bind _ (h1.putSlots hf f.2 d) ?_)
      (.pure ⟨rfl, .mk h1 h2 h3 h4, .mk h1 h2 h3 h4⟩)
    rintro ⟨a, s₁⟩ ⟨a', _⟩ ⟨rfl, h1, h1'⟩
    refine .bind _ (PanelsAlike.put h2 s₁) ?_
    rintro ⟨b, s₂⟩ ⟨b', _⟩ ⟨rfl, h2, h2'⟩
    refine .bind _ (SnapshootersAlike.put h4 s₂) ?_
    rintro ⟨c, s₃⟩ ⟨c', _⟩ ⟨rfl, h4, h4'⟩
    refine .bind _ (HandlersAlike.put h3 s₃) ?_
    rintro ⟨c, s₄⟩ ⟨c', _⟩ ⟨rfl, h3, h3'⟩
    refine .pure ⟨?_, .mk h1 h2 h3 h4, .mk h1' h2' h3' h4'⟩
    obtain ⟨g, m, h1, _⟩ := h1
    simp only at h1
    rw [h1]
theorem PanelsAlike.put : ∀ {ps ps' : List (Panel σ L)}, PanelsAlike e.rnd t ps ps' → ∀ into,
    PutsSame e (PanelsAlike e.rnd t) ps' (putPanels d ps into) (putPanels d ps' into)
  | [], _, .nil, into => by rw [putPanels]; exact .pure ⟨rfl, .nil, .nil⟩
  | p :: ps, _, .cons h1 h2, into => by
    rw [putPanels, putPanels]
    refine .bind _ (Panel.Alike.put h1 into) ?_
    rintro ⟨a, n₁⟩ ⟨a', _⟩ ⟨rfl, h1, h1'⟩
    refine .bind _ (PanelsAlike.put h2 n₁) ?_
    rintro ⟨b, n₂⟩ ⟨b', _⟩ ⟨rfl, h2, h2'⟩
    exact .pure ⟨rfl, .cons h1 h2, .cons h1' h2'⟩
theorem Handler.Alike.put : ∀ {h h' : Handler σ L}, h.Alike e.rnd t h' → ∀ into,
    PutsSame e (Handler.Alike e.rnd t) h' (h.putSnapshot d into) (h'.putSnapshot d into)
  | .instrument a, _, .instrument h, into => by
    rw [Handler.putSnapshot, Handler.putSnapshot]
    exact puts_wrap (h.put (fun i i' s d h => h.put hc hf s d) into d) fun _ _ => .instrument
  | .gauge a, _, .gauge h, into => by
    rw [Handler.putSnapshot, Handler.putSnapshot]
    exact puts_wrap (h.put hf into d) fun _ _ => .gauge
  | .panel p, _, .panel h, into => by
    rw [Handler.putSnapshot, Handler.putSnapshot]
    exact puts_wrap (Panel.Alike.put h into) fun _ _ => .panel
  | .cockpit h ps hs ss, _, .cockpit h1 h2 h3, into => by
    rw [Handler.putSnapshot, Handler.putSnapshot]
    refine .bindEq (sync_putFlags hf _ _) fun f => .ite (.bind _ (PanelsAlike.put h1 f.2) ?_)
      (.pure ⟨rfl, .cockpit h1 h2 h3, .cockpit h1 h2 h3⟩)
    rintro ⟨a, s₁⟩ ⟨a', _⟩ ⟨rfl, h1, h1'⟩
    refine .bind _ (HandlersAlike.put h2 s₁) ?_
    rintro ⟨a, s₂⟩ ⟨a', _⟩ ⟨rfl, h2, h2'⟩
    refine .bind _ (SnapshootersAlike.put h3 s₂) ?_
    rintro ⟨a, s₃⟩ ⟨a', _⟩ ⟨rfl, h3, h3'⟩
    exact .pure ⟨rfl, .cockpit h1 h2 h3, .cockpit h1' h2' h3'⟩
  | .custom s, _, .custom _, into => by
    rw [Handler.putSnapshot]
    exact puts_of_eq (hc.put s into d) .custom
theorem HandlersAlike.put : ∀ {hs hs' : List (Handler σ L)}, HandlersAlike e.rnd t hs hs' → ∀ into,
    PutsSame e (HandlersAlike e.rnd t) hs' (putHandlers d hs into) (putHandlers d hs' into)
  | [], _, .nil, into => by rw [putHandlers]; exact .pure ⟨rfl, .nil, .nil⟩
  | p :: ps, _, .cons h1 h2, into => by
    rw [putHandlers, putHandlers]
    refine .bind _ (Handler.Alike.put h1 into) ?_
    rintro ⟨a, n₁⟩ ⟨a', _⟩ ⟨rfl, h1, h1'⟩
    refine .bind _ (HandlersAlike.put h2 n₁) ?_
    rintro ⟨b, n₂⟩ ⟨b', _⟩ ⟨rfl, h2, h2'⟩
    exact .pure ⟨rfl, .cons h1 h2, .cons h1' h2'⟩
theorem Snapshooter.Alike.put : ∀ {s s' : Snapshooter σ L}, s.Alike e.rnd t s' → ∀ into,
    PutsSame e (Snapshooter.Alike e.rnd t) s' (s.putSnapshot d into) (s'.putSnapshot d into)
  | .constant .., _, .constant n ds v, into => by
    rw [Snapshooter.putSnapshot]
    exact .pure ⟨rfl, .constant n ds v, .constant n ds v⟩
  | .polling .., _, .polling n ds g h, into => by
    rw [Snapshooter.putSnapshot, Snapshooter.putSnapshot]
    refine .ite (.bind _ (Snapshooter.Alike.put h []) ?_) (.bind _ (Snapshooter.Alike.put h _) ?_)
    · rintro ⟨a, n₁⟩ ⟨a', _⟩ ⟨rfl, h1, h1'⟩
      exact .pure ⟨rfl, .polling n ds g h1, .polling n ds g h1'⟩
    · rintro ⟨a, n₁⟩ ⟨a', _⟩ ⟨rfl, h1, h1'⟩
      exact .pure ⟨rfl, .polling n ds g h1, .polling n ds g h1'⟩
  | .instrument _, _, .instrument h, into => by
    rw [Snapshooter.putSnapshot, Snapshooter.putSnapshot]
    exact puts_wrap (h.put hc hf into d) fun _ _ => .instrument
  | .handler _, _, .handler h, into => by
    rw [Snapshooter.putSnapshot, Snapshooter.putSnapshot]
    exact puts_wrap (Handler.Alike.put h into) fun _ _ => .handler
  | .custom s, _, .custom _, into => by
    rw [Snapshooter.putSnapshot]
    exact puts_of_eq (hc.put s into d) .custom
theorem SnapshootersAlike.put : ∀ {ss ss' : List (Snapshooter σ L)}, SnapshootersAlike e.rnd t ss ss' → ∀ into,
    PutsSame e (SnapshootersAlike e.rnd t) ss' (putSnapshooters d ss into) (putSnapshooters d ss' into)
  | [], _, .nil, into => by rw [putSnapshooters]; exact .pure ⟨rfl, .nil, .nil⟩
  | p :: ps, _, .cons h1 h2, into => by
    rw [putSnapshooters, putSnapshooters]
    refine .bind _ (Snapshooter.Alike.put h1 into) ?_
    rintro ⟨a, n₁⟩ ⟨a', _⟩ ⟨rfl, h1, h1'⟩
    refine .bind _ (SnapshootersAlike.put h2 n₁) ?_
    rintro ⟨b, n₂⟩ ⟨b', _⟩ ⟨rfl, h2, h2'⟩
    exact .pure ⟨rfl, .cons h1 h2, .cons h1' h2'⟩
end
end Put

/-! ## Cockpits -/

def Cockpit.Alike (rnd : Rat → Rat) (t : Int) (c c' : Cockpit σ L) : Prop :=
  ∃ ps hs ss, c' = { c with panels := ps, handlers := hs, snapshooters := ss } ∧ PanelsAlike rnd t c.panels ps ∧
    HandlersAlike rnd t c.handlers hs ∧ SnapshootersAlike rnd t c.snapshooters ss

omit [Custom σ L] in
theorem Cockpit.alike_refl (rnd : Rat → Rat) (t : Int) {c : Cockpit σ L} (h : RingsOk c.instruments) : c.Alike rnd t c :=
  ⟨_, _, _, rfl, panelsAlike_refl rnd t h.left, handlersAlike_refl rnd t h.right.left,
    snapshootersAlike_refl rnd t h.right.right⟩

omit [Custom σ L] in
theorem Cockpit.Alike.mono {rnd : Rat → Rat} {t t' : Int} (ht : t ≤ t') {c c' : Cockpit σ L} (h : c.Alike rnd t c') :
    c.Alike rnd t' c' := by
  obtain ⟨ps, hs, ss, rfl, h1, h2, h3⟩ := h
  exact ⟨ps, hs, ss, rfl, h1.mono ht, h2.mono ht, h3.mono ht⟩

theorem Cockpit.Alike.handle [DecidableEq L] (hc : StillAt σ L e) (hf : Frozen e t) (o : Observation L) {c c' : Cockpit σ L}
    (h : c.Alike e.rnd t c') : Takes e (Cockpit.Alike e.rnd t) (c.handle o) (c'.handle o) := by
  obtain ⟨ps, hs, ss, rfl, h1, h2, h3⟩ := h
  unfold Cockpit.handle
  refine .bindEq hf.now fun now => ?_
  refine .bind _ (h2.handle hc hf o) ?_
  rintro ⟨a, n₁⟩ ⟨a', _⟩ ⟨rfl, h2⟩
  refine .bind _ (h1.handle hc hf o) ?_
  rintro ⟨b, n₂⟩ ⟨b', _⟩ ⟨rfl, h1⟩
  exact .pure ⟨rfl, _, _, _, rfl, h1, h2, h3⟩

theorem Cockpit.Alike.put (hc : StillAt σ L e) (hf : Frozen e t) {c c' : Cockpit σ L} (h : c.Alike e.rnd t c')
    (into : Snapshot) (d : Bool) :
    PutsSame e (Cockpit.Alike e.rnd t) c' (c.putSnapshot into d) (c'.putSnapshot into d) := by
  obtain ⟨ps, hs, ss, rfl, h1, h2, h3⟩ := h
  unfold Cockpit.putSnapshot
  refine .bindEq (sync_putFlags hf _ _) fun f => .ite (.bind _ (h1.put hc hf d f.2) ?_)
    (.pure ⟨rfl, ⟨_, _, _, rfl, h1, h2, h3⟩, ⟨_, _, _, rfl, h1, h2, h3⟩⟩)
  rintro ⟨a, s₁⟩ ⟨a', _⟩ ⟨rfl, h1, h1'⟩
  refine .bind _ (h2.put hc hf d s₁) ?_
  rintro ⟨a, s₂⟩ ⟨a', _⟩ ⟨rfl, h2, h2'⟩
  refine .bind _ (h3.put hc hf d s₂) ?_
  rintro ⟨a, s₃⟩ ⟨a', _⟩ ⟨rfl, h3, h3'⟩
  exact .pure ⟨rfl, ⟨_, _, _, rfl, h1, h2, h3⟩, ⟨_, _, _, rfl, h1', h2', h3'⟩⟩

/-! ## Runs -/

/-- What makes leaving out snapshots harmless. -/
theorem Timed.without {C A : Type} [Component C A] {e : Env} (mono : e.Mono) (R : Int → C → C → Prop)
    (later : ∀ {t t' c c'}, t ≤ t' → R t c c' → R t' c c')
    (take : ∀ {m c c'} (a : A), R (e.clock m) c c' → Takes (e.at m) (R (e.clock m)) (Component.take c a) (Component.take c' a))
    (put : ∀ {m c c'} into d, R (e.clock m) c c' →
      PutsSame (e.at m) (R (e.clock m)) c' (Component.putSnapshot c into d) (Component.putSnapshot c' into d))
    {c c₁ c' : C} {log fewer : List (Nat × Op A × Out)} (h : Timed e c log c') (ho : InOrder log)
    (hw : WithoutSnapshots fewer log) (hr : ∀ m ∈ log.map (·.1), R (e.clock m) c c₁) : ∃ c'', Timed e c₁ fewer c'' := by
  induction h generalizing c₁ fewer with
  | nil c =>
    cases hw
    exact ⟨c₁, .nil _⟩
  | @cons c c₂ c' m k op out log hs _ ih =>
    have hm := hr m (by simp)
    have hord := List.pairwise_cons.1 ho
    have next : ∀ {c₂ c₃ : C}, R (e.clock m) c₂ c₃ → ∀ m' ∈ log.map (·.1), R (e.clock m') c₂ c₃ :=
      fun h m' hm' => later (mono _ _ (hord.1 m' hm')) h
    cases hw with
    | keep _ hw =>
      have key : ∃ c₃ k', step c₁ op (e.at m) 0 = some ((c₃, out), k') ∧ R (e.clock m) c₂ c₃ := by
        cases op with
        | input a =>
          obtain ⟨⟨x, n⟩, k₁, h1, h2⟩ := M.bind_eq_some.1 hs
          have := take a hm 0 0
          rw [h1] at this
          cases h3 : Component.take c₁ a (e.at m) 0 with
          | none => rw [h3] at this; cases this
          | some r =>
            rw [h3] at this
            cases this with
            | some h =>
              obtain ⟨⟨y, n'⟩, k₂⟩ := r
              obtain ⟨h4, h5⟩ := h
              simp only at h4 h5
              subst h4
              simp only [M.run_pure, Option.some.injEq, Prod.mk.injEq] at h2
              obtain ⟨⟨rfl, rfl⟩, rfl⟩ := h2
              exact ⟨y, k₂, M.run_bind_some h3, h5⟩
        | snapshot into d =>
          obtain ⟨⟨x, n⟩, k₁, h1, h2⟩ := M.bind_eq_some.1 hs
          have := put into d hm 0 0
          rw [h1] at this
          cases h3 : Component.putSnapshot c₁ into d (e.at m) 0 with
          | none => rw [h3] at this; cases this
          | some r =>
            rw [h3] at this
            cases this with
            | some h =>
              obtain ⟨⟨y, n'⟩, k₂⟩ := r
              obtain ⟨h4, h5, _⟩ := h
              simp only at h4 h5
              subst h4
              simp only [M.run_pure, Option.some.injEq, Prod.mk.injEq] at h2
              obtain ⟨⟨rfl, rfl⟩, rfl⟩ := h2
              exact ⟨y, k₂, M.run_bind_some h3, h5⟩
      obtain ⟨c₃, k', hst, hR⟩ := key
      obtain ⟨c'', h⟩ := ih hord.2 hw (next hR)
      exact ⟨c'', .cons hst h⟩
    | leaveOut _ into d _ hw =>
      obtain ⟨⟨x, n⟩, k₁, h1, h2⟩ := M.bind_eq_some.1 hs
      have := put into d hm 0 0
      rw [h1] at this
      cases h3 : Component.putSnapshot c₁ into d (e.at m) 0 with
      | none => rw [h3] at this; cases this
      | some r =>
        rw [h3] at this
        cases this with
        | some h =>
          simp only [M.run_pure, Option.some.injEq, Prod.mk.injEq] at h2
          obtain ⟨⟨rfl, rfl⟩, rfl⟩ := h2
          exact ih hord.2 hw (next h.2.2)

end Metrix
