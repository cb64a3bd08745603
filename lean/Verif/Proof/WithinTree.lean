import Verif.Proof.Within
import Verif.Proof.Happening

/-! The same for panels, handlers, cockpits, snapshooters and processors. -/

namespace Metrix
variable {σ L : Type} {e : Env} {t : Int}

/-! ## Snapshots -/

namespace Snapshot.PartOf

theorem refl : ∀ s : Snapshot, s.PartOf s
  | [] => .nil
  | x :: s => .same x (refl s)

theorem of_nil : ∀ s : Snapshot, Snapshot.PartOf [] s
  | [] => .nil
  | x :: s => .extra x (of_nil s)

theorem append {s s' u u' : Snapshot} (h : s.PartOf s') (hu : u.PartOf u') : Snapshot.PartOf (s ++ u) (s' ++ u') := by
  induction h with
  | nil => exact hu
  | extra x _ ih => exact .extra x ih
  | same x _ ih => exact .same x ih
  | group n h1 _ _ ih => exact .group n h1 ih

theorem adds {s s' x y : Snapshot} (h : s.PartOf s') (ha : AddsSame s s' x y) : x.PartOf y := by
  obtain ⟨a, rfl, rfl⟩ := ha
  exact h.append (refl a)

theorem more {s s' y : Snapshot} (h : s.PartOf s') (ha : s' <+: y) : s.PartOf y := by
  obtain ⟨a, rfl⟩ := ha
  have := h.append (of_nil a)
  rwa [List.append_nil] at this

theorem push {s s' : Snapshot} (h : s.PartOf s') (n : String) (v : ItemKind) : Snapshot.PartOf (s.push n v) (s'.push n v) :=
  h.append (.same _ .nil)

theorem pushGroup {s s' u u' : Snapshot} (h : s.PartOf s') (hu : u.PartOf u') (n : String) :
    Snapshot.PartOf (s.push n (.snapshot u)) (s'.push n (.snapshot u')) := h.append (.group n hu .nil)

theorem levelFor {s s' : Snapshot} (h : s.PartOf s') (n : Option String) : Snapshot.PartOf (levelFor n s) (levelFor n s') := by
  cases n with
  | none => exact h
  | some _ => exact .nil

theorem closeLevel {s s' u u' : Snapshot} (h : s.PartOf s') (hu : u.PartOf u') (n : Option String) :
    Snapshot.PartOf (closeLevel n s u) (closeLevel n s' u') := by
  cases n with
  | none => exact hu
  | some n => exact h.pushGroup hu n

end Snapshot.PartOf

/-- The second one takes part in more. -/
abbrev HandlesLess {C : Type} (e : Env) (R : C → C → Prop) (x y : M (C × Nat)) : Prop :=
  M.Covers e (fun r r' => R r.1 r'.1 ∧ r.2 ≤ r'.2) x y

/-- The second one puts more. -/
abbrev PutsLess {C : Type} (e : Env) (x y : M (C × Snapshot)) : Prop := M.Covers e (fun r r' => r.2.PartOf r'.2) x y

/-! ## Panels -/

theorem follows_slot {A : Type} {f : A → M (A × Nat)} (hfun : ∀ a, M.Sync e Eq (f a) (f a)) {a a' : Option A} (h : a = none ∨ a = a') :
    HandlesLess e (fun a a' => a = none ∨ a = a') (handleSlot f a) (handleSlot f a') := by
  rcases h with rfl | rfl
  · exact fun k _ _ _ _ => ⟨(none, 0), k, rfl, .inl rfl, Nat.zero_le _⟩
  · exact .of_sync ((sync_slot hfun _).mono fun _ _ h => h ▸ ⟨.inr rfl, le_rfl⟩)

theorem PanelHead.PartOf.handle [DecidableEq L] (hf : Frozen e t) {h h' : PanelHead L} (hw : h.PartOf h') (o : Observation L) :
    HandlesLess e PanelHead.PartOf (h.handle o) (h'.handle o) := by
  unfold PanelHead.handle
  refine .bind _ (follows_slot (fun a => sync_adapter sync_counterUpdate a o) hw.counter) ?_
  rintro ⟨a, n₁⟩ ⟨a', m₁⟩ ⟨ha, h1⟩
  refine .bind _ (follows_slot (fun a => sync_gaugeAdapter hf a o) hw.gauge) ?_
  rintro ⟨b, n₂⟩ ⟨b', m₂⟩ ⟨hb, h2⟩
  refine .bind _ (follows_slot (fun a => sync_adapter (fun i u => sync_meterUpdate hf i u) a o) hw.meter) ?_
  rintro ⟨c, n₃⟩ ⟨c', m₃⟩ ⟨hc, h3⟩
  refine .bind _ (follows_slot (fun a => sync_adapter (fun i u => sync_histogramUpdate hf i u) a o) hw.histogram) ?_
  rintro ⟨d, n₄⟩ ⟨d', m₄⟩ ⟨hd, h4⟩
  refine .pure ⟨⟨hw.labelFilter, hw.name, hw.descr, hw.activity, ha, hb, hc, hd⟩, ?_⟩
  dsimp only at h1 h2 h3 h4 ⊢
  omega

theorem less_slot {A : Type} {f : A → Snapshot → M (A × Snapshot)} (hfun : ∀ a s s', PutsAlso e s s' (f a s) (f a s'))
    (hadd : ∀ a s, Appends s (f a s)) {a a' : Option A} (h : a = none ∨ a = a') {s s' : Snapshot} (hs : s.PartOf s') :
    PutsLess e (putSlot f a s) (putSlot f a' s') := by
  rcases h with rfl | rfl
  · intro k k' b k₂ hb
    exact ⟨(none, s), k, rfl, hs.more (appends_putSlot hadd a' s' e k' b k₂ hb)⟩
  · cases a with
    | none => exact .pure hs
    | some a => exact .bind _ (.of_sync (hfun a s s')) fun _ _ h => .pure (hs.adds h)

theorem PanelHead.PartOf.put (hf : Frozen e t) {h h' : PanelHead L} (hw : h.PartOf h') {s s' : Snapshot} (hs : s.PartOf s') :
    M.Covers e (fun r r' => r.1.name = r'.1.name ∧ r.2.PartOf r'.2) (h.putSlots s false) (h'.putSlots s' false) := by
  have slot : ∀ {I : Type} [IsInstrument I] {a a' : Option (InstrumentAdapter L I)} {s s' : Snapshot},
      (∀ (i : I) s s', PutsAlso e s s' (IsInstrument.putSnapshot i s false) (IsInstrument.putSnapshot i s' false)) →
      (∀ (i : I) s d, Appends s (IsInstrument.putSnapshot i s d)) → (a = none ∨ a = a') → s.PartOf s' →
      PutsLess e (putSlot (fun a s => a.putSnapshot IsInstrument.putSnapshot s false) a s)
        (putSlot (fun a s => a.putSnapshot IsInstrument.putSnapshot s false) a' s') :=
    fun h1 h2 h3 h4 => less_slot (fun a s s' => .bind _ (h1 a.instrument s s') fun _ _ h => .pure h) (fun a s => a.appends h2 s false) h3 h4
  unfold PanelHead.putSlots
  refine .bind _ (slot (fun i s s' => also_keeping s s' (.pure ((AddsSame.refl _ _).push _ _)))
    (fun i s d => appends_keeping (.pure (i.appends s d))) hw.counter hs) ?_
  rintro ⟨a, s₁⟩ ⟨a', s₁'⟩ hs
  refine .bind _ (less_slot (fun a s s' => .bind _ (also_gauge s s' hf a.gauge) fun _ _ h => .pure h)
    (fun a s => a.appends s false) hw.gauge hs) ?_
  rintro ⟨b, s₂⟩ ⟨b', s₂'⟩ hs
  refine .bind _ (slot (fun i s s' => also_meter s s' hf i) (fun i s d => i.appends s d) hw.meter hs) ?_
  rintro ⟨c, s₃⟩ ⟨c', s₃'⟩ hs
  refine .bind _ (slot (fun i s s' => also_keeping s s' (also_histogram s s' hf i)) (fun i s d => appends_keeping (i.appends s d))
    hw.histogram hs) ?_
  rintro ⟨d, s₄⟩ ⟨d', s₄'⟩ hs
  exact .pure ⟨hw.name, hs⟩

theorem also_putFlags (hf : Frozen e t) (a : Activity) (s s' : Snapshot) :
    M.Sync e (fun r r' => r.1 = r'.1 ∧ AddsSame s s' r.2 r'.2) (a.putFlags s) (a.putFlags s') := by
  unfold Activity.putFlags
  split
  · exact .ite (.bindEq hf.now fun _ => .ite (.pure ⟨rfl, ((AddsSame.refl _ _).push _ _).push _ _⟩)
      (.pure ⟨rfl, ((AddsSame.refl _ _).push _ _).push _ _⟩)) (.pure ⟨rfl, .refl _ _⟩)
  · exact .pure ⟨rfl, .refl _ _⟩

variable [Custom σ L]

section Handle
variable [DecidableEq L] (hc : StillAt σ L e) (hf : Frozen e t) (o : Observation L)
include hc hf

mutual
theorem Panel.PartOf.handle : ∀ {p p' : Panel σ L}, p.PartOf p' → HandlesLess e Panel.PartOf (p.handle o) (p'.handle o)
  | .mk h ps hs ss, _, .mk (h' := h') h1 h2 h3 h4 => by
    rw [Panel.handle, Panel.handle, h1.labelFilter]
    refine .ite (.bind _ (h1.handle hf o) ?_) (.pure ⟨.mk h1 h2 h3 h4, le_rfl⟩)
    rintro ⟨a, n₁⟩ ⟨a', m₁⟩ ⟨h1, l1⟩
    refine .bind _ (PanelsPartOf.handle h2) ?_
    rintro ⟨b, n₂⟩ ⟨b', m₂⟩ ⟨h2, l2⟩
    refine .bind _ (HandlersPartOf.handle h3) ?_
    rintro ⟨c, n₃⟩ ⟨c', m₃⟩ ⟨h3, l3⟩
    refine .pure ⟨.mk h1 h2 h3 h4, ?_⟩
    dsimp only at l1 l2 l3 ⊢
    omega
theorem PanelsPartOf.handle : ∀ {ps ps' : List (Panel σ L)}, PanelsPartOf ps ps' →
    HandlesLess e PanelsPartOf (handlePanels o ps) (handlePanels o ps')
  | _, [], .nil => by rw [handlePanels]; exact .pure ⟨.nil, le_rfl⟩
  | _, p' :: ps', .extra _ h => by
    rw [handlePanels.eq_2 o p']
    refine .skipAny fun r => ?_
    intro k k' b k₂ hb
    obtain ⟨⟨ps₁, n⟩, k₃, h1, h2⟩ := M.bind_eq_some.1 hb
    obtain ⟨a, k₁, h3, h4, h5⟩ := PanelsPartOf.handle h k k' _ _ h1
    cases h2
    exact ⟨a, k₁, h3, .extra _ h4, h5.trans (Nat.le_add_left _ _)⟩
  | p :: ps, p' :: ps', .cons h1 h2 => by
    rw [handlePanels, handlePanels]
    refine .bind _ (Panel.PartOf.handle h1) ?_
    rintro ⟨a, n₁⟩ ⟨a', m₁⟩ ⟨h1, l1⟩
    refine .bind _ (PanelsPartOf.handle h2) ?_
    rintro ⟨b, n₂⟩ ⟨b', m₂⟩ ⟨h2, l2⟩
    exact .pure ⟨.cons h1 h2, Nat.add_le_add l1 l2⟩
theorem Handler.PartOf.handle : ∀ {h h' : Handler σ L}, h.PartOf h' → HandlesLess e Handler.PartOf (h.handle o) (h'.handle o)
  | .instrument a, _, .instrument _ => by
    rw [Handler.handle]
    exact .bindEq (sync_adapter (fun i u => sync_update hc hf i u) a o) fun _ => .pure ⟨.instrument _, le_rfl⟩
  | .gauge a, _, .gauge _ => by
    rw [Handler.handle]
    exact .bindEq (sync_gaugeAdapter hf a o) fun _ => .pure ⟨.gauge _, le_rfl⟩
  | .panel p, _, .panel h => by
    rw [Handler.handle, Handler.handle]
    exact .bind _ (Panel.PartOf.handle h) fun _ _ h => .pure ⟨.panel h.1, h.2⟩
  | .cockpit h ps hs ss, _, .cockpit _ h1 h2 h3 => by
    rw [Handler.handle, Handler.handle]
    refine .bindEq hf.now fun now => ?_
    refine .bind _ (HandlersPartOf.handle h2) ?_
    rintro ⟨a, n₁⟩ ⟨a', m₁⟩ ⟨h2, l2⟩
    refine .bind _ (PanelsPartOf.handle h1) ?_
    rintro ⟨b, n₂⟩ ⟨b', m₂⟩ ⟨h1, l1⟩
    exact .pure ⟨.cockpit _ h1 h2 h3, Nat.add_le_add l2 l1⟩
  | .custom s, _, .custom _ => by
    rw [Handler.handle]
    exact .bindEq (hc.handle s o) fun _ => .pure ⟨.custom _, le_rfl⟩
theorem HandlersPartOf.handle : ∀ {hs hs' : List (Handler σ L)}, HandlersPartOf hs hs' →
    HandlesLess e HandlersPartOf (handleHandlers o hs) (handleHandlers o hs')
  | _, [], .nil => by rw [handleHandlers]; exact .pure ⟨.nil, le_rfl⟩
  | _, p' :: ps', .extra _ h => by
    rw [handleHandlers.eq_2 o p']
    refine .skipAny fun r => ?_
    intro k k' b k₂ hb
    obtain ⟨⟨ps₁, n⟩, k₃, h1, h2⟩ := M.bind_eq_some.1 hb
    obtain ⟨a, k₁, h3, h4, h5⟩ := HandlersPartOf.handle h k k' _ _ h1
    cases h2
    exact ⟨a, k₁, h3, .extra _ h4, h5.trans (Nat.le_add_left _ _)⟩
  | p :: ps, p' :: ps', .cons h1 h2 => by
    rw [handleHandlers, handleHandlers]
    refine .bind _ (Handler.PartOf.handle h1) ?_
    rintro ⟨a, n₁⟩ ⟨a', m₁⟩ ⟨h1, l1⟩
    refine .bind _ (HandlersPartOf.handle h2) ?_
    rintro ⟨b, n₂⟩ ⟨b', m₂⟩ ⟨h2, l2⟩
    exact .pure ⟨.cons h1 h2, Nat.add_le_add l1 l2⟩
end
end Handle

section Put
variable (hc : StillAt σ L e) (ha : CustomFrames σ L) (hp : CustomAppends σ L) (hf : Frozen e t)
include hc ha hp hf

mutual
theorem Panel.PartOf.put : ∀ {p p' : Panel σ L}, p.PartOf p' → ∀ {s s' : Snapshot}, s.PartOf s' →
    PutsLess e (p.putSnapshot false s) (p'.putSnapshot false s')
  | .mk h ps hs ss, _, .mk (h' := h') h1 h2 h3 h4, s, s', hw => by
    rw [Panel.putSnapshot, Panel.putSnapshot, h1.name, h1.descr, h1.activity]
    refine .bind _ (.of_sync (also_putFlags hf h'.activity (levelFor h'.name s) (levelFor h'.name s'))) ?_
    rintro ⟨g, l⟩ ⟨_, l'⟩ ⟨rfl, hl⟩
    have hl := (hw.levelFor h'.name).adds hl
    refine .ite (.bind _ (h1.put hf hl) ?_) (.pure ?_)
    · rintro ⟨a, s₁⟩ ⟨a', s₁'⟩ ⟨hn, hl⟩
      refine .bind _ (PanelsPartOf.put h2 hl) ?_
      rintro ⟨b, s₂⟩ ⟨b', s₂'⟩ hl
      refine .bind _ (SnapshootersPartOf.put h4 hl) ?_
      rintro ⟨c, s₃⟩ ⟨c', s₃'⟩ hl
      refine .bind _ (HandlersPartOf.put h3 hl) ?_
      rintro ⟨d, s₄⟩ ⟨d', s₄'⟩ hl
      refine .pure ?_
      dsimp only at hn ⊢
      rw [hn]
      exact hw.closeLevel hl _
    · exact hw.closeLevel hl _
theorem PanelsPartOf.put : ∀ {ps ps' : List (Panel σ L)}, PanelsPartOf ps ps' → ∀ {s s' : Snapshot}, s.PartOf s' →
    PutsLess e (putPanels false ps s) (putPanels false ps' s')
  | _, [], .nil, s, s', hw => by rw [putPanels, putPanels]; exact .pure hw
  | _, p' :: ps', .extra _ h, s, s', hw => by
    rw [putPanels.eq_2 false s' p']
    refine .skip _ (p'.appends hp false s') fun r hr => ?_
    intro k k' b k₂ hb
    obtain ⟨⟨ps₁, x⟩, k₃, h1, h2⟩ := M.bind_eq_some.1 hb
    obtain ⟨a, k₁, h3, h4⟩ := PanelsPartOf.put h (hw.more hr) k k' _ _ h1
    cases h2
    exact ⟨a, k₁, h3, h4⟩
  | p :: ps, p' :: ps', .cons h1 h2, s, s', hw => by
    rw [putPanels, putPanels]
    refine .bind _ (Panel.PartOf.put h1 hw) ?_
    rintro ⟨a, n₁⟩ ⟨a', n₁'⟩ hw
    refine .bind _ (PanelsPartOf.put h2 hw) ?_
    rintro ⟨b, n₂⟩ ⟨b', n₂'⟩ hw
    exact .pure hw
theorem Handler.PartOf.put : ∀ {h h' : Handler σ L}, h.PartOf h' → ∀ {s s' : Snapshot}, s.PartOf s' →
    PutsLess e (h.putSnapshot false s) (h'.putSnapshot false s')
  | .instrument a, _, .instrument _, s, s', hw => by
    rw [Handler.putSnapshot, Handler.putSnapshot]
    refine .bind (fun r r' => AddsSame s s' r.2 r'.2) (.of_sync ?_) fun _ _ h => .pure (hw.adds h)
    exact .bind _ (also_put s s' hc ha hf a.instrument) fun _ _ h => .pure h
  | .gauge a, _, .gauge _, s, s', hw => by
    rw [Handler.putSnapshot, Handler.putSnapshot]
    refine .bind (fun r r' => AddsSame s s' r.2 r'.2) (.of_sync ?_) fun _ _ h => .pure (hw.adds h)
    exact .bind _ (also_gauge s s' hf a.gauge) fun _ _ h => .pure h
  | .panel p, _, .panel h, s, s', hw => by
    rw [Handler.putSnapshot, Handler.putSnapshot]
    exact .bind _ (Panel.PartOf.put h hw) fun _ _ h => .pure h
  | .cockpit h ps hs ss, _, .cockpit _ h1 h2 h3, s, s', hw => by
    rw [Handler.putSnapshot, Handler.putSnapshot]
    refine .bind _ (.of_sync (also_putFlags hf h.activity (levelFor h.name s) (levelFor h.name s'))) ?_
    rintro ⟨g, l⟩ ⟨_, l'⟩ ⟨rfl, hl⟩
    have hl := (hw.levelFor h.name).adds hl
    refine .ite (.bind _ (PanelsPartOf.put h1 hl) ?_) (.pure (hw.closeLevel hl _))
    rintro ⟨b, s₂⟩ ⟨b', s₂'⟩ hl
    refine .bind _ (HandlersPartOf.put h2 hl) ?_
    rintro ⟨d, s₄⟩ ⟨d', s₄'⟩ hl
    refine .bind _ (SnapshootersPartOf.put h3 hl) ?_
    rintro ⟨c, s₃⟩ ⟨c', s₃'⟩ hl
    exact .pure (hw.closeLevel hl _)
  | .custom x, _, .custom _, s, s', hw => by
    rw [Handler.putSnapshot, Handler.putSnapshot]
    exact .bind _ (.of_sync (also_custom s s' hc ha x)) fun _ _ h => .pure (hw.adds h)
theorem HandlersPartOf.put : ∀ {hs hs' : List (Handler σ L)}, HandlersPartOf hs hs' → ∀ {s s' : Snapshot}, s.PartOf s' →
    PutsLess e (putHandlers false hs s) (putHandlers false hs' s')
  | _, [], .nil, s, s', hw => by rw [putHandlers, putHandlers]; exact .pure hw
  | _, p' :: ps', .extra _ h, s, s', hw => by
    rw [putHandlers.eq_2 false s' p']
    refine .skip _ (p'.appends hp false s') fun r hr => ?_
    intro k k' b k₂ hb
    obtain ⟨⟨ps₁, x⟩, k₃, h1, h2⟩ := M.bind_eq_some.1 hb
    obtain ⟨a, k₁, h3, h4⟩ := HandlersPartOf.put h (hw.more hr) k k' _ _ h1
    cases h2
    exact ⟨a, k₁, h3, h4⟩
  | p :: ps, p' :: ps', .cons h1 h2, s, s', hw => by
    rw [putHandlers, putHandlers]
    refine .bind _ (Handler.PartOf.put h1 hw) ?_
    rintro ⟨a, n₁⟩ ⟨a', n₁'⟩ hw
    refine .bind _ (HandlersPartOf.put h2 hw) ?_
    rintro ⟨b, n₂⟩ ⟨b', n₂'⟩ hw
    exact .pure hw
theorem Snapshooter.PartOf.put : ∀ {x x' : Snapshooter σ L}, x.PartOf x' → ∀ {s s' : Snapshot}, s.PartOf s' →
    PutsLess e (x.putSnapshot false s) (x'.putSnapshot false s')
  | .constant .., _, .constant n ds v, s, s', hw => by
    rw [Snapshooter.putSnapshot, Snapshooter.putSnapshot]
    exact .pure (hw.push n v)
  | .polling .., _, .polling n ds g h, s, s', hw => by
    rw [Snapshooter.putSnapshot, Snapshooter.putSnapshot]
    exact .ite (.bind _ (Snapshooter.PartOf.put h .nil) fun _ _ h => .pure (hw.pushGroup h n))
      (.bind _ (Snapshooter.PartOf.put h hw) fun _ _ h => .pure h)
  | .instrument i, _, .instrument _, s, s', hw => by
    rw [Snapshooter.putSnapshot, Snapshooter.putSnapshot]
    exact .bind _ (.of_sync (also_put s s' hc ha hf i)) fun _ _ h => .pure (hw.adds h)
  | .handler _, _, .handler h, s, s', hw => by
    rw [Snapshooter.putSnapshot, Snapshooter.putSnapshot]
    exact .bind _ (Handler.PartOf.put h hw) fun _ _ h => .pure h
  | .custom x, _, .custom _, s, s', hw => by
    rw [Snapshooter.putSnapshot, Snapshooter.putSnapshot]
    exact .bind _ (.of_sync (also_custom s s' hc ha x)) fun _ _ h => .pure (hw.adds h)
theorem SnapshootersPartOf.put : ∀ {ss ss' : List (Snapshooter σ L)}, SnapshootersPartOf ss ss' → ∀ {s s' : Snapshot}, s.PartOf s' →
    PutsLess e (putSnapshooters false ss s) (putSnapshooters false ss' s')
  | _, [], .nil, s, s', hw => by rw [putSnapshooters, putSnapshooters]; exact .pure hw
  | _, p' :: ps', .extra _ h, s, s', hw => by
    rw [putSnapshooters.eq_2 false s' p']
    refine .skip _ (p'.appends hp false s') fun r hr => ?_
    intro k k' b k₂ hb
    obtain ⟨⟨ps₁, x⟩, k₃, h1, h2⟩ := M.bind_eq_some.1 hb
    obtain ⟨a, k₁, h3, h4⟩ := SnapshootersPartOf.put h (hw.more hr) k k' _ _ h1
    cases h2
    exact ⟨a, k₁, h3, h4⟩
  | p :: ps, p' :: ps', .cons h1 h2, s, s', hw => by
    rw [putSnapshooters, putSnapshooters]
    refine .bind _ (Snapshooter.PartOf.put h1 hw) ?_
    rintro ⟨a, n₁⟩ ⟨a', n₁'⟩ hw
    refine .bind _ (SnapshootersPartOf.put h2 hw) ?_
    rintro ⟨b, n₂⟩ ⟨b', n₂'⟩ hw
    exact .pure hw
end
end Put

/-! ## Cockpits -/

section
omit [Custom σ L]

theorem Panel.PartOf.name {p p' : Panel σ L} (h : p.PartOf p') : p.name = p'.name := by
  cases h with
  | mk h1 => exact h1.name

theorem PanelsPartOf.append {ps ps' qs qs' : List (Panel σ L)} (h : PanelsPartOf ps ps') (hq : PanelsPartOf qs qs') :
    PanelsPartOf (ps ++ qs) (ps' ++ qs') := by
  induction ps' generalizing ps with
  | nil => cases h; exact hq
  | cons p ps' ih =>
    cases h with
    | extra _ h => exact .extra p (ih h)
    | cons h1 h => exact .cons h1 (ih h)

theorem HandlersPartOf.append {ps ps' qs qs' : List (Handler σ L)} (h : HandlersPartOf ps ps') (hq : HandlersPartOf qs qs') :
    HandlersPartOf (ps ++ qs) (ps' ++ qs') := by
  induction ps' generalizing ps with
  | nil => cases h; exact hq
  | cons p ps' ih =>
    cases h with
    | extra _ h => exact .extra p (ih h)
    | cons h1 h => exact .cons h1 (ih h)

theorem SnapshootersPartOf.append {ps ps' qs qs' : List (Snapshooter σ L)} (h : SnapshootersPartOf ps ps')
    (hq : SnapshootersPartOf qs qs') : SnapshootersPartOf (ps ++ qs) (ps' ++ qs') := by
  induction ps' generalizing ps with
  | nil => cases h; exact hq
  | cons p ps' ih =>
    cases h with
    | extra _ h => exact .extra p (ih h)
    | cons h1 h => exact .cons h1 (ih h)

theorem CockpitsPartOf.append {used : String → Prop} {ps ps' qs qs' : List (Cockpit σ L)} (h : CockpitsPartOf used ps ps')
    (hq : CockpitsPartOf used qs qs') : CockpitsPartOf used (ps ++ qs) (ps' ++ qs') := by
  induction h with
  | nil => exact hq
  | extra c hn _ ih => exact .extra c hn ih
  | cons h1 _ ih => exact .cons h1 ih

theorem PanelsPartOf.filter {f : Panel σ L → Bool} (hf : ∀ p p' : Panel σ L, p.name = p'.name → f p = f p') {ps ps' : List (Panel σ L)}
    (h : PanelsPartOf ps ps') : PanelsPartOf (ps.filter f) (ps'.filter f) := by
  induction ps' generalizing ps with
  | nil => cases h; exact .nil
  | cons p ps' ih =>
    cases h with
    | extra _ h =>
      rw [List.filter_cons (x := p)]
      split
      · exact .extra p (ih h)
      · exact ih h
    | cons h1 h =>
      rw [List.filter_cons, List.filter_cons, hf _ _ h1.name]
      split
      · exact .cons h1 (ih h)
      · exact ih h

theorem CockpitsPartOf.filter {used : String → Prop} {f : Cockpit σ L → Bool} (hf : ∀ p p' : Cockpit σ L, p.name = p'.name → f p = f p')
    {ps ps' : List (Cockpit σ L)} (h : CockpitsPartOf used ps ps') : CockpitsPartOf used (ps.filter f) (ps'.filter f) := by
  induction h with
  | nil => exact .nil
  | @extra cs cs' c hn _ ih =>
    rw [List.filter_cons (x := c)]
    split
    · exact .extra c hn ih
    · exact ih
  | @cons c c' cs cs' h1 _ ih =>
    rw [List.filter_cons, List.filter_cons, hf c c' (congrArg CockpitHead.name h1.head)]
    split
    · exact .cons h1 ih
    · exact ih

theorem Cockpit.PartOf.name {used : String → Prop} {c c' : Cockpit σ L} (h : c.PartOf used c') : c.name = c'.name :=
  congrArg CockpitHead.name h.head

theorem anyPanel (ps : List (Panel σ L)) (n : String) :
    (ps.any fun q => match q.name with
      | some m => m == n
      | none => false) = true ↔ ∃ p ∈ ps, p.name = some n := by
  rw [List.any_eq_true]
  refine exists_congr fun p => and_congr_right fun _ => ?_
  cases p.name with
  | none => simp
  | some m => simp

theorem anyCockpit (cs : List (Cockpit σ L)) (n : String) :
    (cs.any fun q => match q.name with
      | some m => m == n
      | none => false) = true ↔ ∃ c ∈ cs, c.name = some n := by
  rw [List.any_eq_true]
  refine exists_congr fun p => and_congr_right fun _ => ?_
  cases p.name with
  | none => simp
  | some m => simp

theorem Cockpit.PartOf.addPanel {used : String → Prop} {c c' : Cockpit σ L} (h : c.PartOf used c') {p p' : Panel σ L} (hp : p.PartOf p')
    (hu : ∀ n, p.name = some n → used n) : (c.addPanel p).PartOf used (c'.addPanel p') := by
  have added : Cockpit.PartOf used { c with panels := c.panels ++ [p] } { c' with panels := c'.panels ++ [p'] } := by
    refine ⟨h.head, h.panels.append (.cons hp .nil), h.handlers, h.snapshooters, fun n hn => ?_⟩
    simp only [List.mem_append, List.mem_singleton, or_and_right, exists_or, exists_eq_left, hp.name]
    rw [h.names n hn]
  unfold Cockpit.addPanel
  rw [← hp.name]
  cases hn : p.name with
  | none => exact added
  | some n =>
    dsimp only
    have hi := h.names n (hu n hn)
    split <;> rename_i h1 <;> split <;> rename_i h2
    · exact h
    · exact absurd ((anyPanel _ _).2 (hi.1 ((anyPanel _ _).1 h1))) h2
    · exact absurd ((anyPanel _ _).2 (hi.2 ((anyPanel _ _).1 h2))) h1
    · exact added

theorem Cockpit.PartOf.removePanel {used : String → Prop} {c c' : Cockpit σ L} (h : c.PartOf used c') (m : String) :
    (c.removePanel m).PartOf used (c'.removePanel m) := by
  refine ⟨h.head, h.panels.filter fun p p' hn => by rw [hn], h.handlers, h.snapshooters, fun n hn => ?_⟩
  have key : ∀ ps : List (Panel σ L), (∃ p ∈ ps.filter fun p => match p.name with
      | some n => n != m
      | none => true, p.name = some n) ↔ n ≠ m ∧ ∃ p ∈ ps, p.name = some n := by
    intro ps
    constructor
    · rintro ⟨p, h1, h2⟩
      rw [List.mem_filter, h2] at h1
      exact ⟨by simpa using h1.2, p, h1.1, h2⟩
    · rintro ⟨h1, p, h2, h3⟩
      exact ⟨p, List.mem_filter.2 ⟨h2, by rw [h3]; simpa using h1⟩, h3⟩
  exact (key _).trans ((and_congr_right fun _ => h.names n hn).trans (key _).symm)

theorem CockpitsPartOf.modifyFirst {used : String → Prop} {n : String} (hn : used n) {f f' : Cockpit σ L → Cockpit σ L}
    (hf : ∀ c c' : Cockpit σ L, c.PartOf used c' → (f c).PartOf used (f' c')) {cs cs' : List (Cockpit σ L)}
    (h : CockpitsPartOf used cs cs') :
    CockpitsPartOf used (ProcessorState.modifyFirst n f cs) (ProcessorState.modifyFirst n f' cs') := by
  induction h with
  | nil => exact .nil
  | extra c hc _ ih =>
    rw [ProcessorState.modifyFirst.eq_2 n f' c, if_neg]
    · exact .extra c hc ih
    · intro h
      exact hc n (by simpa using h) hn
  | cons h1 h2 ih =>
    rw [ProcessorState.modifyFirst, ProcessorState.modifyFirst, h1.name]
    split
    · exact .cons (hf _ _ h1) h2
    · exact .cons h1 ih

theorem CockpitsPartOf.names {used : String → Prop} {cs cs' : List (Cockpit σ L)} (h : CockpitsPartOf used cs cs') {n : String}
    (hn : used n) : (∃ c ∈ cs, c.name = some n) ↔ ∃ c ∈ cs', c.name = some n := by
  induction h with
  | nil => rfl
  | extra c hc _ ih =>
    rw [ih]
    simp only [List.mem_cons, or_and_right, exists_or, exists_eq_left]
    exact (or_iff_right fun h => hc n h hn).symm
  | cons h1 _ ih =>
    simp only [List.mem_cons, or_and_right, exists_or, exists_eq_left]
    rw [h1.name, ih]

/-! ## Processors -/

variable {used : String → Prop}

theorem ProcessorState.PartOf.addCockpit {s s' : ProcessorState σ L} (h : s.PartOf used s') {c c' : Cockpit σ L} (hc : c.PartOf used c')
    (hu : ∀ n, c.name = some n → used n) : (s.addCockpit c).PartOf used (s'.addCockpit c') := by
  have added : ProcessorState.PartOf used { s with cockpits := s.cockpits ++ [c] } { s' with cockpits := s'.cockpits ++ [c'] } :=
    ⟨h.name, h.descr, h.activity, h.cockpits.append (.cons hc .nil), h.handlers, h.snapshooters⟩
  unfold ProcessorState.addCockpit
  rw [← hc.name]
  cases hn : c.name with
  | none => exact added
  | some n =>
    dsimp only
    have hi := h.cockpits.names (hu n hn)
    split <;> rename_i h1 <;> split <;> rename_i h2
    · exact h
    · exact absurd ((anyCockpit _ _).2 (hi.1 ((anyCockpit _ _).1 h1))) h2
    · exact absurd ((anyCockpit _ _).2 (hi.2 ((anyCockpit _ _).1 h2))) h1
    · exact added

theorem ProcessorState.PartOf.addHandler {s s' : ProcessorState σ L} (h : s.PartOf used s') {x x' : Handler σ L} (hx : x.PartOf x') :
    (s.addHandler x).PartOf used (s'.addHandler x') :=
  ⟨h.name, h.descr, h.activity, h.cockpits, h.handlers.append (.cons hx .nil), h.snapshooters⟩

theorem ProcessorState.PartOf.activeAt {s s' : ProcessorState σ L} (h : s.PartOf used s') (a : Int) :
    (s.activeAt a).PartOf used (s'.activeAt a) :=
  ⟨h.name, h.descr, congrArg (fun x : Activity => { x with lastActivity := a }) h.activity, h.cockpits, h.handlers,
    h.snapshooters⟩

theorem ProcessorState.PartOf.set {s s' : ProcessorState σ L} (h : s.PartOf used s') {c c' : Call σ L} (hc : c.PartOf used c') :
    (s.set c).PartOf used (s'.set c') := by
  cases hc with
  | addCockpit hc hu => exact h.addCockpit hc hu
  | addHandler hx => exact h.addHandler hx
  | addSnapshooter hx => exact ⟨h.name, h.descr, h.activity, h.cockpits, h.handlers, h.snapshooters.append (.cons hx .nil)⟩
  | setName n => exact ⟨rfl, h.descr, h.activity, h.cockpits, h.handlers, h.snapshooters⟩
  | setInactivityLimit d =>
    exact ⟨h.name, h.descr, congrArg (fun x : Activity => { x with maxInactivity := some d }) h.activity, h.cockpits, h.handlers,
      h.snapshooters⟩
  | setShowActivityState b =>
    exact ⟨h.name, h.descr, congrArg (fun x : Activity => { x with show_ := b }) h.activity, h.cockpits, h.handlers,
      h.snapshooters⟩

theorem ProcessorState.PartOf.setExtra {s s' : ProcessorState σ L} (h : s.PartOf used s') {c : Call σ L} (hc : c.Adds used) :
    s.PartOf used (s'.set c) := by
  cases hc with
  | addCockpit c hn =>
    have added : s.PartOf used { s' with cockpits := s'.cockpits ++ [c] } := by
      refine ⟨h.name, h.descr, h.activity, ?_, h.handlers, h.snapshooters⟩
      have := h.cockpits.append (.extra c hn .nil)
      rwa [List.append_nil] at this
    show s.PartOf used (s'.addCockpit c)
    unfold ProcessorState.addCockpit
    split
    · split
      · exact h
      · exact added
    · exact added
  | addHandler x =>
    refine ⟨h.name, h.descr, h.activity, h.cockpits, ?_, h.snapshooters⟩
    have := h.handlers.append (.extra x .nil)
    rwa [List.append_nil] at this
  | addSnapshooter x =>
    refine ⟨h.name, h.descr, h.activity, h.cockpits, h.handlers, ?_⟩
    have := h.snapshooters.append (.extra x .nil)
    rwa [List.append_nil] at this
end

section
variable [DecidableEq L]

theorem Panel.handle_name (o : Observation L) (p : Panel σ L) : (p.handle o).Post fun r => r.1.name = p.name := by
  obtain ⟨h, ps, hs, ss⟩ := p
  rw [Panel.handle]
  refine .ite (.bind (fun r => r.1.name = h.name) ?_ fun r hr => .bindAny fun _ => .bindAny fun _ => .pure hr) (.pure rfl)
  exact .bindAny fun _ => .bindAny fun _ => .bindAny fun _ => .bindAny fun _ => .pure rfl

theorem handlePanels_names (o : Observation L) (ps : List (Panel σ L)) :
    (handlePanels o ps).Post fun r => r.1.map Panel.name = ps.map Panel.name := by
  induction ps with
  | nil => rw [handlePanels]; exact .pure rfl
  | cons p ps ih =>
    rw [handlePanels]
    refine .bind _ (p.handle_name o) fun r hr => .bind _ ih fun q hq => .pure ?_
    simp only [List.map_cons, hr, hq]

theorem Cockpit.PartOf.handle (hc : StillAt σ L e) (hf : Frozen e t) (o : Observation L) {used : String → Prop} {c c' : Cockpit σ L}
    (h : c.PartOf used c') : HandlesLess e (Cockpit.PartOf used) (c.handle o) (c'.handle o) := by
  unfold Cockpit.handle
  refine .bindEq hf.now fun now => ?_
  refine .bind _ (h.handlers.handle hc hf o) ?_
  rintro ⟨a, n₁⟩ ⟨a', m₁⟩ ⟨h2, l2⟩
  have key := h.panels.handle hc hf o
  have kept := fun ps : List (Panel σ L) => handlePanels_names o ps
  intro k k' b k₂ hb
  obtain ⟨⟨ps, m₂⟩, k₃, h3, h4⟩ := M.bind_eq_some.1 hb
  obtain ⟨⟨qs, n₂⟩, k₁, h5, h6, h7⟩ := key k k' _ _ h3
  cases h4
  refine ⟨_, _, (M.run_bind_some h5).trans rfl, ⟨?_, h6, h2, h.snapshooters, ?_⟩, Nat.add_le_add l2 h7⟩
  · exact congrArg (fun x : CockpitHead => { x with activity := { x.activity with lastActivity := now } }) h.head
  · intro n hn
    have e1 : qs.map Panel.name = c.panels.map Panel.name := kept _ e _ _ _ h5
    have e2 : ps.map Panel.name = c'.panels.map Panel.name := kept _ e _ _ _ h3
    have := h.names n hn
    simp only [← List.mem_map] at this ⊢
    rw [e1, e2]
    exact this

theorem CockpitsPartOf.handle (hc : StillAt σ L e) (hf : Frozen e t) (o : Observation L) {used : String → Prop}
    {cs cs' : List (Cockpit σ L)} (h : CockpitsPartOf used cs cs') :
    HandlesLess e (CockpitsPartOf used) (handleCockpits o cs) (handleCockpits o cs') := by
  induction h with
  | nil => exact .pure ⟨.nil, le_rfl⟩
  | @extra cs cs' c hn _ ih =>
    rw [handleCockpits.eq_2 o c]
    intro k k' b k₂ hb
    obtain ⟨⟨c₁, m⟩, k₃, h1, hb⟩ := M.bind_eq_some.1 hb
    obtain ⟨⟨ps₁, n⟩, k₄, h2, h3⟩ := M.bind_eq_some.1 hb
    obtain ⟨a, k₁, h4, h5, h6⟩ := ih k k₃ _ _ h2
    cases h3
    refine ⟨a, k₁, h4, .extra _ ?_ h5, h6.trans (Nat.le_add_left _ _)⟩
    have : c₁.name = c.name := by
      obtain ⟨_, _, _, h1⟩ := M.bind_eq_some.1 h1
      obtain ⟨_, _, _, h1⟩ := M.bind_eq_some.1 h1
      obtain ⟨_, _, _, h1⟩ := M.bind_eq_some.1 h1
      cases h1
      rfl
    rw [this]
    exact hn
  | cons h1 _ ih =>
    rw [handleCockpits, handleCockpits]
    refine .bind _ (h1.handle hc hf o) ?_
    rintro ⟨a, n₁⟩ ⟨a', m₁⟩ ⟨h1, l1⟩
    refine .bind _ ih ?_
    rintro ⟨b, n₂⟩ ⟨b', m₂⟩ ⟨h2, l2⟩
    exact .pure ⟨.cons h1 h2, Nat.add_le_add l1 l2⟩

/-- The same numbers, but more updates. -/
structure Tally.Less (t t' : Tally) : Prop where
  processed : t.processed = t'.processed
  dropped : t.dropped = t'.dropped
  updated : t.updated ≤ t'.updated

theorem ProcessorState.PartOf.receive (hc : StillAt σ L e) (hf : Frozen e t) (dec : Decider) {used : String → Prop}
    {s s' : ProcessorState σ L} (h : s.PartOf used s') {u u' : Tally} (hu : u.Less u') {m m' : Message σ L} (hm : m.PartOf used m') :
    M.Covers e (fun r r' => r.1.PartOf used r'.1 ∧ r.2.Less r'.2) (s.receive dec u m) (s'.receive dec u' m') := by
  have counted : Tally.Less { u with processed := u.processed + 1 } { u' with processed := u'.processed + 1 } :=
    ⟨congrArg (· + 1) hu.processed, hu.dropped, hu.updated⟩
  cases hm with
  | observation o =>
    unfold ProcessorState.receive
    refine .ite (.bind _ (h.cockpits.handle hc hf o) ?_) (.pure ⟨h, hu.processed, congrArg (· + 1) hu.dropped, hu.updated⟩)
    rintro ⟨a, n₁⟩ ⟨a', m₁⟩ ⟨h1, l1⟩
    refine .bind _ (h.handlers.handle hc hf o) ?_
    rintro ⟨b, n₂⟩ ⟨b', m₂⟩ ⟨h2, l2⟩
    exact .pure ⟨⟨h.name, h.descr, h.activity, h1, h2, h.snapshooters⟩, congrArg (· + 1) hu.processed, hu.dropped,
      Nat.add_le_add (Nat.add_le_add hu.updated l1) l2⟩
  | addCockpit hc' hn => exact .pure ⟨h.addCockpit hc' hn, counted⟩
  | removeCockpit n =>
    exact .pure ⟨⟨h.name, h.descr, h.activity, h.cockpits.filter fun p p' hn => by rw [hn], h.handlers, h.snapshooters⟩, counted⟩
  | addHandler hx => exact .pure ⟨h.addHandler hx, counted⟩
  | addPanelToCockpit n hn hp hpn =>
    exact .pure ⟨⟨h.name, h.descr, h.activity, h.cockpits.modifyFirst hn fun c c' hc => hc.addPanel hp hpn, h.handlers, h.snapshooters⟩,
      counted⟩
  | removePanelFromCockpit n m hn =>
    exact .pure ⟨⟨h.name, h.descr, h.activity, h.cockpits.modifyFirst hn fun c c' hc => hc.removePanel m, h.handlers, h.snapshooters⟩,
      counted⟩

/-- If nothing panics with more, then nothing panics with less. -/
theorem HappeningsPartOf.plays (hc : CustomStill σ L) {e : Env} {used : String → Prop} {hs hs' : List (Happening σ L)}
    (h : HappeningsPartOf used hs hs') : ∀ {s s' y' : ProcessorState σ L} {u u' v' : Tally}, s.PartOf used s' → u.Less u' →
    hs'.foldlM (Happening.play e) (s', u') = some (y', v') →
    ∃ y v, hs.foldlM (Happening.play e) (s, u) = some (y, v) ∧ y.PartOf used y' ∧ v.Less v' := by
  induction h with
  | nil =>
    intro s s' y' u u' v' h1 h2 h3
    cases h3
    exact ⟨s, u, rfl, h1, h2⟩
  | @message hs hs' m strategy x x' hx _ ih =>
    intro s s' y' u u' v' h1 h2 h3
    rw [List.foldlM_cons] at h3
    obtain ⟨⟨s₁', u₁'⟩, h4, h5⟩ := Option.bind_eq_some_iff.1 h3
    unfold Happening.play at h4
    obtain ⟨⟨_, k₁⟩, h4, h6⟩ := Option.map_eq_some_iff.1 h4
    obtain ⟨dec, k₂, h7, h4⟩ := M.bind_eq_some.1 h4
    obtain ⟨⟨s₂', u₂'⟩, k₃, h8, h4⟩ := M.bind_eq_some.1 h4
    cases h4
    cases h6
    obtain ⟨⟨s₂, u₂⟩, k₄, h9, h10, h11⟩ := h1.receive (hc.at e m) (e.at_frozen m) dec h2 hx k₂ k₂ _ _ h8
    obtain ⟨y, v, h12, h13, h14⟩ := ih (h10.activeAt (e.clock m)) h11 h5
    refine ⟨y, v, ?_, h13, h14⟩
    rw [List.foldlM_cons]
    have : Happening.play e (s, u) (.message m strategy x) = some (s₂.activeAt (e.clock m), u₂) := by
      unfold Happening.play
      dsimp only
      rw [M.run_bind_some h7, M.run_bind_some h9]
      rfl
    rw [this]
    exact h12
  | set hc' _ ih =>
    intro s s' y' u u' v' h1 h2 h3
    exact ih (h1.set hc') h2 h3
  | extra hc' _ ih =>
    intro s s' y' u u' v' h1 h2 h3
    exact ih (h1.setExtra hc') h2 h3
end

section
variable (hc : StillAt σ L e) (ha : CustomFrames σ L) (hp : CustomAppends σ L) (hf : Frozen e t)
include hc ha hp hf

theorem Cockpit.PartOf.put {used : String → Prop} {c c' : Cockpit σ L} (h : c.PartOf used c') {s s' : Snapshot} (hw : s.PartOf s') :
    PutsLess e (c.putSnapshot s false) (c'.putSnapshot s' false) := by
  unfold Cockpit.putSnapshot
  rw [h.head]
  refine .bind _ (.of_sync (also_putFlags hf c'.head.activity (levelFor c'.head.name s) (levelFor c'.head.name s'))) ?_
  rintro ⟨g, l⟩ ⟨_, l'⟩ ⟨rfl, hl⟩
  have hl := (hw.levelFor c'.head.name).adds hl
  refine .ite (.bind _ (h.panels.put hc ha hp hf hl) ?_) (.pure (hw.closeLevel hl _))
  rintro ⟨b, s₂⟩ ⟨b', s₂'⟩ hl
  refine .bind _ (h.handlers.put hc ha hp hf hl) ?_
  rintro ⟨d, s₄⟩ ⟨d', s₄'⟩ hl
  refine .bind _ (h.snapshooters.put hc ha hp hf hl) ?_
  rintro ⟨c, s₃⟩ ⟨c', s₃'⟩ hl
  exact .pure (hw.closeLevel hl _)

theorem CockpitsPartOf.put [DecidableEq L] {used : String → Prop} {cs cs' : List (Cockpit σ L)} (h : CockpitsPartOf used cs cs') :
    ∀ {s s' : Snapshot}, s.PartOf s' → PutsLess e (putCockpits false cs s) (putCockpits false cs' s') := by
  induction h with
  | nil => exact fun hw => .pure hw
  | @extra cs cs' c hn _ ih =>
    intro s s' hw
    rw [putCockpits.eq_2 false s' c]
    refine .skip _ (c.appends hp false s') fun r hr => ?_
    intro k k' b k₂ hb
    obtain ⟨⟨ps₁, x⟩, k₃, h1, h2⟩ := M.bind_eq_some.1 hb
    obtain ⟨a, k₁, h3, h4⟩ := ih (hw.more hr) k k' _ _ h1
    cases h2
    exact ⟨a, k₁, h3, h4⟩
  | cons h1 _ ih =>
    intro s s' hw
    rw [putCockpits, putCockpits]
    refine .bind _ (h1.put hc ha hp hf hw) ?_
    rintro ⟨a, n₁⟩ ⟨a', n₁'⟩ hw
    exact .bind _ (ih hw) fun _ _ hw => .pure hw

theorem ProcessorState.PartOf.put [DecidableEq L] {used : String → Prop} {c c' : ProcessorState σ L} (h : c.PartOf used c')
    {s s' : Snapshot} (hw : s.PartOf s') : PutsLess e (c.putSnapshot s false) (c'.putSnapshot s' false) := by
  unfold ProcessorState.putSnapshot
  rw [h.name, h.descr, h.activity]
  refine .bind _ (.of_sync (also_putFlags hf c'.activity (Metrix.levelFor c'.name s) (Metrix.levelFor c'.name s'))) ?_
  rintro ⟨g, l⟩ ⟨_, l'⟩ ⟨rfl, hl⟩
  have hl := (hw.levelFor c'.name).adds hl
  refine .ite (.bind _ (h.cockpits.put hc ha hp hf hl) ?_) (.pure (hw.closeLevel hl _))
  rintro ⟨b, s₂⟩ ⟨b', s₂'⟩ hl
  refine .bind _ (h.handlers.put hc ha hp hf hl) ?_
  rintro ⟨d, s₄⟩ ⟨d', s₄'⟩ hl
  refine .bind _ (h.snapshooters.put hc ha hp hf hl) ?_
  rintro ⟨c, s₃⟩ ⟨c', s₃'⟩ hl
  exact .pure (hw.closeLevel hl _)
end

end Metrix
