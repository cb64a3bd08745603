import Verif.Spec.Describe
import Verif.Proof.Named

/-! Snapshots with and without titles and descriptions. -/

namespace Metrix

/-- Both panic, or both have related results and read the clock equally often. -/
def M.Rel {α β : Type} (R : α → β → Prop) (x : M α) (y : M β) : Prop :=
  ∀ e k, Option.Rel (fun a b => a.2 = b.2 ∧ R a.1 b.1) (x e k) (y e k)

namespace M.Rel
variable {α β γ δ : Type}

theorem pure {R : α → β → Prop} {a : α} {b : β} (h : R a b) : M.Rel R (Pure.pure a) (Pure.pure b) :=
  fun _ _ => .some ⟨rfl, h⟩

theorem bind {x : M α} {y : M β} {f : α → M γ} {g : β → M δ} {S : γ → δ → Prop} (R : α → β → Prop) (hx : M.Rel R x y)
    (hf : ∀ a b, R a b → M.Rel S (f a) (g b)) : M.Rel S (x >>= f) (y >>= g) := by
  intro e k
  have := hx e k
  cases h1 : x e k with
  | none =>
    rw [h1] at this
    cases h2 : y e k with
    | none => rw [M.run_bind_none h1, M.run_bind_none h2]; exact .none
    | some b => rw [h2] at this; cases this
  | some a =>
    rw [h1] at this
    cases h2 : y e k with
    | none => rw [h2] at this; cases this
    | some b =>
      rw [h2] at this
      cases this with
      | some h =>
        obtain ⟨a, ka⟩ := a; obtain ⟨b, kb⟩ := b
        obtain ⟨rfl, h⟩ := h
        rw [M.run_bind_some h1, M.run_bind_some h2]
        exact hf _ _ h e ka

theorem refl {R : α → α → Prop} (h : ∀ a, R a a) (x : M α) : M.Rel R x x := by
  intro e k
  cases x e k with
  | none => exact .none
  | some a => exact .some ⟨rfl, h _⟩

theorem eq (x : M α) : M.Rel Eq x x := refl (fun _ => rfl) x

theorem ite {R : α → β → Prop} {c : Prop} [Decidable c] {x x' : M α} {y y' : M β} (h : M.Rel R x y)
    (h' : M.Rel R x' y') : M.Rel R (if c then x else x') (if c then y else y') := by
  split <;> assumption

theorem mono {R S : α → β → Prop} {x : M α} {y : M β} (h : M.Rel R x y) (hi : ∀ a b, R a b → S a b) : M.Rel S x y := by
  intro e k
  have := h e k
  revert this
  cases x e k <;> cases y e k <;> intro this
  · exact .none
  · cases this
  · cases this
  · cases this with
    | some h => exact .some ⟨h.1, hi _ _ h.2⟩

end M.Rel

/-- The states are related by `f`, the snapshots differ by texts. -/
abbrev Puts {C : Type} (u : TextLabels) (d : Bool) (f : C → C) (x y : M (C × Snapshot)) : Prop :=
  M.Rel (fun a b => a.1 = f b.1 ∧ Described u d a.2 b.2) x y

variable {u : TextLabels} {d : Bool}

theorem Described.refl (s : Snapshot) : Described u d s s := by
  have : ∀ r : Snapshot, Described u d r.reverse r.reverse := by
    intro r
    induction r with
    | nil => exact .nil
    | cons x r ih => rw [List.reverse_cons]; exact .item x.1 ih (.same _)
  simpa using this s.reverse

theorem Described.push {s t : Snapshot} (h : Described u d s t) (n : String) (v : ItemKind) :
    Described u d (s.push n v) (t.push n v) := .item n h (.same v)

theorem Described.pushGroup {s t l m : Snapshot} (h : Described u d s t) (n : String) (h' : Described u d l m) :
    Described u d (s.push n (.snapshot l)) (t.push n (.snapshot m)) := .item n h (.group h')

/-- Without texts the two snapshots are the same. -/
theorem described_false {u : TextLabels} {d : Bool} (hd : d = false) : (∀ {s t}, Described u d s t → s = t) ∧ (∀ {v w}, SameValue u d v w → v = w) := by
  have h1 : ∀ s t, Described u d s t → s = t := by
    intro s t h
    induction h using Described.rec (motive_2 := fun v w _ => v = w) with
    | nil => rfl
    | item n _ _ h1 h2 => rw [h1, h2]
    | text x h' => rw [hd] at h'; cases h'
    | same v => rfl
    | group _ h => rw [h]
  refine ⟨fun h => h1 _ _ h, fun h => ?_⟩
  cases h with
  | same => rfl
  | group h => rw [h1 _ _ h]

theorem Described.putText {s t : Snapshot} (hd : d = true) (h : Described u d s t) {l : String} (hl : IsTextLabel l)
    (x : Option String) : Described u d s (Metrix.putText l x t) := by
  unfold Metrix.putText
  split
  · exact h
  · split
    · exact h
    · rename_i hn
      refine .text _ hd h hl fun _ i hi he => hn ?_
      simp only [Snapshot.hasName, List.any_eq_true, beq_iff_eq]
      exact ⟨i, hi, he⟩

theorem putPostfixed_empty (n : String) (into : Snapshot) (d : Bool) : putPostfixedDescriptives {} n into d = into := by
  unfold putPostfixedDescriptives; split <;> rfl

theorem putDefault_empty (into : Snapshot) (d : Bool) : putDefaultDescriptives {} into d = into := by
  unfold putDefaultDescriptives; split <;> rfl

theorem putPostfixed_false (ds : Descr) (n : String) (into : Snapshot) : putPostfixedDescriptives ds n into false = into := rfl

theorem putDefault_false (ds : Descr) (into : Snapshot) : putDefaultDescriptives ds into false = into := rfl

theorem Described.postfixed {s t : Snapshot} (h : Described u d s t) (ds : Descr) (n : String) :
    Described u d s (putPostfixedDescriptives ds n t d) := by
  unfold putPostfixedDescriptives
  split
  · rename_i hd
    exact (h.putText hd (.inr (.inr ⟨n, .inl rfl⟩)) _).putText hd (.inr (.inr ⟨n, .inr rfl⟩)) _
  · exact h

theorem Described.default {s t : Snapshot} (h : Described u d s t) (ds : Descr) :
    Described u d s (putDefaultDescriptives ds t d) := by
  unfold putDefaultDescriptives
  split
  · rename_i hd
    exact (h.putText hd (.inl rfl) _).putText hd (.inr (.inl rfl)) _
  · exact h

/-! ## Instruments -/

theorem M.Rel.map {α β γ δ : Type} {R : α → β → Prop} {S : γ → δ → Prop} {x : M α} {y : M β} {f : α → γ} {g : β → δ}
    (hx : M.Rel R x y) (h : ∀ a b, R a b → S (f a) (g b)) : M.Rel S (f <$> x) (g <$> y) := by
  rw [map_eq_pure_bind, map_eq_pure_bind]
  exact .bind R hx fun a b hab => .pure (h a b hab)

variable {s t : Snapshot}

theorem Gauge.describedValues (g : Gauge) (h : Described u d s t) :
    M.Rel (fun a b => a.1 = ({ b.1 with descr := {} } : Gauge) ∧ Described u d a.2 b.2 ∧ b.1.name = g.name)
      (Gauge.putValues { g with descr := {} } s) (g.putValues t) := by
  unfold Gauge.putValues
  simp only
  cases hv : g.value with
  | none => exact .pure ⟨by simp [hv], h, rfl⟩
  | some v =>
    have hp : Described u d (if g.groupValues then (s.push "current" (.int v), (none : Option String))
          else (s.push g.name (.int v), some g.name)).1 (if g.groupValues then (t.push "current" (.int v), (none : Option String))
          else (t.push g.name (.int v), some g.name)).1 := by
      split <;> exact h.push _ _
    have hq : (if g.groupValues then (s.push "current" (.int v), (none : Option String))
          else (s.push g.name (.int v), some g.name)).2 = (if g.groupValues then (t.push "current" (.int v), (none : Option String))
          else (t.push g.name (.int v), some g.name)).2 := by
      split <;> rfl
    cases ht : g.tracking with
    | none => exact .pure ⟨by simp [hv, ht], hp, rfl⟩
    | some b =>
      simp only
      refine .bind Eq (.eq _) ?_
      rintro r _ rfl
      refine .pure ⟨by simp [hv], ?_, rfl⟩
      unfold BucketsStats.addToSnapshot
      simp only [hq]
      exact ((((((hp.push _ _).push _ _).push _ _).push _ _).push _ _).push _ _).push _ _

theorem Gauge.described (g : Gauge) (h : Described u d s t) :
    Puts u d (fun g => { g with descr := {} }) (Gauge.putSnapshot { g with descr := {} } s false) (g.putSnapshot t d) := by
  unfold Gauge.putSnapshot
  simp only [putPostfixed_false]
  refine .ite ?_ ?_
  · refine .bind _ (g.describedValues (u := u) (d := d) (s := []) (t := []) .nil) ?_
    rintro a b ⟨h1, h2, h3⟩
    refine .pure ⟨h1, ?_⟩
    rw [h1]
    exact (h.postfixed _ _).pushGroup _ h2
  · exact (g.describedValues (h.postfixed _ _)).mono fun a b hab => ⟨hab.1, hab.2.1⟩

theorem MeterSnapshot.described {m m' : MeterSnapshot} (h : Described u d s t) (hm : m = { m' with descr := {} }) :
    Described u d (m.putSnapshot s false) (m'.putSnapshot t d) := by
  subst hm
  unfold MeterSnapshot.putSnapshot
  exact (h.postfixed m'.descr m'.name).push _ _

theorem Meter.described (m : Meter) (h : Described u d s t) :
    Puts u d (fun m => { m with descr := {} }) (Meter.putSnapshot { m with descr := {} } s false) (m.putSnapshot t d) := by
  unfold Meter.putSnapshot
  have hg : M.Rel (fun a b => a.1 = ({ b.1 with descr := {} } : Meter) ∧ a.2 = { b.2 with descr := {} })
      (Meter.getSnapshot { m with descr := {} }) m.getSnapshot := by
    unfold Meter.getSnapshot
    refine .bind (fun a b => a = { b with descr := {} }) ?_ ?_
    · unfold Meter.tickIfDue
      refine .bind Eq (.eq _) ?_
      rintro now _ rfl
      refine .ite (.bind Eq (.eq _) ?_) (.pure rfl)
      rintro inner _ rfl
      refine .bind Eq (.eq _) ?_
      rintro t _ rfl
      exact .pure rfl
    · rintro _ m rfl
      refine .bind Eq (.eq _) ?_
      rintro r _ rfl
      exact .pure ⟨rfl, rfl⟩
  refine .bind _ hg ?_
  rintro a b ⟨h1, h2⟩
  exact .pure ⟨h1, MeterSnapshot.described h h2⟩

theorem ValueMeter.described (m : ValueMeter) (h : Described u d s t) :
    Puts u d (fun m => { m with meter := { m.meter with descr := {} } })
      (ValueMeter.putSnapshot { m with meter := { m.meter with descr := {} } } s false) (m.putSnapshot t d) := by
  refine .bind _ (m.meter.described h) ?_
  rintro a b ⟨h1, h2⟩
  exact .pure ⟨by rw [h1], h2⟩

theorem Histogram.described (m : Histogram) (h : Described u d s t) :
    M.Rel (fun a b => Described u d a b) (Histogram.putSnapshot { m with descr := {} } s false) (m.putSnapshot t d) := by
  unfold Histogram.putSnapshot
  refine .bind Eq (.eq _) ?_
  rintro l _ rfl
  exact .pure ((h.postfixed _ _).push _ _)

theorem described_putTimedSwitch (name : String) (ds : Descr) (inv : Option NameAlternation) (state : M Bool)
    (h : Described u d s t) :
    M.Rel (fun a b => Described u d a b) (putTimedSwitch name {} inv state s false) (putTimedSwitch name ds inv state t d) := by
  unfold putTimedSwitch
  refine .bind Eq (.eq _) ?_
  rintro l _ rfl
  cases inv with
  | none => exact .pure ((h.postfixed _ _).push _ _)
  | some a =>
    refine .bind Eq (.eq _) ?_
    rintro l _ rfl
    exact .pure (((h.postfixed _ _).push _ _).push _ _)

theorem DataDisplay.described (m : DataDisplay) (h : Described u d s t) :
    M.Rel (fun a b => Described u d a b) (DataDisplay.putSnapshot { m with descr := {} } s false) (m.putSnapshot t d) := by
  unfold DataDisplay.putSnapshot
  refine .bind Eq (.eq _) ?_
  rintro l _ rfl
  cases l with
  | none => exact .pure (h.postfixed _ _)
  | some v => exact .pure ((h.postfixed _ _).push _ _)

theorem LastOccurrenceTracker.described (m : LastOccurrenceTracker) (h : Described u d s t) :
    M.Rel (fun a b => Described u d a b) (LastOccurrenceTracker.putSnapshot { m with descr := {} } s false)
      (m.putSnapshot t d) := by
  unfold LastOccurrenceTracker.putSnapshot
  refine .bind Eq (.eq _) ?_
  rintro l _ rfl
  cases l with
  | none => exact .ite (.pure ((h.postfixed _ _).push _ _)) (.pure (h.postfixed _ _))
  | some v => exact .pure ((h.postfixed _ _).push _ _)

theorem Counter.described (m : Counter) (h : Described u d s t) :
    Described u d (Counter.putSnapshot { m with descr := {} } s false) (m.putSnapshot t d) :=
  (h.postfixed _ _).push _ _

theorem Flag.described (m : Flag) (h : Described u d s t) :
    Described u d (Flag.putSnapshot { m with descr := {} } s false) (m.putSnapshot t d) := by
  unfold Flag.putSnapshot
  simp only [putPostfixed_false]
  cases m.state with
  | none => exact h.postfixed _ _
  | some v =>
    cases m.showInverted with
    | none => exact (h.postfixed _ _).push _ _
    | some a => exact ((h.postfixed _ _).push _ _).push _ _

theorem puts_keeping {I : Type} {f : I → Snapshot → Bool → M Snapshot} {i : I} {g : I → I}
    (h : M.Rel (fun a b => Described u d a b) (f (g i) s false) (f i t d)) :
    Puts u d g (keeping f (g i) s false) (keeping f i t d) :=
  .bind _ h fun _ _ hab => .pure ⟨rfl, hab⟩

variable {σ L : Type}

section
variable [Custom σ L]

theorem Instrument.described (hc : CustomDescribes σ L) (i : Instrument σ) (h : Described u d s t) :
    Puts u d Instrument.undescribed (i.undescribed.putSnapshot L s false) (i.putSnapshot L t d) := by
  have via : ∀ {I : Type} {x y : M (I × Snapshot)} {g : I → I} {w : I → Instrument σ}, Puts u d g x y →
      (∀ i, w (g i) = (w i).undescribed) →
      Puts u d Instrument.undescribed (x >>= fun r => pure (w r.1, r.2)) (y >>= fun r => pure (w r.1, r.2)) := by
    intro I x y g w hxy hw
    exact .bind _ hxy fun a b hab => .pure ⟨by rw [hab.1, hw], hab.2⟩
  cases i with
  | counter i => exact via (puts_keeping (g := fun i : Counter => { i with descr := {} }) (.pure (i.described h))) fun _ => rfl
  | gauge i => exact via (i.described h) fun _ => rfl
  | meter i => exact via (i.described h) fun _ => rfl
  | valueMeter i => exact via (i.described h) fun _ => rfl
  | histogram i => exact via (puts_keeping (g := fun i : Histogram => { i with descr := {} }) (i.described h)) fun _ => rfl
  | flag i => exact via (puts_keeping (g := fun i : Flag => { i with descr := {} }) (.pure (i.described h))) fun _ => rfl
  | staircaseTimer i =>
    exact via (puts_keeping (g := fun i : StaircaseTimer => { i with descr := {} }) (described_putTimedSwitch _ _ _ _ h)) fun _ => rfl
  | occurrenceIndicator i =>
    exact via (puts_keeping (g := fun i : OccurrenceIndicator => { i with descr := {} }) (described_putTimedSwitch _ _ _ _ h)) fun _ => rfl
  | nonOccurrenceIndicator i =>
    exact via (puts_keeping (g := fun i : NonOccurrenceIndicator => { i with descr := {} }) (described_putTimedSwitch _ _ _ _ h)) fun _ => rfl
  | dataDisplay i => exact via (puts_keeping (g := fun i : DataDisplay => { i with descr := {} }) (i.described h)) fun _ => rfl
  | lastOccurrenceTracker i => exact via (puts_keeping (g := fun i : LastOccurrenceTracker => { i with descr := {} }) (i.described h)) fun _ => rfl
  | custom i => exact via (g := id) (hc i s t u d h) fun _ => rfl

theorem described_putSlot {A : Type} {f f' : A → Snapshot → M (A × Snapshot)} {g : A → A}
    (hf : ∀ a s t, Described u d s t → Puts u d g (f (g a) s) (f' a t)) (a : Option A) (h : Described u d s t) :
    Puts u d (Option.map g) (putSlot f (a.map g) s) (putSlot f' a t) := by
  cases a with
  | none => exact .pure ⟨rfl, h⟩
  | some a => exact .bind _ (hf a s t h) fun x y hxy => .pure ⟨by rw [hxy.1]; rfl, hxy.2⟩

theorem described_adapter {I : Type} {put : I → Snapshot → Bool → M (I × Snapshot)} {g : I → I}
    (hput : ∀ i s t, Described u d s t → Puts u d g (put (g i) s false) (put i t d)) (a : InstrumentAdapter L I)
    (h : Described u d s t) :
    Puts u d (fun a => { a with instrument := g a.instrument })
      (InstrumentAdapter.putSnapshot put { a with instrument := g a.instrument } s false) (a.putSnapshot put t d) :=
  .bind _ (hput _ _ _ h) fun x y hxy => .pure ⟨by rw [hxy.1], hxy.2⟩

theorem GaugeAdapter.described (a : GaugeAdapter L) (h : Described u d s t) :
    Puts u d GaugeAdapter.undescribed (a.undescribed.putSnapshot s false) (a.putSnapshot t d) :=
  .bind _ (a.gauge.described h) fun x y hxy => .pure ⟨by rw [hxy.1]; rfl, hxy.2⟩

theorem PanelHead.described (p : PanelHead L) (h : Described u d s t) :
    Puts u d PanelHead.undescribed (p.undescribed.putSlots s false) (p.putSlots t d) := by
  unfold PanelHead.putSlots
  refine .bind _ (described_putSlot (f' := fun a s => a.putSnapshot IsInstrument.putSnapshot s d) (fun a s t h => described_adapter
    (g := fun i : Counter => { i with descr := {} })
    (fun i s t h => puts_keeping (g := fun i : Counter => { i with descr := {} }) (.pure (i.described h))) a h) _ h) ?_
  rintro a1 b1 ⟨e1, h1⟩
  refine .bind _ (described_putSlot (f' := fun a s => a.putSnapshot s d) (fun a s t h => GaugeAdapter.described a h) _ h1) ?_
  rintro a2 b2 ⟨e2, h2⟩
  refine .bind _ (described_putSlot (f' := fun a s => a.putSnapshot IsInstrument.putSnapshot s d) (fun a s t h => described_adapter
    (g := fun i : Meter => { i with descr := {} }) (fun i s t h => i.described h) a h) _ h2) ?_
  rintro a3 b3 ⟨e3, h3⟩
  refine .bind _ (described_putSlot (f' := fun a s => a.putSnapshot IsInstrument.putSnapshot s d) (fun a s t h => described_adapter
    (g := fun i : Histogram => { i with descr := {} })
    (fun i s t h => puts_keeping (g := fun i : Histogram => { i with descr := {} }) (i.described h)) a h) _ h3) ?_
  rintro a4 b4 ⟨e4, h4⟩
  exact .pure ⟨by rw [e1, e2, e3, e4]; rfl, h4⟩

theorem Activity.described (a : Activity) (h : Described u d s t) :
    M.Rel (fun x y => x.1 = y.1 ∧ Described u d x.2 y.2) (a.putFlags s) (a.putFlags t) := by
  unfold Activity.putFlags
  cases a.maxInactivity with
  | none => exact .pure ⟨rfl, h⟩
  | some d' =>
    refine .ite (.bind Eq (.eq _) ?_) (.pure ⟨rfl, h⟩)
    rintro now _ rfl
    exact .ite (.pure ⟨rfl, (h.push _ _).push _ _⟩) (.pure ⟨rfl, (h.push _ _).push _ _⟩)

theorem described_levelFor (name : Option String) (h : Described u d s t) : Described u d (levelFor name s) (levelFor name t) := by
  cases name with
  | none => exact h
  | some n => exact .nil

theorem described_closeLevel (name : Option String) {l m : Snapshot} (h : Described u d s t) (hl : Described u d l m) :
    Described u d (closeLevel name s l) (closeLevel name t m) := by
  cases name with
  | none => exact hl
  | some n => exact h.pushGroup _ hl

mutual
theorem Panel.described (hc : CustomDescribes σ L) (p : Panel σ L) {s t : Snapshot} (h : Described u d s t) :
    Puts u d Panel.undescribed (p.undescribed.putSnapshot false s) (p.putSnapshot d t) := by
  match p with
  | .mk hd ps hs ss =>
    rw [Panel.undescribed]
    unfold Panel.putSnapshot
    simp only [putDefault_false]
    refine .bind _ (Activity.described hd.activity ((described_levelFor hd.name h).default hd.descr)) ?_
    rintro ⟨go, l⟩ ⟨_, m⟩ ⟨rfl, hl⟩
    refine .ite ?_ (.pure ⟨by simp only [Panel.undescribed], described_closeLevel hd.name h hl⟩)
    refine .bind _ (PanelHead.described hd hl) ?_
    rintro a1 b1 ⟨e1, h1⟩
    refine .bind _ (describedPanels hc ps h1) ?_
    rintro a2 b2 ⟨e2, h2⟩
    refine .bind _ (describedSnapshooters hc ss h2) ?_
    rintro a3 b3 ⟨e3, h3⟩
    refine .bind _ (describedHandlers hc hs h3) ?_
    rintro a4 b4 ⟨e4, h4⟩
    refine .pure ⟨by simp only [e1, e2, e3, e4, Panel.undescribed], ?_⟩
    rw [e1]
    exact described_closeLevel b1.1.name h h4

theorem describedPanels (hc : CustomDescribes σ L) (ps : List (Panel σ L)) {s t : Snapshot} (h : Described u d s t) :
    Puts u d undescribedPanels (putPanels false (undescribedPanels ps) s) (putPanels d ps t) := by
  match ps with
  | [] => rw [undescribedPanels]; unfold putPanels; exact .pure ⟨by simp only [undescribedPanels], h⟩
  | p :: ps =>
    rw [undescribedPanels]; unfold putPanels
    refine .bind _ (p.described hc h) ?_
    rintro a1 b1 ⟨e1, h1⟩
    refine .bind _ (describedPanels hc ps h1) ?_
    rintro a2 b2 ⟨e2, h2⟩
    exact .pure ⟨by simp only [e1, e2, undescribedPanels], h2⟩

theorem Handler.described (hc : CustomDescribes σ L) (x : Handler σ L) {s t : Snapshot} (h : Described u d s t) :
    Puts u d Handler.undescribed (x.undescribed.putSnapshot false s) (x.putSnapshot d t) := by
  match x with
  | .instrument a =>
    rw [Handler.undescribed]; unfold Handler.putSnapshot
    refine .bind _ (described_adapter (fun i s t h => i.described hc h) a h) ?_
    rintro a1 b1 ⟨e1, h1⟩
    exact .pure ⟨by simp only [e1, Handler.undescribed], h1⟩
  | .gauge a =>
    rw [Handler.undescribed]; unfold Handler.putSnapshot
    refine .bind _ (GaugeAdapter.described a h) ?_
    rintro a1 b1 ⟨e1, h1⟩
    exact .pure ⟨by simp only [e1, Handler.undescribed], h1⟩
  | .panel p =>
    rw [Handler.undescribed]; unfold Handler.putSnapshot
    refine .bind _ (p.described hc h) ?_
    rintro a1 b1 ⟨e1, h1⟩
    exact .pure ⟨by simp only [e1, Handler.undescribed], h1⟩
  | .cockpit hd ps hs ss =>
    rw [Handler.undescribed]
    unfold Handler.putSnapshot
    simp only [putDefault_false]
    refine .bind _ (Activity.described hd.activity ((described_levelFor hd.name h).default hd.descr)) ?_
    rintro ⟨go, l⟩ ⟨_, m⟩ ⟨rfl, hl⟩
    refine .ite ?_ (.pure ⟨by simp only [Handler.undescribed], described_closeLevel hd.name h hl⟩)
    refine .bind _ (describedPanels hc ps hl) ?_
    rintro a2 b2 ⟨e2, h2⟩
    refine .bind _ (describedHandlers hc hs h2) ?_
    rintro a3 b3 ⟨e3, h3⟩
    refine .bind _ (describedSnapshooters hc ss h3) ?_
    rintro a4 b4 ⟨e4, h4⟩
    exact .pure ⟨by simp only [e2, e3, e4, Handler.undescribed], described_closeLevel hd.name h h4⟩
  | .custom c =>
    rw [Handler.undescribed]; unfold Handler.putSnapshot
    refine M.Rel.bind (fun a b => a.1 = b.1 ∧ Described u d a.2 b.2) (hc c s t u d h) ?_
    rintro a1 b1 ⟨e1, h1⟩
    exact .pure ⟨by simp only [e1, Handler.undescribed], h1⟩

theorem describedHandlers (hc : CustomDescribes σ L) (ps : List (Handler σ L)) {s t : Snapshot} (h : Described u d s t) :
    Puts u d undescribedHandlers (putHandlers false (undescribedHandlers ps) s) (putHandlers d ps t) := by
  match ps with
  | [] => rw [undescribedHandlers]; unfold putHandlers; exact .pure ⟨by simp only [undescribedHandlers], h⟩
  | p :: ps =>
    rw [undescribedHandlers]; unfold putHandlers
    refine .bind _ (p.described hc h) ?_
    rintro a1 b1 ⟨e1, h1⟩
    refine .bind _ (describedHandlers hc ps h1) ?_
    rintro a2 b2 ⟨e2, h2⟩
    exact .pure ⟨by simp only [e1, e2, undescribedHandlers], h2⟩

theorem Snapshooter.described (hc : CustomDescribes σ L) (x : Snapshooter σ L) {s t : Snapshot} (h : Described u d s t) :
    Puts u d Snapshooter.undescribed (x.undescribed.putSnapshot false s) (x.putSnapshot d t) := by
  match x with
  | .constant n ds v =>
    rw [Snapshooter.undescribed]; unfold Snapshooter.putSnapshot
    exact .pure ⟨by simp only [Snapshooter.undescribed], (h.postfixed ds n).push _ _⟩
  | .polling n ds g poll =>
    rw [Snapshooter.undescribed]; unfold Snapshooter.putSnapshot
    simp only [putPostfixed_false]
    refine .ite ?_ ?_
    · refine .bind _ (poll.described hc .nil) ?_
      rintro a1 b1 ⟨e1, h1⟩
      exact .pure ⟨by simp only [e1, Snapshooter.undescribed], (h.postfixed ds n).pushGroup _ h1⟩
    · refine .bind _ (poll.described hc (h.postfixed ds n)) ?_
      rintro a1 b1 ⟨e1, h1⟩
      exact .pure ⟨by simp only [e1, Snapshooter.undescribed], h1⟩
  | .instrument i =>
    rw [Snapshooter.undescribed]; unfold Snapshooter.putSnapshot
    refine .bind _ (i.described hc h) ?_
    rintro a1 b1 ⟨e1, h1⟩
    exact .pure ⟨by simp only [e1, Snapshooter.undescribed], h1⟩
  | .handler p =>
    rw [Snapshooter.undescribed]; unfold Snapshooter.putSnapshot
    refine .bind _ (p.described hc h) ?_
    rintro a1 b1 ⟨e1, h1⟩
    exact .pure ⟨by simp only [e1, Snapshooter.undescribed], h1⟩
  | .custom c =>
    rw [Snapshooter.undescribed]; unfold Snapshooter.putSnapshot
    refine M.Rel.bind (fun a b => a.1 = b.1 ∧ Described u d a.2 b.2) (hc c s t u d h) ?_
    rintro a1 b1 ⟨e1, h1⟩
    exact .pure ⟨by simp only [e1, Snapshooter.undescribed], h1⟩

theorem describedSnapshooters (hc : CustomDescribes σ L) (ps : List (Snapshooter σ L)) {s t : Snapshot}
    (h : Described u d s t) :
    Puts u d undescribedSnapshooters (putSnapshooters false (undescribedSnapshooters ps) s) (putSnapshooters d ps t) := by
  match ps with
  | [] => rw [undescribedSnapshooters]; unfold putSnapshooters; exact .pure ⟨by simp only [undescribedSnapshooters], h⟩
  | p :: ps =>
    rw [undescribedSnapshooters]; unfold putSnapshooters
    refine .bind _ (p.described hc h) ?_
    rintro a1 b1 ⟨e1, h1⟩
    refine .bind _ (describedSnapshooters hc ps h1) ?_
    rintro a2 b2 ⟨e2, h2⟩
    exact .pure ⟨by simp only [e1, e2, undescribedSnapshooters], h2⟩
end

theorem Cockpit.described (hc : CustomDescribes σ L) (c : Cockpit σ L) (h : Described u d s t) :
    Puts u d Cockpit.undescribed (c.undescribed.putSnapshot s false) (c.putSnapshot t d) := by
  unfold Cockpit.putSnapshot
  simp only [putDefault_false]
  refine .bind _ (Activity.described c.head.activity ((described_levelFor c.head.name h).default c.head.descr)) ?_
  rintro ⟨go, l⟩ ⟨_, m⟩ ⟨rfl, hl⟩
  refine .ite ?_ (.pure ⟨rfl, described_closeLevel c.head.name h hl⟩)
  refine .bind _ (describedPanels hc c.panels hl) ?_
  rintro a2 b2 ⟨e2, h2⟩
  refine .bind _ (describedHandlers hc c.handlers h2) ?_
  rintro a3 b3 ⟨e3, h3⟩
  refine .bind _ (describedSnapshooters hc c.snapshooters h3) ?_
  rintro a4 b4 ⟨e4, h4⟩
  exact .pure ⟨by rw [e2, e3, e4]; rfl, described_closeLevel c.head.name h h4⟩

theorem describedCockpits (hc : CustomDescribes σ L) (cs : List (Cockpit σ L)) (h : Described u d s t) :
    Puts u d (List.map Cockpit.undescribed) (putCockpits false (cs.map Cockpit.undescribed) s) (putCockpits d cs t) := by
  induction cs generalizing s t with
  | nil => exact .pure ⟨rfl, h⟩
  | cons c cs ih =>
    refine .bind _ (c.described hc h) ?_
    rintro a1 b1 ⟨e1, h1⟩
    refine .bind _ (ih h1) ?_
    rintro a2 b2 ⟨e2, h2⟩
    exact .pure ⟨by rw [e1, e2]; rfl, h2⟩

theorem ProcessorState.described (hc : CustomDescribes σ L) (p : ProcessorState σ L) (h : Described u d s t) :
    Puts u d ProcessorState.undescribed (p.undescribed.putSnapshot s false) (p.putSnapshot t d) := by
  unfold ProcessorState.putSnapshot
  simp only [putDefault_false]
  refine .bind _ (Activity.described p.activity ((described_levelFor p.name h).default p.descr)) ?_
  rintro ⟨go, l⟩ ⟨_, m⟩ ⟨rfl, hl⟩
  refine .ite ?_ (.pure ⟨rfl, described_closeLevel p.name h hl⟩)
  refine .bind _ (describedCockpits hc p.cockpits hl) ?_
  rintro a2 b2 ⟨e2, h2⟩
  refine .bind _ (describedHandlers hc p.handlers h2) ?_
  rintro a3 b3 ⟨e3, h3⟩
  refine .bind _ (describedSnapshooters hc p.snapshooters h3) ?_
  rintro a4 b4 ⟨e4, h4⟩
  exact .pure ⟨by rw [e2, e3, e4]; rfl, described_closeLevel p.name h h4⟩

theorem Processor.described (hc : CustomDescribes σ L) (p : Processor σ L) (h : Described u d s t) :
    Puts u d Processor.undescribed (p.undescribed.putSnapshot s false) (p.putSnapshot t d) :=
  .bind _ (p.state.described hc h) fun _ _ hab => .pure ⟨by rw [hab.1]; rfl, hab.2⟩

end

/-! ## Mounts -/

/-- Answers that can be appended to related snapshots. -/
def GoodAnswer (u : TextLabels) (d : Bool) (a : Bool → Option Snapshot) : Prop :=
  (a false = none ∧ a d = none) ∨ ∃ x y, a false = some x ∧ a d = some y ∧
    ∀ s t, Described u d s t → Described u d (s ++ x) (t ++ y)

theorem NamedAnswer.good {a : Bool → Option Snapshot} (h : NamedAnswer a) : GoodAnswer .fresh d a := by
  rcases h with h | ⟨n, f, h, hf⟩
  · exact .inl ⟨h _, h _⟩
  · exact .inr ⟨_, _, h _, h _, fun s t hs => .item n hs (.group (hf d))⟩

theorem AnyAnswer.good {a : Bool → Option Snapshot} (h : AnyAnswer a) : GoodAnswer .any d a := by
  rcases h with h | ⟨f, h, hf⟩
  · exact .inl ⟨h _, h _⟩
  · refine .inr ⟨_, _, h _, h _, fun s t hs => ?_⟩
    have hd := hf d
    generalize f false = x at hd ⊢
    generalize f d = y at hd ⊢
    induction hd using Described.rec (motive_2 := fun _ _ _ => True) with
    | nil => simpa using hs
    | item n _ hv h1 _ => rw [← List.append_assoc, ← List.append_assoc]; exact .item n h1 hv
    | text x hd _ hl _ h1 => rw [← List.append_assoc]; exact .text x hd h1 hl (by rintro ⟨⟩)
    | same => trivial
    | group => trivial

theorem described_putAnswer {P : (Bool → Option Snapshot) → Prop} (hP : ∀ a, P a → GoodAnswer u d a)
    (as : List (Bool → Option Snapshot)) (ha : ∀ a ∈ as, P a) (h : Described u d s t) :
    (putAnswer false (as.map fun a _ => a false) s).1 = (putAnswer d as t).1.map (fun a _ => a false) ∧
    Described u d (putAnswer false (as.map fun a _ => a false) s).2 (putAnswer d as t).2 := by
  cases as with
  | nil => exact ⟨rfl, h⟩
  | cons a as =>
    rcases hP a (ha a (by simp)) with ⟨h1, h2⟩ | ⟨x, y, h1, h2, hg⟩
    · simp only [putAnswer, List.map_cons, h1, h2]; exact ⟨trivial, h⟩
    · simp only [putAnswer, List.map_cons, h1, h2]
      exact ⟨trivial, hg s t h⟩

variable {P : (Bool → Option Snapshot) → Prop}
variable [Custom σ L] [CustomProcessor σ]

mutual
theorem Node.described (hc : CustomDescribes σ L) (hp : CustomProcessorDescribes σ) (n : Node σ L)
    (hP : ∀ a, P a → GoodAnswer u d a) (hn : n.DriversGive P) {s t : Snapshot} (h : Described u d s t) :
    Puts u d Node.undescribed (n.undescribed.putSnapshot false s) (n.putSnapshot d t) := by
  match n with
  | .processor p =>
    rw [Node.undescribed]; unfold Node.putSnapshot
    refine .bind _ (p.described hc h) ?_
    rintro a1 b1 ⟨e1, h1⟩
    exact .pure ⟨by simp only [e1, Node.undescribed], h1⟩
  | .mount hd ns ss =>
    rw [Node.undescribed]; unfold Node.putSnapshot
    simp only [putDefault_false]
    refine .bind _ (Activity.described hd.activity ((described_levelFor hd.name h).default hd.descr)) ?_
    rintro ⟨go, l⟩ ⟨_, m⟩ ⟨rfl, hl⟩
    refine .ite ?_ (.pure ⟨by simp only [Node.undescribed], described_closeLevel hd.name h hl⟩)
    refine .bind _ (describedNodes hc hp ns hP (by simpa only [Node.DriversGive] using hn) hl) ?_
    rintro a2 b2 ⟨e2, h2⟩
    refine .bind _ (describedSnapshooters hc ss h2) ?_
    rintro a3 b3 ⟨e3, h3⟩
    exact .pure ⟨by simp only [e2, e3, Node.undescribed], described_closeLevel hd.name h h3⟩
  | .attached hd ns ss inbox =>
    rw [Node.undescribed]; unfold Node.putSnapshot
    simp only [putDefault_false]
    refine .bind _ (Activity.described hd.activity ((described_levelFor hd.name h).default hd.descr)) ?_
    rintro ⟨go, l⟩ ⟨_, m⟩ ⟨rfl, hl⟩
    refine .ite ?_ (.pure ⟨by simp only [Node.undescribed], described_closeLevel hd.name h hl⟩)
    refine .bind _ (describedNodes hc hp ns hP (by simpa only [Node.DriversGive] using hn) hl) ?_
    rintro a2 b2 ⟨e2, h2⟩
    refine .bind _ (describedSnapshooters hc ss h2) ?_
    rintro a3 b3 ⟨e3, h3⟩
    exact .pure ⟨by simp only [e2, e3, Node.undescribed], described_closeLevel hd.name h h3⟩
  | .driver as =>
    rw [Node.undescribed]; unfold Node.putSnapshot
    obtain ⟨h1, h2⟩ := described_putAnswer hP as (by simpa only [Node.DriversGive] using hn) h
    exact .pure ⟨by rw [Node.undescribed]; exact congrArg Node.driver h1, h2⟩
  | .custom c =>
    rw [Node.undescribed]; unfold Node.putSnapshot
    refine M.Rel.bind (fun a b => a.1 = b.1 ∧ Described u d a.2 b.2) (hp c s t u d h) ?_
    rintro a1 b1 ⟨e1, h1⟩
    exact .pure ⟨by simp only [e1, Node.undescribed], h1⟩

theorem describedNodes (hc : CustomDescribes σ L) (hp : CustomProcessorDescribes σ) (ns : List (Node σ L))
    (hP : ∀ a, P a → GoodAnswer u d a) (hn : DriversGiveIn P ns) {s t : Snapshot} (h : Described u d s t) :
    Puts u d undescribedNodes (putNodes false (undescribedNodes ns) s) (putNodes d ns t) := by
  match ns with
  | [] => rw [undescribedNodes]; unfold putNodes; exact .pure ⟨by simp only [undescribedNodes], h⟩
  | n :: ns =>
    rw [DriversGiveIn] at hn
    rw [undescribedNodes]; unfold putNodes
    refine .bind _ (n.described hc hp hP hn.1 h) ?_
    rintro a1 b1 ⟨e1, h1⟩
    refine .bind _ (describedNodes hc hp ns hP hn.2 h1) ?_
    rintro a2 b2 ⟨e2, h2⟩
    exact .pure ⟨by simp only [e1, e2, undescribedNodes], h2⟩
end

/-! ## Texts are there -/

theorem shows_putText (label : String) (x : Option String) {into s : Snapshot} (h : putText label x into <+: s) :
    Shows label x into s := by
  rintro y rfl
  simp only [putText] at h
  split at h
  · rename_i hn
    simp only [Snapshot.hasName, List.any_eq_true, beq_iff_eq] at hn
    obtain ⟨i, hi, he⟩ := hn
    exact ⟨⟨i, h.subset hi, he⟩, fun hno => absurd he (hno i hi)⟩
  · have : (label, ItemKind.text y) ∈ s := h.subset (by simp [Snapshot.push])
    exact ⟨⟨_, this, rfl⟩, fun _ => this⟩

/-- A text with another label does not matter. -/
theorem Shows.skip {l l' : String} {x y : Option String} {into s : Snapshot} (hl : l ≠ l')
    (h : Shows l x (putText l' y into) s) : Shows l x into s := by
  intro t ht
  refine ⟨(h t ht).1, fun hno => (h t ht).2 fun i hi => ?_⟩
  unfold putText at hi
  split at hi
  · exact hno i hi
  · split at hi
    · exact hno i hi
    · simp only [Snapshot.push, List.mem_append, List.mem_singleton] at hi
      rcases hi with hi | rfl
      · exact hno i hi
      · exact fun he => hl he.symm

theorem shows_default {ds : Descr} {into s : Snapshot} (h : putDefaultDescriptives ds into true <+: s) :
    Shows "_title" ds.title into s ∧ Shows "_description" ds.description into s := by
  simp only [putDefaultDescriptives, putDescriptives, if_true] at h
  exact ⟨shows_putText _ _ ((prefix_putText _ _ _).trans h), (shows_putText _ _ h).skip (by decide)⟩

theorem shows_postfixed {ds : Descr} {n : String} {into s : Snapshot} (h : putPostfixedDescriptives ds n into true <+: s) :
    Shows ("_title" ++ "_" ++ n) ds.title into s ∧ Shows ("_description" ++ "_" ++ n) ds.description into s := by
  simp only [putPostfixedDescriptives, if_true] at h
  refine ⟨shows_putText _ _ ((prefix_putText _ _ _).trans h), (shows_putText _ _ h).skip fun he => ?_⟩
  have := congrArg String.length he
  simp only [String.length_append] at this
  have h1 : "_description".length = 12 := by decide
  have h2 : "_title".length = 6 := by decide
  omega

theorem MeterSnapshot.appends_about (m : MeterSnapshot) (into : Snapshot) (d : Bool) :
    putPostfixedDescriptives m.descr m.name into d <+: m.putSnapshot into d := prefix_push List.prefix_rfl _ _

theorem Meter.getSnapshot_about (m : Meter) :
    m.getSnapshot.Post fun r => r.2.name = m.name ∧ r.2.descr = m.descr := by
  refine .bind (fun m' => m'.name = m.name ∧ m'.descr = m.descr) ?_ fun m' h => .bindAny fun r => .pure h
  exact .bindAny fun now => .ite (.bindAny fun _ => .bindAny fun _ => .pure ⟨rfl, rfl⟩) (.pure ⟨rfl, rfl⟩)

theorem Meter.appends_about (m : Meter) (into : Snapshot) (d : Bool) :
    (m.putSnapshot into d).Post fun r => putPostfixedDescriptives m.descr m.name into d <+: r.2 := by
  refine .bind _ m.getSnapshot_about fun r hr => .pure ?_
  have := r.2.appends_about into d
  rwa [hr.1, hr.2] at this

theorem Gauge.appends_about (g : Gauge) (into : Snapshot) (d : Bool) :
    (g.putSnapshot into d).Post fun r => putPostfixedDescriptives g.descr g.name into d <+: r.2 := by
  unfold Gauge.putSnapshot
  exact .ite (.bindAny fun r => .pure (prefix_push List.prefix_rfl _ _)) (g.appends_putValues _)

theorem Flag.appends_about (f : Flag) (into : Snapshot) (d : Bool) :
    putPostfixedDescriptives f.descr f.name into d <+: f.putSnapshot into d := by
  unfold Flag.putSnapshot
  cases f.state with
  | none => exact List.prefix_rfl
  | some s =>
    cases f.showInverted with
    | none => exact prefix_push List.prefix_rfl _ _
    | some a => exact prefix_push (prefix_push List.prefix_rfl _ _) _ _

theorem appends_about_switch (name : String) (ds : Descr) (inv : Option NameAlternation) (state : M Bool)
    (into : Snapshot) (d : Bool) :
    (putTimedSwitch name ds inv state into d).Post fun s => putPostfixedDescriptives ds name into d <+: s := by
  refine .bindAny fun s => ?_
  cases inv with
  | none => exact .pure (prefix_push List.prefix_rfl _ _)
  | some a => exact .bindAny fun _ => .pure (prefix_push (prefix_push List.prefix_rfl _ _) _ _)

theorem DataDisplay.appends_about (t : DataDisplay) (into : Snapshot) (d : Bool) :
    (t.putSnapshot into d).Post fun s => putPostfixedDescriptives t.descr t.name into d <+: s := by
  refine .bindAny fun o => ?_
  cases o with
  | none => exact .pure List.prefix_rfl
  | some v => exact .pure (prefix_push List.prefix_rfl _ _)

theorem LastOccurrenceTracker.appends_about (t : LastOccurrenceTracker) (into : Snapshot) (d : Bool) :
    (t.putSnapshot into d).Post fun s => putPostfixedDescriptives t.descr t.name into d <+: s := by
  refine .bindAny fun o => ?_
  cases o with
  | none => exact .ite (.pure (prefix_push List.prefix_rfl _ _)) (.pure List.prefix_rfl)
  | some v => exact .pure (prefix_push List.prefix_rfl _ _)

theorem post_keeping {I : Type} {f : I → Snapshot → Bool → M Snapshot} {i : I} {into : Snapshot} {d : Bool}
    {P : Snapshot → Prop} (h : (f i into d).Post P) : (keeping f i into d).Post fun r => P r.2 :=
  .bind _ h fun _ hs => .pure hs

omit [CustomProcessor σ] in
theorem Instrument.appends_about {i : Instrument σ} {n : String} {ds : Descr} (hi : i.about = some (n, ds))
    (into : Snapshot) (d : Bool) :
    (i.putSnapshot L into d).Post fun r => putPostfixedDescriptives ds n into d <+: r.2 := by
  cases i with
  | custom s => cases hi
  | counter i =>
    simp only [Instrument.about, Option.some.injEq, Prod.mk.injEq] at hi; obtain ⟨rfl, rfl⟩ := hi
    exact .bind _ (post_keeping (.pure (prefix_push List.prefix_rfl _ _))) fun _ h => .pure h
  | gauge i =>
    simp only [Instrument.about, Option.some.injEq, Prod.mk.injEq] at hi; obtain ⟨rfl, rfl⟩ := hi
    exact .bind _ (i.appends_about into d) fun _ h => .pure h
  | meter i =>
    simp only [Instrument.about, Option.some.injEq, Prod.mk.injEq] at hi; obtain ⟨rfl, rfl⟩ := hi
    exact .bind _ (i.appends_about into d) fun _ h => .pure h
  | valueMeter i =>
    simp only [Instrument.about, Option.some.injEq, Prod.mk.injEq] at hi; obtain ⟨rfl, rfl⟩ := hi
    refine .bind (fun r => putPostfixedDescriptives i.meter.descr i.meter.name into d <+: r.2) ?_ fun _ h => .pure h
    exact .bind _ (i.meter.appends_about into d) fun _ h => .pure h
  | histogram i =>
    simp only [Instrument.about, Option.some.injEq, Prod.mk.injEq] at hi; obtain ⟨rfl, rfl⟩ := hi
    exact .bind _ (post_keeping (.bindAny fun _ => .pure (prefix_push List.prefix_rfl _ _))) fun _ h => .pure h
  | flag i =>
    simp only [Instrument.about, Option.some.injEq, Prod.mk.injEq] at hi; obtain ⟨rfl, rfl⟩ := hi
    exact .bind _ (post_keeping (.pure (i.appends_about into d))) fun _ h => .pure h
  | staircaseTimer i =>
    simp only [Instrument.about, Option.some.injEq, Prod.mk.injEq] at hi; obtain ⟨rfl, rfl⟩ := hi
    exact .bind _ (post_keeping (appends_about_switch _ _ _ _ _ _)) fun _ h => .pure h
  | occurrenceIndicator i =>
    simp only [Instrument.about, Option.some.injEq, Prod.mk.injEq] at hi; obtain ⟨rfl, rfl⟩ := hi
    exact .bind _ (post_keeping (appends_about_switch _ _ _ _ _ _)) fun _ h => .pure h
  | nonOccurrenceIndicator i =>
    simp only [Instrument.about, Option.some.injEq, Prod.mk.injEq] at hi; obtain ⟨rfl, rfl⟩ := hi
    exact .bind _ (post_keeping (appends_about_switch _ _ _ _ _ _)) fun _ h => .pure h
  | dataDisplay i =>
    simp only [Instrument.about, Option.some.injEq, Prod.mk.injEq] at hi; obtain ⟨rfl, rfl⟩ := hi
    exact .bind _ (post_keeping (i.appends_about into d)) fun _ h => .pure h
  | lastOccurrenceTracker i =>
    simp only [Instrument.about, Option.some.injEq, Prod.mk.injEq] at hi; obtain ⟨rfl, rfl⟩ := hi
    exact .bind _ (post_keeping (i.appends_about into d)) fun _ h => .pure h

/-! A component without name and with texts is one without texts after the texts. -/

omit [CustomProcessor σ] in
theorem Panel.putSnapshot_texts (d : Bool) {h : PanelHead L} (hn : h.name = none) (ps : List (Panel σ L))
    (hs : List (Handler σ L)) (ss : List (Snapshooter σ L)) (into : Snapshot) :
    ((Panel.mk h ps hs ss).putSnapshot d into).Post fun r =>
      CustomAppends σ L → putDefaultDescriptives h.descr into d <+: r.2 := by
  intro e k r k' hr hc
  unfold Panel.putSnapshot at hr
  revert r hr
  rw [hn]
  simp only [levelFor]
  suffices hh : Appends (putDefaultDescriptives h.descr into d) (do
      let (go, level) ← h.activity.putFlags (putDefaultDescriptives h.descr into d)
      if go then
        let (h, level) ← h.putSlots level d
        let (ps, level) ← putPanels d ps level
        let (ss, level) ← putSnapshooters d ss level
        let (hs, level) ← putHandlers d hs level
        return (Panel.mk h ps hs ss, closeLevel h.name into level)
      else return (Panel.mk h ps hs ss, closeLevel none into level)) from fun r hr => hh e k r k' hr
  refine .bind _ (h.activity.appends _) fun g hg => .ite ?_ (.pure hg)
  refine .bind (fun r => (putDefaultDescriptives h.descr into d <+: r.2) ∧ r.1.name = none) ?_ fun r1 h1 => ?_
  · intro e k r k' hr
    exact ⟨hg.trans (h.appends _ _ _ _ _ _ hr), (h.putSlots_name _ _ _ _ _ _ hr).trans hn⟩
  · refine .bind _ (appendsPanels hc d ps _) fun r2 h2 => .bind _ (appendsSnapshooters hc d ss _) fun r3 h3 =>
      .bind _ (appendsHandlers hc d hs _) fun r4 h4 => .pure ?_
    rw [h1.2]
    exact h1.1.trans (h2.trans (h3.trans h4))

omit [CustomProcessor σ] in
theorem Cockpit.putSnapshot_texts (hc : CustomAppends σ L) (d : Bool) {c : Cockpit σ L} (hn : c.name = none)
    (into : Snapshot) :
    (c.putSnapshot into d).Post fun r => putDefaultDescriptives c.head.descr into d <+: r.2 := by
  have hn' : c.head.name = none := hn
  unfold Cockpit.putSnapshot
  simp only [hn', levelFor, closeLevel]
  refine .bind _ (c.head.activity.appends _) fun g hg => .ite ?_ (.pure hg)
  exact .bind _ (appendsPanels hc d _ _) fun r2 h2 => .bind _ (appendsHandlers hc d _ _) fun r4 h4 =>
    .bind _ (appendsSnapshooters hc d _ _) fun r3 h3 => .pure (hg.trans (h2.trans (h4.trans h3)))

omit [CustomProcessor σ] in
theorem Processor.putSnapshot_texts (hc : CustomAppends σ L) (d : Bool) {p : Processor σ L} (hn : p.state.name = none)
    (into : Snapshot) :
    (p.putSnapshot into d).Post fun r => putDefaultDescriptives p.state.descr into d <+: r.2 := by
  refine .bind (fun r => putDefaultDescriptives p.state.descr into d <+: r.2) ?_ fun _ h => .pure h
  unfold ProcessorState.putSnapshot
  simp only [hn, levelFor, closeLevel]
  refine .bind _ (p.state.activity.appends _) fun g hg => .ite ?_ (.pure hg)
  exact .bind _ (appendsCockpits hc d _ _) fun r2 h2 => .bind _ (appendsHandlers hc d _ _) fun r4 h4 =>
    .bind _ (appendsSnapshooters hc d _ _) fun r3 h3 => .pure (hg.trans (h2.trans (h4.trans h3)))

theorem Node.mount_texts (hc : CustomAppends σ L) (hp : CustomProcessorAppends σ) (d : Bool) {h : MountHead}
    (hn : h.name = none) (ns : List (Node σ L)) (ss : List (Snapshooter σ L)) (into : Snapshot) :
    ((Node.mount h ns ss).putSnapshot d into).Post fun r => putDefaultDescriptives h.descr into d <+: r.2 := by
  unfold Node.putSnapshot
  simp only [hn, levelFor, closeLevel]
  refine .bind _ (h.activity.appends _) fun g hg => .ite ?_ (.pure hg)
  exact .bind _ (appendsNodes hc hp d _ _) fun r2 h2 =>
    .bind _ (appendsSnapshooters hc d _ _) fun r3 h3 => .pure (hg.trans (h2.trans h3))

theorem Node.attached_texts (hc : CustomAppends σ L) (hp : CustomProcessorAppends σ) (d : Bool) {h : MountHead}
    (hn : h.name = none) (ns : List (Node σ L)) (ss : List (Snapshooter σ L))
    (inbox : List (Arrivals (Node σ L) (Snapshooter σ L))) (into : Snapshot) :
    ((Node.attached h ns ss inbox).putSnapshot d into).Post fun r => putDefaultDescriptives h.descr into d <+: r.2 := by
  unfold Node.putSnapshot
  simp only [hn, levelFor, closeLevel]
  refine .bind _ (h.activity.appends _) fun g hg => .ite ?_ (.pure hg)
  exact .bind _ (appendsNodes hc hp d _ _) fun r2 h2 =>
    .bind _ (appendsSnapshooters hc d _ _) fun r3 h3 => .pure (hg.trans (h2.trans h3))

end Metrix
