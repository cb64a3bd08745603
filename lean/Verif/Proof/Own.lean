import Verif.Proof.Named
import Verif.Proof.Exhibits
import Verif.Spec.Own

/-! What is put into a snapshot does not depend on what is in it. -/

namespace Metrix

/-- Both panic, or both read the clock as often and have related results. -/
def M.Tied {α β : Type} (R : α → β → Prop) (x : M α) (y : M β) : Prop :=
  ∀ e k, Option.Rel (fun a b => R a.1 b.1 ∧ a.2 = b.2) (x e k) (y e k)

namespace M.Tied
variable {α β γ δ : Type}

theorem pure {R : α → β → Prop} {a : α} {b : β} (h : R a b) : M.Tied R (Pure.pure a) (Pure.pure b) :=
  fun _ _ => .some ⟨h, rfl⟩

theorem bind {x : M α} {y : M β} {f : α → M γ} {g : β → M δ} {S : γ → δ → Prop} (R : α → β → Prop) (hx : M.Tied R x y)
    (hf : ∀ a b, R a b → M.Tied S (f a) (g b)) : M.Tied S (x >>= f) (y >>= g) := by
  intro e k
  have := hx e k
  cases h : x e k with
  | none =>
    cases h' : y e k with
    | none => rw [M.run_bind_none h, M.run_bind_none h']; exact .none
    | some r => rw [h, h'] at this; cases this
  | some r =>
    cases h' : y e k with
    | none => rw [h, h'] at this; cases this
    | some r' =>
      rw [h, h'] at this
      obtain ⟨a, n⟩ := r
      obtain ⟨b, n'⟩ := r'
      cases this with
      | some hr =>
        obtain ⟨hr, rfl⟩ := hr
        rw [M.run_bind_some h, M.run_bind_some h']
        exact hf _ _ hr e _

theorem refl {R : α → α → Prop} (hR : ∀ a, R a a) (x : M α) : M.Tied R x x := by
  intro e k
  cases x e k with
  | none => exact .none
  | some r => exact .some ⟨hR _, rfl⟩

theorem bindSame {x : M α} {f : α → M γ} {g : α → M δ} {S : γ → δ → Prop} (hf : ∀ a, M.Tied S (f a) (g a)) :
    M.Tied S (x >>= f) (x >>= g) :=
  .bind Eq (.refl (fun _ => rfl) x) fun a b h => h ▸ hf a

theorem ite {R : α → β → Prop} {c : Prop} [Decidable c] {x x' : M α} {y y' : M β} (h : M.Tied R x y) (h' : M.Tied R x' y') :
    M.Tied R (if c then x else x') (if c then y else y') := by
  split
  · exact h
  · exact h'

theorem mono {R S : α → β → Prop} {x : M α} {y : M β} (h : M.Tied R x y) (hs : ∀ a b, R a b → S a b) : M.Tied S x y := by
  intro e k
  have := h e k
  revert this
  cases x e k <;> cases y e k <;> intro this
  · exact .none
  · cases this
  · cases this
  · cases this with
    | some h => exact .some ⟨hs _ _ h.1, h.2⟩

end M.Tied

/-! ## Snapshots that differ in what was there before -/

namespace Spared
variable {d : Bool} {into : Snapshot}

theorem refl (a : Snapshot) : Spared d into a a := by
  induction a with
  | nil => exact .nil
  | cons x a ih => exact .keep x ih

theorem append {a b a' b' : Snapshot} (h : Spared d into a b) (h' : Spared d into a' b') : Spared d into (a ++ a') (b ++ b') := by
  induction h with
  | nil => exact h'
  | keep x _ ih => exact .keep x ih
  | spare t hd hn hm _ ih => exact .spare t hd hn hm ih

theorem name_iff {a b : Snapshot} (h : Spared d into a b) (n : String) (hn : n ∉ into.map (·.1)) :
    n ∈ a.map (·.1) ↔ n ∈ b.map (·.1) := by
  induction h with
  | nil => rfl
  | keep x _ ih => simp only [List.map_cons, List.mem_cons, ih]
  | spare t _ _ hm _ ih =>
    rw [ih]
    simp only [List.map_cons, List.mem_cons]
    exact ⟨.inr, fun h => h.resolve_left fun h => hn (h ▸ hm)⟩

theorem eq_of_values {a b : Snapshot} (h : Spared false into a b) : a = b := by
  induction h with
  | nil => rfl
  | keep x _ ih => rw [ih]
  | spare _ hd => cases hd

theorem eq_of_noTexts {a b : Snapshot} (h : Spared d into a b) (hi : ∀ n ∈ into.map (·.1), ¬ IsText n) : a = b := by
  induction h with
  | nil => rfl
  | keep x _ ih => rw [ih]
  | spare _ _ hn hm => exact (hi _ hm hn).elim

end Spared

/-- The first starts with `into`, and goes on like the second except for titles and descriptions. -/
def Atop (d : Bool) (into x y : Snapshot) : Prop := ∃ a, x = into ++ a ∧ Spared d into a y

variable {d : Bool} {into x y : Snapshot}

theorem Atop.start : Atop d into into [] := ⟨[], by simp, .nil⟩

theorem Atop.append (h : Atop d into x y) (s : Snapshot) : Atop d into (x ++ s) (y ++ s) := by
  obtain ⟨a, rfl, h⟩ := h
  exact ⟨a ++ s, by simp, h.append (.refl s)⟩

theorem Atop.push (h : Atop d into x y) (n : String) (v : ItemKind) : Atop d into (x.push n v) (y.push n v) := h.append _

theorem hasName_iff (s : Snapshot) (n : String) : s.hasName n = true ↔ n ∈ s.map (·.1) := by
  simp only [Snapshot.hasName, List.any_eq_true, List.mem_map, beq_iff_eq]

theorem Atop.putText (hd : d = true) (h : Atop d into x y) {l : String} (hl : IsText l) (t : Option String) :
    Atop d into (Metrix.putText l t x) (Metrix.putText l t y) := by
  cases t with
  | none => exact h
  | some t =>
    simp only [Metrix.putText]
    by_cases hi : l ∈ into.map (·.1)
    · have hx : x.hasName l = true := by
        obtain ⟨a, rfl, _⟩ := h
        rw [hasName_iff, List.map_append, List.mem_append]
        exact .inl hi
      rw [if_pos hx]
      split
      · exact h
      · obtain ⟨a, rfl, h⟩ := h
        refine ⟨a, rfl, ?_⟩
        have := h.append (.spare t hd hl hi .nil)
        rwa [List.append_nil] at this
    · have hxy : x.hasName l = y.hasName l := by
        obtain ⟨a, rfl, h⟩ := h
        rw [Bool.eq_iff_iff, hasName_iff, hasName_iff, List.map_append, List.mem_append, ← h.name_iff l hi]
        exact ⟨fun h => h.resolve_left hi, .inr⟩
      rw [hxy]
      split
      · exact h
      · exact h.push _ _

theorem Atop.default (h : Atop d into x y) (ds : Descr) :
    Atop d into (putDefaultDescriptives ds x d) (putDefaultDescriptives ds y d) := by
  unfold putDefaultDescriptives
  split
  · next hd => exact (h.putText hd (.inl rfl) _).putText hd (.inr (.inl rfl)) _
  · exact h

theorem Atop.postfixed (h : Atop d into x y) (ds : Descr) (n : String) :
    Atop d into (putPostfixedDescriptives ds n x d) (putPostfixedDescriptives ds n y d) := by
  unfold putPostfixedDescriptives
  split
  · next hd =>
    exact (h.putText hd (.inr (.inr ⟨n, .inl rfl⟩)) _).putText hd (.inr (.inr ⟨n, .inr rfl⟩)) _
  · exact h

/-- The same is left behind, and the same is put. -/
abbrev TiedPut {C : Type} (d : Bool) (into : Snapshot) (x y : M (C × Snapshot)) : Prop :=
  M.Tied (fun r r' => r.1 = r'.1 ∧ Atop d into r.2 r'.2) x y

theorem TiedPut.seq {C D : Type} {x y : M (C × Snapshot)} {f g : C × Snapshot → M (D × Snapshot)} (hx : TiedPut d into x y)
    (hf : ∀ c s s', Atop d into s s' → TiedPut d into (f (c, s)) (g (c, s'))) : TiedPut d into (x >>= f) (y >>= g) := by
  refine .bind _ hx ?_
  rintro ⟨c, s⟩ ⟨_, s'⟩ ⟨rfl, h⟩
  exact hf c s s' h

theorem TiedPut.done {C : Type} {c : C} (h : Atop d into x y) : TiedPut d into (Pure.pure (c, x)) (Pure.pure (c, y)) :=
  .pure ⟨rfl, h⟩

theorem M.Tied.done {C : Type} {c : C} (h : Atop d into x y) : TiedPut d into (Pure.pure (c, x)) (Pure.pure (c, y)) := TiedPut.done h

theorem tied_keeping {I : Type} {f : I → Snapshot → Bool → M Snapshot} {i : I}
    (h : M.Tied (Atop d into) (f i x d) (f i y d)) : TiedPut d into (keeping f i x d) (keeping f i y d) :=
  .bind _ h fun _ _ h => .pure ⟨rfl, h⟩

theorem Counter.atop (c : Counter) (h : Atop d into x y) : Atop d into (c.putSnapshot x d) (c.putSnapshot y d) :=
  (h.postfixed _ _).push _ _

theorem Gauge.tiedValues (g : Gauge) (h : Atop d into x y) : TiedPut d into (g.putValues x) (g.putValues y) := by
  unfold Gauge.putValues
  cases g.value with
  | none => exact .done h
  | some v =>
    have key : ∀ (x y : Snapshot) (p : Option String), Atop d into x y → TiedPut d into
          (match g.tracking with
            | none => return (g, x)
            | some b => do
              let (b, stats) ← BucketsStats.fromBuckets b v
              return ({ g with value := some v, tracking := some b }, stats.addToSnapshot x p))
          (match g.tracking with
            | none => return (g, y)
            | some b => do
              let (b, stats) ← BucketsStats.fromBuckets b v
              return ({ g with value := some v, tracking := some b }, stats.addToSnapshot y p)) := by
      intro x y p h
      cases g.tracking with
      | none => exact .done h
      | some b =>
        refine .bindSame fun r => .done ?_
        exact ((((((h.push _ _).push _ _).push _ _).push _ _).push _ _).push _ _).push _ _
    by_cases hg : g.groupValues = true
    · simp only [if_pos hg]
      exact key _ _ none (h.push _ _)
    · simp only [if_neg hg]
      exact key _ _ (some g.name) (h.push _ _)

theorem Gauge.tied (g : Gauge) (h : Atop d into x y) : TiedPut d into (g.putSnapshot x d) (g.putSnapshot y d) :=
  .ite (.bindSame fun _ => .done ((h.postfixed _ _).push _ _)) (g.tiedValues (h.postfixed _ _))

theorem Meter.tied (m : Meter) (h : Atop d into x y) : TiedPut d into (m.putSnapshot x d) (m.putSnapshot y d) :=
  .bindSame fun _ => .done ((h.postfixed _ _).push _ _)

theorem ValueMeter.tied (m : ValueMeter) (h : Atop d into x y) : TiedPut d into (m.putSnapshot x d) (m.putSnapshot y d) :=
  (m.meter.tied h).seq fun _ _ _ h => .done h

theorem Histogram.tied (i : Histogram) (h : Atop d into x y) : M.Tied (Atop d into) (i.putSnapshot x d) (i.putSnapshot y d) :=
  .bindSame fun _ => .pure ((h.postfixed _ _).push _ _)

theorem Flag.atop (f : Flag) (h : Atop d into x y) : Atop d into (f.putSnapshot x d) (f.putSnapshot y d) := by
  unfold Flag.putSnapshot
  cases f.state with
  | none => exact h.postfixed _ _
  | some s =>
    simp only
    cases f.showInverted with
    | none => exact (h.postfixed _ _).push _ _
    | some a => exact ((h.postfixed _ _).push _ _).push _ _

theorem tied_putTimedSwitch (name : String) (descr : Descr) (inv : Option NameAlternation) (state : M Bool)
    (h : Atop d into x y) :
    M.Tied (Atop d into) (putTimedSwitch name descr inv state x d) (putTimedSwitch name descr inv state y d) := by
  refine .bindSame fun s => ?_
  cases inv with
  | none => exact .pure ((h.postfixed _ _).push _ _)
  | some a => exact .bindSame fun _ => .pure (((h.postfixed _ _).push _ _).push _ _)

theorem DataDisplay.tied (t : DataDisplay) (h : Atop d into x y) :
    M.Tied (Atop d into) (t.putSnapshot x d) (t.putSnapshot y d) := by
  refine .bindSame fun o => ?_
  cases o with
  | none => exact .pure (h.postfixed _ _)
  | some v => exact .pure ((h.postfixed _ _).push _ _)

theorem LastOccurrenceTracker.tied (t : LastOccurrenceTracker) (h : Atop d into x y) :
    M.Tied (Atop d into) (t.putSnapshot x d) (t.putSnapshot y d) := by
  refine .bindSame fun o => ?_
  cases o with
  | none => exact .ite (.pure ((h.postfixed _ _).push _ _)) (.pure (h.postfixed _ _))
  | some v => exact .pure ((h.postfixed _ _).push _ _)

theorem GoesOn.tied {C : Type} {put : Snapshot → M (C × Snapshot)} (hg : GoesOn d put) (h : Atop d into x y) :
    TiedPut d into (put x) (put y) := by
  obtain ⟨a, rfl, h⟩ := h
  intro e k
  have := hg into a y h e k
  revert this
  cases put (into ++ a) e k <;> cases put y e k <;> intro this
  · exact .none
  · cases this
  · cases this
  · cases this with
    | some h => exact .some ⟨⟨h.1, h.2.2⟩, h.2.1⟩

theorem GoesOn.of_tied {C : Type} {put : Snapshot → M (C × Snapshot)}
    (h : ∀ into x y, Atop d into x y → TiedPut d into (put x) (put y)) : GoesOn d put := by
  intro into a b hs e k
  have := h into (into ++ a) b ⟨a, rfl, hs⟩ e k
  revert this
  cases put (into ++ a) e k <;> cases put b e k <;> intro this
  · exact .none
  · cases this
  · cases this
  · cases this with
    | some h => exact .some ⟨h.1.1, h.2, h.1.2⟩

theorem GoesOn.own {C : Type} {put : Snapshot → M (C × Snapshot)} (h : GoesOn d put) : PutsOwn d put := by
  intro into e k
  have := h into [] [] .nil e k
  rwa [List.append_nil] at this

variable {σ L : Type}

theorem Instrument.tied [Custom σ L] (hc : CustomOwn σ L) (i : Instrument σ) (h : Atop d into x y) :
    TiedPut d into (i.putSnapshot L x d) (i.putSnapshot L y d) := by
  cases i with
  | counter i => exact TiedPut.seq (tied_keeping (.pure (i.atop h))) fun _ _ _ h => .done h
  | gauge i => exact TiedPut.seq (i.tied h) fun _ _ _ h => .done h
  | meter i => exact TiedPut.seq (i.tied h) fun _ _ _ h => .done h
  | valueMeter i => exact TiedPut.seq (i.tied h) fun _ _ _ h => .done h
  | histogram i => exact TiedPut.seq (tied_keeping (i.tied h)) fun _ _ _ h => .done h
  | flag i => exact TiedPut.seq (tied_keeping (.pure (i.atop h))) fun _ _ _ h => .done h
  | staircaseTimer i => exact TiedPut.seq (tied_keeping (tied_putTimedSwitch _ _ _ _ h)) fun _ _ _ h => .done h
  | occurrenceIndicator i => exact TiedPut.seq (tied_keeping (tied_putTimedSwitch _ _ _ _ h)) fun _ _ _ h => .done h
  | nonOccurrenceIndicator i => exact TiedPut.seq (tied_keeping (tied_putTimedSwitch _ _ _ _ h)) fun _ _ _ h => .done h
  | dataDisplay i => exact TiedPut.seq (tied_keeping (i.tied h)) fun _ _ _ h => .done h
  | lastOccurrenceTracker i => exact TiedPut.seq (tied_keeping (i.tied h)) fun _ _ _ h => .done h
  | custom s => exact TiedPut.seq ((hc s d).tied h) fun _ _ _ h => .done h

theorem tied_adapter {I : Type} {put : I → Snapshot → Bool → M (I × Snapshot)} (a : InstrumentAdapter L I)
    (hput : ∀ i, TiedPut d into (put i x d) (put i y d)) : TiedPut d into (a.putSnapshot put x d) (a.putSnapshot put y d) :=
  TiedPut.seq (hput _) fun _ _ _ h => .done h

theorem tied_gaugeAdapter (a : GaugeAdapter L) (h : Atop d into x y) : TiedPut d into (a.putSnapshot x d) (a.putSnapshot y d) :=
  (a.gauge.tied h).seq fun _ _ _ h => .done h

theorem tied_putSlot {A : Type} {f : A → Snapshot → M (A × Snapshot)} (hf : ∀ a, TiedPut d into (f a x) (f a y))
    (a : Option A) (h : Atop d into x y) : TiedPut d into (putSlot f a x) (putSlot f a y) := by
  cases a with
  | none => exact .done h
  | some a => exact (hf a).seq fun _ _ _ h => .done h

theorem PanelHead.tied (p : PanelHead L) (h : Atop d into x y) : TiedPut d into (p.putSlots x d) (p.putSlots y d) := by
  refine (tied_putSlot (fun a => tied_adapter a fun (i : Counter) => tied_keeping (.pure (i.atop h))) _ h).seq fun _ _ _ h => ?_
  refine (tied_putSlot (fun a => tied_gaugeAdapter a h) _ h).seq fun _ _ _ h => ?_
  refine (tied_putSlot (fun a => tied_adapter a fun (i : Meter) => i.tied h) _ h).seq fun _ _ _ h => ?_
  exact (tied_putSlot (fun a => tied_adapter a fun (i : Histogram) => tied_keeping (i.tied h)) _ h).seq fun _ _ _ h => .done h

theorem Activity.tied (a : Activity) (h : Atop d into x y) : TiedPut d into (a.putFlags x) (a.putFlags y) := by
  unfold Activity.putFlags
  cases a.maxInactivity with
  | none => exact .done h
  | some t =>
    exact .ite (.bindSame fun _ => .ite (.done ((h.push _ _).push _ _)) (.done ((h.push _ _).push _ _))) (.done h)

/-- What is put into a new level is the same. -/
theorem tied_map {α D : Type} {p : M α} {F G : α → D × Snapshot} (h : ∀ r, (F r).1 = (G r).1 ∧ Atop d into (F r).2 (G r).2) :
    TiedPut d into (F <$> p) (G <$> p) :=
  .bindSame fun r => .pure (h r)

/-- The head of a panel keeps its name. -/
theorem PanelHead.tiedName {p : PanelHead L} (hn : p.name = none) (h : Atop d into x y) :
    M.Tied (fun r r' => (r.1 = r'.1 ∧ Atop d into r.2 r'.2) ∧ r'.1.name = none) (p.putSlots x d) (p.putSlots y d) := by
  intro e k
  have := p.tied h e k
  cases hx : p.putSlots x d e k with
  | none =>
    cases hy : p.putSlots y d e k with
    | none => exact .none
    | some r => rw [hx, hy] at this; cases this
  | some r =>
    cases hy : p.putSlots y d e k with
    | none => rw [hx, hy] at this; cases this
    | some r' =>
      rw [hx, hy] at this
      cases this with
      | some h => exact .some ⟨⟨h.1, (p.putSlots_name y d e k r'.1 r'.2 hy).trans hn⟩, h.2⟩

section
variable [Custom σ L]

mutual
theorem Panel.tied (hc : CustomOwn σ L) (p : Panel σ L) {x y : Snapshot} (h : Atop d into x y) :
    TiedPut d into (p.putSnapshot d x) (p.putSnapshot d y) := by
  match p with
  | .mk p ps hs ss =>
    cases hn : p.name with
    | some n => rw [Panel.putSnapshot_named d hn, Panel.putSnapshot_named d hn]; exact tied_map fun _ => ⟨rfl, h.push _ _⟩
    | none =>
      unfold Panel.putSnapshot
      simp only [hn, levelFor]
      refine (p.activity.tied (h.default _)).seq fun go _ _ h => .ite ?_ (.done h)
      refine .bind _ (PanelHead.tiedName hn h) ?_
      rintro ⟨p, s⟩ ⟨_, s'⟩ ⟨⟨rfl, h⟩, hn⟩
      refine TiedPut.seq (tiedPanels hc ps h) fun _ _ _ h => TiedPut.seq (tiedSnapshooters hc ss h) fun _ _ _ h =>
        TiedPut.seq (tiedHandlers hc hs h) fun _ _ _ h => ?_
      simp only at hn
      simp only [hn]
      exact .done h

theorem tiedPanels (hc : CustomOwn σ L) (ps : List (Panel σ L)) {x y : Snapshot} (h : Atop d into x y) :
    TiedPut d into (putPanels d ps x) (putPanels d ps y) := by
  match ps with
  | [] => unfold putPanels; exact .done h
  | p :: ps =>
    unfold putPanels
    exact TiedPut.seq (p.tied hc h) fun _ _ _ h => TiedPut.seq (tiedPanels hc ps h) fun _ _ _ h => .done h

theorem Handler.tied (hc : CustomOwn σ L) (p : Handler σ L) {x y : Snapshot} (h : Atop d into x y) :
    TiedPut d into (p.putSnapshot d x) (p.putSnapshot d y) := by
  match p with
  | .instrument a =>
    unfold Handler.putSnapshot
    exact TiedPut.seq (tied_adapter a fun i => i.tied hc h) fun _ _ _ h => .done h
  | .gauge a => unfold Handler.putSnapshot; exact TiedPut.seq (tied_gaugeAdapter a h) fun _ _ _ h => .done h
  | .panel p => unfold Handler.putSnapshot; exact TiedPut.seq (p.tied hc h) fun _ _ _ h => .done h
  | .cockpit p ps hs ss =>
    cases hn : p.name with
    | some n => rw [Handler.putSnapshot_named d hn, Handler.putSnapshot_named d hn]; exact tied_map fun _ => ⟨rfl, h.push _ _⟩
    | none =>
      unfold Handler.putSnapshot
      simp only [hn, levelFor]
      refine (p.activity.tied (h.default _)).seq fun go _ _ h => .ite ?_ (.done h)
      exact TiedPut.seq (tiedPanels hc ps h) fun _ _ _ h => TiedPut.seq (tiedHandlers hc hs h) fun _ _ _ h =>
        TiedPut.seq (tiedSnapshooters hc ss h) fun _ _ _ h => .done h
  | .custom s => unfold Handler.putSnapshot; exact TiedPut.seq ((hc s d).tied h) fun _ _ _ h => .done h

theorem tiedHandlers (hc : CustomOwn σ L) (ps : List (Handler σ L)) {x y : Snapshot} (h : Atop d into x y) :
    TiedPut d into (putHandlers d ps x) (putHandlers d ps y) := by
  match ps with
  | [] => unfold putHandlers; exact .done h
  | p :: ps =>
    unfold putHandlers
    exact TiedPut.seq (p.tied hc h) fun _ _ _ h => TiedPut.seq (tiedHandlers hc ps h) fun _ _ _ h => .done h

theorem Snapshooter.tied (hc : CustomOwn σ L) (p : Snapshooter σ L) {x y : Snapshot} (h : Atop d into x y) :
    TiedPut d into (p.putSnapshot d x) (p.putSnapshot d y) := by
  match p with
  | .constant n ds v => unfold Snapshooter.putSnapshot; exact .done ((h.postfixed _ _).push _ _)
  | .polling n ds g poll =>
    unfold Snapshooter.putSnapshot
    refine .ite (.bindSame fun r => .done ((h.postfixed _ _).push _ _)) ?_
    exact TiedPut.seq (poll.tied hc (h.postfixed _ _)) fun _ _ _ h => .done h
  | .instrument i => unfold Snapshooter.putSnapshot; exact TiedPut.seq (i.tied hc h) fun _ _ _ h => .done h
  | .handler i => unfold Snapshooter.putSnapshot; exact TiedPut.seq (i.tied hc h) fun _ _ _ h => .done h
  | .custom s => unfold Snapshooter.putSnapshot; exact TiedPut.seq ((hc s d).tied h) fun _ _ _ h => .done h

theorem tiedSnapshooters (hc : CustomOwn σ L) (ps : List (Snapshooter σ L)) {x y : Snapshot} (h : Atop d into x y) :
    TiedPut d into (putSnapshooters d ps x) (putSnapshooters d ps y) := by
  match ps with
  | [] => unfold putSnapshooters; exact .done h
  | p :: ps =>
    unfold putSnapshooters
    exact TiedPut.seq (p.tied hc h) fun _ _ _ h => TiedPut.seq (tiedSnapshooters hc ps h) fun _ _ _ h => .done h
end

theorem Cockpit.tied (hc : CustomOwn σ L) (c : Cockpit σ L) {x y : Snapshot} (h : Atop d into x y) :
    TiedPut d into (c.putSnapshot x d) (c.putSnapshot y d) := by
  cases hn : c.name with
  | some n => rw [Cockpit.putSnapshot_named d hn, Cockpit.putSnapshot_named d hn]; exact tied_map fun _ => ⟨rfl, h.push _ _⟩
  | none =>
    have hn' : c.head.name = none := hn
    unfold Cockpit.putSnapshot
    simp only [hn', levelFor]
    refine (c.head.activity.tied (h.default _)).seq fun go _ _ h => .ite ?_ (.done h)
    exact TiedPut.seq (tiedPanels hc _ h) fun _ _ _ h => TiedPut.seq (tiedHandlers hc _ h) fun _ _ _ h =>
      TiedPut.seq (tiedSnapshooters hc _ h) fun _ _ _ h => .done h

theorem tiedCockpits (hc : CustomOwn σ L) (cs : List (Cockpit σ L)) {x y : Snapshot} (h : Atop d into x y) :
    TiedPut d into (putCockpits d cs x) (putCockpits d cs y) := by
  induction cs generalizing x y with
  | nil => exact .done h
  | cons c cs ih => exact TiedPut.seq (c.tied hc h) fun _ _ _ h => TiedPut.seq (ih h) fun _ _ _ h => .done h

theorem ProcessorState.tied (hc : CustomOwn σ L) (p : ProcessorState σ L) {x y : Snapshot} (h : Atop d into x y) :
    TiedPut d into (p.putSnapshot x d) (p.putSnapshot y d) := by
  cases hn : p.name with
  | some n => rw [ProcessorState.putSnapshot_named d hn, ProcessorState.putSnapshot_named d hn]; exact tied_map fun _ => ⟨rfl, h.push _ _⟩
  | none =>
    unfold ProcessorState.putSnapshot
    simp only [hn, levelFor]
    refine (p.activity.tied (h.default _)).seq fun go _ _ h => .ite ?_ (.done h)
    exact TiedPut.seq (tiedCockpits hc _ h) fun _ _ _ h => TiedPut.seq (tiedHandlers hc _ h) fun _ _ _ h =>
      TiedPut.seq (tiedSnapshooters hc _ h) fun _ _ _ h => .done h

theorem Processor.tied (hc : CustomOwn σ L) (p : Processor σ L) {x y : Snapshot} (h : Atop d into x y) :
    TiedPut d into (p.putSnapshot x d) (p.putSnapshot y d) :=
  TiedPut.seq (p.state.tied hc h) fun _ _ _ h => .done h

variable [CustomProcessor σ]

mutual
theorem Node.tied (hc : CustomOwn σ L) (hp : CustomProcessorOwn σ) (p : Node σ L) {x y : Snapshot} (h : Atop d into x y) :
    TiedPut d into (p.putSnapshot d x) (p.putSnapshot d y) := by
  match p with
  | .processor p => unfold Node.putSnapshot; exact TiedPut.seq (p.tied hc h) fun _ _ _ h => .done h
  | .mount p ns ss =>
    cases hn : p.name with
    | some n => rw [Node.putSnapshot_mount d hn, Node.putSnapshot_mount d hn]; exact tied_map fun _ => ⟨rfl, h.push _ _⟩
    | none =>
      unfold Node.putSnapshot
      simp only [hn, levelFor]
      refine (p.activity.tied (h.default _)).seq fun go _ _ h => .ite ?_ (.done h)
      exact TiedPut.seq (tiedNodes hc hp ns h) fun _ _ _ h => TiedPut.seq (tiedSnapshooters hc ss h) fun _ _ _ h => .done h
  | .attached p ns ss inbox =>
    cases hn : p.name with
    | some n => rw [Node.putSnapshot_attached d hn, Node.putSnapshot_attached d hn]; exact tied_map fun _ => ⟨rfl, h.push _ _⟩
    | none =>
      unfold Node.putSnapshot
      simp only [hn, levelFor]
      refine (p.activity.tied (h.default _)).seq fun go _ _ h => .ite ?_ (.done h)
      exact TiedPut.seq (tiedNodes hc hp ns h) fun _ _ _ h => TiedPut.seq (tiedSnapshooters hc ss h) fun _ _ _ h => .done h
  | .driver as =>
    unfold Node.putSnapshot putAnswer
    cases as with
    | nil => exact .done h
    | cons a as =>
      simp only
      cases a d with
      | none => exact .done h
      | some s => exact .done (h.append s)
  | .custom s => unfold Node.putSnapshot; exact TiedPut.seq ((hp s d).tied h) fun _ _ _ h => .done h

theorem tiedNodes (hc : CustomOwn σ L) (hp : CustomProcessorOwn σ) (ns : List (Node σ L)) {x y : Snapshot}
    (h : Atop d into x y) : TiedPut d into (putNodes d ns x) (putNodes d ns y) := by
  match ns with
  | [] => unfold putNodes; exact .done h
  | n :: ns =>
    unfold putNodes
    exact TiedPut.seq (n.tied hc hp h) fun _ _ _ h => TiedPut.seq (tiedNodes hc hp ns h) fun _ _ _ h => .done h
end

end

/-- Without descriptions, and if there are no titles and descriptions in the snapshot: exactly the own items are appended. -/
theorem PutsOwn.eq {C : Type} {put : Snapshot → M (C × Snapshot)} (h : PutsOwn d put) (into : Snapshot)
    (hi : d = false ∨ ∀ n ∈ into.map (·.1), ¬ IsText n) (e : Env) (k : Nat) :
    put into e k = (put [] e k).map fun r => ((r.1.1, into ++ r.1.2), r.2) := by
  have := h into e k
  revert this
  cases put into e k <;> cases put [] e k <;> intro this
  · rfl
  · cases this
  · cases this
  · next r r' =>
    cases this with
    | some h =>
      obtain ⟨h1, h2, own, h3, h4⟩ := h
      have : own = r'.1.2 := by
        rcases hi with rfl | hi
        · exact h4.eq_of_values
        · exact h4.eq_of_noTexts hi
      subst this
      obtain ⟨⟨c, s⟩, n⟩ := r
      obtain ⟨⟨c', s'⟩, n'⟩ := r'
      simp only at h1 h2 h3
      subst h1 h2 h3
      rfl

end Metrix

namespace Metrix
variable {σ L : Type} [Custom σ L] [CustomProcessor σ] {d : Bool}

theorem PutsOwn.fun_eq {C : Type} {put : Snapshot → M (C × Snapshot)} (h : PutsOwn false put) (into : Snapshot) :
    put into = (fun r => (r.1, into ++ r.2)) <$> put [] := by
  funext e k
  rw [run_map]
  exact h.eq into (.inl rfl) e k

theorem Node.own (hc : CustomOwn σ L) (hp : CustomProcessorOwn σ) (n : Node σ L) (d : Bool) :
    PutsOwn d (n.putSnapshot d) :=
  (GoesOn.of_tied fun _ _ _ h => n.tied hc hp h).own

omit [CustomProcessor σ] in
theorem Cockpit.own (hc : CustomOwn σ L) (c : Cockpit σ L) (d : Bool) : PutsOwn d fun into => c.putSnapshot into d :=
  (GoesOn.of_tied fun _ _ _ h => c.tied hc h).own

/-- One after the other into the same snapshot is the same as each alone. -/
theorem eachAlone_eq {C : Type} {put : C → Snapshot → M (C × Snapshot)} {puts : List C → Snapshot → M (List C × Snapshot)}
    (hp : ∀ c, PutsOwn false (put c)) (hnil : ∀ s, puts [] s = pure ([], s))
    (hcons : ∀ c cs s, puts (c :: cs) s = do
      let (c, s) ← put c s
      let (cs, s) ← puts cs s
      return (c :: cs, s)) (cs : List C) (into : Snapshot) :
    puts cs into = (fun r => (r.1, into ++ r.2.flatten)) <$> eachAlone put cs := by
  induction cs generalizing into with
  | nil => simp [hnil, eachAlone]
  | cons c cs ih =>
    rw [hcons, (hp c).fun_eq into]
    simp only [eachAlone, ih, map_bind, bind_map_left, map_pure, List.flatten_cons, List.append_assoc]

end Metrix
