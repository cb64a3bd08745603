import Verif.Spec.Schema
import Verif.Proof.Append
import Verif.Proof.Layout

/-! What components put is as their schema says. -/

namespace Metrix
variable {σ L : Type}

theorem Conforms.append : ∀ {a b : List Slot} {s t : Snapshot}, Conforms a s → Conforms b t → Conforms (a ++ b) (s ++ t)
  | _, _, _, _, .nil, h => h
  | _, _, _, _, .item hi hs, h => .item hi (hs.append h)
  | _, _, _, _, .left hl hr, h => by rw [List.append_assoc]; exact .left hl (hr.append h)
  | _, _, _, _, .right hl hr, h => by rw [List.append_assoc]; exact .right hl (hr.append h)

theorem Conforms.one {x : Slot} {n : String} {v : ItemKind} (h : x.Admits n v) : Conforms [x] [(n, v)] := .item h .nil

theorem Conforms.chooseLeft {a b : List Slot} {s : Snapshot} (h : Conforms a s) : Conforms [.either a b] s := by
  have := Conforms.left (b := b) h .nil
  rwa [List.append_nil] at this

theorem Conforms.chooseRight {a b : List Slot} {s : Snapshot} (h : Conforms b s) : Conforms [.either a b] s := by
  have := Conforms.right (a := a) h .nil
  rwa [List.append_nil] at this

/-- `s'` is `s` and behind it what fits the slots. -/
def Grows (slots : List Slot) (s s' : Snapshot) : Prop := ∃ items, s' = s ++ items ∧ Conforms slots items

theorem Grows.refl {s : Snapshot} : Grows [] s s := ⟨[], by simp, .nil⟩

theorem Grows.trans {a b : List Slot} {s t r : Snapshot} (h : Grows a s t) (h' : Grows b t r) : Grows (a ++ b) s r := by
  obtain ⟨x, rfl, hx⟩ := h
  obtain ⟨y, rfl, hy⟩ := h'
  exact ⟨x ++ y, by simp, hx.append hy⟩

theorem Grows.push {x : Slot} {n : String} {v : ItemKind} {s : Snapshot} (h : x.Admits n v) : Grows [x] s (s.push n v) :=
  ⟨_, rfl, .one h⟩

theorem Grows.step {a : List Slot} {x : Slot} {n : String} {v : ItemKind} {s t : Snapshot} (h : Grows a s t) (hx : x.Admits n v) :
    Grows (a ++ [x]) s (t.push n v) := h.trans (.push hx)

theorem Grows.empty {a : List Slot} {s : Snapshot} (h : Grows a [] s) : Conforms a s := by
  obtain ⟨x, rfl, hx⟩ := h
  simpa using hx

theorem Grows.left {a b : List Slot} {s t : Snapshot} (h : Grows a s t) : Grows [.either a b] s t := by
  obtain ⟨x, rfl, hx⟩ := h
  exact ⟨x, rfl, hx.chooseLeft⟩

theorem Grows.right {a b : List Slot} {s t : Snapshot} (h : Grows b s t) : Grows [.either a b] s t := by
  obtain ⟨x, rfl, hx⟩ := h
  exact ⟨x, rfl, hx.chooseRight⟩

/-- What is put fits the slots. -/
abbrev Adds {C : Type} (slots : List Slot) (into : Snapshot) (x : M (C × Snapshot)) : Prop := x.Post fun r => Grows slots into r.2

theorem adds_keeping {I : Type} {f : I → Snapshot → Bool → M Snapshot} {i : I} {into : Snapshot} {d : Bool} {slots : List Slot}
    (h : (f i into d).Post fun s => Grows slots into s) : Adds slots into (keeping f i into d) :=
  .bind _ h fun _ hs => .pure hs

/-! ## Texts -/

theorem grows_putText (label : String) (t : Option String) (into : Snapshot) :
    Grows (textSlot label t) into (putText label t into) := by
  cases t with
  | none => exact .refl
  | some t =>
    simp only [putText, textSlot]
    split
    · exact Grows.right .refl
    · exact Grows.left (.push .fixed)

theorem grows_default (t : Descr) (into : Snapshot) (d : Bool) : Grows (t.slots d) into (putDefaultDescriptives t into d) := by
  cases d with
  | false => exact .refl
  | true => exact (grows_putText _ _ _).trans (grows_putText _ _ _)

theorem grows_postfixed (t : Descr) (n : String) (into : Snapshot) (d : Bool) :
    Grows (t.slotsFor n d) into (putPostfixedDescriptives t n into d) := by
  cases d with
  | false => exact .refl
  | true => exact (grows_putText _ _ _).trans (grows_putText _ _ _)

/-! ## Instruments -/

theorem Counter.grows (c : Counter) (into : Snapshot) (d : Bool) : Grows (c.slots d) into (c.putSnapshot into d) :=
  (grows_postfixed _ _ _ _).step (.value rfl (by simp))

theorem BucketsStats.grows (s : BucketsStats) (into : Snapshot) (p : Option String) :
    Grows (trackingSlots (p.elim "" (· ++ "_"))) into (s.addToSnapshot into p) := by
  cases p <;>
  exact ((((((Grows.push (.value rfl (by simp))).step (.value rfl (by simp))).step (.value rfl (by simp))).step
    (.value rfl (by simp))).step (.value rfl (by simp))).step (.value rfl (by simp))).step (.value rfl (by simp))

theorem Gauge.adds_putValues (g : Gauge) (into : Snapshot) :
    (g.putValues into).Post fun r => r.1.name = g.name ∧ Grows
      [.maybe (if g.groupValues then .value "current" [.int] :: (if g.tracking.isSome then trackingSlots "" else [])
        else .value g.name [.int] :: (if g.tracking.isSome then trackingSlots (g.name ++ "_") else []))] into r.2 := by
  unfold Gauge.putValues
  cases hv : g.value with
  | none => exact .pure ⟨rfl, Grows.right .refl⟩
  | some v =>
    simp only
    cases ht : g.tracking with
    | none =>
      refine .pure ⟨rfl, Grows.left ?_⟩
      by_cases hg : g.groupValues = true
      · simpa [hg] using Grows.push (.value rfl (by simp))
      · simpa [hg] using Grows.push (.value rfl (by simp))
    | some b =>
      refine .bindAny fun r => .pure ⟨rfl, Grows.left ?_⟩
      by_cases hg : g.groupValues = true
      · simp only [hg, if_true, Option.isSome_some]
        exact (Grows.push (x := .value "current" [.int]) (.value rfl (by simp))).trans (r.2.grows _ _)
      · simp only [hg, if_false, Option.isSome_some, if_true, Bool.false_eq_true]
        exact (Grows.push (x := .value g.name [.int]) (.value rfl (by simp))).trans (r.2.grows _ _)

theorem Gauge.adds (g : Gauge) (into : Snapshot) (d : Bool) : Adds (g.slots d) into (g.putSnapshot into d) := by
  unfold Gauge.putSnapshot Gauge.slots
  have hput := g.adds_putValues
  by_cases hg : g.groupValues = true
  · simp only [hg, if_true] at hput ⊢
    refine .bind _ (hput []) fun r hr => .pure ?_
    dsimp only
    rw [hr.1]
    exact (grows_postfixed _ _ _ _).step (.group hr.2.empty)
  · simp only [hg, if_false, Bool.false_eq_true] at hput ⊢
    exact (hput _).mono fun r hr => (grows_postfixed _ _ _ _).trans hr.2

theorem Meter.adds (m : Meter) (into : Snapshot) (d : Bool) : Adds (m.slots d) into (m.putSnapshot into d) := by
  refine .bind (fun r => r.2.name = m.name ∧ r.2.descr = m.descr ∧ r.2.oneMinute.isSome = m.oneMinute ∧
    r.2.fiveMinutes.isSome = m.fiveMinutes ∧ r.2.fifteenMinutes.isSome = m.fifteenMinutes) ?_ fun r hr => .pure ?_
  · refine .bind _ m.keepsBare_tickIfDue fun m' hm => .bindAny fun r => .pure ?_
    have h1 := congrArg Meter.name hm
    have h2 := congrArg Meter.descr hm
    have h3 := congrArg Meter.oneMinute hm
    have h4 := congrArg Meter.fiveMinutes hm
    have h5 := congrArg Meter.fifteenMinutes hm
    simp only [Meter.bare] at h1 h2 h3 h4 h5
    refine ⟨h1, h2, ?_, ?_, ?_⟩
    · dsimp only; rw [h3]; cases m.oneMinute <;> rfl
    · dsimp only; rw [h4]; cases m.fiveMinutes <;> rfl
    · dsimp only; rw [h5]; cases m.fifteenMinutes <;> rfl
  · obtain ⟨h1, h2, h3, h4, h5⟩ := hr
    unfold MeterSnapshot.putSnapshot Meter.slots
    rw [← h1, ← h2, ← h3, ← h4, ← h5]
    refine (grows_postfixed _ _ _ _).step (.group ?_)
    have hrate : ∀ (n : String) (r : Option F64) (s : Snapshot), Grows (rateSlots n r.isSome) s
        (match r with
          | some rate => s.push n (.snapshot [("rate", .float rate)])
          | none => s) := by
      intro n r s
      cases r with
      | none => exact .refl
      | some q => exact .push (.group (.one (.value rfl (by simp))))
    have hcount : Grows [.value "count" [.uint]] [] [("count", .uint r.2.count)] :=
      Grows.push (s := []) (.value (k := .uint) rfl (by simp))
    exact (((hcount.trans (hrate _ _ _)).trans (hrate _ _ _)).trans (hrate _ _ _)).empty

theorem ValueMeter.adds (m : ValueMeter) (into : Snapshot) (d : Bool) : Adds (m.meter.slots d) into (m.putSnapshot into d) :=
  .bind _ (m.meter.adds into d) fun _ h => .pure h

theorem Histogram.adds_values (h : Histogram) (into : Snapshot) :
    (h.putHistogramValues into).Post fun s => Grows valueSlots into s := by
  refine .bindAny fun e => .bindAny fun k => .ite (.pure ?_) (.pure ?_)
  · have h1 : Grows [.value "count" [.uint]] into (into.push "count" (.uint h.inner.length)) := .push (.value rfl (by simp))
    refine h1.trans (Grows.left ?_)
    refine ((((Grows.push (.value rfl (by simp))).step (.value rfl (by simp))).step (.value rfl (by simp))).step
      (.value rfl (by simp))).step (.group ?_)
    exact .item (.value rfl (by simp)) <| .item (.value rfl (by simp)) <| .item (.value rfl (by simp)) <|
      .item (.value rfl (by simp)) <| .item (.value rfl (by simp)) <| .item (.value rfl (by simp)) <|
      .item (.value rfl (by simp)) .nil
  · have h1 : Grows [.value "count" [.uint]] into (into.push "count" (.uint 0)) := .push (.value rfl (by simp))
    exact h1.trans (Grows.right .refl)

theorem grows_active {contents : List Slot} {into s : Snapshot}
    (h : Grows contents ((into.push "_inactive" (.boolean false)).push "_active" (.boolean true)) s) :
    Grows (activeOr contents) into s :=
  Grows.right (((Grows.push .fixed).step .fixed).trans h)

theorem grows_inactive {contents : List Slot} {into : Snapshot} :
    Grows (activeOr contents) into ((into.push "_inactive" (.boolean true)).push "_active" (.boolean false)) :=
  Grows.left ((Grows.push .fixed).step .fixed)

theorem Histogram.adds (h : Histogram) (into : Snapshot) (d : Bool) :
    (h.putSnapshot into d).Post fun s => Grows (h.slots d) into s := by
  refine .bind (fun s => Conforms _ s) ?_ fun s hs => .pure ((grows_postfixed _ _ _ _).step (.group hs))
  unfold putValues isActive
  cases hm : h.maxInactivity with
  | none =>
    refine .bind (· = true) (.pure rfl) fun a ha => ?_
    subst ha
    simpa using (h.adds_values []).mono fun s hs => hs.empty
  | some m =>
    refine .bindAny fun a => ?_
    cases a <;> cases hshow : h.showActivityState
    · simpa using M.Post.pure (Conforms.chooseRight .nil)
    · simpa using M.Post.pure (grows_inactive (into := [])).empty
    · simpa using (h.adds_values []).mono fun s hs => hs.empty.chooseLeft
    · simpa using (h.adds_values _).mono fun s hs => (grows_active (into := []) hs).empty

theorem Flag.grows (f : Flag) (into : Snapshot) (d : Bool) : Grows (f.slots d) into (f.putSnapshot into d) := by
  unfold Flag.putSnapshot Flag.slots
  cases f.state with
  | none => exact (grows_postfixed _ _ _ _).trans (Grows.right .refl)
  | some s =>
    simp only [switchSlots]
    cases f.showInverted with
    | none => exact (grows_postfixed _ _ _ _).trans (Grows.left (.push (.value rfl (by simp))))
    | some a => exact (grows_postfixed _ _ _ _).trans (Grows.left ((Grows.push (.value rfl (by simp))).step (.value rfl (by simp))))

theorem adds_putTimedSwitch (name : String) (descr : Descr) (inv : Option NameAlternation) (state : M Bool)
    (into : Snapshot) (d : Bool) : (putTimedSwitch name descr inv state into d).Post fun s =>
      Grows (descr.slotsFor name d ++ switchSlots name inv) into s := by
  refine .bindAny fun s => ?_
  cases inv with
  | none => exact .pure ((grows_postfixed _ _ _ _).trans (.push (.value rfl (by simp))))
  | some a =>
    exact .bindAny fun _ => .pure ((grows_postfixed _ _ _ _).trans ((Grows.push (.value rfl (by simp))).step (.value rfl (by simp))))

theorem DataDisplay.adds (t : DataDisplay) (into : Snapshot) (d : Bool) :
    (t.putSnapshot into d).Post fun s => Grows (t.slots d) into s := by
  refine .bindAny fun o => ?_
  cases o with
  | none => exact .pure ((grows_postfixed _ _ _ _).trans (Grows.right .refl))
  | some v => exact .pure ((grows_postfixed _ _ _ _).trans (Grows.left (.push .any)))

theorem LastOccurrenceTracker.adds (t : LastOccurrenceTracker) (into : Snapshot) (d : Bool) :
    (t.putSnapshot into d).Post fun s => Grows (t.slots d) into s := by
  refine .bindAny fun o => ?_
  unfold slots
  cases o with
  | none =>
    by_cases h : t.makeNoneZero = true
    · simp only [h, if_true]
      exact .pure ((grows_postfixed _ _ _ _).trans (Grows.right (.push .fixed)))
    · simp only [h, if_false, Bool.false_eq_true]
      exact .pure ((grows_postfixed _ _ _ _).trans (Grows.right .refl))
  | some v => exact .pure ((grows_postfixed _ _ _ _).trans (Grows.left (.push (.value rfl (by simp)))))

/-- What user defined components put fits `u`. -/
def CustomFits (σ L : Type) [Custom σ L] (u : Bool → List Slot) : Prop :=
  ∀ (s : σ) (into : Snapshot) (d : Bool) (e : Env) (k : Nat) (s' : σ) (into' : Snapshot) (k' : Nat),
    Custom.putSnapshot L s into d e k = some ((s', into'), k') → ∃ items, into' = into ++ items ∧ Conforms (u d) items

theorem CustomFits.post [Custom σ L] {u : Bool → List Slot} (h : CustomFits σ L u) (s : σ) (into : Snapshot) (d : Bool) :
    Adds (u d) into (Custom.putSnapshot L s into d) := fun e k r k' hr => h s into d e k r.1 r.2 k' hr

variable {u : Bool → List Slot}

theorem Instrument.adds [Custom σ L] (hc : CustomFits σ L u) (i : Instrument σ) (into : Snapshot) (d : Bool) :
    Adds (i.slots u d) into (i.putSnapshot L into d) := by
  cases i with
  | counter i => exact .bind _ (adds_keeping (.pure (i.grows into d))) fun _ h => .pure h
  | gauge i => exact .bind _ (i.adds into d) fun _ h => .pure h
  | meter i => exact .bind _ (i.adds into d) fun _ h => .pure h
  | valueMeter i => exact .bind _ (i.adds into d) fun _ h => .pure h
  | histogram i => exact .bind _ (adds_keeping (i.adds into d)) fun _ h => .pure h
  | flag i => exact .bind _ (adds_keeping (.pure (i.grows into d))) fun _ h => .pure h
  | staircaseTimer i => exact .bind _ (adds_keeping (adds_putTimedSwitch _ _ _ _ _ _)) fun _ h => .pure h
  | occurrenceIndicator i => exact .bind _ (adds_keeping (adds_putTimedSwitch _ _ _ _ _ _)) fun _ h => .pure h
  | nonOccurrenceIndicator i => exact .bind _ (adds_keeping (adds_putTimedSwitch _ _ _ _ _ _)) fun _ h => .pure h
  | dataDisplay i => exact .bind _ (adds_keeping (i.adds into d)) fun _ h => .pure h
  | lastOccurrenceTracker i => exact .bind _ (adds_keeping (i.adds into d)) fun _ h => .pure h
  | custom s => exact .bind _ (hc.post s into d) fun _ h => .pure h

/-! ## Groups -/

theorem InstrumentAdapter.adds {I : Type} {put : I → Snapshot → Bool → M (I × Snapshot)} {slots : I → List Slot} {d : Bool}
    (hput : ∀ i s, Adds (slots i) s (put i s d)) (a : InstrumentAdapter L I) (s : Snapshot) :
    Adds (slots a.instrument) s (a.putSnapshot put s d) := .bind _ (hput _ _) fun _ hr => .pure hr

theorem GaugeAdapter.adds (a : GaugeAdapter L) (s : Snapshot) (d : Bool) : Adds (a.gauge.slots d) s (a.putSnapshot s d) :=
  .bind _ (a.gauge.adds _ _) fun _ hr => .pure hr

theorem adds_putSlot {A : Type} {f : A → Snapshot → M (A × Snapshot)} {slots : A → List Slot} (hf : ∀ a s, Adds (slots a) s (f a s))
    (a : Option A) (into : Snapshot) : Adds (a.toList.flatMap slots) into (putSlot f a into) := by
  cases a with
  | none => exact .pure .refl
  | some a =>
    refine .bind _ (hf a into) fun r hr => .pure ?_
    simpa using hr

theorem Adds.seq {C D : Type} {a b : List Slot} {into : Snapshot} {x : M (C × Snapshot)} {f : C × Snapshot → M (D × Snapshot)}
    (hx : Adds a into x) (hf : ∀ r, Adds b r.2 (f r)) : Adds (a ++ b) into (x >>= f) :=
  M.Post.bind (fun r => Grows a into r.2) hx fun r hr => (hf r).mono fun _ h => hr.trans h

theorem PanelHead.adds (h : PanelHead L) (into : Snapshot) (d : Bool) : Adds (h.slots d) into (h.putSlots into d) := by
  refine .bind _ (adds_putSlot (fun a s => a.adds (slots := (·.slots d)) (fun (i : Counter) s =>
    adds_keeping (.pure (i.grows s d))) s) _ _) fun r h1 => ?_
  refine .bind _ (adds_putSlot (fun a s => a.adds s d) _ _) fun r h2 => ?_
  refine .bind _ (adds_putSlot (fun a s => a.adds (slots := (·.slots d)) (fun (i : Meter) s => i.adds s d) s) _ _) fun r h3 => ?_
  refine .bind _ (adds_putSlot (fun a s => a.adds (slots := (·.slots d)) (fun (i : Histogram) s =>
    adds_keeping (i.adds s d)) s) _ _) fun r h4 => .pure ?_
  exact ((h1.trans h2).trans h3).trans h4

theorem grows_inGroup {name : Option String} {into level : Snapshot} {slots : List Slot} (h : Grows slots (levelFor name into) level) :
    Grows (inGroup name slots) into (closeLevel name into level) := by
  cases name with
  | none => exact h
  | some n => exact .push (.group h.empty)

/-- The flags tell whether the contents follow. -/
theorem Activity.adds (a : Activity) (into : Snapshot) : (a.putFlags into).Post fun r =>
    (r.1 = false → ∀ contents, Grows (a.slots contents) into r.2) ∧
      (r.1 = true → ∀ contents s, Grows contents r.2 s → Grows (a.slots contents) into s) := by
  unfold putFlags slots
  cases a.maxInactivity with
  | none => exact .pure ⟨(by simp), fun _ _ _ h => h⟩
  | some m =>
    by_cases hs : a.show_ = true
    · simp only [hs, if_true, Option.isSome_some, Bool.and_self]
      exact .bindAny fun _ => .ite (.pure ⟨fun _ _ => grows_inactive, (by simp)⟩) (.pure ⟨(by simp), fun _ _ _ h => grows_active h⟩)
    · simp only [hs, if_false, Bool.and_false, Bool.false_eq_true]
      exact .pure ⟨(by simp), fun _ _ _ h => h⟩

section
variable [Custom σ L]

mutual
theorem Panel.adds (hc : CustomFits σ L u) (d : Bool) (p : Panel σ L) (into : Snapshot) :
    Adds (p.slots u d) into (p.putSnapshot d into) := by
  match p with
  | .mk h ps hs ss =>
    unfold Panel.putSnapshot Panel.slots
    refine .bind _ (h.activity.adds _) fun g hg => ?_
    cases hgo : g.1 with
    | false =>
      simp only [hgo, Bool.false_eq_true, if_false]
      exact .pure (grows_inGroup ((grows_default _ _ _).trans (hg.1 hgo _)))
    | true =>
      simp only [hgo, if_true]
      refine .bind (fun r => Grows (h.slots d) g.2 r.2 ∧ r.1.name = h.name) ?_ fun r1 h1 => ?_
      · intro e k r k' hr
        exact ⟨h.adds _ _ _ _ _ _ hr, h.putSlots_name _ _ _ _ _ _ hr⟩
      · refine .bind _ (addsPanels hc d ps _) fun r2 h2 => .bind _ (addsSnapshooters hc d ss _) fun r3 h3 =>
          .bind _ (addsHandlers hc d hs _) fun r4 h4 => .pure ?_
        dsimp only
        rw [h1.2]
        exact grows_inGroup ((grows_default _ _ _).trans (hg.2 hgo _ _ (((h1.1.trans h2).trans h3).trans h4)))

theorem addsPanels (hc : CustomFits σ L u) (d : Bool) (ps : List (Panel σ L)) (into : Snapshot) :
    Adds (panelSlots u d ps) into (putPanels d ps into) := by
  match ps with
  | [] => unfold putPanels panelSlots; exact .pure .refl
  | p :: ps =>
    unfold putPanels panelSlots
    exact .bind _ (p.adds hc d into) fun r h1 => .bind _ (addsPanels hc d ps _) fun r h2 => .pure (h1.trans h2)

theorem Handler.adds (hc : CustomFits σ L u) (d : Bool) (x : Handler σ L) (into : Snapshot) :
    Adds (x.slots u d) into (x.putSnapshot d into) := by
  match x with
  | .instrument a =>
    unfold Handler.putSnapshot Handler.slots
    exact .bind _ (a.adds (slots := (·.slots u d)) (fun i s => i.adds hc s d) into) fun r h => .pure h
  | .gauge a => unfold Handler.putSnapshot Handler.slots; exact .bind _ (a.adds into d) fun r h => .pure h
  | .panel p => unfold Handler.putSnapshot Handler.slots; exact .bind _ (p.adds hc d into) fun r h => .pure h
  | .cockpit h ps hs ss =>
    unfold Handler.putSnapshot Handler.slots
    refine .bind _ (h.activity.adds _) fun g hg => ?_
    cases hgo : g.1 with
    | false =>
      simp only [hgo, Bool.false_eq_true, if_false]
      exact .pure (grows_inGroup ((grows_default _ _ _).trans (hg.1 hgo _)))
    | true =>
      simp only [hgo, if_true]
      refine .bind _ (addsPanels hc d ps _) fun r2 h2 => .bind _ (addsHandlers hc d hs _) fun r4 h4 =>
        .bind _ (addsSnapshooters hc d ss _) fun r3 h3 => .pure ?_
      exact grows_inGroup ((grows_default _ _ _).trans (hg.2 hgo _ _ ((h2.trans h4).trans h3)))
  | .custom s => unfold Handler.putSnapshot Handler.slots; exact .bind _ (hc.post s into d) fun r h => .pure h

theorem addsHandlers (hc : CustomFits σ L u) (d : Bool) (hs : List (Handler σ L)) (into : Snapshot) :
    Adds (handlerSlots u d hs) into (putHandlers d hs into) := by
  match hs with
  | [] => unfold putHandlers handlerSlots; exact .pure .refl
  | p :: ps =>
    unfold putHandlers handlerSlots
    exact .bind _ (p.adds hc d into) fun r h1 => .bind _ (addsHandlers hc d ps _) fun r h2 => .pure (h1.trans h2)

theorem Snapshooter.adds (hc : CustomFits σ L u) (d : Bool) (x : Snapshooter σ L) (into : Snapshot) :
    Adds (x.slots u d) into (x.putSnapshot d into) := by
  match x with
  | .constant n t v =>
    unfold Snapshooter.putSnapshot Snapshooter.slots; exact .pure ((grows_postfixed _ _ _ _).step .fixed)
  | .polling n t g poll =>
    unfold Snapshooter.putSnapshot Snapshooter.slots
    by_cases hg : g = true
    · simp only [hg, if_true]
      exact .bind _ (poll.adds hc d _) fun r hr => .pure ((grows_postfixed _ _ _ _).step (.group hr.empty))
    · simp only [hg, if_false, Bool.false_eq_true]
      exact .bind _ (poll.adds hc d _) fun r hr => .pure ((grows_postfixed _ _ _ _).trans hr)
  | .instrument i =>
    unfold Snapshooter.putSnapshot Snapshooter.slots; exact .bind _ (i.adds hc into d) fun r h => .pure h
  | .handler h => unfold Snapshooter.putSnapshot Snapshooter.slots; exact .bind _ (h.adds hc d into) fun r h => .pure h
  | .custom s => unfold Snapshooter.putSnapshot Snapshooter.slots; exact .bind _ (hc.post s into d) fun r h => .pure h

theorem addsSnapshooters (hc : CustomFits σ L u) (d : Bool) (ss : List (Snapshooter σ L)) (into : Snapshot) :
    Adds (snapshooterSlots u d ss) into (putSnapshooters d ss into) := by
  match ss with
  | [] => unfold putSnapshooters snapshooterSlots; exact .pure .refl
  | p :: ps =>
    unfold putSnapshooters snapshooterSlots
    exact .bind _ (p.adds hc d into) fun r h1 => .bind _ (addsSnapshooters hc d ps _) fun r h2 => .pure (h1.trans h2)
end

theorem Cockpit.adds (hc : CustomFits σ L u) (d : Bool) (c : Cockpit σ L) (into : Snapshot) :
    Adds (c.slots u d) into (c.putSnapshot into d) := by
  refine .bind _ (c.head.activity.adds _) fun g hg => ?_
  unfold slots
  cases hgo : g.1 with
  | false =>
    simp only [hgo, Bool.false_eq_true, if_false]
    exact .pure (grows_inGroup ((grows_default _ _ _).trans (hg.1 hgo _)))
  | true =>
    simp only [hgo, if_true]
    refine .bind _ (addsPanels hc d _ _) fun r2 h2 => .bind _ (addsHandlers hc d _ _) fun r4 h4 =>
      .bind _ (addsSnapshooters hc d _ _) fun r3 h3 => .pure ?_
    exact grows_inGroup ((grows_default _ _ _).trans (hg.2 hgo _ _ ((h2.trans h4).trans h3)))

theorem addsCockpits (hc : CustomFits σ L u) (d : Bool) (cs : List (Cockpit σ L)) (into : Snapshot) :
    Adds (cs.flatMap (·.slots u d)) into (putCockpits d cs into) := by
  induction cs generalizing into with
  | nil => exact .pure .refl
  | cons c cs ih => exact .bind _ (c.adds hc d into) fun r h1 => .bind _ (ih _) fun r h2 => .pure (h1.trans h2)

theorem ProcessorState.adds (hc : CustomFits σ L u) (d : Bool) (s : ProcessorState σ L) (into : Snapshot) :
    Adds (s.slots u d) into (s.putSnapshot into d) := by
  refine .bind _ (s.activity.adds _) fun g hg => ?_
  unfold slots
  cases hgo : g.1 with
  | false =>
    simp only [hgo, Bool.false_eq_true, if_false]
    exact .pure (grows_inGroup ((grows_default _ _ _).trans (hg.1 hgo _)))
  | true =>
    simp only [hgo, if_true]
    refine .bind _ (addsCockpits hc d _ _) fun r2 h2 => .bind _ (addsHandlers hc d _ _) fun r4 h4 =>
      .bind _ (addsSnapshooters hc d _ _) fun r3 h3 => .pure ?_
    exact grows_inGroup ((grows_default _ _ _).trans (hg.2 hgo _ _ ((h2.trans h4).trans h3)))
end

/-! ## Nothing that was measured plays a role -/

theorem Gauge.slots_bare (g : Gauge) (d : Bool) : g.bare.slots d = g.slots d := by
  simp [slots, bare]

theorem Instrument.slots_bare (i : Instrument σ) (d : Bool) : i.bare.slots u d = i.slots u d := by
  cases i <;> first | rfl | exact Gauge.slots_bare _ _

theorem flatMap_map_toList {A B C : Type} (f : A → B) (g : B → List C) (o : Option A) :
    (o.map f).toList.flatMap g = o.toList.flatMap fun a => g (f a) := by cases o <;> rfl

theorem PanelHead.slots_bare (h : PanelHead L) (d : Bool) : h.bare.slots d = h.slots d := by
  simp only [slots, bare, flatMap_map_toList, GaugeAdapter.bare, Gauge.slots_bare]
  rfl

mutual
theorem Panel.slots_bare (d : Bool) : ∀ p : Panel σ L, p.bare.slots u d = p.slots u d
  | .mk h ps hs ss => by
    simp only [Panel.bare, Panel.slots, h.slots_bare, panelSlots_bare d ps, handlerSlots_bare d hs, snapshooterSlots_bare d ss]
    rfl

theorem panelSlots_bare (d : Bool) : ∀ ps : List (Panel σ L), panelSlots u d (barePanels ps) = panelSlots u d ps
  | [] => rfl
  | p :: ps => by simp only [barePanels, panelSlots, p.slots_bare d, panelSlots_bare d ps]

theorem Handler.slots_bare (d : Bool) : ∀ h : Handler σ L, h.bare.slots u d = h.slots u d
  | .instrument a => by simp only [Handler.bare, Handler.slots, InstrumentAdapter.map, a.instrument.slots_bare]
  | .gauge a => by simp only [Handler.bare, Handler.slots, GaugeAdapter.bare, a.gauge.slots_bare]
  | .panel p => by simp only [Handler.bare, Handler.slots, p.slots_bare d]
  | .cockpit h ps hs ss => by
    simp only [Handler.bare, Handler.slots, panelSlots_bare d ps, handlerSlots_bare d hs, snapshooterSlots_bare d ss]
    rfl
  | .custom s => by simp only [Handler.bare, Handler.slots]

theorem handlerSlots_bare (d : Bool) : ∀ hs : List (Handler σ L), handlerSlots u d (bareHandlers hs) = handlerSlots u d hs
  | [] => rfl
  | h :: hs => by simp only [bareHandlers, handlerSlots, h.slots_bare d, handlerSlots_bare d hs]

theorem Snapshooter.slots_bare (d : Bool) : ∀ s : Snapshooter σ L, s.bare.slots u d = s.slots u d
  | .constant n t v => by simp only [Snapshooter.bare, Snapshooter.slots]
  | .polling n t g poll => by simp only [Snapshooter.bare, Snapshooter.slots, poll.slots_bare d]
  | .instrument i => by simp only [Snapshooter.bare, Snapshooter.slots, i.slots_bare]
  | .handler h => by simp only [Snapshooter.bare, Snapshooter.slots, h.slots_bare d]
  | .custom s => by simp only [Snapshooter.bare, Snapshooter.slots]

theorem snapshooterSlots_bare (d : Bool) : ∀ ss : List (Snapshooter σ L),
    snapshooterSlots u d (bareSnapshooters ss) = snapshooterSlots u d ss
  | [] => rfl
  | s :: ss => by simp only [bareSnapshooters, snapshooterSlots, s.slots_bare d, snapshooterSlots_bare d ss]
end

theorem Cockpit.slots_bare (d : Bool) (c : Cockpit σ L) : c.bare.slots u d = c.slots u d := by
  simp only [bare, slots, panelSlots_bare, handlerSlots_bare, snapshooterSlots_bare]
  rfl

theorem ProcessorState.slots_bare (d : Bool) (s : ProcessorState σ L) : s.bare.slots u d = s.slots u d := by
  simp only [bare, slots, handlerSlots_bare, snapshooterSlots_bare, List.flatMap_map, Cockpit.slots_bare]
  rfl

/-! ## Keys -/

theorem namesIn_append (a b : List Slot) : namesIn (a ++ b) = namesIn a ++ namesIn b := by
  induction a with
  | nil => rfl
  | cons x xs ih => simp [namesIn, ih]

theorem Slot.Admits.named {x : Slot} {n : String} {v : ItemKind} (h : x.Admits n v) : x.names = [n] ∧ x.width = 1 ∧ x.flat = [x] := by
  cases h <;> simp [Slot.names, Slot.width, Slot.flat]

theorem Conforms.named : ∀ {a : List Slot} {s : Snapshot}, Conforms a s →
    (s.map (·.1)).Sublist (namesIn a) ∧ s.length ≤ width a ∧ ∀ item ∈ s, ∃ x ∈ flatSlots a, x.Admits item.1 item.2
  | _, _, .nil => ⟨by simp [namesIn], by simp [width], by simp⟩
  | _, _, .item hi hs => by
    have h := hs.named
    simp only [namesIn, width, flatSlots, hi.named.1, hi.named.2.1, hi.named.2.2, List.length_cons, List.map_cons, List.cons_append,
      List.nil_append, List.mem_cons]
    refine ⟨h.1.cons_cons _, by omega, fun y hy => ?_⟩
    rcases hy with rfl | hy
    · exact ⟨_, .inl rfl, hi⟩
    · obtain ⟨z, hz, hzy⟩ := h.2.2 y hy
      exact ⟨z, .inr hz, hzy⟩
  | _, _, .left h1 h2 => by
    have h := h1.named
    have h' := h2.named
    simp only [namesIn, Slot.names, width, Slot.width, flatSlots, Slot.flat, List.length_append, List.mem_append, List.map_append]
    refine ⟨(h.1.trans (List.sublist_append_left ..)).append h'.1, by omega, fun y hy => ?_⟩
    rcases hy with hy | hy
    · obtain ⟨z, hz, hzy⟩ := h.2.2 y hy
      exact ⟨z, .inl (.inl hz), hzy⟩
    · obtain ⟨z, hz, hzy⟩ := h'.2.2 y hy
      exact ⟨z, .inr hz, hzy⟩
  | _, _, .right h1 h2 => by
    have h := h1.named
    have h' := h2.named
    simp only [namesIn, Slot.names, width, Slot.width, flatSlots, Slot.flat, List.length_append, List.mem_append, List.map_append]
    refine ⟨(h.1.trans (List.sublist_append_right ..)).append h'.1, by omega, fun y hy => ?_⟩
    rcases hy with hy | hy
    · obtain ⟨z, hz, hzy⟩ := h.2.2 y hy
      exact ⟨z, .inl (.inr hz), hzy⟩
    · obtain ⟨z, hz, hzy⟩ := h'.2.2 y hy
      exact ⟨z, .inr hz, hzy⟩

end Metrix
