import Verif.Proof.Post
import Verif.Spec.History

/-! `put_snapshot` keeps what is in the snapshot already. -/

namespace Metrix

/-- Whatever the put results in, the items of `into` are in front. -/
abbrev Appends {C : Type} (into : Snapshot) (x : M (C × Snapshot)) : Prop := x.Post fun r => into <+: r.2

theorem prefix_push {a b : Snapshot} (h : a <+: b) (n : String) (v : ItemKind) : a <+: b.push n v :=
  h.trans (List.prefix_append _ _)

theorem prefix_putText (into : Snapshot) (l : String) (t : Option String) : into <+: putText l t into := by
  unfold putText
  split
  · exact List.prefix_rfl
  · split
    · exact List.prefix_rfl
    · exact prefix_push List.prefix_rfl _ _

theorem prefix_default (ds : Descr) (into : Snapshot) (d : Bool) : into <+: putDefaultDescriptives ds into d := by
  unfold putDefaultDescriptives
  split
  · exact (prefix_putText _ _ _).trans (prefix_putText _ _ _)
  · exact List.prefix_rfl

theorem prefix_postfixed (ds : Descr) (n : String) (into : Snapshot) (d : Bool) :
    into <+: putPostfixedDescriptives ds n into d := by
  unfold putPostfixedDescriptives
  split
  · exact (prefix_putText _ _ _).trans (prefix_putText _ _ _)
  · exact List.prefix_rfl

theorem appends_keeping {I : Type} {f : I → Snapshot → Bool → M Snapshot} {i : I} {into : Snapshot} {d : Bool}
    (h : (f i into d).Post fun s => into <+: s) : Appends into (keeping f i into d) :=
  .bind _ h fun _ hs => .pure hs

theorem Counter.appends (c : Counter) (into : Snapshot) (d : Bool) : into <+: c.putSnapshot into d :=
  prefix_push (prefix_postfixed _ _ _ _) _ _

theorem Gauge.appends_putValues (g : Gauge) (into : Snapshot) : Appends into (g.putValues into) := by
  unfold Gauge.putValues
  cases g.value with
  | none => exact .pure List.prefix_rfl
  | some v =>
    simp only
    have hp : ∀ s : Snapshot × Option String, (s = if g.groupValues then (into.push "current" (.int v), none)
        else (into.push g.name (.int v), some g.name)) → into <+: s.1 := by
      rintro s rfl
      split <;> exact prefix_push List.prefix_rfl _ _
    cases g.tracking with
    | none => exact .pure (hp _ rfl)
    | some b =>
      refine .bindAny fun r => .pure ?_
      exact prefix_push (prefix_push (prefix_push (prefix_push (prefix_push (prefix_push (prefix_push (hp _ rfl)
        _ _) _ _) _ _) _ _) _ _) _ _) _ _

theorem Gauge.appends (g : Gauge) (into : Snapshot) (d : Bool) : Appends into (g.putSnapshot into d) := by
  refine .ite (.bindAny fun r => .pure ?_) ?_
  · exact prefix_push (prefix_postfixed _ _ _ _) _ _
  · exact (g.appends_putValues _).mono fun r hr => (prefix_postfixed _ _ _ _).trans hr

theorem Meter.appends (m : Meter) (into : Snapshot) (d : Bool) : Appends into (m.putSnapshot into d) :=
  .bindAny fun _ => .pure (prefix_push (prefix_postfixed _ _ _ _) _ _)

theorem ValueMeter.appends (m : ValueMeter) (into : Snapshot) (d : Bool) : Appends into (m.putSnapshot into d) :=
  .bind _ (m.meter.appends into d) fun _ h => .pure h

theorem Histogram.appends (h : Histogram) (into : Snapshot) (d : Bool) :
    (h.putSnapshot into d).Post fun s => into <+: s :=
  .bindAny fun _ => .pure (prefix_push (prefix_postfixed _ _ _ _) _ _)

theorem Flag.appends (f : Flag) (into : Snapshot) (d : Bool) : into <+: f.putSnapshot into d := by
  unfold Flag.putSnapshot
  cases f.state with
  | none => exact prefix_postfixed _ _ _ _
  | some s =>
    simp only
    cases f.showInverted with
    | none => exact prefix_push (prefix_postfixed _ _ _ _) _ _
    | some a => exact prefix_push (prefix_push (prefix_postfixed _ _ _ _) _ _) _ _

theorem appends_putTimedSwitch (name : String) (descr : Descr) (inv : Option NameAlternation) (state : M Bool)
    (into : Snapshot) (d : Bool) : (putTimedSwitch name descr inv state into d).Post fun s => into <+: s := by
  refine .bindAny fun s => ?_
  cases inv with
  | none => exact .pure (prefix_push (prefix_postfixed _ _ _ _) _ _)
  | some a => exact .bindAny fun _ => .pure (prefix_push (prefix_push (prefix_postfixed _ _ _ _) _ _) _ _)

theorem DataDisplay.appends (t : DataDisplay) (into : Snapshot) (d : Bool) :
    (t.putSnapshot into d).Post fun s => into <+: s := by
  refine .bindAny fun o => ?_
  cases o with
  | none => exact .pure (prefix_postfixed _ _ _ _)
  | some v => exact .pure (prefix_push (prefix_postfixed _ _ _ _) _ _)

theorem LastOccurrenceTracker.appends (t : LastOccurrenceTracker) (into : Snapshot) (d : Bool) :
    (t.putSnapshot into d).Post fun s => into <+: s := by
  refine .bindAny fun o => ?_
  cases o with
  | none => exact .ite (.pure (prefix_push (prefix_postfixed _ _ _ _) _ _)) (.pure (prefix_postfixed _ _ _ _))
  | some v => exact .pure (prefix_push (prefix_postfixed _ _ _ _) _ _)

variable {σ L : Type}

/-- User defined components append as well. -/
def CustomAppends (σ L : Type) [Custom σ L] : Prop :=
  ∀ (s : σ) (into : Snapshot) (d : Bool) (e : Env) (k : Nat) (s' : σ) (into' : Snapshot) (k' : Nat),
    Custom.putSnapshot L s into d e k = some ((s', into'), k') → into <+: into'

theorem CustomAppends.post [Custom σ L] (h : CustomAppends σ L) (s : σ) (into : Snapshot) (d : Bool) :
    Appends into (Custom.putSnapshot L s into d) := fun e k r k' hr => h s into d e k r.1 r.2 k' hr

theorem Instrument.appends [Custom σ L] (hc : CustomAppends σ L) (i : Instrument σ) (into : Snapshot) (d : Bool) :
    Appends into (i.putSnapshot L into d) := by
  cases i with
  | counter i => exact .bind _ (appends_keeping (.pure (i.appends into d))) fun _ h => .pure h
  | gauge i => exact .bind _ (i.appends into d) fun _ h => .pure h
  | meter i => exact .bind _ (i.appends into d) fun _ h => .pure h
  | valueMeter i => exact .bind _ (i.appends into d) fun _ h => .pure h
  | histogram i => exact .bind _ (appends_keeping (i.appends into d)) fun _ h => .pure h
  | flag i => exact .bind _ (appends_keeping (.pure (i.appends into d))) fun _ h => .pure h
  | staircaseTimer i => exact .bind _ (appends_keeping (appends_putTimedSwitch _ _ _ _ _ _)) fun _ h => .pure h
  | occurrenceIndicator i => exact .bind _ (appends_keeping (appends_putTimedSwitch _ _ _ _ _ _)) fun _ h => .pure h
  | nonOccurrenceIndicator i => exact .bind _ (appends_keeping (appends_putTimedSwitch _ _ _ _ _ _)) fun _ h => .pure h
  | dataDisplay i => exact .bind _ (appends_keeping (i.appends into d)) fun _ h => .pure h
  | lastOccurrenceTracker i => exact .bind _ (appends_keeping (i.appends into d)) fun _ h => .pure h
  | custom s => exact .bind _ (hc.post s into d) fun _ h => .pure h

theorem InstrumentAdapter.appends {I : Type} {put : I → Snapshot → Bool → M (I × Snapshot)}
    (hput : ∀ i s d, Appends s (put i s d)) (a : InstrumentAdapter L I) (s : Snapshot) (d : Bool) :
    Appends s (a.putSnapshot put s d) := .bind _ (hput _ _ _) fun _ hr => .pure hr

theorem GaugeAdapter.appends (a : GaugeAdapter L) (s : Snapshot) (d : Bool) : Appends s (a.putSnapshot s d) :=
  .bind _ (a.gauge.appends _ _) fun _ hr => .pure hr

theorem appends_putSlot {A : Type} {f : A → Snapshot → M (A × Snapshot)} (hf : ∀ a s, Appends s (f a s)) (a : Option A)
    (into : Snapshot) : Appends into (putSlot f a into) := by
  cases a with
  | none => exact .pure List.prefix_rfl
  | some a => exact .bind _ (hf a into) fun r hr => .pure hr

theorem Appends.seq {C D : Type} {into : Snapshot} {x : M (C × Snapshot)} {f : C × Snapshot → M (D × Snapshot)}
    (hx : Appends into x) (hf : ∀ r, Appends r.2 (f r)) : Appends into (x >>= f) :=
  M.Post.bind (fun r => into <+: r.2) hx fun r hr => (hf r).mono fun _ h => hr.trans h

theorem PanelHead.appends (h : PanelHead L) (into : Snapshot) (d : Bool) : Appends into (h.putSlots into d) := by
  refine (appends_putSlot (fun a s => InstrumentAdapter.appends (fun (i : Counter) s d =>
    appends_keeping (.pure (i.appends s d))) a s d) _ _).seq fun r => ?_
  refine (appends_putSlot (fun a s => GaugeAdapter.appends a s d) _ _).seq fun r => ?_
  refine (appends_putSlot (fun a s => InstrumentAdapter.appends (fun (i : Meter) s d => i.appends s d) a s d) _ _).seq
    fun r => ?_
  refine (appends_putSlot (fun a s => InstrumentAdapter.appends (fun (i : Histogram) s d =>
    appends_keeping (i.appends s d)) a s d) _ _).seq fun r => ?_
  exact .pure List.prefix_rfl

theorem Activity.appends (a : Activity) (into : Snapshot) : Appends into (a.putFlags into) := by
  unfold Activity.putFlags
  cases a.maxInactivity with
  | none => exact .pure List.prefix_rfl
  | some d =>
    refine .ite (.bindAny fun _ => .ite (.pure ?_) (.pure ?_)) (.pure List.prefix_rfl) <;>
      exact prefix_push (prefix_push List.prefix_rfl _ _) _ _

theorem prefix_closeLevel {name : Option String} {into level : Snapshot} (h : levelFor name into <+: level) :
    into <+: closeLevel name into level := by
  cases name with
  | none => exact h
  | some n => exact prefix_push List.prefix_rfl _ _

theorem PanelHead.putSlots_name (h : PanelHead L) (into : Snapshot) (d : Bool) :
    (h.putSlots into d).Post fun r => r.1.name = h.name :=
  .bindAny fun _ => .bindAny fun _ => .bindAny fun _ => .bindAny fun _ => .pure rfl

variable [Custom σ L]

mutual
theorem Panel.appends (hc : CustomAppends σ L) (d : Bool) (p : Panel σ L) (into : Snapshot) :
    Appends into (p.putSnapshot d into) := by
  match p with
  | .mk h ps hs ss =>
    unfold Panel.putSnapshot
    refine .bind _ (h.activity.appends _) fun g hg => .ite ?_ (.pure ?_)
    · refine .bind (fun r => (levelFor h.name into <+: r.2) ∧ r.1.name = h.name) ?_ fun r1 h1 => ?_
      · intro e k r k' hr
        exact ⟨((prefix_default _ _ _).trans hg).trans (h.appends _ _ _ _ _ _ hr), h.putSlots_name _ _ _ _ _ _ hr⟩
      · refine .bind _ (appendsPanels hc d ps _) fun r2 h2 => .bind _ (appendsSnapshooters hc d ss _) fun r3 h3 =>
          .bind _ (appendsHandlers hc d hs _) fun r4 h4 => .pure ?_
        refine prefix_closeLevel ?_
        rw [h1.2]
        exact h1.1.trans (h2.trans (h3.trans h4))
    · exact prefix_closeLevel ((prefix_default _ _ _).trans hg)

theorem appendsPanels (hc : CustomAppends σ L) (d : Bool) (ps : List (Panel σ L)) (into : Snapshot) :
    Appends into (putPanels d ps into) := by
  match ps with
  | [] => unfold putPanels; exact .pure List.prefix_rfl
  | p :: ps =>
    unfold putPanels
    exact (p.appends hc d into).seq fun r => (appendsPanels hc d ps r.2).seq fun r => .pure List.prefix_rfl

theorem Handler.appends (hc : CustomAppends σ L) (d : Bool) (x : Handler σ L) (into : Snapshot) :
    Appends into (x.putSnapshot d into) := by
  match x with
  | .instrument a =>
    unfold Handler.putSnapshot
    exact (a.appends (fun i s d => i.appends hc s d) into d).seq fun r => .pure List.prefix_rfl
  | .gauge a => unfold Handler.putSnapshot; exact (a.appends into d).seq fun r => .pure List.prefix_rfl
  | .panel p => unfold Handler.putSnapshot; exact (p.appends hc d into).seq fun r => .pure List.prefix_rfl
  | .cockpit h ps hs ss =>
    unfold Handler.putSnapshot
    refine .bind _ (h.activity.appends _) fun g hg => .ite ?_ (.pure ?_)
    · refine .bind _ (appendsPanels hc d ps _) fun r2 h2 => .bind _ (appendsHandlers hc d hs _) fun r4 h4 =>
        .bind _ (appendsSnapshooters hc d ss _) fun r3 h3 => .pure ?_
      exact prefix_closeLevel (((prefix_default _ _ _).trans hg).trans (h2.trans (h4.trans h3)))
    · exact prefix_closeLevel ((prefix_default _ _ _).trans hg)
  | .custom s => unfold Handler.putSnapshot; exact Appends.seq (hc.post s into d) fun r => .pure List.prefix_rfl

theorem appendsHandlers (hc : CustomAppends σ L) (d : Bool) (hs : List (Handler σ L)) (into : Snapshot) :
    Appends into (putHandlers d hs into) := by
  match hs with
  | [] => unfold putHandlers; exact .pure List.prefix_rfl
  | p :: ps =>
    unfold putHandlers
    exact (p.appends hc d into).seq fun r => (appendsHandlers hc d ps r.2).seq fun r => .pure List.prefix_rfl

theorem Snapshooter.appends (hc : CustomAppends σ L) (d : Bool) (x : Snapshooter σ L) (into : Snapshot) :
    Appends into (x.putSnapshot d into) := by
  match x with
  | .constant n ds v =>
    unfold Snapshooter.putSnapshot; exact .pure (prefix_push (prefix_postfixed _ _ _ _) _ _)
  | .polling n ds g poll =>
    unfold Snapshooter.putSnapshot
    refine .ite (.bindAny fun r => .pure (prefix_push (prefix_postfixed _ _ _ _) _ _)) ?_
    exact .bind _ (poll.appends hc d _) fun r hr => .pure ((prefix_postfixed _ _ _ _).trans hr)
  | .instrument i =>
    unfold Snapshooter.putSnapshot; exact (i.appends hc into d).seq fun r => .pure List.prefix_rfl
  | .handler h => unfold Snapshooter.putSnapshot; exact (h.appends hc d into).seq fun r => .pure List.prefix_rfl
  | .custom s => unfold Snapshooter.putSnapshot; exact Appends.seq (hc.post s into d) fun r => .pure List.prefix_rfl

theorem appendsSnapshooters (hc : CustomAppends σ L) (d : Bool) (ss : List (Snapshooter σ L)) (into : Snapshot) :
    Appends into (putSnapshooters d ss into) := by
  match ss with
  | [] => unfold putSnapshooters; exact .pure List.prefix_rfl
  | p :: ps =>
    unfold putSnapshooters
    exact (p.appends hc d into).seq fun r => (appendsSnapshooters hc d ps r.2).seq fun r => .pure List.prefix_rfl
end

theorem Cockpit.appends (hc : CustomAppends σ L) (d : Bool) (c : Cockpit σ L) (into : Snapshot) :
    Appends into (c.putSnapshot into d) := by
  refine .bind _ (c.head.activity.appends _) fun g hg => .ite ?_ (.pure ?_)
  · refine .bind _ (appendsPanels hc d _ _) fun r2 h2 => .bind _ (appendsHandlers hc d _ _) fun r4 h4 =>
      .bind _ (appendsSnapshooters hc d _ _) fun r3 h3 => .pure ?_
    exact prefix_closeLevel (((prefix_default _ _ _).trans hg).trans (h2.trans (h4.trans h3)))
  · exact prefix_closeLevel ((prefix_default _ _ _).trans hg)

end Metrix
