import Verif.Proof.DescribeDriver
import Verif.Props.C45

/-!
# C46 Descriptive texts never get in the way of values

For each kind of component:
* a snapshot without texts is the one the component would make if neither it nor anything in it had a title or a
  description (`undescribed`),
* a descriptive snapshot is the same with texts added (`Described`, in `Verif.Spec.Describe`): the same values in the same
  order, and whenever a text was added its label was not in that group yet,
* the texts are there (`Shows`).

Mounted drivers are the exception, see the end. User defined components have to keep the rule themselves.
-/

namespace Metrix
variable {σ L : Type}

/-- What the first two points say of `put`, given the same component without texts. With `.any` instead of `.fresh` a label of a
text may already be there. -/
def TextsAdded (labels : TextLabels) {C : Type} (put : Snapshot → Bool → M (C × Snapshot))
    (putUndescribed : Snapshot → Bool → M (C × Snapshot)) : Prop :=
  ∀ (into : Snapshot) (e : Env) (k : Nat),
    (put into false e k).map (fun r => (r.1.2, r.2)) = (putUndescribed into false e k).map (fun r => (r.1.2, r.2)) ∧
    Option.Rel (fun a b => a.2 = b.2 ∧ Described labels true a.1.2 b.1.2) (put into false e k) (put into true e k)

/-- How it follows from the relation of the proofs. -/
theorem TextsAdded.of_puts {labels : TextLabels} {C : Type} {put put' : Snapshot → Bool → M (C × Snapshot)} {f : C → C}
    (h : ∀ d into, Puts labels d f (put' into false) (put into d)) : TextsAdded labels put put' := by
  intro into e k
  have h1 := h false into e k
  have h2 := h true into e k
  revert h1 h2
  cases put' into false e k with
  | none =>
    cases put into false e k with
    | some b => intro h1 h2; cases h1
    | none =>
      cases put into true e k with
      | some b => intro h1 h2; cases h2
      | none => exact fun _ _ => ⟨rfl, .none⟩
  | some a =>
    cases put into false e k with
    | none => intro h1 h2; cases h1
    | some b =>
      cases put into true e k with
      | none => intro h1 h2; cases h2
      | some c =>
        intro h1 h2
        cases h1 with
        | some h1 =>
          cases h2 with
          | some h2 =>
            have hs := (described_false rfl).1 h1.2.2
            refine ⟨by simp [hs, h1.1], .some ⟨h1.1.symm.trans h2.1, ?_⟩⟩
            rw [← hs]; exact h2.2.2

variable [Custom σ L]

theorem C46_instrument (hc : CustomDescribes σ L) (i : Instrument σ) :
    TextsAdded .fresh (i.putSnapshot L) (i.undescribed.putSnapshot L) :=
  .of_puts fun _ _ => i.described hc (.refl _)

theorem C46_handler (hc : CustomDescribes σ L) (x : Handler σ L) :
    TextsAdded .fresh (fun s d => x.putSnapshot d s) (fun s d => x.undescribed.putSnapshot d s) :=
  .of_puts fun _ _ => x.described hc (.refl _)

theorem C46_panel (hc : CustomDescribes σ L) (p : Panel σ L) :
    TextsAdded .fresh (fun s d => p.putSnapshot d s) (fun s d => p.undescribed.putSnapshot d s) :=
  .of_puts fun _ _ => p.described hc (.refl _)

theorem C46_cockpit (hc : CustomDescribes σ L) (c : Cockpit σ L) :
    TextsAdded .fresh c.putSnapshot c.undescribed.putSnapshot :=
  .of_puts fun _ _ => c.described hc (.refl _)

theorem C46_snapshooter (hc : CustomDescribes σ L) (x : Snapshooter σ L) :
    TextsAdded .fresh (fun s d => x.putSnapshot d s) (fun s d => x.undescribed.putSnapshot d s) :=
  .of_puts fun _ _ => x.described hc (.refl _)

theorem C46_processor (hc : CustomDescribes σ L) (p : Processor σ L) :
    TextsAdded .fresh p.putSnapshot p.undescribed.putSnapshot :=
  .of_puts fun _ _ => p.described hc (.refl _)

/-- Mounts. What is missing: mounted drivers without a name (`C46_driver_duplicates`), but see `C46_node_values`. -/
theorem C46_node_partial [CustomProcessor σ] (hc : CustomDescribes σ L) (hp : CustomProcessorDescribes σ) (n : Node σ L)
    (hn : n.DriversGive NamedAnswer) :
    TextsAdded .fresh (fun s d => n.putSnapshot d s) (fun s d => n.undescribed.putSnapshot d s) :=
  .of_puts fun _ _ => n.described hc hp (fun _ h => h.good) hn (.refl _)

/-- The snapshots of a driver. They are made in an empty snapshot. What is missing: drivers without a name that are mounted in
it, but see `C46_driver_values`. -/
theorem C46_driver_partial [CustomProcessor σ] (hc : CustomDescribes σ L) (hp : CustomProcessorDescribes σ) (l : LoopState σ L)
    (hn : DriversGiveIn NamedAnswer l.processors) (e : Env) (k : Nat) :
    (l.makeSnapshot false e k).map (fun r => (r.1.2, r.2)) = (l.undescribed.makeSnapshot false e k).map (fun r => (r.1.2, r.2)) ∧
    Option.Rel (fun a b => a.2 = b.2 ∧ Described .fresh true a.1.2 b.1.2) (l.makeSnapshot false e k) (l.makeSnapshot true e k) :=
  TextsAdded.of_puts (put := fun _ d => l.makeSnapshot d) (put' := fun _ d => l.undescribed.makeSnapshot d)
    (fun _ _ => l.described hc hp (fun _ h => h.good) hn) [] e k

/-- Mounts with any drivers in them, with or without a name: the values are the same and in the same order. Only the label of
a text may be there already. -/
theorem C46_node_values [CustomProcessor σ] (hc : CustomDescribes σ L) (hp : CustomProcessorDescribes σ) (n : Node σ L)
    (hn : n.DriversGive AnyAnswer) :
    TextsAdded .any (fun s d => n.putSnapshot d s) (fun s d => n.undescribed.putSnapshot d s) :=
  .of_puts fun _ _ => n.described hc hp (fun _ h => h.good) hn (.refl _)

/-- Drivers with any drivers mounted in them. -/
theorem C46_driver_values [CustomProcessor σ] (hc : CustomDescribes σ L) (hp : CustomProcessorDescribes σ) (l : LoopState σ L)
    (hn : DriversGiveIn AnyAnswer l.processors) (e : Env) (k : Nat) :
    (l.makeSnapshot false e k).map (fun r => (r.1.2, r.2)) = (l.undescribed.makeSnapshot false e k).map (fun r => (r.1.2, r.2)) ∧
    Option.Rel (fun a b => a.2 = b.2 ∧ Described .any true a.1.2 b.1.2) (l.makeSnapshot false e k) (l.makeSnapshot true e k) :=
  TextsAdded.of_puts (put := fun _ d => l.makeSnapshot d) (put' := fun _ d => l.undescribed.makeSnapshot d)
    (fun _ _ => l.described hc hp (fun _ h => h.good) hn) [] e k

/-- What is asked of mounted drivers is what drivers do: the snapshot a driver would make at any moment is such an answer, also
if it has drivers mounted in it itself. If it has a name and the drivers in it have names, it is one with a name. -/
theorem C46_driver_answers [CustomProcessor σ] (hc : CustomDescribes σ L) (hp : CustomProcessorDescribes σ) (l : LoopState σ L)
    (e : Env) (k : Nat) :
    (DriversGiveIn AnyAnswer l.processors → AnyAnswer fun d => (l.makeSnapshot d e k).map (·.1.2)) ∧
    (DriversGiveIn NamedAnswer l.processors → l.name.isSome → NamedAnswer fun d => (l.makeSnapshot d e k).map (·.1.2)) := by
  constructor
  · intro hn
    have h := (C46_driver_values hc hp l hn e k).2
    cases hf : l.makeSnapshot false e k with
    | none =>
      cases ht : l.makeSnapshot true e k with
      | none => exact .inl fun d => by cases d <;> simp [hf, ht]
      | some y => rw [hf, ht] at h; cases h
    | some x =>
      cases ht : l.makeSnapshot true e k with
      | none => rw [hf, ht] at h; cases h
      | some y =>
        rw [hf, ht] at h
        cases h with
        | some h =>
          refine .inr ⟨fun d => if d then y.1.2 else x.1.2, fun d => by cases d <;> simp [hf, ht], fun d => ?_⟩
          cases d
          · exact .refl _
          · exact h.2
  · intro hn hname
    obtain ⟨n, hname⟩ := Option.isSome_iff_exists.1 hname
    have run : ∀ d, (l.makeSnapshot d e k).map (·.1.2) =
        (l.addSnapshotValues [] d (e.clock k) e (k + 1)).map fun r => [(n, .snapshot r.1.2)] := by
      intro d
      have : l.makeSnapshot d = (M.now >>= fun started => l.addSnapshotValues [] d started >>= fun r =>
          pure (r.1, [(n, .snapshot r.2)])) := by
        unfold LoopState.makeSnapshot
        rw [hname]
      rw [this, M.run_bind_some (a := e.clock k) (k' := k + 1) rfl]
      cases h : l.addSnapshotValues [] d (e.clock k) e (k + 1) with
      | none => rw [M.run_bind_none h]; rfl
      | some r => rw [M.run_bind_some h]; rfl
    have h := (TextsAdded.of_puts (labels := .fresh) (put := fun _ d => l.addSnapshotValues [] d (e.clock k))
      (put' := fun _ d => l.undescribed.addSnapshotValues [] d (e.clock k))
      (fun _ _ => l.describedValues hc hp (fun _ h => h.good) hn (e.clock k) .nil) [] e (k + 1)).2
    simp only [NamedAnswer, run]
    cases hf : l.addSnapshotValues [] false (e.clock k) e (k + 1) with
    | none =>
      cases ht : l.addSnapshotValues [] true (e.clock k) e (k + 1) with
      | none => exact .inl fun d => by cases d <;> simp [hf, ht]
      | some y => simp only [hf, ht] at h; cases h
    | some x =>
      cases ht : l.addSnapshotValues [] true (e.clock k) e (k + 1) with
      | none => simp only [hf, ht] at h; cases h
      | some y =>
        simp only [hf, ht] at h
        cases h with
        | some h =>
          refine .inr ⟨n, fun d => if d then y.1.2 else x.1.2, fun d => by cases d <;> simp [hf, ht], fun d => ?_⟩
          cases d
          · exact .refl _
          · exact h.2

/-! ## The texts are there

For components that put their values in a group of their own: `C45_named_panel` etc. with `into := []`. -/

theorem C46_instrument_texts {i i' : Instrument σ} {n : String} {ds : Descr} (hi : i.about = some (n, ds))
    {into s : Snapshot} {e : Env} {k k' : Nat} (h : i.putSnapshot L into true e k = some ((i', s), k')) :
    Shows ("_title" ++ "_" ++ n) ds.title into s ∧ Shows ("_description" ++ "_" ++ n) ds.description into s :=
  shows_postfixed (Instrument.appends_about hi into true _ _ _ _ h)

theorem C46_panel_texts (hc : CustomAppends σ L) {p p' : Panel σ L} (hn : p.name = none) {into s : Snapshot} {e : Env}
    {k k' : Nat} (h : p.putSnapshot true into e k = some ((p', s), k')) :
    Shows "_title" p.head.descr.title into s ∧ Shows "_description" p.head.descr.description into s := by
  obtain ⟨hd, ps, hs, ss⟩ := p
  exact shows_default (Panel.putSnapshot_texts true (show hd.name = none from hn) ps hs ss into _ _ _ _ h hc)

theorem C46_cockpit_texts (hc : CustomAppends σ L) {c c' : Cockpit σ L} (hn : c.name = none) {into s : Snapshot} {e : Env}
    {k k' : Nat} (h : c.putSnapshot into true e k = some ((c', s), k')) :
    Shows "_title" c.head.descr.title into s ∧ Shows "_description" c.head.descr.description into s :=
  shows_default (Cockpit.putSnapshot_texts hc true hn into _ _ _ _ h)

theorem C46_processor_texts (hc : CustomAppends σ L) {p p' : Processor σ L} (hn : p.state.name = none)
    {into s : Snapshot} {e : Env} {k k' : Nat} (h : p.putSnapshot into true e k = some ((p', s), k')) :
    Shows "_title" p.state.descr.title into s ∧ Shows "_description" p.state.descr.description into s :=
  shows_default (Processor.putSnapshot_texts hc true hn into _ _ _ _ h)

theorem C46_mount_texts [CustomProcessor σ] (hc : CustomAppends σ L) (hp : CustomProcessorAppends σ) {h : MountHead}
    (hn : h.name = none) {ns : List (Node σ L)} {ss : List (Snapshooter σ L)} {n' : Node σ L} {into s : Snapshot} {e : Env}
    {k k' : Nat} (hput : (Node.mount h ns ss).putSnapshot true into e k = some ((n', s), k')) :
    Shows "_title" h.descr.title into s ∧ Shows "_description" h.descr.description into s :=
  shows_default (Node.mount_texts hc hp true hn ns ss into _ _ _ _ hput)

/-- The texts of a driver are in its group, or in the snapshot if it has no name. -/
theorem C46_driver_texts [CustomProcessor σ] (hc : CustomAppends σ L) (hp : CustomProcessorAppends σ) {l l' : LoopState σ L}
    {s : Snapshot} {e : Env} {k k' : Nat} (h : l.makeSnapshot true e k = some ((l', s), k')) :
    ∃ level, (s = match l.name with
        | some n => [(n, .snapshot level)]
        | none => level) ∧
      Shows "_title" l.descr.title [] level ∧ Shows "_description" l.descr.description [] level := by
  obtain ⟨level, hv, hs⟩ := makeSnapshot_spec h
  refine ⟨level, hs.trans (by cases l.name <;> rfl), shows_default (LoopState.addSnapshotValues_texts hc hp _ _ _ _ _ _ _ _ hv)⟩

/-! ## A mounted driver without a name

Its texts are pushed into the snapshot without looking for the label (`src/driver.rs:288-297`). -/

/-- A driver with a title and without a name is in a mount with a title. The snapshot has the label twice. The answers are
those of a driver without anything in it. -/
theorem C46_driver_duplicates : ∃ (n : Node Empty Nat) (as : List (Bool → Option Snapshot)) (s : Snapshot),
    n = .mount { lastActivity := 0, descr := { title := some "A" } } [.driver as] [] ∧
    (∀ a ∈ as, a false = some [] ∧ a true = some [("_title", .text "B")]) ∧
    (n.putSnapshot true [] ticking 0).map (·.1.2) = some s ∧
    s = [("_title", .text "A"), ("_title", .text "B")] :=
  ⟨_, [fun d => if d then some [("_title", .text "B")] else some []], _, rfl, by simp, rfl, rfl⟩

/-! ## Examples -/

example : CustomDescribes Empty Nat := fun s => s.elim
example : CustomProcessorDescribes Empty := fun s => s.elim
example : exampleMount.DriversGive NamedAnswer := by simp [exampleMount, Node.DriversGive, DriversGiveIn]

/-- The answers of a driver with name and title, mounted. -/
example : (Node.mount { lastActivity := 0 } [.driver [fun d => some [("d", .snapshot (putText "_title" (if d then some "t" else none) []))]]] [] :
    Node Empty Nat).DriversGive NamedAnswer := by
  simp only [Node.DriversGive, DriversGiveIn, and_true, List.mem_singleton, forall_eq]
  refine .inr ⟨"d", fun d => putText "_title" (if d then some "t" else none) [], fun d => rfl, fun d => ?_⟩
  cases d
  · exact .nil
  · exact .text (s := []) (t := []) "t" rfl .nil (.inl rfl) (by simp)

/-- A driver with a name and a title, and a mounted driver that has a name. -/
def titledDriver : LoopState Empty Nat where
  name := some "d"
  descr := { title := some "D" }
  metrics := none
  lastOutcomeLogged := 0
  strategy := .processAll
  processors := [exampleMount, .driver [fun _ => some [("x", .snapshot [])]]]

example : DriversGiveIn NamedAnswer titledDriver.processors := by
  simp only [titledDriver, exampleMount, Node.DriversGive, DriversGiveIn, and_true, List.mem_singleton, forall_eq, true_and]
  exact .inr ⟨"x", fun _ => [], fun _ => rfl, fun _ => .nil⟩

/-- A panel with a title, a counter with a title in it, and another counter with the same name and another title. -/
example : ((Panel.mk
      { labelFilter := .acceptAll, name := some "p", descr := { title := some "T" }, activity := { lastActivity := 0 } } []
      [.instrument (.new (.counter { name := "c", descr := { title := some "C" } })),
       .instrument (.new (.counter { name := "c", descr := { title := some "D" } }))] [] :
      Panel Empty Nat).putSnapshot true [] ticking 0).map (·.1.2) =
    some [("p", .snapshot [("_title", .text "T"), ("_title_c", .text "C"), ("c", .uint 0), ("c", .uint 0)])] := by rfl

theorem emptyDescribes : CustomDescribes Empty Nat := fun s => s.elim
theorem emptyProcessorDescribes : CustomProcessorDescribes Empty := fun s => s.elim

example := C46_panel emptyDescribes titledPanel
example := C46_cockpit emptyDescribes titledCockpit
example := C46_node_partial emptyDescribes emptyProcessorDescribes exampleMount
  (by simp [exampleMount, Node.DriversGive, DriversGiveIn])
/-- The mount of `C46_driver_duplicates`: the driver in it has no name. -/
example := C46_node_values emptyDescribes emptyProcessorDescribes
  (.mount { lastActivity := 0, descr := { title := some "A" } }
    [.driver [fun d => some (putText "_title" (if d then some "B" else none) [])]] [])
  (by
    simp only [Node.DriversGive, DriversGiveIn, and_true, List.mem_singleton, forall_eq]
    refine .inr ⟨fun d => putText "_title" (if d then some "B" else none) [], fun d => rfl, fun d => ?_⟩
    cases d
    · exact .nil
    · exact .text (s := []) (t := []) "B" rfl .nil (.inl rfl) (by simp))
example := (C46_driver_answers emptyDescribes emptyProcessorDescribes titledDriver ticking 1).2
  (by
    simp only [titledDriver, exampleMount, Node.DriversGive, DriversGiveIn, and_true, List.mem_singleton, forall_eq, true_and]
    exact .inr ⟨"x", fun _ => [], fun _ => rfl, fun _ => .nil⟩) rfl
example := C46_instrument_texts (σ := Empty) (L := Nat) (i := .counter { name := "c", descr := { title := some "C" } }) rfl
  (into := [("x", .uint 1)]) (e := ticking) (k := 1) rfl
example := C46_panel_texts emptyAppends (p := titledPanel) rfl (into := [("x", .uint 1)]) (e := ticking) (k := 1) rfl
example := C46_cockpit_texts emptyAppends (c := titledCockpit) rfl (into := [("x", .uint 1)]) (e := ticking) (k := 1) rfl
example := C46_processor_texts emptyAppends (p := exampleProcessor) rfl (into := [("x", .uint 1)]) (e := ticking) (k := 1) rfl
example := C46_mount_texts emptyAppends emptyProcessorAppends (h := { lastActivity := 0, descr := { title := some "T" } }) rfl
  (ns := [exampleMount]) (ss := []) (into := [("x", .uint 1)]) (e := ticking) (k := 1) rfl
example := C46_driver_texts emptyAppends emptyProcessorAppends (l := titledDriver) (e := ticking) (k := 1) rfl

end Metrix
