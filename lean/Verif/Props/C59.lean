import Verif.Proof.Exhibits
import Verif.Props.C06
import Verif.Props.C50

/-!
# C59 A snapshot shows every instrument in the group of the containers around it

`exhibits` lists the things in a tree that put values, each with the names of the containers around it and with what
these containers know about their activity. `Displays` says that a snapshot shows each of them at its place, and nothing else.
-/

namespace Metrix
variable {σ L : Type} [Custom σ L]

section
variable {d : Bool} {e : Env} {s s' : Snapshot} {k k' : Nat}

theorem C59_panel (hc : CustomForward σ L) (ha : CustomAppends σ L) (mono : e.Mono) {p p' : Panel σ L}
    (h : p.putSnapshot d s e k = some ((p', s'), k')) :
    ∃ own, s' = s ++ own ∧ Displays (fun x : Snapshooter σ L => x.Put d e) d e k p.exhibits p.groups k' own :=
  Panel.displays hc ha mono h

theorem C59_handler (hc : CustomForward σ L) (ha : CustomAppends σ L) (mono : e.Mono) {x x' : Handler σ L}
    (h : x.putSnapshot d s e k = some ((x', s'), k')) :
    ∃ own, s' = s ++ own ∧ Displays (fun x : Snapshooter σ L => x.Put d e) d e k x.exhibits x.groups k' own :=
  Handler.displays hc ha mono h

theorem C59_snapshooter (hc : CustomForward σ L) (ha : CustomAppends σ L) (mono : e.Mono) {x x' : Snapshooter σ L}
    (h : x.putSnapshot d s e k = some ((x', s'), k')) :
    ∃ own, s' = s ++ own ∧ Displays (fun x : Snapshooter σ L => x.Put d e) d e k x.exhibits x.groups k' own :=
  Snapshooter.displays hc ha mono h

theorem C59_cockpit (hc : CustomForward σ L) (ha : CustomAppends σ L) (mono : e.Mono) {c c' : Cockpit σ L}
    (h : c.putSnapshot s d e k = some ((c', s'), k')) :
    ∃ own, s' = s ++ own ∧ Displays (fun x : Snapshooter σ L => x.Put d e) d e k c.exhibits c.groups k' own :=
  Cockpit.displays hc ha mono h

theorem C59_processor (hc : CustomForward σ L) (ha : CustomAppends σ L) (mono : e.Mono) {p p' : Processor σ L}
    (h : p.putSnapshot s d e k = some ((p', s'), k')) :
    ∃ own, s' = s ++ own ∧
      Displays (fun x : Snapshooter σ L => x.Put d e) d e k p.state.exhibits p.state.groups k' own := by
  simp only [Processor.putSnapshot, M.bind_eq_some, M.run_pure, Option.some.injEq, Prod.mk.injEq] at h
  obtain ⟨⟨a', s₁⟩, k₁, h1, ⟨rfl, rfl⟩, rfl⟩ := h
  exact ProcessorState.displays hc ha mono h1

variable [CustomProcessor σ]

/-- Mounts, attached mounts and everything that can be in them. -/
theorem C59_node (hc : CustomProper σ L) (mono : e.Mono) {n n' : Node σ L}
    (h : n.putSnapshot d s e k = some ((n', s'), k')) :
    ∃ own, s' = s ++ own ∧ Displays (fun x : MountedThing σ L => x.Put d e) d e k n.exhibits n.groups k' own :=
  Node.displays hc mono h

/-- The snapshot that a driver makes. -/
theorem C59_driver (hc : CustomProper σ L) (mono : e.Mono) {l l' : LoopState σ L}
    (h : l.makeSnapshot d e k = some ((l', s), k')) :
    Displays (fun x : MountedThing σ L => x.Put d e) d e k l.exhibits l.groups k' s :=
  LoopState.displays hc mono h

end

/-! ## Counters

As an example of what this means for an instrument: the value of a counter is at its place, under its name. -/

theorem Counter.put_item {a : InstrumentAdapter L (Instrument σ)} {c : Counter} (ha : a.instrument = .counter c) {d : Bool} {e : Env}
    {k k' : Nat} {items : Snapshot} (h : (Snapshooter.handler (.instrument a) : Snapshooter σ L).Put d e k items k') :
    (c.name, ItemKind.uint c.count) ∈ items := by
  obtain ⟨into, x', h⟩ := h
  unfold Snapshooter.putSnapshot Handler.putSnapshot at h
  simp only [InstrumentAdapter.putSnapshot, ha, Instrument.putSnapshot, IsInstrument.putSnapshot, keeping, Counter.putSnapshot,
    bind_assoc, pure_bind, M.run_pure, Option.some.injEq, Prod.mk.injEq] at h
  obtain ⟨⟨_, h⟩, _⟩ := h
  obtain ⟨texts, ht⟩ := prefix_postfixed c.descr c.name into d
  rw [← ht] at h
  simp only [Snapshot.push, List.append_assoc, List.append_cancel_left_eq] at h
  rw [← h]; simp

/-- A counter anywhere in a processor. -/
theorem C59_counter (hc : CustomForward σ L) (hap : CustomAppends σ L) {e : Env} (mono : e.Mono) {p p' : Processor σ L}
    {d : Bool} {s s' : Snapshot} {k k' : Nat} (h : p.putSnapshot s d e k = some ((p', s'), k'))
    {a : InstrumentAdapter L (Instrument σ)} {c : Counter} (ha : a.instrument = .counter c) {path : List String} {around : List Activity}
    (hx : ⟨path, around, .handler (.instrument a)⟩ ∈ p.state.exhibits)
    (hact : ∀ act ∈ around, act.ShowsValuesAt (e.clock k')) :
    ∃ own, s' = s ++ own ∧ own.HasAt path c.name (.uint c.count) := by
  obtain ⟨own, rfl, hd⟩ := C59_processor hc hap mono h
  obtain ⟨k₁, k₂, items, _, _, hp, level, hg, hi⟩ := hd.shown _ hx hact
  exact ⟨own, rfl, level, hg, hi.subset (Counter.put_item ha hp)⟩

/-! ## Example -/

/-- A processor "proc" with a cockpit without a name with a panel "a", and in that a panel "b" with a counter, next to a
polled constant. -/
def groupedProcessor : Processor Empty Nat where
  state :=
    { name := some "proc", activity := ⟨0, some 5000000000, true⟩
      cockpits := [{ head := { activity := ⟨0, none, true⟩ }
                     panels := [.mk { labelFilter := .acceptAll, name := some "a", activity := ⟨0, none, true⟩ }
                       [.mk { labelFilter := .acceptAll, name := some "b", activity := ⟨0, none, true⟩
                              counter := some (.new { name := "hits", count := 3 }) } [] [] []]
                       [] [.polling "poll" {} true (.constant "c" {} (.uint 3))]] }] }
  receiver := { chan := .fresh none true [{ todo := [], drops := false }] }

example : groupedProcessor.state.groups = [["proc"], ["proc", "a"], ["proc", "a", "b"], ["proc", "a", "poll"]] := by
  decide +kernel

example : groupedProcessor.state.exhibits.map (fun x => (x.path, x.around.length)) =
    [(["proc", "a", "b"], 4), (["proc", "a", "poll"], 3)] := by decide +kernel

example : (groupedProcessor.putSnapshot [("x", .uint 1)] false ticking 1).map (·.1.2) =
    some [("x", .uint 1), ("proc", .snapshot [("_inactive", .boolean false), ("_active", .boolean true),
      ("a", .snapshot [("b", .snapshot [("hits", .uint 3)]), ("poll", .snapshot [("c", .uint 3)])])])] := by rfl

/-- None of the containers around the counter is inactive. -/
example : ∀ x ∈ groupedProcessor.state.exhibits, ∀ a ∈ x.around, a.ShowsValuesAt (ticking.clock 2) := by
  intro x hx a ha
  have h1 : groupedProcessor.state.exhibits.flatMap (·.around) =
      [⟨0, some 5000000000, true⟩, ⟨0, none, true⟩, ⟨0, none, true⟩, ⟨0, none, true⟩,
       ⟨0, some 5000000000, true⟩, ⟨0, none, true⟩, ⟨0, none, true⟩] := by decide +kernel
  have h2 : a ∈ groupedProcessor.state.exhibits.flatMap (·.around) := List.mem_flatMap.mpr ⟨x, hx, ha⟩
  rw [h1] at h2
  simp only [List.mem_cons, List.not_mem_nil, or_false] at h2
  rcases h2 with rfl | rfl | rfl | rfl | rfl | rfl | rfl <;> exact .inr (by simp <;> decide)

example : CustomProper Empty Nat :=
  ⟨emptyForward, fun s => s.elim, ⟨fun s => s.elim, fun s => s.elim⟩, fun s => s.elim⟩

end Metrix
