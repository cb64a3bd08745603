import Verif.Props.C17
import Verif.Proof.Processing

/-! # C18: dispatch reaches exactly the instruments whose whole path accepts

`leaves` (in `Verif.Spec.Dispatch`) lists everything in a tree that can react, with the filters around it. -/

namespace Metrix
variable {σ L : Type} [DecidableEq L] [Custom σ L]

/-- Handling an observation by a panel: exactly the reached leaves react, each once, the others are unchanged. Nothing
is added, removed or reordered: the leaves are in the same places and all the rest (`shape`) is unchanged. -/
theorem C18_panel {o : Observation L} {p p' : Panel σ L} {n : Nat} {e : Env} {k k' : Nat}
    (h : p.handle o e k = some ((p', n), k')) :
    (∃ ns, Visited e o k p.leaves p'.leaves ns k' ∧ n = ns.sum) ∧ p'.shape = p.shape := by
  refine ⟨visited_of_dispatch ?_, Panel.handle_shape h⟩
  rw [Panel.dispatch, M.run_bind_some h]; rfl

/-- The same for any handler. -/
theorem C18_handler {o : Observation L} {x x' : Handler σ L} {n : Nat} {e : Env} {k k' : Nat}
    (h : x.handle o e k = some ((x', n), k')) :
    (∃ ns, Visited e o k x.leaves x'.leaves ns k' ∧ n = ns.sum) ∧ x'.shape = x.shape := by
  refine ⟨visited_of_dispatch ?_, Handler.handle_shape h⟩
  rw [Handler.dispatch, M.run_bind_some h]; rfl

/-- The same for cockpits. -/
theorem C18_cockpit {o : Observation L} {c c' : Cockpit σ L} {n : Nat} {e : Env} {k k' : Nat}
    (h : c.handle o e k = some ((c', n), k')) :
    (∃ ns, Visited e o k c.leaves c'.leaves ns k' ∧ n = ns.sum) ∧ c'.shape = c.shape := by
  refine ⟨visited_of_dispatch ?_, Cockpit.handle_shape h⟩
  rw [Cockpit.dispatch, M.run_bind_some h]; rfl

/-- The same for a processor that receives an observation which it does not drop: it is dispatched to everything in all its
cockpits and handlers, and nothing else in the processor changes. -/
theorem C18_processor {d : Decider} {s s' : ProcessorState σ L} {t t' : Tally} {o : Observation L} {e : Env} {k k' : Nat}
    (h : s.receive d t (.observation o) e k = some ((s', t'), k')) (hk : d.shouldBeProcessed o = true) :
    (∃ ns, Visited e o k s.leaves s'.leaves ns k' ∧ t'.updated = t.updated + ns.sum) ∧ s'.frame = s.frame := by
  obtain ⟨v, hv, rfl⟩ := receive_spec (keeps := fun o => d.shouldBeProcessed o = true) (fun _ => Iff.rfl) h
  cases v with
  | dropped =>
    cases hv with
    | dropped hn => exact absurd hk hn
  | processed n =>
    obtain ⟨ns, hvis, rfl, hf⟩ := hv.visited
    exact ⟨⟨ns, hvis, rfl⟩, hf⟩

/-- It panics only if one of the leaves panics when they are visited in that order. -/
theorem C18_panics (o : Observation L) (e : Env) (k : Nat) :
    (∀ p : Panel σ L, p.handle o e k = none ↔ dispatch o p.leaves e k = none) ∧
    (∀ c : Cockpit σ L, c.handle o e k = none ↔ dispatch o c.leaves e k = none) := by
  refine ⟨fun p => ?_, fun c => ?_⟩
  · rw [Panel.dispatch, M.run_bind]; cases p.handle o e k <;> simp
  · rw [Cockpit.dispatch, M.run_bind]; cases c.handle o e k <;> simp

/-- How a reached instrument reacts: it is updated, once, with the observation as an update (changed by the adapter's
modifier if there is one). -/
theorem C18_reached_instrument {a : InstrumentAdapter L (Instrument σ)} {o : Observation L}
    (hr : a.labelFilter.accepts o.label = true) {leaf : Leaf σ L} {n : Nat} {e : Env} {k k' : Nat} :
    (Leaf.instrument a).react o e k = some ((leaf, n), k') ↔
      ∃ i, Instrument.update L a.instrument (a.modifyUpdate.modify o.label o.content) e k = some ((i, n), k') ∧
        leaf = .instrument { a with instrument := i } := by
  simp only [Leaf.react, InstrumentAdapter.handle, if_pos hr, M.bind_eq_some, M.run_pure, Option.some.injEq,
    Prod.mk.injEq, Prod.exists]
  constructor
  · rintro ⟨_, _, _, ⟨i, _, _, h, ⟨rfl, rfl⟩, rfl⟩, ⟨rfl, rfl⟩, rfl⟩; exact ⟨i, h, rfl⟩
  · rintro ⟨i, h, rfl⟩; exact ⟨_, _, _, ⟨i, _, _, h, ⟨rfl, rfl⟩, rfl⟩, ⟨rfl, rfl⟩, rfl⟩

/-- A tree for the example: a panel for labels 1 and 2 with a counter for all labels, in it a panel for label 2 with a
counter. -/
def exampleTree : Panel Empty Nat :=
  .mk { labelFilter := .many [1, 2], activity := ⟨0, none, true⟩, counter := some (.new { name := "c", count := 0 }) }
    [.mk { labelFilter := .one 2, activity := ⟨0, none, true⟩, counter := some (.new { name := "d", count := 0 }) } [] [] []]
    [] []

instance : Custom Empty Nat := ⟨fun s => s.elim, fun s => s.elim, fun s => s.elim⟩

/-- For label 1 the outer counter is reached, not the inner one. -/
example : (exampleTree.leaves.map fun x => x.1.all (·.accepts 1)) = [true, false] ∧
    (exampleTree.leaves.map fun x => x.1.all (·.accepts 2)) = [true, true] ∧
    (exampleTree.leaves.map fun x => x.1.all (·.accepts 3)) = [false, false] := by decide

example (e : Env) (k : Nat) :
    (exampleTree.handle (.observed 1 1 0) e k).map (·.1.2) = some 1 := rfl

/-- The same tree in a cockpit and as a handler of a processor: an observation with label 2 reaches all four counters. -/
example (e : Env) (k : Nat) :
    let s : ProcessorState Empty Nat := {
      activity := ⟨0, none, true⟩
      cockpits := [{ head := { activity := ⟨0, none, true⟩ }, panels := [exampleTree] }]
      handlers := [.panel exampleTree] }
    (s.receive .processAll {} (.observation (.observed 2 1 0)) e k).map (·.1.2) = some ⟨1, 0, 4⟩ := rfl

example (e : Env) (k : Nat) := C18_panel (o := .observedOne 2 0) (p := exampleTree) (e := e) (k := k) rfl
example (e : Env) (k : Nat) := C18_handler (o := .observedOne 2 0) (x := .panel exampleTree) (e := e) (k := k) rfl
example (e : Env) (k : Nat) := C18_cockpit (o := .observedOne 2 0)
  (c := { head := { name := none, activity := ⟨0, none, true⟩ }, panels := [exampleTree] }) (e := e) (k := k) rfl
example (e : Env) (k : Nat) := C18_processor (d := .processAll) (o := .observedOne 2 0)
  (s := { activity := ⟨0, none, true⟩, handlers := [.panel exampleTree] }) (t := {}) (e := e) (k := k) rfl rfl
example (leaf : Leaf Empty Nat) (n : Nat) (e : Env) (k k' : Nat) := C18_reached_instrument (leaf := leaf) (n := n) (e := e) (k := k) (k' := k')
  (a := .accept (.one 1) (.counter { name := "c" })) (o := .observedOne 1 0)
  (by decide)
example (e : Env) (k : Nat) := C17_panel exampleTree (.observedOne 3 0) (by decide) e k
example (e : Env) (k : Nat) := C17_boxed_adapter (σ := Empty) (L := Nat) (.accept (.one 1) (.counter { name := "c" })) (.observedOne 2 0)
  (by decide) e k

end Metrix
