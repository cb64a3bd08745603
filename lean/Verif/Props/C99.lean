import Verif.Proof.Own
import Verif.Props.C45

/-! C99: What a part puts into a snapshot does not depend on what is in it. -/

namespace Metrix
variable {σ L : Type} [Custom σ L]

/-- Every instrument. -/
theorem C99_instrument (hc : CustomOwn σ L) (i : Instrument σ) (d : Bool) :
    PutsOwn d fun into => i.putSnapshot L into d := (GoesOn.of_tied fun _ _ _ h => i.tied hc h).own

/-- Handlers: instruments with label filters, or whole panels or cockpits. -/
theorem C99_handler (hc : CustomOwn σ L) (x : Handler σ L) (d : Bool) : PutsOwn d (x.putSnapshot d) :=
  (GoesOn.of_tied fun _ _ _ h => x.tied hc h).own

theorem C99_panel (hc : CustomOwn σ L) (p : Panel σ L) (d : Bool) : PutsOwn d (p.putSnapshot d) :=
  (GoesOn.of_tied fun _ _ _ h => p.tied hc h).own

theorem C99_cockpit (hc : CustomOwn σ L) (c : Cockpit σ L) (d : Bool) : PutsOwn d fun into => c.putSnapshot into d := c.own hc d

theorem C99_snapshooter (hc : CustomOwn σ L) (x : Snapshooter σ L) (d : Bool) : PutsOwn d (x.putSnapshot d) :=
  (GoesOn.of_tied fun _ _ _ h => x.tied hc h).own

theorem C99_processor (hc : CustomOwn σ L) (p : Processor σ L) (d : Bool) : PutsOwn d fun into => p.putSnapshot into d :=
  (GoesOn.of_tied fun _ _ _ h => p.tied hc h).own

/-- Processors, mounts, attached mounts, drivers and user defined processors: everything that can be mounted. -/
theorem C99_mounted [CustomProcessor σ] (hc : CustomOwn σ L) (hp : CustomProcessorOwn σ) (n : Node σ L) (d : Bool) :
    PutsOwn d (n.putSnapshot d) := n.own hc hp d

omit [Custom σ L] in
/-- So without descriptions, and with descriptions as long as there are no titles and descriptions in the snapshot yet, exactly
the items are appended that would be put into an empty snapshot. -/
theorem C99_exactly {C : Type} {d : Bool} {put : Snapshot → M (C × Snapshot)} (h : PutsOwn d put) (into : Snapshot)
    (hi : d = false ∨ ∀ n ∈ into.map (·.1), ¬ IsText n) (e : Env) (k : Nat) :
    put into e k = (put [] e k).map fun r => ((r.1.1, into ++ r.1.2), r.2) := h.eq into hi e k

/-- What is mounted together shows what each of it shows alone, one after the other. -/
theorem C99_mounted_together [CustomProcessor σ] (hc : CustomOwn σ L) (hp : CustomProcessorOwn σ) (ns : List (Node σ L))
    (into : Snapshot) (e : Env) (k : Nat) :
    putNodes false ns into e k =
      (eachAlone (fun n s => n.putSnapshot false s) ns e k).map fun r => ((r.1.1, into ++ r.1.2.flatten), r.2) := by
  rw [eachAlone_eq (puts := putNodes false) (put := fun n s => Node.putSnapshot false n s) (fun n => n.own hc hp false)
    (fun s => by unfold putNodes; rfl) (fun n ns s => by conv => lhs; unfold putNodes), run_map]

/-- So do the cockpits of a processor. -/
theorem C99_cockpits_together (hc : CustomOwn σ L) (cs : List (Cockpit σ L)) (into : Snapshot) (e : Env) (k : Nat) :
    putCockpits false cs into e k =
      (eachAlone (fun c s => c.putSnapshot s false) cs e k).map fun r => ((r.1.1, into ++ r.1.2.flatten), r.2) := by
  rw [eachAlone_eq (puts := putCockpits false) (put := fun (c : Cockpit σ L) s => c.putSnapshot s false) (fun c => c.own hc false)
    (fun s => rfl) (fun c cs s => rfl), run_map]

/-! ## Examples -/

theorem emptyOwn : CustomOwn Empty Nat := fun s => s.elim
theorem emptyProcessorOwn : CustomProcessorOwn Empty := fun s => s.elim

/-- A user defined component that shows how often it was asked. -/
structure Asked where
  times : Nat

instance : Custom Asked Nat where
  update s _ := pure (s, 0)
  handle s _ := pure (s, 0)
  putSnapshot s into _ := pure (⟨s.times + 1⟩, into.push "asked" (.uint s.times))

theorem askedOwn : CustomOwn Asked Nat :=
  fun _ _ => GoesOn.of_tied fun _ _ _ h => .pure ⟨rfl, h.push _ _⟩

/-- A panel without a name, with a title, and a counter with a title, in a snapshot with a title: the title of the panel is
not put, all the rest is. -/
example : (titledPanel.putSnapshot true [("_title", .text "mine")] ticking 0).map (·.1.2) =
      some [("_title", .text "mine"), ("_title_c", .text "C"), ("c", .uint 0)] ∧
    (titledPanel.putSnapshot true [] ticking 0).map (·.1.2) =
      some [("_title", .text "T"), ("_title_c", .text "C"), ("c", .uint 0)] := ⟨rfl, rfl⟩

example := C99_instrument emptyOwn (.counter { name := "c", descr := { title := some "C" } }) true [("_title_c", .text "mine")] ticking 1
example := C99_handler emptyOwn (.panel titledPanel) true [("_title", .text "mine")] ticking 1
example := C99_panel emptyOwn titledPanel true [("_title", .text "mine")] ticking 1
example := C99_cockpit emptyOwn titledCockpit true [("_title", .text "mine")] ticking 1
example := C99_snapshooter askedOwn (.custom ⟨3⟩) true [("x", .uint 1)] ticking 1
example := C99_processor emptyOwn exampleProcessor true [("x", .uint 1)] ticking 1
example := C99_mounted emptyOwn emptyProcessorOwn exampleMount true [("x", .uint 1)] ticking 1

/-- An item of which the name is not that of a title or description. -/
theorem x_not_text : ∀ n ∈ ([("x", .uint 1)] : Snapshot).map (·.1), ¬ IsText n := by
  have ne : ∀ (a p : String), a.toList ≠ [] → a.toList.head? ≠ some 'x' → "x" ≠ a ++ p := by
    intro a p ha hh h
    have := congrArg (·.toList.head?) h
    cases hl : a.toList with
    | nil => exact ha hl
    | cons c cs =>
      simp only [String.toList_append, hl, List.cons_append, List.head?_cons] at this
      rw [hl] at hh
      exact hh this.symm
  rintro n hn (rfl | rfl | ⟨p, rfl | rfl⟩)
  · exact absurd hn (by decide)
  · exact absurd hn (by decide)
  · exact ne "_title_" p (by decide) (by decide) (List.mem_singleton.1 hn).symm
  · exact ne "_description_" p (by decide) (by decide) (List.mem_singleton.1 hn).symm

example := C99_exactly (C99_panel emptyOwn titledPanel true) [("x", .uint 1)] (.inr x_not_text) ticking 1
example := C99_mounted_together emptyOwn emptyProcessorOwn [exampleMount, .processor exampleProcessor] [("x", .uint 1)] ticking 1
example := C99_cockpits_together emptyOwn [titledCockpit, titledCockpit] [("x", .uint 1)] ticking 1

/-- Two mounted, each with a value, next to an item that is there already. -/
example : (eachAlone (fun (n : Node Empty Nat) s => n.putSnapshot false s)
      [.mount { lastActivity := 0 } [] [.constant "a" {} (.uint 1)],
       .mount { lastActivity := 0, name := some "m" } [] [.constant "b" {} (.uint 2)]] ticking 0).map (·.1.2) =
    some [[("a", .uint 1)], [("m", .snapshot [("b", .uint 2)])]] := rfl

end Metrix
