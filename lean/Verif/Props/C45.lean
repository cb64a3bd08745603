import Verif.Proof.Named
import Verif.Props.C50

/-!
# C45 Snapshots only append

`into <+: s`: `s` starts with the items of `into`, in order. User defined components have to keep the rule themselves.
-/

namespace Metrix
variable {σ L : Type} [Custom σ L]

/-- Instruments keep what is in the snapshot. -/
theorem C45_instrument (hc : CustomAppends σ L) {i i' : Instrument σ} {d : Bool} {into s : Snapshot} {e : Env} {k k' : Nat}
    (h : i.putSnapshot L into d e k = some ((i', s), k')) : into <+: s := i.appends hc into d _ _ _ _ h

/-- Handlers (instruments with a label filter, panels, cockpits as handlers) keep what is in the snapshot. -/
theorem C45_handler (hc : CustomAppends σ L) {x x' : Handler σ L} {d : Bool} {into s : Snapshot} {e : Env} {k k' : Nat}
    (h : x.putSnapshot d into e k = some ((x', s), k')) : into <+: s := x.appends hc d into _ _ _ _ h

theorem C45_panel (hc : CustomAppends σ L) {p p' : Panel σ L} {d : Bool} {into s : Snapshot} {e : Env} {k k' : Nat}
    (h : p.putSnapshot d into e k = some ((p', s), k')) : into <+: s := p.appends hc d into _ _ _ _ h

theorem C45_cockpit (hc : CustomAppends σ L) {c c' : Cockpit σ L} {d : Bool} {into s : Snapshot} {e : Env} {k k' : Nat}
    (h : c.putSnapshot into d e k = some ((c', s), k')) : into <+: s := c.appends hc d into _ _ _ _ h

theorem C45_snapshooter (hc : CustomAppends σ L) {x x' : Snapshooter σ L} {d : Bool} {into s : Snapshot} {e : Env}
    {k k' : Nat} (h : x.putSnapshot d into e k = some ((x', s), k')) : into <+: s := x.appends hc d into _ _ _ _ h

/-- Processors, mounts, attached mounts and drivers keep what is in the snapshot. -/
theorem C45_node [CustomProcessor σ] (hc : CustomAppends σ L) (hp : CustomProcessorAppends σ) {n n' : Node σ L} {d : Bool}
    {into s : Snapshot} {e : Env} {k k' : Nat} (h : n.putSnapshot d into e k = some ((n', s), k')) : into <+: s :=
  n.appends hc hp d into _ _ _ _ h

/-! ## Names

Each time: the result of the named component is exactly one more item, which holds what the same component without a
name puts into an empty snapshot. This includes when it panics and how often it reads the clock. -/

theorem C45_named_panel {h : PanelHead L} {n : String} (hn : h.name = some n) (ps : List (Panel σ L))
    (hs : List (Handler σ L)) (ss : List (Snapshooter σ L)) (d : Bool) (into : Snapshot) (e : Env) (k : Nat) :
    ((Panel.mk h ps hs ss).putSnapshot d into e k).map (fun r => (r.1.2, r.2)) =
      ((Panel.mk { h with name := none } ps hs ss).putSnapshot d [] e k).map
        fun r => (into ++ [(n, .snapshot r.1.2)], r.2) := by
  rw [Panel.putSnapshot_named d hn, run_map, Option.map_map]; rfl

theorem C45_named_cockpit {c : Cockpit σ L} {n : String} (hn : c.name = some n) (d : Bool) (into : Snapshot) (e : Env)
    (k : Nat) :
    (c.putSnapshot into d e k).map (fun r => (r.1.2, r.2)) =
      (({ c with head := { c.head with name := none } } : Cockpit σ L).putSnapshot [] d e k).map
        fun r => (into ++ [(n, .snapshot r.1.2)], r.2) := by
  rw [Cockpit.putSnapshot_named d hn, run_map, Option.map_map]; rfl

/-- A cockpit that is used as a handler. -/
theorem C45_named_cockpit_handler {h : CockpitHead} {n : String} (hn : h.name = some n) (ps : List (Panel σ L))
    (hs : List (Handler σ L)) (ss : List (Snapshooter σ L)) (d : Bool) (into : Snapshot) (e : Env) (k : Nat) :
    ((Handler.cockpit h ps hs ss).putSnapshot d into e k).map (fun r => (r.1.2, r.2)) =
      ((Handler.cockpit { h with name := none } ps hs ss).putSnapshot d [] e k).map
        fun r => (into ++ [(n, .snapshot r.1.2)], r.2) := by
  rw [Handler.putSnapshot_named d hn, run_map, Option.map_map]; rfl

theorem C45_named_processor {p : Processor σ L} {n : String} (hn : p.state.name = some n) (d : Bool) (into : Snapshot)
    (e : Env) (k : Nat) :
    (p.putSnapshot into d e k).map (fun r => (r.1.2, r.2)) =
      (({ p with state := { p.state with name := none } } : Processor σ L).putSnapshot [] d e k).map
        fun r => (into ++ [(n, .snapshot r.1.2)], r.2) := by
  simp only [Processor.putSnapshot, ProcessorState.putSnapshot_named d hn, bind_map_left]
  simp only [← map_eq_pure_bind, run_map, Option.map_map]; rfl

variable [CustomProcessor σ]

theorem C45_named_mount {h : MountHead} {n : String} (hn : h.name = some n) (ns : List (Node σ L))
    (ss : List (Snapshooter σ L)) (d : Bool) (into : Snapshot) (e : Env) (k : Nat) :
    ((Node.mount h ns ss).putSnapshot d into e k).map (fun r => (r.1.2, r.2)) =
      ((Node.mount { h with name := none } ns ss).putSnapshot d [] e k).map
        fun r => (into ++ [(n, .snapshot r.1.2)], r.2) := by
  rw [Node.putSnapshot_mount d hn, run_map, Option.map_map]; rfl

theorem C45_named_attached {h : MountHead} {n : String} (hn : h.name = some n) (ns : List (Node σ L))
    (ss : List (Snapshooter σ L)) (inbox : List (Arrivals (Node σ L) (Snapshooter σ L))) (d : Bool) (into : Snapshot)
    (e : Env) (k : Nat) :
    ((Node.attached h ns ss inbox).putSnapshot d into e k).map (fun r => (r.1.2, r.2)) =
      ((Node.attached { h with name := none } ns ss inbox).putSnapshot d [] e k).map
        fun r => (into ++ [(n, .snapshot r.1.2)], r.2) := by
  rw [Node.putSnapshot_attached d hn, run_map, Option.map_map]; rfl

/-! ## Example -/

example : CustomAppends Empty Nat := fun s => s.elim
example : CustomProcessorAppends Empty := fun s => s.elim

/-- A named panel in a named mount, next to an item that is there already. -/
example : ((Node.mount { lastActivity := 0, name := some "m", descr := { title := some "T" } } []
      [.handler (.panel (.mk { labelFilter := .acceptAll, name := some "p", activity := { lastActivity := 0 } } [] []
        [.constant "c" {} (.uint 3)]))] : Node Empty Nat).putSnapshot true [("x", .uint 1)] ticking 0).map (·.1.2) =
    some [("x", .uint 1), ("m", .snapshot [("_title", .text "T"), ("p", .snapshot [("c", .uint 3)])])] := by rfl

theorem emptyAppends : CustomAppends Empty Nat := fun s => s.elim
theorem emptyProcessorAppends : CustomProcessorAppends Empty := fun s => s.elim

/-- A panel without a name, with a title, and a counter with a title. -/
def titledPanel : Panel Empty Nat :=
  .mk
    { labelFilter := .acceptAll, descr := { title := some "T" }, activity := { lastActivity := 0 }
      counter := some (.new { name := "c", descr := { title := some "C" } }) } [] [] []
def titledCockpit : Cockpit Empty Nat where
  head := { name := none, descr := { title := some "T" }, activity := { lastActivity := 0 } }
  panels := [titledPanel]

example := C45_instrument emptyAppends (i := .counter { name := "c", descr := { title := some "C" } }) (into := [("x", .uint 1)])
  (d := true) (e := ticking) (k := 1) rfl
example := C45_handler emptyAppends (x := .panel titledPanel) (into := [("x", .uint 1)]) (d := true) (e := ticking) (k := 1) rfl
example := C45_panel emptyAppends (p := titledPanel) (into := [("x", .uint 1)]) (d := true) (e := ticking) (k := 1) rfl
example := C45_cockpit emptyAppends (c := titledCockpit) (into := [("x", .uint 1)]) (d := true) (e := ticking) (k := 1) rfl
example := C45_snapshooter emptyAppends (x := .constant "a" {} (.uint 1)) (into := [("x", .uint 1)]) (d := true) (e := ticking) (k := 1) rfl
example := C45_node emptyAppends emptyProcessorAppends (n := exampleMount) (into := [("x", .uint 1)]) (d := true) (e := ticking) (k := 1) rfl
example := C45_named_panel (h := { name := some "p", labelFilter := .acceptAll, activity := { lastActivity := 0 } }) rfl [titledPanel] [] [] true
  [("x", .uint 1)] ticking 1
example := C45_named_cockpit (c := { titledCockpit with head := { titledCockpit.head with name := some "c" } }) rfl true [("x", .uint 1)] ticking 1
example := C45_named_cockpit_handler (h := { titledCockpit.head with name := some "c" }) rfl [titledPanel] [] [] true [("x", .uint 1)] ticking 1
example := C45_named_processor (p := { exampleProcessor with state := { exampleProcessor.state with name := some "p" } }) rfl true
  [("x", .uint 1)] ticking 1
example := C45_named_mount (h := { name := some "m", lastActivity := 0 }) rfl [exampleMount] [] true [("x", .uint 1)] ticking 1
example := C45_named_attached (h := { name := some "m", lastActivity := 0 }) rfl [exampleMount] [] [] true [("x", .uint 1)] ticking 1

end Metrix
