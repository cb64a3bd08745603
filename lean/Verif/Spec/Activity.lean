import Verif.Spec.History
import Verif.Model.Mount

/-!
# Activity of cockpits, processors and mounts
-/

namespace Metrix
variable {σ L : Type}

/-- The arguments of `process`. -/
structure Run where
  max : Nat
  strategy : Strategy

/-- Processors, used by a driver: `process` reports how many messages were consumed. -/
instance [DecidableEq L] [Custom σ L] : Component (Processor σ L) Run where
  take p r := do
    let (p, o) ← p.process r.max r.strategy
    return (p, o.processed + o.dropped)
  putSnapshot p s d := p.putSnapshot s d

/-- Mounts, used by a driver. -/
instance [DecidableEq L] [Custom σ L] [CustomProcessor σ] : Component (Node σ L) Run where
  take n r := do
    let (n, o) ← n.process r.max r.strategy
    return (n, o.processed + o.dropped)
  putSnapshot n s d := n.putSnapshot d s

/-- A cockpit is active whenever it gets an observation. The number of the clock reading is that of the beginning. -/
def whenObserved {A : Type} (ev : Event A) : Option Nat :=
  match ev.op with
  | .input _ => some ev.start
  | .snapshot _ _ => none

/-- Processors and mounts are active whenever messages were consumed. The number of the clock reading is that of the
end. -/
def whenConsumed {A : Type} (ev : Event A) : Option Nat :=
  match ev.op, ev.out with
  | .input _, .updated n => if n = 0 then none else some (ev.stop - 1)
  | _, _ => none

/-- The moment of the last activity, if it was `t` at first. -/
def lastActive {A : Type} (e : Env) (active : Event A → Option Nat) (t : Int) : List (Event A) → Int
  | [] => t
  | ev :: log => lastActive e active (match active ev with
      | some i => e.clock i
      | none => t) log

/-- The items that tell whether a component is active. -/
def activityFlags (active : Bool) : Snapshot := [("_inactive", .boolean !active), ("_active", .boolean active)]

/-- The cockpit without name, texts and inactivity limit: only the values. -/
def Cockpit.plain (c : Cockpit σ L) : Cockpit σ L :=
  { c with head := { name := none, descr := {}, activity := { c.head.activity with maxInactivity := none } } }

/-- The processor without name, texts and inactivity limit: only the values. -/
def Processor.plain (p : Processor σ L) : Processor σ L :=
  { p with state := { p.state with
      name := none, descr := {}, activity := { p.state.activity with maxInactivity := none } } }

/-- The panel without name, texts and inactivity limit: only the values. -/
def Panel.plain : Panel σ L → Panel σ L
  | .mk h ps hs ss =>
    .mk { h with name := none, descr := {}, activity := { h.activity with maxInactivity := none } } ps hs ss

/-- What is common to the fields of mounts and attached mounts. -/
def Node.mountHead : Node σ L → Option MountHead
  | .mount h _ _ => some h
  | .attached h _ _ _ => some h
  | _ => none

/-- The mount without name, texts and inactivity limit: only the values. -/
def Node.plain : Node σ L → Node σ L
  | .mount h ns ss => .mount { lastActivity := h.lastActivity } ns ss
  | .attached h ns ss inbox => .attached { lastActivity := h.lastActivity } ns ss inbox
  | n => n

/-- What a snapshot looks like, taken with the `k`-th reading of the clock by a component with the given name, texts and
inactivity limit, the last activity of which was at `last`. `values` puts the values into a given snapshot. -/
def ActivityShown {C : Type} (name : Option String) (descr : Descr) (limit : Nat) (last : Int)
    (values : Snapshot → Bool → M (C × Snapshot)) (put : Snapshot → Bool → M (C × Snapshot)) (e : Env) (k : Nat) : Prop :=
  ∀ (into : Snapshot) (d : Bool),
    let top := putDefaultDescriptives descr (levelFor name into) d
    (e.clock k - last > limit →
      (put into d e k).map (fun r => r.1.2) = some (closeLevel name into (top ++ activityFlags false))) ∧
    (e.clock k - last ≤ limit →
      (put into d e k).map (fun r => (r.1.2, r.2)) =
        (values (top ++ activityFlags true) d e (k + 1)).map fun r => (closeLevel name into r.1.2, r.2))

end Metrix
