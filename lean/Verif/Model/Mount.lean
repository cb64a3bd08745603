import Verif.Model.Processor

/-!
# Mounts: `ProcessorMount` of `src/processor.rs` and `src/attached_mount.rs`

Simplification: all processors below a mount have the same label type here. In `/repo` each
`TelemetryProcessor` has its own; the mount never sees labels.
-/

namespace Metrix

/-- `src/processor.rs:616-624` (`ProcessorMount`) without the processors and snapshooters in it. -/
structure MountHead where
  name : Option String := none
  descr : Descr := {}
  lastActivity : Int
  maxInactivity : Option Nat := none
  deriving DecidableEq

/-- `src/processor.rs:675-689`: as for the other components, but a mount has no `show_activity_state`. -/
def MountHead.activity (h : MountHead) : Activity :=
  { lastActivity := h.lastActivity, maxInactivity := h.maxInactivity, show_ := true }

/-- What one run of the loop `src/attached_mount.rs:79-93` receives: the processors and the snapshooters, each in
order, and whether the loop ended with `Disconnected`. -/
structure Arrivals (N S : Type) where
  processors : List N := []
  snapshooters : List S := []
  closed : Bool := false

/-- `Box<dyn ProcessesTelemetryMessages>`: everything in the crate that implements the trait, or a user defined type.
* `mount` is `ProcessorMount` (`src/processor.rs:616-624`)
* `attached` is `InternalAttachedMount` (`src/attached_mount.rs:65-68`). `inbox` are the arrivals at each of the future
  calls of `process` while the receiver is there (`Verif.Model.Attached` relates them to a channel); it is `[]` if there
  is no receiver (any more) or if nothing more arrives.
* `driver` is a `TelemetryDriver` handle (`src/driver.rs:152-156`). `answers` are the replies its thread gives to future
  requests, depending on `descriptive`; `none` is `GetSnapshotError`, also after the end of the list. -/
inductive Node (σ L : Type)
  | processor (p : Processor σ L)
  | mount (head : MountHead) (nodes : List (Node σ L)) (snapshooters : List (Snapshooter σ L))
  | attached (head : MountHead) (nodes : List (Node σ L)) (snapshooters : List (Snapshooter σ L))
      (inbox : List (Arrivals (Node σ L) (Snapshooter σ L)))
  | driver (answers : List (Bool → Option Snapshot))
  | custom (s : σ)

/-- What user defined implementations of `ProcessesTelemetryMessages` do (`src/processor.rs:184-187`). -/
class CustomProcessor (σ : Type) where
  process : σ → Nat → Strategy → M (σ × Outcome)
  putSnapshot : σ → Snapshot → Bool → M (σ × Snapshot)

variable {σ L : Type}

/-- `src/processor.rs:699-712` (`Default for ProcessorMount`): the head, without name. -/
def MountHead.default : M MountHead := do return { lastActivity := ← M.now }

/-- `src/processor.rs:632-636` (`new`): the head. -/
def MountHead.new (name : String) : M MountHead := do
  return { ← MountHead.default with name := some name }

namespace Node

/-- `src/processor.rs:664-666, 715-717` (`add_processor_dyn`, `add_processor`), for a mount. -/
def addProcessor (n : Node σ L) : Node σ L → Node σ L
  | .mount h ns ss => .mount h (ns ++ [n]) ss
  | x => x

/-- `src/processor.rs:668-670, 719-721` (`add_snapshooter_dyn`, `add_snapshooter`), for a mount. -/
def addSnapshooter (s : Snapshooter σ L) : Node σ L → Node σ L
  | .mount h ns ss => .mount h ns (ss ++ [s])
  | x => x

end Node

/-- `src/processor.rs:732-734`: `last_activity_at` after a run. -/
def MountHead.afterRun (h : MountHead) (o : Outcome) : M MountHead :=
  if o.somethingHappened then do
    let now ← M.now
    return { h with lastActivity := now }
  else return h

variable [DecidableEq L] [Custom σ L] [CustomProcessor σ]

mutual
/-- Dynamic dispatch of `process`.
* `mount` is `src/processor.rs:725-737`
* `attached` is `src/attached_mount.rs:76-100`: what has arrived is added behind the processors that are there. The sum
  of the outcomes is taken first over the old and then over the new ones.
* `driver` is `src/driver.rs:281-286` -/
def Node.process (max : Nat) (strategy : Strategy) : Node σ L → M (Node σ L × Outcome)
  | .processor p => do
    let (p, o) ← p.process max strategy
    return (.processor p, o)
  | .mount h ns ss => do
    let (ns, o) ← processNodes max strategy ns
    let h ← h.afterRun o
    return (.mount h ns ss, o)
  | .attached h ns ss [] => do
    let (ns, o) ← processNodes max strategy ns
    let h ← h.afterRun o
    return (.attached h ns ss [], o)
  | .attached h ns ss (⟨ps, ss', closed⟩ :: inbox) => do
    let (ns, o₁) ← processNodes max strategy ns
    let (ps, o₂) ← processNodes max strategy ps
    let o := o₁.combineWith o₂
    let h ← h.afterRun o
    return (.attached h (ns ++ ps) (ss ++ ss') (if closed then [] else inbox), o)
  | .driver as => return (.driver as, {})
  | .custom s => do
    let (s, o) ← CustomProcessor.process s max strategy
    return (.custom s, o)

/-- The loops `src/processor.rs:728-730` and `src/driver.rs:477-479`: the processors and the sum of their outcomes. -/
def processNodes (max : Nat) (strategy : Strategy) : List (Node σ L) → M (List (Node σ L) × Outcome)
  | [] => return ([], {})
  | n :: ns => do
    let (n, o) ← n.process max strategy
    let (ns, o') ← processNodes max strategy ns
    return (n :: ns, o.combineWith o')
end

/-- `src/driver.rs:288-297` (`PutsSnapshot for TelemetryDriver`), with the answers of the driver's thread. -/
def putAnswer (d : Bool) (answers : List (Bool → Option Snapshot)) (into : Snapshot) :
    List (Bool → Option Snapshot) × Snapshot :=
  match answers with
  | [] => ([], into)
  | a :: as =>
    match a d with
    | some s => (as, into ++ s)
    | none => (as, into)

omit [DecidableEq L] in
mutual
/-- Dynamic dispatch of `put_snapshot`. `mount` is `src/processor.rs:672-697, 740-751`, `attached` is
`src/attached_mount.rs:70-74`. -/
def Node.putSnapshot (d : Bool) : Node σ L → Snapshot → M (Node σ L × Snapshot)
  | .processor p, into => do
    let (p, into) ← p.putSnapshot into d
    return (.processor p, into)
  | .mount h ns ss, into => do
    let level := putDefaultDescriptives h.descr (levelFor h.name into) d
    let (go, level) ← h.activity.putFlags level
    if go then
      let (ns, level) ← putNodes d ns level
      let (ss, level) ← putSnapshooters d ss level
      return (.mount h ns ss, closeLevel h.name into level)
    else return (.mount h ns ss, closeLevel h.name into level)
  | .attached h ns ss inbox, into => do
    let level := putDefaultDescriptives h.descr (levelFor h.name into) d
    let (go, level) ← h.activity.putFlags level
    if go then
      let (ns, level) ← putNodes d ns level
      let (ss, level) ← putSnapshooters d ss level
      return (.attached h ns ss inbox, closeLevel h.name into level)
    else return (.attached h ns ss inbox, closeLevel h.name into level)
  | .driver as, into =>
    let (as, into) := putAnswer d as into
    return (.driver as, into)
  | .custom s, into => do
    let (s, into) ← CustomProcessor.putSnapshot s into d
    return (.custom s, into)

/-- The loops `src/processor.rs:690-692` and `src/driver.rs:546-548`. -/
def putNodes (d : Bool) : List (Node σ L) → Snapshot → M (List (Node σ L) × Snapshot)
  | [], into => return ([], into)
  | n :: ns, into => do
    let (n, into) ← n.putSnapshot d into
    let (ns, into) ← putNodes d ns into
    return (n :: ns, into)
end

end Metrix
