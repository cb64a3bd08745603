import Verif.Model.Driver

/-!
# Where the things of a tree are shown

A tree of panels, cockpits, processors and mounts is described by the list of the things in it that put values into a
snapshot, each with the names of the groups around it.
-/

namespace Metrix

/-- Starting from `s`, the groups with the names in `path` lead to a group with exactly the items `level`. -/
def Snapshot.Group : List String → Snapshot → Snapshot → Prop
  | [], level, s => level = s
  | n :: path, level, s => ∃ sub, (n, ItemKind.snapshot sub) ∈ s ∧ Group path level sub

/-- The items are next to each other in the group at `path`, in that order. -/
def Snapshot.ShowsAt (s : Snapshot) (path : List String) (items : Snapshot) : Prop :=
  ∃ level, Snapshot.Group path level s ∧ items <:+: level

/-- There is such an item in the group at `path`. -/
def Snapshot.HasAt (s : Snapshot) (path : List String) (name : String) (item : ItemKind) : Prop :=
  ∃ level, Snapshot.Group path level s ∧ (name, item) ∈ level

/-- Not inactive at the moment `t`, or inactivity is not shown. -/
def Activity.ShowsValuesAt (a : Activity) (t : Int) : Prop :=
  a.show_ = false ∨ ∀ d, a.maxInactivity = some d → t - a.lastActivity ≤ d

/-- Something that puts values into a snapshot, in the group at `path`, if none of the things around it hides its
contents because of inactivity. -/
structure Exhibit (X : Type) where
  path : List String
  around : List Activity
  thing : X

/-- The same in one more container. -/
def Exhibit.inside {X : Type} (name : Option String) (activity : Option Activity) (x : Exhibit X) : Exhibit X :=
  ⟨name.toList ++ x.path, activity.toList ++ x.around, x.thing⟩

/-- The groups of one more container. -/
def groupsInside (name : Option String) (gs : List (List String)) : List (List String) :=
  match name with
  | some n => [n] :: gs.map (n :: ·)
  | none => gs

variable {σ L : Type}

/-- The instruments in the slots of a panel. -/
def PanelHead.exhibits (h : PanelHead L) : List (Exhibit (Snapshooter σ L)) :=
  (h.counter.map fun a => ⟨[], [], .handler (.instrument (a.map .counter))⟩).toList ++
  (h.gauge.map fun a => ⟨[], [], .handler (.gauge a)⟩).toList ++
  (h.meter.map fun a => ⟨[], [], .handler (.instrument (a.map .meter))⟩).toList ++
  (h.histogram.map fun a => ⟨[], [], .handler (.instrument (a.map .histogram))⟩).toList

mutual
/-- What a panel shows. -/
def Panel.exhibits : Panel σ L → List (Exhibit (Snapshooter σ L))
  | .mk h ps hs ss => (h.exhibits ++ exhibitsOfPanels ps ++ exhibitsOfSnapshooters ss ++ exhibitsOfHandlers hs).map
      (Exhibit.inside h.name (some h.activity))

def exhibitsOfPanels : List (Panel σ L) → List (Exhibit (Snapshooter σ L))
  | [] => []
  | p :: ps => p.exhibits ++ exhibitsOfPanels ps

/-- What a handler shows. -/
def Handler.exhibits : Handler σ L → List (Exhibit (Snapshooter σ L))
  | .panel p => p.exhibits
  | .cockpit h ps hs ss => (exhibitsOfPanels ps ++ exhibitsOfHandlers hs ++ exhibitsOfSnapshooters ss).map
      (Exhibit.inside h.name (some h.activity))
  | .instrument a => [⟨[], [], .handler (.instrument a)⟩]
  | .gauge a => [⟨[], [], .handler (.gauge a)⟩]
  | .custom s => [⟨[], [], .handler (.custom s)⟩]

def exhibitsOfHandlers : List (Handler σ L) → List (Exhibit (Snapshooter σ L))
  | [] => []
  | h :: hs => h.exhibits ++ exhibitsOfHandlers hs

/-- What a snapshooter shows. -/
def Snapshooter.exhibits : Snapshooter σ L → List (Exhibit (Snapshooter σ L))
  | .polling name _ createGroup poll => poll.exhibits.map (Exhibit.inside (if createGroup then some name else none) none)
  | .handler h => h.exhibits
  | .constant n d v => [⟨[], [], .constant n d v⟩]
  | .instrument i => [⟨[], [], .instrument i⟩]
  | .custom s => [⟨[], [], .custom s⟩]

def exhibitsOfSnapshooters : List (Snapshooter σ L) → List (Exhibit (Snapshooter σ L))
  | [] => []
  | s :: ss => s.exhibits ++ exhibitsOfSnapshooters ss
end

mutual
/-- The groups that panels, cockpits and polling instruments with names make. -/
def Panel.groups : Panel σ L → List (List String)
  | .mk h ps hs ss => groupsInside h.name (groupsOfPanels ps ++ groupsOfSnapshooters ss ++ groupsOfHandlers hs)

def groupsOfPanels : List (Panel σ L) → List (List String)
  | [] => []
  | p :: ps => p.groups ++ groupsOfPanels ps

def Handler.groups : Handler σ L → List (List String)
  | .panel p => p.groups
  | .cockpit h ps hs ss => groupsInside h.name (groupsOfPanels ps ++ groupsOfHandlers hs ++ groupsOfSnapshooters ss)
  | .instrument _ => []
  | .gauge _ => []
  | .custom _ => []

def groupsOfHandlers : List (Handler σ L) → List (List String)
  | [] => []
  | h :: hs => h.groups ++ groupsOfHandlers hs

def Snapshooter.groups : Snapshooter σ L → List (List String)
  | .polling name _ createGroup poll => groupsInside (if createGroup then some name else none) poll.groups
  | .handler h => h.groups
  | .constant _ _ _ => []
  | .instrument _ => []
  | .custom _ => []

def groupsOfSnapshooters : List (Snapshooter σ L) → List (List String)
  | [] => []
  | s :: ss => s.groups ++ groupsOfSnapshooters ss
end

/-- What a cockpit shows. -/
def Cockpit.exhibits (c : Cockpit σ L) : List (Exhibit (Snapshooter σ L)) := c.toHandler.exhibits

def Cockpit.groups (c : Cockpit σ L) : List (List String) := c.toHandler.groups

/-- What a processor shows. -/
def ProcessorState.exhibits (s : ProcessorState σ L) : List (Exhibit (Snapshooter σ L)) :=
  ((s.cockpits.map Cockpit.exhibits).flatten ++ exhibitsOfHandlers s.handlers ++ exhibitsOfSnapshooters s.snapshooters).map
    (Exhibit.inside s.name (some s.activity))

def ProcessorState.groups (s : ProcessorState σ L) : List (List String) :=
  groupsInside s.name ((s.cockpits.map Cockpit.groups).flatten ++ groupsOfHandlers s.handlers ++
    groupsOfSnapshooters s.snapshooters)

/-- The snapshooter put these items into a snapshot, with the `k`-th to the `k'`-th reading of the clock. -/
def Snapshooter.Put [Custom σ L] (d : Bool) (e : Env) (x : Snapshooter σ L) (k : Nat) (items : Snapshot) (k' : Nat) : Prop :=
  ∃ into x', x.putSnapshot d into e k = some ((x', into ++ items), k')

/-- Something in a tree of mounts that puts values: something in a processor or mount, the answers of a driver that is
mounted, a user defined processor, or the metrics of a driver itself. -/
inductive MountedThing (σ L : Type)
  | part (x : Snapshooter σ L)
  | driver (answers : List (Bool → Option Snapshot))
  | custom (s : σ)
  | metrics

/-- The same for a thing within mounts. -/
def MountedThing.Put [Custom σ L] [CustomProcessor σ] (d : Bool) (e : Env) (x : MountedThing σ L) (k : Nat) (items : Snapshot)
    (k' : Nat) : Prop :=
  match x with
  | .part x => x.Put d e k items k'
  | .driver answers => ∃ into, (putAnswer d answers into).2 = into ++ items ∧ k ≤ k'
  | .custom s => ∃ into s', CustomProcessor.putSnapshot s into d e k = some ((s', into ++ items), k')
  | .metrics => ∃ (i i' : DriverInstruments) (into : Snapshot), i.putSnapshot into d e k = some ((i', into ++ items), k')

def Exhibit.mounted (x : Exhibit (Snapshooter σ L)) : Exhibit (MountedThing σ L) := ⟨x.path, x.around, .part x.thing⟩

mutual
/-- What a processor, mount, attached mount or driver shows. -/
def Node.exhibits : Node σ L → List (Exhibit (MountedThing σ L))
  | .processor p => p.state.exhibits.map Exhibit.mounted
  | .mount h ns ss => (exhibitsOfNodes ns ++ (exhibitsOfSnapshooters ss).map Exhibit.mounted).map
      (Exhibit.inside h.name (some h.activity))
  | .attached h ns ss _ => (exhibitsOfNodes ns ++ (exhibitsOfSnapshooters ss).map Exhibit.mounted).map
      (Exhibit.inside h.name (some h.activity))
  | .driver answers => [⟨[], [], .driver answers⟩]
  | .custom s => [⟨[], [], .custom s⟩]

def exhibitsOfNodes : List (Node σ L) → List (Exhibit (MountedThing σ L))
  | [] => []
  | n :: ns => n.exhibits ++ exhibitsOfNodes ns
end

mutual
def Node.groups : Node σ L → List (List String)
  | .processor p => p.state.groups
  | .mount h ns ss => groupsInside h.name (groupsOfNodes ns ++ groupsOfSnapshooters ss)
  | .attached h ns ss _ => groupsInside h.name (groupsOfNodes ns ++ groupsOfSnapshooters ss)
  | .driver _ => []
  | .custom _ => []

def groupsOfNodes : List (Node σ L) → List (List String)
  | [] => []
  | n :: ns => n.groups ++ groupsOfNodes ns
end

/-- What a driver shows. -/
def LoopState.exhibits (l : LoopState σ L) : List (Exhibit (MountedThing σ L)) :=
  (exhibitsOfNodes l.processors ++ (exhibitsOfSnapshooters l.snapshooters).map Exhibit.mounted ++
    (if l.metrics.isSome then [Exhibit.mk [] [] MountedThing.metrics] else [])).map (Exhibit.inside l.name none)

def LoopState.groups (l : LoopState σ L) : List (List String) :=
  groupsInside l.name (groupsOfNodes l.processors ++ groupsOfSnapshooters l.snapshooters)

/-- Between the `k`-th and the `k'`-th reading of the clock the things in `ex` put the items `own`: each of them its own
ones at its place (unless something around it is inactive). Without descriptive texts there is nothing else but the groups
in `gs` and flags. -/
structure Displays {X : Type} (put : X → Nat → Snapshot → Nat → Prop) (d : Bool) (e : Env) (k : Nat) (ex : List (Exhibit X))
    (gs : List (List String)) (k' : Nat) (own : Snapshot) : Prop where
  le : k ≤ k'
  shown : ∀ x ∈ ex, (∀ a ∈ x.around, a.ShowsValuesAt (e.clock k')) →
    ∃ k₁ k₂ items, k ≤ k₁ ∧ k₂ ≤ k' ∧ put x.thing k₁ items k₂ ∧ own.ShowsAt x.path items
  nothingElse : d = false → ∀ path n i, own.HasAt path n i →
    (∃ x ∈ ex, ∃ k₁ k₂ items rest, path = x.path ++ rest ∧ k ≤ k₁ ∧ k₂ ≤ k' ∧ put x.thing k₁ items k₂ ∧ items.HasAt rest n i) ∨
    (path ++ [n] ∈ gs ∧ ∃ s, i = .snapshot s) ∨
    (n ∈ ["_active", "_inactive"] ∧ (path = [] ∨ path ∈ gs))

end Metrix
