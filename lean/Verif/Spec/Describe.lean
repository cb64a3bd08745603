import Verif.Model.Mount

/-!
What it means that a snapshot differs from another one only by titles and descriptions, and what a component without
any titles and descriptions is.
-/

namespace Metrix

/-- The labels titles and descriptions have. -/
def IsTextLabel (l : String) : Prop :=
  l = "_title" ∨ l = "_description" ∨ ∃ n, l = "_title" ++ "_" ++ n ∨ l = "_description" ++ "_" ++ n

/-- Whether nothing in front of a text may have its label. -/
inductive TextLabels
  | fresh
  | any

mutual
/-- `t` has the items of `s`, in the same order, and, only if `descriptive`, additional texts. Read from left to right:
when a text was added, nothing in front of it had its label, unless `labels` allows any. -/
inductive Described (labels : TextLabels) (descriptive : Bool) : Snapshot → Snapshot → Prop
  | nil : Described labels descriptive [] []
  | item {s t : Snapshot} (n : String) {v w : ItemKind} :
      Described labels descriptive s t → SameValue labels descriptive v w → Described labels descriptive (s ++ [(n, v)]) (t ++ [(n, w)])
  | text {s t : Snapshot} {l : String} (x : String) :
      descriptive = true → Described labels descriptive s t → IsTextLabel l → (labels = .fresh → ∀ i ∈ t, i.1 ≠ l) →
      Described labels descriptive s (t ++ [(l, .text x)])

/-- The same value, except for texts within groups. -/
inductive SameValue (labels : TextLabels) (descriptive : Bool) : ItemKind → ItemKind → Prop
  | same (v : ItemKind) : SameValue labels descriptive v v
  | group {s t : Snapshot} : Described labels descriptive s t → SameValue labels descriptive (.snapshot s) (.snapshot t)
end

variable {σ L : Type}

/-! ## Components without titles and descriptions -/

/-- The name of a built-in instrument and its title and description. -/
def Instrument.about : Instrument σ → Option (String × Descr)
  | .counter i => some (i.name, i.descr)
  | .gauge i => some (i.name, i.descr)
  | .meter i => some (i.name, i.descr)
  | .valueMeter i => some (i.meter.name, i.meter.descr)
  | .histogram i => some (i.name, i.descr)
  | .flag i => some (i.name, i.descr)
  | .staircaseTimer i => some (i.name, i.descr)
  | .occurrenceIndicator i => some (i.name, i.descr)
  | .nonOccurrenceIndicator i => some (i.name, i.descr)
  | .dataDisplay i => some (i.name, i.descr)
  | .lastOccurrenceTracker i => some (i.name, i.descr)
  | .custom _ => none

/-- The same instrument with another title and description. -/
def Instrument.redescribe (ds : Descr) : Instrument σ → Instrument σ
  | .counter i => .counter { i with descr := ds }
  | .gauge i => .gauge { i with descr := ds }
  | .meter i => .meter { i with descr := ds }
  | .valueMeter i => .valueMeter { i with meter := { i.meter with descr := ds } }
  | .histogram i => .histogram { i with descr := ds }
  | .flag i => .flag { i with descr := ds }
  | .staircaseTimer i => .staircaseTimer { i with descr := ds }
  | .occurrenceIndicator i => .occurrenceIndicator { i with descr := ds }
  | .nonOccurrenceIndicator i => .nonOccurrenceIndicator { i with descr := ds }
  | .dataDisplay i => .dataDisplay { i with descr := ds }
  | .lastOccurrenceTracker i => .lastOccurrenceTracker { i with descr := ds }
  | .custom s => .custom s

def Instrument.undescribed (i : Instrument σ) : Instrument σ := i.redescribe {}

def GaugeAdapter.undescribed (a : GaugeAdapter L) : GaugeAdapter L := { a with gauge := { a.gauge with descr := {} } }

def PanelHead.undescribed (h : PanelHead L) : PanelHead L :=
  { h with
    descr := {}
    counter := h.counter.map fun a => { a with instrument := { a.instrument with descr := {} } }
    gauge := h.gauge.map GaugeAdapter.undescribed
    meter := h.meter.map fun a => { a with instrument := { a.instrument with descr := {} } }
    histogram := h.histogram.map fun a => { a with instrument := { a.instrument with descr := {} } } }

mutual
/-- The panel, and everything in it, without titles and descriptions. User defined components stay as they are. -/
def Panel.undescribed : Panel σ L → Panel σ L
  | .mk h ps hs ss => .mk h.undescribed (undescribedPanels ps) (undescribedHandlers hs) (undescribedSnapshooters ss)
def undescribedPanels : List (Panel σ L) → List (Panel σ L)
  | [] => []
  | p :: ps => p.undescribed :: undescribedPanels ps
def Handler.undescribed : Handler σ L → Handler σ L
  | .instrument a => .instrument { a with instrument := a.instrument.undescribed }
  | .gauge a => .gauge a.undescribed
  | .panel p => .panel p.undescribed
  | .cockpit h ps hs ss =>
    .cockpit { h with descr := {} } (undescribedPanels ps) (undescribedHandlers hs) (undescribedSnapshooters ss)
  | .custom s => .custom s
def undescribedHandlers : List (Handler σ L) → List (Handler σ L)
  | [] => []
  | h :: hs => h.undescribed :: undescribedHandlers hs
def Snapshooter.undescribed : Snapshooter σ L → Snapshooter σ L
  | .constant n _ v => .constant n {} v
  | .polling n _ g poll => .polling n {} g poll.undescribed
  | .instrument i => .instrument i.undescribed
  | .handler h => .handler h.undescribed
  | .custom s => .custom s
def undescribedSnapshooters : List (Snapshooter σ L) → List (Snapshooter σ L)
  | [] => []
  | s :: ss => s.undescribed :: undescribedSnapshooters ss
end

def Cockpit.undescribed (c : Cockpit σ L) : Cockpit σ L where
  head := { c.head with descr := {} }
  panels := undescribedPanels c.panels
  handlers := undescribedHandlers c.handlers
  snapshooters := undescribedSnapshooters c.snapshooters

def ProcessorState.undescribed (s : ProcessorState σ L) : ProcessorState σ L :=
  { s with
    descr := {}
    cockpits := s.cockpits.map Cockpit.undescribed
    handlers := undescribedHandlers s.handlers
    snapshooters := undescribedSnapshooters s.snapshooters }

def Processor.undescribed (p : Processor σ L) : Processor σ L := { p with state := p.state.undescribed }

mutual
/-- Processors and mounts without titles and descriptions. A mounted driver is asked for non-descriptive snapshots
only. What has not been added yet (messages in queues, arrivals) stays as it is. -/
def Node.undescribed : Node σ L → Node σ L
  | .processor p => .processor p.undescribed
  | .mount h ns ss => .mount { h with descr := {} } (undescribedNodes ns) (undescribedSnapshooters ss)
  | .attached h ns ss inbox =>
    .attached { h with descr := {} } (undescribedNodes ns) (undescribedSnapshooters ss) inbox
  | .driver as => .driver (as.map fun a _ => a false)
  | .custom s => .custom s
def undescribedNodes : List (Node σ L) → List (Node σ L)
  | [] => []
  | n :: ns => n.undescribed :: undescribedNodes ns
end

/-! ## What user defined components and mounted drivers have to do -/

/-- User defined components only add texts to descriptive snapshots. -/
def CustomDescribes (σ L : Type) [Custom σ L] : Prop :=
  ∀ (s : σ) (into into' : Snapshot) (labels : TextLabels) (d : Bool), Described labels d into into' → ∀ e k,
    Option.Rel (fun a b => a.2 = b.2 ∧ a.1.1 = b.1.1 ∧ Described labels d a.1.2 b.1.2)
      (Custom.putSnapshot L s into false e k) (Custom.putSnapshot L s into' d e k)

/-- The same for user defined processors. -/
def CustomProcessorDescribes (σ : Type) [CustomProcessor σ] : Prop :=
  ∀ (s : σ) (into into' : Snapshot) (labels : TextLabels) (d : Bool), Described labels d into into' → ∀ e k,
    Option.Rel (fun a b => a.2 = b.2 ∧ a.1.1 = b.1.1 ∧ Described labels d a.1.2 b.1.2)
      (CustomProcessor.putSnapshot s into false e k) (CustomProcessor.putSnapshot s into' d e k)

/-- The answers of a driver that has a name: one group, with or without texts; or none. -/
def NamedAnswer (a : Bool → Option Snapshot) : Prop :=
  (∀ d, a d = none) ∨ ∃ (n : String) (s : Bool → Snapshot),
    (∀ d, a d = some [(n, .snapshot (s d))]) ∧ ∀ d, Described .fresh d (s false) (s d)

/-- The answers of any driver: a snapshot, with or without texts; or none. -/
def AnyAnswer (a : Bool → Option Snapshot) : Prop :=
  (∀ d, a d = none) ∨ ∃ s : Bool → Snapshot, (∀ d, a d = some (s d)) ∧ ∀ d, Described .any d (s false) (s d)

mutual
/-- All mounted drivers give such answers. -/
def Node.DriversGive (P : (Bool → Option Snapshot) → Prop) : Node σ L → Prop
  | .mount _ ns _ => DriversGiveIn P ns
  | .attached _ ns _ _ => DriversGiveIn P ns
  | .driver as => ∀ a ∈ as, P a
  | _ => True
def DriversGiveIn (P : (Bool → Option Snapshot) → Prop) : List (Node σ L) → Prop
  | [] => True
  | n :: ns => n.DriversGive P ∧ DriversGiveIn P ns
end

/-! ## That texts are there -/

/-- If there is such a text then `s` has an item with the label, and it is the text unless the label was there before. -/
def Shows (label : String) (text : Option String) (into s : Snapshot) : Prop :=
  ∀ x, text = some x → (∃ i ∈ s, i.1 = label) ∧ ((∀ i ∈ into, i.1 ≠ label) → (label, .text x) ∈ s)

end Metrix
