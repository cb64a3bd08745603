import Verif.Model.Tree

/-!
# What it means to dispatch an observation through a tree of panels and cockpits

A tree is described by the list of the things in it that can react to an observation, in the order in which they are
asked. Each comes with the filters of the panels around it.
-/

namespace Metrix

/-- Something in a tree that can react to an observation.
* `instrument`: an instrument behind an adapter
* `gauge`: a gauge behind its special adapter
* `custom`: a user defined handler
* `lastActivity`: the moment of the last activity that a cockpit remembers -/
inductive Leaf (σ L : Type)
  | instrument (a : InstrumentAdapter L (Instrument σ))
  | gauge (a : GaugeAdapter L)
  | custom (s : σ)
  | lastActivity (t : Int)

/-- A leaf and the filters of all panels around it, from outside to inside. -/
abbrev Placed (σ L : Type) := List (LabelFilter L) × Leaf σ L

/-- Everything in one more panel with filter `f`. -/
def behind {σ L : Type} (f : LabelFilter L) (l : List (Placed σ L)) : List (Placed σ L) := l.map fun x => (f :: x.1, x.2)

variable {σ L : Type}

/-- The leaves in the four slots of a panel. -/
def PanelHead.leaves (h : PanelHead L) : List (Placed σ L) :=
  (h.counter.map fun a => ([], .instrument (a.map .counter))).toList ++
  (h.gauge.map fun a => ([], .gauge a)).toList ++
  (h.meter.map fun a => ([], .instrument (a.map .meter))).toList ++
  (h.histogram.map fun a => ([], .instrument (a.map .histogram))).toList

mutual
/-- All leaves of a panel. -/
def Panel.leaves : Panel σ L → List (Placed σ L)
  | .mk h ps hs _ => behind h.labelFilter (h.leaves ++ leavesOfPanels ps ++ leavesOfHandlers hs)

def leavesOfPanels : List (Panel σ L) → List (Placed σ L)
  | [] => []
  | p :: ps => p.leaves ++ leavesOfPanels ps

/-- All leaves of a handler. -/
def Handler.leaves : Handler σ L → List (Placed σ L)
  | .instrument a => [([], .instrument a)]
  | .gauge a => [([], .gauge a)]
  | .panel p => p.leaves
  | .cockpit h ps hs _ => ([], .lastActivity h.activity.lastActivity) :: (leavesOfHandlers hs ++ leavesOfPanels ps)
  | .custom s => [([], .custom s)]

def leavesOfHandlers : List (Handler σ L) → List (Placed σ L)
  | [] => []
  | h :: hs => h.leaves ++ leavesOfHandlers hs
end

/-- All leaves of a cockpit. -/
def Cockpit.leaves (c : Cockpit σ L) : List (Placed σ L) :=
  ([], .lastActivity c.head.activity.lastActivity) :: (leavesOfHandlers c.handlers ++ leavesOfPanels c.panels)

/-- A leaf on its own gets an observation. -/
def Leaf.react [DecidableEq L] [Custom σ L] (o : Observation L) : Leaf σ L → M (Leaf σ L × Nat)
  | .instrument a => do
    let (a, n) ← a.handle (Instrument.update L) o
    return (.instrument a, n)
  | .gauge a => do
    let (a, n) ← a.handle o
    return (.gauge a, n)
  | .custom s => do
    let (s, n) ← Custom.handle s o
    return (.custom s, n)
  | .lastActivity _ => do return (.lastActivity (← M.now), 0)

/-- One leaf after the other gets the observation, if all filters on its path accept the label. -/
def dispatch [DecidableEq L] [Custom σ L] (o : Observation L) : List (Placed σ L) → M (List (Placed σ L) × Nat)
  | [] => return ([], 0)
  | (path, leaf) :: rest => do
    let (leaf, n) ← if path.all (·.accepts o.label) then leaf.react o else pure (leaf, 0)
    let (rest, m) ← dispatch o rest
    return ((path, leaf) :: rest, n + m)

/-! ## What is not a leaf -/

/-- Everything about a tree that has nothing to do with the state of its leaves. -/
inductive Shape (σ L : Type)
  | panel (filter : LabelFilter L) (name : Option String) (descr : Descr) (activity : Activity)
      (counter : Option (LabelFilter L)) (gauge : Option (GaugeUpdateStrategy L)) (meter histogram : Option (LabelFilter L))
      (snapshooters : List (Snapshooter σ L)) (panels handlers : List (Shape σ L))
  | cockpit (name : Option String) (descr : Descr) (maxInactivity : Option Nat) (show_ : Bool)
      (snapshooters : List (Snapshooter σ L)) (panels handlers : List (Shape σ L))
  | instrument (filter : LabelFilter L)
  | gauge (strategy : GaugeUpdateStrategy L)
  | custom

mutual
def Panel.shape : Panel σ L → Shape σ L
  | .mk h ps hs ss => .panel h.labelFilter h.name h.descr h.activity (h.counter.map (·.labelFilter))
      (h.gauge.map (·.strategy)) (h.meter.map (·.labelFilter)) (h.histogram.map (·.labelFilter)) ss
      (shapesOfPanels ps) (shapesOfHandlers hs)

def shapesOfPanels : List (Panel σ L) → List (Shape σ L)
  | [] => []
  | p :: ps => p.shape :: shapesOfPanels ps

def Handler.shape : Handler σ L → Shape σ L
  | .instrument a => .instrument a.labelFilter
  | .gauge a => .gauge a.strategy
  | .panel p => p.shape
  | .cockpit h ps hs ss => .cockpit h.name h.descr h.activity.maxInactivity h.activity.show_ ss
      (shapesOfPanels ps) (shapesOfHandlers hs)
  | .custom _ => .custom

def shapesOfHandlers : List (Handler σ L) → List (Shape σ L)
  | [] => []
  | h :: hs => h.shape :: shapesOfHandlers hs
end

def Cockpit.shape (c : Cockpit σ L) : Shape σ L :=
  .cockpit c.head.name c.head.descr c.head.activity.maxInactivity c.head.activity.show_ c.snapshooters
      (shapesOfPanels c.panels) (shapesOfHandlers c.handlers)

/-- The filters on the path and the leaf's own filter accept the label. -/
def Reached [DecidableEq L] (label : L) : Placed σ L → Prop
  | (path, leaf) => (∀ f ∈ path, f.accepts label = true) ∧
    match leaf with
    | .instrument a => a.labelFilter.accepts label = true
    | .gauge a =>
      match a.strategy with
      | .filter f => f.accepts label = true
      | .deltasOnly f => f.accepts label = true
      | .incDecOnLabels inc dec => inc.accepts label = true ∨ dec.accepts label = true
    | .custom _ => True
    | .lastActivity _ => True

end Metrix

namespace Metrix
variable {σ L : Type}

/-- `Visited e o k l l' ns k'`: the leaves `l` became `l'` by the observation `o`. Exactly the reached ones reacted, each
once, one after the other; the others are unchanged. `ns` is what each of them reported. -/
inductive Visited [DecidableEq L] [Custom σ L] (e : Env) (o : Observation L) :
    Nat → List (Placed σ L) → List (Placed σ L) → List Nat → Nat → Prop
  | nil {k} : Visited e o k [] [] [] k
  | reached {k k₁ k' path leaf leaf' n rest rest' ns} : Reached o.label (path, leaf) →
      leaf.react o e k = some ((leaf', n), k₁) → Visited e o k₁ rest rest' ns k' →
      Visited e o k ((path, leaf) :: rest) ((path, leaf') :: rest') (n :: ns) k'
  | skipped {k k' path leaf rest rest' ns} : ¬ Reached o.label (path, leaf) → Visited e o k rest rest' ns k' →
      Visited e o k ((path, leaf) :: rest) ((path, leaf) :: rest') (0 :: ns) k'

/-- The leaf is an instrument (or gauge) of the crate. -/
def Leaf.IsBuiltIn : Leaf σ L → Prop
  | .instrument a => ∀ s, a.instrument ≠ .custom s
  | .gauge _ => True
  | .custom _ => False
  | .lastActivity _ => True

/-- The leaf is an instrument, a gauge or a user defined handler. -/
def Leaf.IsInstrument : Leaf σ L → Prop
  | .lastActivity _ => False
  | _ => True

end Metrix
