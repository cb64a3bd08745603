import Verif.Spec.Driver
import Verif.Spec.Exhibits
import Verif.Spec.Parts

/-! # Processors within mounts and drivers -/

namespace Metrix
variable {σ L : Type}

/-- What is in a mount or an attached mount. -/
def Node.children : Node σ L → List (Node σ L)
  | .mount _ ns _ => ns
  | .attached _ ns _ _ => ns
  | _ => []

/-- The component at a place below a node: the path has the position in each mount. -/
def Node.at : List Nat → Node σ L → Option (Node σ L)
  | [], n => some n
  | i :: path, n => n.children[i]?.bind (Node.at path)

/-- The component at a place below the processors of a driver. -/
def LoopState.at (l : LoopState σ L) (i : Nat) (path : List Nat) : Option (Node σ L) := l.processors[i]?.bind (Node.at path)

/-- The name of a mount. -/
def Node.mountName : Node σ L → Option String
  | .mount h _ _ => h.name
  | .attached h _ _ _ => h.name
  | _ => none

/-- The names of the mounts on the way to a place below a node. -/
def Node.mountsTo : List Nat → Node σ L → List String
  | [], _ => []
  | i :: path, n => n.mountName.toList ++ (n.children[i]?.map (Node.mountsTo path)).getD []

/-- The maximum number of messages and the strategy, if the call is a run. -/
def Call.run? : Call σ L → Option (Nat × Strategy)
  | .process max s => some (max, s)
  | _ => none

/-- The owner only ran the processor, as given by `runs`, and took snapshots. -/
structure RunsOnly (calls : List (Called σ L)) (runs : List (Nat × Strategy)) : Prop where
  runs : calls.filterMap (·.call.run?) = runs
  others : ∀ c ∈ calls, c.call.run? = none → ∃ into d, c.call = .snapshot into d

/-- The strategies with which a driver runs its processors in the iterations of `log`, if the strategy was `s`. -/
def strategiesIn (s : Strategy) : List (Iteration σ L) → List Strategy
  | [] => []
  | i :: log =>
    let s := strategyAfter s i.message.toList
    (if i.outcome.isSome then [s] else []) ++ strategiesIn s log

/-! ## The groups of the leaves of a processor -/

/-- The groups in which the leaves of the slots of a panel are shown: none. -/
def PanelHead.leafGroups (h : PanelHead L) : List (List String) :=
  (h.counter.map fun _ => []).toList ++ (h.gauge.map fun _ => []).toList ++ (h.meter.map fun _ => []).toList ++
    (h.histogram.map fun _ => []).toList

mutual
/-- The names of the containers around each of the leaves of a panel, in the order of the leaves. -/
def Panel.leafGroups : Panel σ L → List (List String)
  | .mk h ps hs _ => (h.leafGroups ++ leafGroupsOfPanels ps ++ leafGroupsOfHandlers hs).map (h.name.toList ++ ·)

def leafGroupsOfPanels : List (Panel σ L) → List (List String)
  | [] => []
  | p :: ps => p.leafGroups ++ leafGroupsOfPanels ps

/-- The same for a handler. -/
def Handler.leafGroups : Handler σ L → List (List String)
  | .instrument _ => [[]]
  | .gauge _ => [[]]
  | .panel p => p.leafGroups
  | .cockpit h ps hs _ => ([] :: (leafGroupsOfHandlers hs ++ leafGroupsOfPanels ps)).map (h.name.toList ++ ·)
  | .custom _ => [[]]

def leafGroupsOfHandlers : List (Handler σ L) → List (List String)
  | [] => []
  | h :: hs => h.leafGroups ++ leafGroupsOfHandlers hs
end

/-- The names of the containers around the leaf at a place in a processor: its group in snapshots. -/
def ProcessorState.groupsAt (s : ProcessorState σ L) : Place → Option (List String)
  | .handler i j => (s.handlers[i]?.bind fun h => h.leafGroups[j]?).map (s.name.toList ++ ·)
  | .cockpitHandler c i j => (s.cockpitAt c).bind fun c =>
      (c.handlers[i]?.bind fun h => h.leafGroups[j]?).map (s.name.toList ++ c.name.toList ++ ·)
  | .cockpitPanel c p j => (s.cockpitAt c).bind fun c =>
      ((c.panelAt p).bind fun p => p.leafGroups[j]?).map (s.name.toList ++ c.name.toList ++ ·)

/-- What is shown of a leaf. -/
def Leaf.thing : Leaf σ L → Option (Snapshooter σ L)
  | .instrument a => some (.handler (.instrument a))
  | .gauge a => some (.handler (.gauge a))
  | .custom s => some (.handler (.custom s))
  | .lastActivity _ => none

/-- No container in the driver hides its contents at the moment `t`. -/
def LoopState.AllVisible (l : LoopState σ L) (t : Int) : Prop := ∀ x ∈ l.exhibits, ∀ a ∈ x.around, a.ShowsValuesAt t

end Metrix
