import Verif.Spec.Processing

/-!
# The parts of a processor

A handler of a processor takes observations, a cockpit of a processor takes observations and messages that add or remove
panels. The definitions tell which of the consumed messages are meant for which part.
-/

namespace Metrix
variable {σ L : Type}

/-- The observation, if the message is one and was processed. -/
def processedObservation : Message σ L × Verdict → Option (Observation L)
  | (.observation o, .processed _) => some o
  | _ => none

/-- What a cockpit in a processor gets. -/
inductive CockpitInput (σ L : Type)
  | observe (o : Observation L)
  | addPanel (p : Panel σ L)
  | removePanel (name : String)

/-- A cockpit in a processor. -/
structure ManagedCockpit (σ L : Type) where
  cockpit : Cockpit σ L

instance [DecidableEq L] [Custom σ L] : Component (ManagedCockpit σ L) (CockpitInput σ L) where
  take c i := match i with
    | .observe o => do
      let (c, n) ← c.cockpit.handle o
      return (⟨c⟩, n)
    | .addPanel p => return (⟨c.cockpit.addPanel p⟩, 0)
    | .removePanel name => return (⟨c.cockpit.removePanel name⟩, 0)
  putSnapshot c s d := do
    let (c, s) ← c.cockpit.putSnapshot s d
    return (⟨c⟩, s)

/-- What a message means for the cockpit with the given name (or for those without a name). -/
def forCockpit (name : Option String) : Message σ L × Verdict → Option (CockpitInput σ L)
  | (.observation o, .processed _) => some (.observe o)
  | (.addPanelToCockpit n p, _) => if some n = name then some (.addPanel p) else none
  | (.removePanelFromCockpit n m, _) => if some n = name then some (.removePanel m) else none
  | _ => none

/-- The cockpits without a name, in the order in which they were added. -/
def ProcessorState.unnamed (s : ProcessorState σ L) : List (Cockpit σ L) := s.cockpits.filter (·.name = none)

/-- The cockpit with the given name. -/
def ProcessorState.named (s : ProcessorState σ L) (name : String) : Option (Cockpit σ L) :=
  s.cockpits.find? (·.name = some name)

/-- How to find a cockpit of a processor: by its name, or by its number among those without a name. -/
inductive CockpitId
  | named (n : String)
  | unnamed (i : Nat)

def CockpitId.name : CockpitId → Option String
  | .named n => some n
  | .unnamed _ => none

def ProcessorState.cockpitAt (s : ProcessorState σ L) : CockpitId → Option (Cockpit σ L)
  | .named n => s.named n
  | .unnamed i => s.unnamed[i]?

/-- How to find a panel of a cockpit: by its name, or by its number among those without a name. -/
inductive PanelId
  | named (n : String)
  | unnamed (i : Nat)

def Cockpit.panelAt (c : Cockpit σ L) : PanelId → Option (Panel σ L)
  | .named n => c.panels.find? (·.name = some n)
  | .unnamed i => (c.panels.filter (·.name = none))[i]?

/-- A place in a processor: the `j`-th leaf of its `i`-th handler, or the `j`-th leaf of the `i`-th handler of a cockpit,
or the `j`-th leaf of a panel of a cockpit. -/
inductive Place
  | handler (i j : Nat)
  | cockpitHandler (c : CockpitId) (i j : Nat)
  | cockpitPanel (c : CockpitId) (p : PanelId) (j : Nat)

/-- What is at a place. -/
def ProcessorState.leafAt (s : ProcessorState σ L) : Place → Option (Placed σ L)
  | .handler i j => s.handlers[i]?.bind fun h => h.leaves[j]?
  | .cockpitHandler c i j => (s.cockpitAt c).bind fun c => c.handlers[i]?.bind fun h => h.leaves[j]?
  | .cockpitPanel c p j => (s.cockpitAt c).bind fun c => (c.panelAt p).bind fun p => p.leaves[j]?

/-- The message removes what is at the place: its cockpit, or its panel. -/
def Place.RemovedBy : Place → Message σ L → Prop
  | .handler _ _, _ => False
  | .cockpitHandler c _ _, .removeCockpit n => c = .named n
  | .cockpitHandler _ _ _, _ => False
  | .cockpitPanel c _ _, .removeCockpit n => c = .named n
  | .cockpitPanel c p _, .removePanelFromCockpit n m => c = .named n ∧ p = .named m
  | .cockpitPanel _ _ _, _ => False

end Metrix
