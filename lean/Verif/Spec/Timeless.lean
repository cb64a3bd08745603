import Verif.Spec.Happening

/-!
# The same observations with other timestamps
-/

namespace Metrix
variable {σ L : Type}

/-- The same update with another timestamp. -/
def Update.stamped (t : Int) : Update → Update
  | .observations n _ => .observations n t
  | .observation _ => .observation t
  | .withValue v _ => .withValue v t

/-- The same observation with another timestamp. -/
def Observation.stamped (t : Int) : Observation L → Observation L
  | .observed l n _ => .observed l n t
  | .observedOne l _ => .observedOne l t
  | .observedOneValue l v _ => .observedOneValue l v t

/-- What the modifier makes of an update does not depend on the timestamp, except that it may set the timestamp. -/
def UpdateModifier.Timeless (m : UpdateModifier L) : Prop := ∀ l u t, ∃ t', m.modify l (u.stamped t) = (m.modify l u).stamped t'

/-- User defined types do not look at timestamps. -/
structure CustomTimeless (σ L : Type) [Custom σ L] : Prop where
  update : ∀ (s : σ) u t, Custom.update L s (Update.stamped t u) = Custom.update L s u
  handle : ∀ (s : σ) (o : Observation L) t, Custom.handle s (o.stamped t) = Custom.handle s o

/-- The modifiers of the slots of a panel. -/
def PanelHead.modifiers (h : PanelHead L) : List (UpdateModifier L) :=
  h.counter.toList.map (·.modifyUpdate) ++ h.gauge.toList.map (·.modifyUpdate) ++ h.meter.toList.map (·.modifyUpdate) ++
    h.histogram.toList.map (·.modifyUpdate)

mutual
/-- All modifiers anywhere in a panel. -/
def Panel.modifiers : Panel σ L → List (UpdateModifier L)
  | .mk h ps hs _ => h.modifiers ++ modifiersOfPanels ps ++ modifiersOfHandlers hs
def modifiersOfPanels : List (Panel σ L) → List (UpdateModifier L)
  | [] => []
  | p :: ps => p.modifiers ++ modifiersOfPanels ps
/-- All modifiers anywhere in a handler. -/
def Handler.modifiers : Handler σ L → List (UpdateModifier L)
  | .instrument a => [a.modifyUpdate]
  | .gauge a => [a.modifyUpdate]
  | .panel p => p.modifiers
  | .cockpit _ ps hs _ => modifiersOfPanels ps ++ modifiersOfHandlers hs
  | .custom _ => []
def modifiersOfHandlers : List (Handler σ L) → List (UpdateModifier L)
  | [] => []
  | h :: hs => h.modifiers ++ modifiersOfHandlers hs
end

def Cockpit.modifiers (c : Cockpit σ L) : List (UpdateModifier L) := modifiersOfPanels c.panels ++ modifiersOfHandlers c.handlers

/-- All modifiers anywhere in a processor. -/
def ProcessorState.modifiers (s : ProcessorState σ L) : List (UpdateModifier L) :=
  s.cockpits.flatMap Cockpit.modifiers ++ modifiersOfHandlers s.handlers

/-- The modifiers that come in with a message. -/
def Message.modifiers : Message σ L → List (UpdateModifier L)
  | .addCockpit c => c.modifiers
  | .addHandler h => h.modifiers
  | .addPanelToCockpit _ p => p.modifiers
  | _ => []

/-- The modifiers that come in with a call. -/
def Call.modifiers : Call σ L → List (UpdateModifier L)
  | .addCockpit c => c.modifiers
  | .addHandler h => h.modifiers
  | _ => []

def Happening.modifiers : Happening σ L → List (UpdateModifier L)
  | .message _ _ m => m.modifiers
  | .set c => c.modifiers

/-- The same happened, only that an observation has another timestamp. By both timestamps it is processed, or by both it is dropped. -/
inductive Happening.Restamped (e : Env) : Happening σ L → Happening σ L → Prop
  | same (h : Happening σ L) : Restamped e h h
  | observation (m : Nat) (strategy : Strategy) (o : Observation L) (t : Int) :
      (strategy.Keeps (e.clock m) o ↔ strategy.Keeps (e.clock m) (o.stamped t)) →
      Restamped e (.message m strategy (.observation o)) (.message m strategy (.observation (o.stamped t)))

end Metrix
