import Verif.Spec.Happening
import Verif.Spec.Layout

/-!
# Observations that come in another order
-/

namespace Metrix
variable {σ L : Type}

/-- An instrument, without what it has measured, and how it is fed. -/
structure Holder where
  instrument : Instrument Unit
  /-- Only changes of the value reach it. -/
  changesOnly : Bool := false

/-- The instrument forgets in which order it has got what came at the same moment: it counts, adds or remembers the moment. A gauge adds as long
as it gets changes only, but not if it tracks the highest and the lowest value. A flag, a data display and a histogram do not forget. -/
def Holder.ForgetsOrder (h : Holder) : Prop :=
  match h.instrument with
  | .counter _ | .meter _ | .valueMeter _ | .staircaseTimer _ | .occurrenceIndicator _ | .nonOccurrenceIndicator _
  | .lastOccurrenceTracker _ | .custom _ => True
  | .gauge g => h.changesOnly = true ∧ g.tracking = none
  | .flag _ | .dataDisplay _ | .histogram _ => False

def InstrumentAdapter.holder {I : Type} (f : I → Instrument Unit) (a : InstrumentAdapter L I) : Holder := { instrument := f a.instrument }

def GaugeAdapter.holder (a : GaugeAdapter L) : Holder where
  instrument := .gauge a.gauge.bare
  changesOnly := match a.strategy with
    | .filter _ => false
    | .deltasOnly _ => true
    | .incDecOnLabels _ _ => true

/-- The slots of a panel. -/
def PanelHead.holders (h : PanelHead L) : List Holder :=
  h.counter.toList.map (·.holder fun i => .counter i.bare) ++ h.gauge.toList.map (·.holder) ++
    h.meter.toList.map (·.holder fun i => .meter i.bare) ++ h.histogram.toList.map (·.holder fun i => .histogram i.bare)

mutual
/-- All instruments anywhere in a panel that get observations. -/
def Panel.holders : Panel σ L → List Holder
  | .mk h ps hs _ => h.holders ++ holdersOfPanels ps ++ holdersOfHandlers hs
def holdersOfPanels : List (Panel σ L) → List Holder
  | [] => []
  | p :: ps => p.holders ++ holdersOfPanels ps
def Handler.holders : Handler σ L → List Holder
  | .instrument a => [a.holder Instrument.bare]
  | .gauge a => [a.holder]
  | .panel p => p.holders
  | .cockpit _ ps hs _ => holdersOfPanels ps ++ holdersOfHandlers hs
  | .custom _ => []
def holdersOfHandlers : List (Handler σ L) → List Holder
  | [] => []
  | h :: hs => h.holders ++ holdersOfHandlers hs
end

def Cockpit.holders (c : Cockpit σ L) : List Holder := holdersOfPanels c.panels ++ holdersOfHandlers c.handlers

/-- All instruments anywhere in a processor that get observations. -/
def ProcessorState.holders (s : ProcessorState σ L) : List Holder :=
  s.cockpits.flatMap Cockpit.holders ++ holdersOfHandlers s.handlers

/-- The instruments that come in with a message. -/
def Message.holders : Message σ L → List Holder
  | .addCockpit c => c.holders
  | .addHandler h => h.holders
  | .addPanelToCockpit _ p => p.holders
  | _ => []

/-- The instruments that come in with a call. -/
def Call.holders : Call σ L → List Holder
  | .addCockpit c => c.holders
  | .addHandler h => h.holders
  | _ => []

def Happening.holders : Happening σ L → List Holder
  | .message _ _ m => m.holders
  | .set c => c.holders

/-- If `f` and then `g` come to a result, `g` and then `f` come to the same. -/
def Swaps {S : Type} (e : Env) (f g : S → M (S × Nat)) (x : S) : Prop :=
  ∀ (k₁ k₁' k₂ k₂' : Nat) (z y : S) (c c' : Nat), f x e k₁ = some ((z, c), k₁') → g z e k₂ = some ((y, c'), k₂') →
    ∃ z', (∀ k, ∃ k', g x e k = some ((z', c'), k')) ∧ ∀ k, ∃ k', f z' e k = some ((y, c), k')

/-- For user defined types the order does not matter at the same moment. -/
structure CustomForgets (σ L : Type) [Custom σ L] : Prop where
  update : ∀ (s : σ) (e : Env) (m : Nat) (u u' : Update), Swaps (e.at m) (Custom.update L · u) (Custom.update L · u') s
  handle : ∀ (s : σ) (e : Env) (m : Nat) (o o' : Observation L), Swaps (e.at m) (Custom.handle · o) (Custom.handle · o') s

/-- The same happened, only that observations that were handled at the same moment were handled in another order. -/
inductive Reordered : List (Happening σ L) → List (Happening σ L) → Prop
  | nil : Reordered [] []
  | same (h : Happening σ L) {hs hs' : List (Happening σ L)} : Reordered hs hs' → Reordered (h :: hs) (h :: hs')
  | swap (m : Nat) (strategy strategy' : Strategy) (o o' : Observation L) (hs : List (Happening σ L)) :
      Reordered (.message m strategy (.observation o) :: .message m strategy' (.observation o') :: hs)
        (.message m strategy' (.observation o') :: .message m strategy (.observation o) :: hs)
  | trans {hs₁ hs₂ hs₃ : List (Happening σ L)} : Reordered hs₁ hs₂ → Reordered hs₂ hs₃ → Reordered hs₁ hs₃

end Metrix
