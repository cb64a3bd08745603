import Verif.Spec.Happening

/-!
# Occurrences that are reported together or one by one
-/

namespace Metrix
variable {σ L : Type}

/-- What an adapter does with observations before its instrument gets them. -/
structure Reaction (L : Type) where
  modifier : UpdateModifier L
  /-- The labels at which a gauge is incremented or decremented by one. -/
  steps : List (LabelFilter L) := []

/-- Occurrences with the label reach the instrument as they are. -/
def Reaction.Counts [DecidableEq L] (l : L) (r : Reaction L) : Prop :=
  (∀ t, r.modifier.modify l (.observation t) = .observation t) ∧
    (∀ n t, r.modifier.modify l (.observations n t) = .observations n t) ∧ ∀ f ∈ r.steps, f.accepts l = false

def InstrumentAdapter.reaction {I : Type} (a : InstrumentAdapter L I) : Reaction L := { modifier := a.modifyUpdate }

def GaugeAdapter.reaction (a : GaugeAdapter L) : Reaction L where
  modifier := a.modifyUpdate
  steps := match a.strategy with
    | .incDecOnLabels inc dec => [inc, dec]
    | _ => []

/-- The slots of a panel. -/
def PanelHead.reactions (h : PanelHead L) : List (Reaction L) :=
  h.counter.toList.map (·.reaction) ++ h.gauge.toList.map (·.reaction) ++ h.meter.toList.map (·.reaction) ++
    h.histogram.toList.map (·.reaction)

mutual
/-- All adapters anywhere in a panel. -/
def Panel.reactions : Panel σ L → List (Reaction L)
  | .mk h ps hs _ => h.reactions ++ reactionsOfPanels ps ++ reactionsOfHandlers hs
def reactionsOfPanels : List (Panel σ L) → List (Reaction L)
  | [] => []
  | p :: ps => p.reactions ++ reactionsOfPanels ps
/-- All adapters anywhere in a handler. -/
def Handler.reactions : Handler σ L → List (Reaction L)
  | .instrument a => [a.reaction]
  | .gauge a => [a.reaction]
  | .panel p => p.reactions
  | .cockpit _ ps hs _ => reactionsOfPanels ps ++ reactionsOfHandlers hs
  | .custom _ => []
def reactionsOfHandlers : List (Handler σ L) → List (Reaction L)
  | [] => []
  | h :: hs => h.reactions ++ reactionsOfHandlers hs
end

def Cockpit.reactions (c : Cockpit σ L) : List (Reaction L) := reactionsOfPanels c.panels ++ reactionsOfHandlers c.handlers

/-- All adapters anywhere in a processor. -/
def ProcessorState.reactions (s : ProcessorState σ L) : List (Reaction L) :=
  s.cockpits.flatMap Cockpit.reactions ++ reactionsOfHandlers s.handlers

/-- The adapters that come in with a message. -/
def Message.reactions : Message σ L → List (Reaction L)
  | .addCockpit c => c.reactions
  | .addHandler h => h.reactions
  | .addPanelToCockpit _ p => p.reactions
  | _ => []

/-- The adapters that come in with a call. -/
def Call.reactions : Call σ L → List (Reaction L)
  | .addCockpit c => c.reactions
  | .addHandler h => h.reactions
  | _ => []

def Happening.reactions : Happening σ L → List (Reaction L)
  | .message _ _ m => m.reactions
  | .set c => c.reactions

/-- `h` does the same as `f` and then `g`, and all report the same number. -/
def Joins {S : Type} (e : Env) (f g h : S → M (S × Nat)) (x : S) : Prop :=
  ∀ (k k₁ k₁' k₂ k₂' : Nat) (z y : S) (c c' : Nat), f x e k₁ = some ((z, c), k₁') → g z e k₂ = some ((y, c'), k₂') →
    c' = c ∧ ∃ k', h x e k = some ((y, c), k')

/-- For user defined types, `n + 1` occurrences at once are the same as `n` at once and then one more at the same moment. -/
structure CustomCounts (σ L : Type) [Custom σ L] : Prop where
  updateOne : ∀ (s : σ) t, Custom.update L s (.observations 1 t) = Custom.update L s (.observation t)
  handleOne : ∀ (s : σ) (l : L) t, Custom.handle s (Observation.observed l 1 t) = Custom.handle s (.observedOne l t)
  update : ∀ (s : σ) (e : Env) (m n : Nat) t, 0 < n →
    Joins (e.at m) (Custom.update L · (.observations n t)) (Custom.update L · (.observation t)) (Custom.update L · (.observations (n + 1) t)) s
  handle : ∀ (s : σ) (e : Env) (m : Nat) (l : L) (n : Nat) t, 0 < n →
    Joins (e.at m) (Custom.handle · (Observation.observed l n t)) (Custom.handle · (.observedOne l t))
      (Custom.handle · (.observed l (n + 1) t)) s

/-- The same happened, only that several occurrences with the same label, which were reported together in the first case, were reported one by
one in the second case. The labels are among those in `counted`. -/
inductive OneByOne (counted : L → Prop) : List (Happening σ L) → List (Happening σ L) → Prop
  | nil : OneByOne counted [] []
  | same (h : Happening σ L) {hs hs' : List (Happening σ L)} : OneByOne counted hs hs' → OneByOne counted (h :: hs) (h :: hs')
  | observed (m : Nat) (strategy : Strategy) (l : L) (n : Nat) (t : Int) {hs hs' : List (Happening σ L)} : counted l → 0 < n →
      (n : Int) ≤ i64Max → OneByOne counted hs hs' →
      OneByOne counted (.message m strategy (.observation (.observed l n t)) :: hs)
        (List.replicate n (.message m strategy (.observation (.observedOne l t))) ++ hs')

end Metrix
