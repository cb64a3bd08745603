import Verif.Spec.History

/-!
# What release builds need so as not to panic

Configured durations must not lead out of the range of the platform's clock. The ring of a tracking
gauge has at least one bucket and points at one of its buckets; that is how it is built, and it
cannot be changed from outside.
-/

namespace Metrix

/-- The duration `d` can be added to and subtracted from every reading of the clock. -/
def Fits (e : Env) (d : Nat) : Prop := ∀ k, e.instMin ≤ e.clock k - d ∧ e.clock k + d ≤ e.instMax

/-- An instrument whose configured durations fit. `safe` tells which user defined instruments are fine. -/
def Instrument.Safe {σ : Type} (e : Env) (safe : σ → Prop) : Instrument σ → Prop
  | .gauge g => ∀ r, g.tracking = some r → r.currentIdx < r.buckets.length
  | .staircaseTimer t => Fits e t.switchOffAfter
  | .occurrenceIndicator i => Fits e i.ifHappenedWithin
  | .nonOccurrenceIndicator i => Fits e i.ifNotHappenedWithin
  | .dataDisplay d => ∀ r, d.resetAfter = some r → Fits e r
  | .custom s => safe s
  | .counter _ => True
  | .meter _ => True
  | .valueMeter _ => True
  | .histogram _ => True
  | .flag _ => True
  | .lastOccurrenceTracker _ => True

variable {σ L : Type}

/-- The instruments in the four slots of a panel. -/
def PanelHead.instruments (h : PanelHead L) : List (Instrument σ) :=
  h.counter.toList.map (fun a => .counter a.instrument) ++
    (h.gauge.toList.map (fun a => .gauge a.gauge) ++
      (h.meter.toList.map (fun a => .meter a.instrument) ++
        h.histogram.toList.map (fun a => .histogram a.instrument)))

mutual
/-- All instruments and user defined components anywhere in a panel. -/
def Panel.instruments : Panel σ L → List (Instrument σ)
  | .mk h ps hs ss =>
    h.instruments ++ (instrumentsOfPanels ps ++ (instrumentsOfHandlers hs ++ instrumentsOfSnapshooters ss))

def instrumentsOfPanels : List (Panel σ L) → List (Instrument σ)
  | [] => []
  | p :: ps => p.instruments ++ instrumentsOfPanels ps

/-- All instruments and user defined components anywhere in a handler. -/
def Handler.instruments : Handler σ L → List (Instrument σ)
  | .instrument a => [a.instrument]
  | .gauge a => [.gauge a.gauge]
  | .panel p => p.instruments
  | .cockpit _ ps hs ss =>
    instrumentsOfPanels ps ++ (instrumentsOfHandlers hs ++ instrumentsOfSnapshooters ss)
  | .custom s => [.custom s]

def instrumentsOfHandlers : List (Handler σ L) → List (Instrument σ)
  | [] => []
  | h :: hs => h.instruments ++ instrumentsOfHandlers hs

/-- All instruments and user defined components anywhere in a snapshooter. -/
def Snapshooter.instruments : Snapshooter σ L → List (Instrument σ)
  | .constant _ _ _ => []
  | .polling _ _ _ poll => poll.instruments
  | .instrument i => [i]
  | .handler h => h.instruments
  | .custom s => [.custom s]

def instrumentsOfSnapshooters : List (Snapshooter σ L) → List (Instrument σ)
  | [] => []
  | s :: ss => s.instruments ++ instrumentsOfSnapshooters ss
end

/-- All instruments and user defined components anywhere in a cockpit. -/
def Cockpit.instruments (c : Cockpit σ L) : List (Instrument σ) :=
  instrumentsOfPanels c.panels ++ (instrumentsOfHandlers c.handlers ++ instrumentsOfSnapshooters c.snapshooters)

/-- All durations and rings in a list of instruments are fine. -/
def AllSafe (e : Env) (safe : σ → Prop) (is : List (Instrument σ)) : Prop := ∀ i ∈ is, i.Safe e safe

/-- User defined components do not panic in states that satisfy `safe`, and stay in such states. -/
structure CustomSafe (L : Type) [Custom σ L] (e : Env) (safe : σ → Prop) : Prop where
  update : ∀ s u k, safe s → ∃ s' n k', Custom.update L s u e k = some ((s', n), k') ∧ safe s'
  handle : ∀ s (o : Observation L) k, safe s → ∃ s' n k', Custom.handle s o e k = some ((s', n), k') ∧ safe s'
  putSnapshot : ∀ s into d k, safe s →
    ∃ s' into' k', Custom.putSnapshot L s into d e k = some ((s', into'), k') ∧ safe s'

/-- Do one operation after the other. -/
def runOps {C A : Type} [Component C A] (c : C) : List (Op A) → M (C × List Out)
  | [] => return (c, [])
  | op :: ops => do
    let (c, out) ← step c op
    let (c, outs) ← runOps c ops
    return (c, out :: outs)

end Metrix
