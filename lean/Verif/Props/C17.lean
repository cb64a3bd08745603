import Verif.Proof.Dispatch

/-! # C17: a rejected label changes nothing -/

namespace Metrix
variable {σ L : Type} [DecidableEq L] [Custom σ L]

/-- A panel whose filter does not accept the label stays exactly as it is, whatever is nested in it; 0 is reported, the
clock is not even read. -/
theorem C17_panel (p : Panel σ L) (o : Observation L) (h : p.acceptsLabel o.label = false) (e : Env) (k : Nat) :
    p.handle o e k = some ((p, 0), k) := by
  cases p with
  | mk hd ps hs ss =>
    have h : ¬ hd.labelFilter.accepts o.label = true := by
      intro h'; rw [show Panel.acceptsLabel _ _ = hd.labelFilter.accepts o.label from rfl, h'] at h; cases h
    simp only [Panel.handle, if_neg h]; rfl

/-- The same for adapters. -/
theorem C17_adapter {I : Type} [IsInstrument I] (a : InstrumentAdapter L I) (o : Observation L)
    (h : a.labelFilter.accepts o.label = false) (e : Env) (k : Nat) :
    a.handle IsInstrument.update o e k = some ((a, 0), k) := by
  simp only [InstrumentAdapter.handle, h]; rfl

/-- The same for adapters of boxed instruments. -/
theorem C17_boxed_adapter (a : InstrumentAdapter L (Instrument σ)) (o : Observation L)
    (h : a.labelFilter.accepts o.label = false) (e : Env) (k : Nat) :
    a.handle (Instrument.update L) o e k = some ((a, 0), k) := by
  simp only [InstrumentAdapter.handle, h]; rfl

/-- The same for gauge adapters, with any strategy. -/
theorem C17_gauge_adapter (a : GaugeAdapter L) (o : Observation L)
    (h : match a.strategy with
      | .filter f => f.accepts o.label = false
      | .deltasOnly f => f.accepts o.label = false
      | .incDecOnLabels inc dec => inc.accepts o.label = false ∧ dec.accepts o.label = false) (e : Env) (k : Nat) :
    a.handle o e k = some ((a, 0), k) := by
  unfold GaugeAdapter.handle
  cases hs : a.strategy with
  | filter f => simp only [hs] at h ⊢; simp [h]
  | deltasOnly f => simp only [hs] at h ⊢; simp [h]
  | incDecOnLabels inc dec => simp only [hs] at h ⊢; simp [h.1, h.2]

/-- A panel with a counter in a panel: the outer filter rejects. -/
example : (Panel.mk (σ := Empty) { labelFilter := .acceptNone, activity := ⟨0, none, true⟩ }
    [.mk { labelFilter := .acceptAll, activity := ⟨0, none, true⟩, counter := some (.new { name := "c", count := 0 }) }
      [] [] []] [] [] : Panel Empty Nat).acceptsLabel 3 = false := by decide

example (e : Env) (k : Nat) := C17_adapter (L := Nat) (.accept (.one 1) ({ name := "c" } : Counter)) (.observedOne 2 0) (by decide) e k
example (e : Env) (k : Nat) := C17_gauge_adapter (L := Nat) (.incDecOn (.one 1) (.one 3) { name := "g" }) (.observedOne 2 0)
  (by exact ⟨rfl, rfl⟩) e k

end Metrix
