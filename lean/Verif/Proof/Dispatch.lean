import Verif.Spec.Dispatch
import Verif.Proof.Arith

namespace Metrix
variable {σ L : Type} [DecidableEq L] [Custom σ L]

/-- A handled leaf list and a count. -/
def both (l₁ l₂ : List (Placed σ L) × Nat) : List (Placed σ L) × Nat := (l₁.1 ++ l₂.1, l₁.2 + l₂.2)

theorem dispatch_append (o : Observation L) (l₁ l₂ : List (Placed σ L)) :
    dispatch o (l₁ ++ l₂) = (do
      let a ← dispatch o l₁
      let b ← dispatch o l₂
      return both a b) := by
  induction l₁ with
  | nil => simp [dispatch, both]
  | cons x l ih =>
    obtain ⟨path, leaf⟩ := x
    by_cases hp : path.all (·.accepts o.label) = true
    · simp only [List.cons_append, dispatch, ih, hp, if_true]; simp [both, Nat.add_assoc]
    · simp only [List.cons_append, dispatch, ih, hp]; simp [both]

theorem dispatch_behind_accepted (o : Observation L) (f : LabelFilter L) (hf : f.accepts o.label = true)
    (l : List (Placed σ L)) :
    dispatch o (behind f l) = (do
      let a ← dispatch o l
      return (behind f a.1, a.2)) := by
  induction l with
  | nil => simp [dispatch, behind]
  | cons x l ih =>
    obtain ⟨path, leaf⟩ := x
    rw [show behind f ((path, leaf) :: l) = (f :: path, leaf) :: behind f l from rfl]
    by_cases hp : path.all (·.accepts o.label) = true
    · simp only [dispatch, ih, List.all_cons, hf, Bool.true_and, hp, if_true]; simp [behind]
    · simp only [dispatch, ih, List.all_cons, hf, Bool.true_and, hp]; simp [behind]

theorem dispatch_behind_rejected (o : Observation L) (f : LabelFilter L) (hf : f.accepts o.label = false)
    (l : List (Placed σ L)) : dispatch o (behind f l) = pure (behind f l, 0) := by
  induction l with
  | nil => simp [dispatch, behind]
  | cons x l ih =>
    obtain ⟨path, leaf⟩ := x
    rw [show behind f ((path, leaf) :: l) = (f :: path, leaf) :: behind f l from rfl]
    simp only [dispatch, ih, List.all_cons, hf, Bool.false_and]
    simp

theorem dispatch_one (o : Observation L) (leaf : Leaf σ L) :
    dispatch o [([], leaf)] = (do let a ← leaf.react o; return ([([], a.1)], a.2)) := by
  simp [dispatch]

/-- A slot's adapter behaves like the boxed instrument. -/
theorem slot_instrument {I : Type} [IsInstrument I] (wrap : I → Instrument σ)
    (hw : ∀ i u, Instrument.update L (wrap i) u = (do let (i, n) ← IsInstrument.update i u; return (wrap i, n)))
    (o : Observation L) (a : Option (InstrumentAdapter L I)) :
    dispatch o ((a.map fun a => (([] : List (LabelFilter L)), Leaf.instrument (a.map wrap))).toList) = (do
      let a ← handleSlot (·.handle IsInstrument.update o) a
      return ((a.1.map fun a => ([], Leaf.instrument (a.map wrap))).toList, a.2)) := by
  cases a with
  | none => simp [dispatch, handleSlot]
  | some a =>
    simp only [Option.map_some, Option.toList_some, dispatch_one, handleSlot, Leaf.react, InstrumentAdapter.handle]
    by_cases hf : a.labelFilter.accepts o.label = true
    · rw [if_pos hf, if_pos (by exact hf)]
      simp [hw, InstrumentAdapter.map]
    · rw [if_neg hf, if_neg (by exact hf)]
      simp [InstrumentAdapter.map]

theorem slot_gauge (o : Observation L) (a : Option (GaugeAdapter L)) :
    dispatch o ((a.map fun a => (([] : List (LabelFilter L)), (Leaf.gauge a : Leaf σ L))).toList) = (do
      let a ← handleSlot (·.handle o) a
      return ((a.1.map fun a => ([], Leaf.gauge a)).toList, a.2)) := by
  cases a with
  | none => simp [dispatch, handleSlot]
  | some a => simp [dispatch_one, handleSlot, Leaf.react]

theorem PanelHead.dispatch (o : Observation L) (h : PanelHead L) :
    Metrix.dispatch (σ := σ) o h.leaves = (do let a ← h.handle o; return (a.1.leaves, a.2)) := by
  unfold PanelHead.leaves PanelHead.handle
  rw [dispatch_append, dispatch_append, dispatch_append, slot_instrument .counter (fun _ _ => rfl), slot_gauge,
    slot_instrument .meter (fun _ _ => rfl), slot_instrument .histogram (fun _ _ => rfl)]
  simp [both]

/-- The filter of a panel and the leaves behind it do not depend on its state. -/
theorem PanelHead.handle_filter {o : Observation L} {h h' : PanelHead L} {n : Nat} {e : Env} {k k' : Nat}
    (hh : h.handle o e k = some ((h', n), k')) : h'.labelFilter = h.labelFilter := by
  simp only [PanelHead.handle, M.bind_eq_some, M.run_pure, Option.some.injEq, Prod.mk.injEq] at hh
  obtain ⟨_, _, _, _, _, _, _, _, _, _, _, _, ⟨rfl, _⟩, _⟩ := hh
  rfl

/-- To rewrite the continuation of a computation with what is known about its result. -/
theorem M.bind_congr' {α β : Type} {x : M α} {f g : α → M β}
    (h : ∀ a e k k', x e k = some (a, k') → f a e k' = g a e k') : (x >>= f) = (x >>= g) := by
  funext e k
  rw [M.run_bind, M.run_bind]
  cases hx : x e k with
  | none => rfl
  | some r => exact h _ _ _ _ hx

mutual
theorem Panel.dispatch (o : Observation L) (p : Panel σ L) :
    Metrix.dispatch o p.leaves = (do let a ← p.handle o; return (a.1.leaves, a.2)) := by
  match p with
  | .mk h ps hs ss =>
    simp only [Panel.leaves, Panel.handle]
    by_cases hf : h.labelFilter.accepts o.label = true
    · rw [if_pos hf, dispatch_behind_accepted o _ hf, dispatch_append, dispatch_append, PanelHead.dispatch,
        panels_dispatch o ps, handlers_dispatch o hs]
      simp only [bind_assoc, pure_bind, both]
      refine M.bind_congr' fun a e k k' ha => ?_
      obtain ⟨h', n⟩ := a
      simp only [Panel.leaves, PanelHead.handle_filter ha]
    · rw [if_neg hf, dispatch_behind_rejected o _ (by simpa using hf)]
      simp [Panel.leaves]

theorem panels_dispatch (o : Observation L) (ps : List (Panel σ L)) :
    Metrix.dispatch o (leavesOfPanels ps) = (do let a ← handlePanels o ps; return (leavesOfPanels a.1, a.2)) := by
  match ps with
  | [] => simp [leavesOfPanels, handlePanels, Metrix.dispatch]
  | p :: ps =>
    simp only [leavesOfPanels, handlePanels]
    rw [dispatch_append, Panel.dispatch o p, panels_dispatch o ps]
    simp [both, leavesOfPanels]

theorem Handler.dispatch (o : Observation L) (h : Handler σ L) :
    Metrix.dispatch o h.leaves = (do let a ← h.handle o; return (a.1.leaves, a.2)) := by
  match h with
  | .instrument a => simp [Handler.leaves, Handler.handle, dispatch_one, Leaf.react]
  | .gauge a => simp [Handler.leaves, Handler.handle, dispatch_one, Leaf.react]
  | .panel p => simp [Handler.leaves, Handler.handle, Panel.dispatch o p]
  | .cockpit h ps hs ss =>
    simp only [Handler.leaves, Handler.handle]
    rw [← List.singleton_append, dispatch_append, dispatch_one, dispatch_append, handlers_dispatch o hs,
      panels_dispatch o ps]
    simp [both, Leaf.react, Handler.leaves]
  | .custom s => simp [Handler.leaves, Handler.handle, dispatch_one, Leaf.react]

theorem handlers_dispatch (o : Observation L) (hs : List (Handler σ L)) :
    Metrix.dispatch o (leavesOfHandlers hs) = (do let a ← handleHandlers o hs; return (leavesOfHandlers a.1, a.2)) := by
  match hs with
  | [] => simp [leavesOfHandlers, handleHandlers, Metrix.dispatch]
  | h :: hs =>
    simp only [leavesOfHandlers, handleHandlers]
    rw [dispatch_append, Handler.dispatch o h, handlers_dispatch o hs]
    simp [both, leavesOfHandlers]
end

theorem Cockpit.dispatch (o : Observation L) (c : Cockpit σ L) :
    Metrix.dispatch o c.leaves = (do let a ← c.handle o; return (a.1.leaves, a.2)) := by
  simp only [Cockpit.leaves, Cockpit.handle]
  rw [← List.singleton_append, dispatch_append, dispatch_one, dispatch_append, handlers_dispatch o c.handlers,
    panels_dispatch o c.panels]
  simp [both, Leaf.react]

/-! ## Shape -/

theorem InstrumentAdapter.handle_filter {I : Type} {update : I → Update → M (I × Nat)} {a a' : InstrumentAdapter L I}
    {o : Observation L} {n : Nat} {e : Env} {k k' : Nat} (h : a.handle update o e k = some ((a', n), k')) :
    a'.labelFilter = a.labelFilter ∧ a'.modifyUpdate = a.modifyUpdate := by
  unfold InstrumentAdapter.handle at h
  by_cases hf : a.labelFilter.accepts o.label = true
  · rw [if_pos hf] at h
    simp only [M.bind_eq_some, M.run_pure, Option.some.injEq, Prod.mk.injEq] at h
    obtain ⟨_, _, _, ⟨rfl, _⟩, _⟩ := h; exact ⟨rfl, rfl⟩
  · rw [if_neg hf] at h; simp at h; rw [h.1.1]; exact ⟨rfl, rfl⟩

omit [DecidableEq L] in
theorem GaugeAdapter.updateGauge_keeps {a a' : GaugeAdapter L} {u : Update} {n : Nat} {e : Env} {k k' : Nat}
    (h : a.updateGauge u e k = some ((a', n), k')) : a'.strategy = a.strategy ∧ a'.modifyUpdate = a.modifyUpdate := by
  simp only [GaugeAdapter.updateGauge, M.bind_eq_some, M.run_pure, Option.some.injEq, Prod.mk.injEq] at h
  obtain ⟨_, _, _, ⟨rfl, _⟩, _⟩ := h; exact ⟨rfl, rfl⟩

theorem GaugeAdapter.handle_keeps {a a' : GaugeAdapter L} {o : Observation L} {n : Nat} {e : Env} {k k' : Nat}
    (h : a.handle o e k = some ((a', n), k')) : a'.strategy = a.strategy ∧ a'.modifyUpdate = a.modifyUpdate := by
  unfold GaugeAdapter.handle at h
  cases hs : a.strategy with
  | filter f =>
    simp only [hs] at h
    by_cases hf : f.accepts o.label = true
    · rw [if_pos hf] at h; rw [← hs]; exact updateGauge_keeps h
    · rw [if_neg hf] at h; simp at h; rw [← h.1.1]; exact ⟨hs, rfl⟩
  | deltasOnly f =>
    simp only [hs] at h
    by_cases hf : f.accepts o.label = true
    · rw [if_pos hf] at h
      generalize a.modifyUpdate.modify o.label o.toUpdate = u at h
      have skip : (pure (a, 0) : M (GaugeAdapter L × Nat)) e k = some ((a', n), k') →
          a'.strategy = .deltasOnly f ∧ a'.modifyUpdate = a.modifyUpdate := by
        intro h; simp at h; rw [← h.1.1]; exact ⟨hs, rfl⟩
      cases u with
      | withValue v t =>
        cases v with
        | changedBy d => rw [← hs]; exact updateGauge_keeps h
        | _ => exact skip h
      | _ => exact skip h
    · rw [if_neg hf] at h; simp at h; rw [← h.1.1]; exact ⟨hs, rfl⟩
  | incDecOnLabels inc dec =>
    simp only [hs] at h
    by_cases hf : inc.accepts o.label = true
    · rw [if_pos hf] at h; rw [← hs]; exact updateGauge_keeps h
    · rw [if_neg hf] at h
      by_cases hd : dec.accepts o.label = true
      · rw [if_pos hd] at h; rw [← hs]; exact updateGauge_keeps h
      · rw [if_neg hd] at h; simp at h; rw [← h.1.1]; exact ⟨hs, rfl⟩

theorem handleSlot_map {A B : Type} {f : A → M (A × Nat)} {g : A → B} {a a' : Option A} {n : Nat} {e : Env} {k k' : Nat}
    (hf : ∀ a a' n k k', f a e k = some ((a', n), k') → g a' = g a)
    (h : handleSlot f a e k = some ((a', n), k')) : a'.map g = a.map g := by
  cases a with
  | none => simp [handleSlot] at h; rw [← h.1.1]
  | some a =>
    simp only [handleSlot, M.bind_eq_some, M.run_pure, Option.some.injEq, Prod.mk.injEq] at h
    obtain ⟨_, _, h, ⟨rfl, rfl⟩, rfl⟩ := h
    simp [hf _ _ _ _ _ h]

mutual
theorem Panel.handle_shape {o : Observation L} {p p' : Panel σ L} {n : Nat} {e : Env} {k k' : Nat}
    (h : p.handle o e k = some ((p', n), k')) : p'.shape = p.shape := by
  match p with
  | .mk hd ps hs ss =>
    simp only [Panel.handle] at h
    by_cases hf : hd.labelFilter.accepts o.label = true
    · rw [if_pos hf] at h
      simp only [M.bind_eq_some, M.run_pure, Option.some.injEq, Prod.mk.injEq] at h
      obtain ⟨⟨hd', _⟩, _, h1, ⟨ps', _⟩, _, h2, ⟨hs', _⟩, _, h3, ⟨rfl, _⟩, _⟩ := h
      simp only [PanelHead.handle, M.bind_eq_some, M.run_pure, Option.some.injEq, Prod.mk.injEq] at h1
      obtain ⟨⟨c', _⟩, _, hc, ⟨g', _⟩, _, hg, ⟨m', _⟩, _, hm, ⟨hi', _⟩, _, hhi, ⟨rfl, _⟩, _⟩ := h1
      simp only [Panel.shape, panels_shape h2, handlers_shape h3]
      rw [handleSlot_map (fun a a' n k k' h => (InstrumentAdapter.handle_filter h).1) hc,
        handleSlot_map (fun a a' n k k' h => (GaugeAdapter.handle_keeps h).1) hg,
        handleSlot_map (fun a a' n k k' h => (InstrumentAdapter.handle_filter h).1) hm,
        handleSlot_map (fun a a' n k k' h => (InstrumentAdapter.handle_filter h).1) hhi]
    · rw [if_neg hf] at h; simp at h; rw [h.1.1]

theorem panels_shape {o : Observation L} {ps ps' : List (Panel σ L)} {n : Nat} {e : Env} {k k' : Nat}
    (h : handlePanels o ps e k = some ((ps', n), k')) : shapesOfPanels ps' = shapesOfPanels ps := by
  match ps with
  | [] => simp [handlePanels] at h; rw [h.1.1]
  | p :: ps =>
    simp only [handlePanels, M.bind_eq_some, M.run_pure, Option.some.injEq, Prod.mk.injEq] at h
    obtain ⟨⟨p', _⟩, _, h1, ⟨ps', _⟩, _, h2, ⟨rfl, _⟩, _⟩ := h
    simp only [shapesOfPanels, Panel.handle_shape h1, panels_shape h2]

theorem Handler.handle_shape {o : Observation L} {x x' : Handler σ L} {n : Nat} {e : Env} {k k' : Nat}
    (h : x.handle o e k = some ((x', n), k')) : x'.shape = x.shape := by
  match x with
  | .instrument a =>
    simp only [Handler.handle, M.bind_eq_some, M.run_pure, Option.some.injEq, Prod.mk.injEq] at h
    obtain ⟨⟨a', _⟩, _, h1, ⟨rfl, _⟩, _⟩ := h
    simp only [Handler.shape, (InstrumentAdapter.handle_filter h1).1]
  | .gauge a =>
    simp only [Handler.handle, M.bind_eq_some, M.run_pure, Option.some.injEq, Prod.mk.injEq] at h
    obtain ⟨⟨a', _⟩, _, h1, ⟨rfl, _⟩, _⟩ := h
    simp only [Handler.shape, (GaugeAdapter.handle_keeps h1).1]
  | .panel p =>
    simp only [Handler.handle, M.bind_eq_some, M.run_pure, Option.some.injEq, Prod.mk.injEq] at h
    obtain ⟨⟨a', _⟩, _, h1, ⟨rfl, _⟩, _⟩ := h
    simp only [Handler.shape, Panel.handle_shape h1]
  | .cockpit hd ps hs ss =>
    simp only [Handler.handle, M.bind_eq_some, M.run_pure, Option.some.injEq, Prod.mk.injEq] at h
    obtain ⟨_, _, _, ⟨hs', _⟩, _, h1, ⟨ps', _⟩, _, h2, ⟨rfl, _⟩, _⟩ := h
    simp only [Handler.shape, panels_shape h2, handlers_shape h1]
  | .custom s =>
    simp only [Handler.handle, M.bind_eq_some, M.run_pure, Option.some.injEq, Prod.mk.injEq] at h
    obtain ⟨⟨a', _⟩, _, h1, ⟨rfl, _⟩, _⟩ := h
    rfl

theorem handlers_shape {o : Observation L} {hs hs' : List (Handler σ L)} {n : Nat} {e : Env} {k k' : Nat}
    (h : handleHandlers o hs e k = some ((hs', n), k')) : shapesOfHandlers hs' = shapesOfHandlers hs := by
  match hs with
  | [] => simp [handleHandlers] at h; rw [h.1.1]
  | p :: ps =>
    simp only [handleHandlers, M.bind_eq_some, M.run_pure, Option.some.injEq, Prod.mk.injEq] at h
    obtain ⟨⟨p', _⟩, _, h1, ⟨ps', _⟩, _, h2, ⟨rfl, _⟩, _⟩ := h
    simp only [shapesOfHandlers, Handler.handle_shape h1, handlers_shape h2]
end

theorem Cockpit.handle_shape {o : Observation L} {c c' : Cockpit σ L} {n : Nat} {e : Env} {k k' : Nat}
    (h : c.handle o e k = some ((c', n), k')) : c'.shape = c.shape := by
  simp only [Cockpit.handle, M.bind_eq_some, M.run_pure, Option.some.injEq, Prod.mk.injEq] at h
  obtain ⟨_, _, _, ⟨hs', _⟩, _, h1, ⟨ps', _⟩, _, h2, ⟨rfl, _⟩, _⟩ := h
  simp only [Cockpit.shape, panels_shape h2, handlers_shape h1]

theorem react_not_reached {o : Observation L} {leaf : Leaf σ L} (h : ¬ Reached o.label ([], leaf)) :
    leaf.react o = pure (leaf, 0) := by
  cases leaf with
  | instrument a =>
    have h : a.labelFilter.accepts o.label = false := by simpa [Reached] using h
    simp [Leaf.react, InstrumentAdapter.handle, h]
  | gauge a =>
    simp only [Leaf.react, GaugeAdapter.handle]
    cases hs : a.strategy with
    | filter f =>
      have h : f.accepts o.label = false := by simpa [Reached, hs] using h
      simp [h]
    | deltasOnly f =>
      have h : f.accepts o.label = false := by simpa [Reached, hs] using h
      simp [h]
    | incDecOnLabels inc dec =>
      have h : inc.accepts o.label = false ∧ dec.accepts o.label = false := by simpa [Reached, hs] using h
      simp [h.1, h.2]
  | custom s => exact absurd (by simp [Reached]) h
  | lastActivity t => exact absurd (by simp [Reached]) h

omit [Custom σ L] in
theorem reached_iff {o : Observation L} {path : List (LabelFilter L)} {leaf : Leaf σ L} :
    Reached o.label (path, leaf) ↔ path.all (·.accepts o.label) = true ∧ Reached o.label ([], leaf) := by
  simp [Reached]

theorem visited_of_dispatch {o : Observation L} {e : Env} {l l' : List (Placed σ L)} {n k k' : Nat}
    (h : dispatch o l e k = some ((l', n), k')) : ∃ ns, Visited e o k l l' ns k' ∧ n = ns.sum := by
  induction l generalizing l' n k with
  | nil => simp [dispatch] at h; obtain ⟨⟨rfl, rfl⟩, rfl⟩ := h; exact ⟨[], .nil, rfl⟩
  | cons x l ih =>
    obtain ⟨path, leaf⟩ := x
    simp only [dispatch] at h
    by_cases hp : path.all (·.accepts o.label) = true
    · rw [if_pos hp] at h
      simp only [M.bind_eq_some, M.run_pure, Option.some.injEq, Prod.mk.injEq] at h
      obtain ⟨⟨leaf', n₁⟩, k₁, h1, ⟨rest', n₂⟩, k₂, h2, ⟨rfl, rfl⟩, rfl⟩ := h
      obtain ⟨ns, hv, rfl⟩ := ih h2
      by_cases hr : Reached o.label ([], leaf)
      · exact ⟨n₁ :: ns, .reached (reached_iff.mpr ⟨hp, hr⟩) h1 hv, by simp⟩
      · rw [react_not_reached hr] at h1
        simp at h1; obtain ⟨⟨rfl, rfl⟩, rfl⟩ := h1
        exact ⟨0 :: ns, .skipped (fun h => hr (reached_iff.mp h).2) hv, by simp⟩
    · rw [if_neg hp] at h
      simp only [M.bind_eq_some, M.run_pure, Option.some.injEq, Prod.mk.injEq] at h
      obtain ⟨_, k₁, ⟨rfl, rfl⟩, ⟨rest', n₂⟩, k₂, h2, ⟨rfl, rfl⟩, rfl⟩ := h
      obtain ⟨ns, hv, rfl⟩ := ih h2
      exact ⟨0 :: ns, .skipped (fun h => hp (reached_iff.mp h).1) hv, by simp⟩

end Metrix
