import Verif.Proof.Layout
import Verif.Proof.LightRun
import Verif.Proof.Reports
import Verif.Spec.Busy

/-! What a run reports is limited by what is going to be sent, and by the number of instruments. -/

namespace Metrix
variable {σ L : Type} {b : Nat}

/-! ## The number of instruments does not depend on what was measured -/

theorem PanelHead.size_bare (h : PanelHead L) : (h.bare.parts (σ := Unit)).length = (h.parts (σ := σ)).length := by
  unfold PanelHead.parts PanelHead.bare
  cases h.counter <;> cases h.gauge <;> cases h.meter <;> cases h.histogram <;> rfl

mutual
theorem Panel.size_bare : ∀ p : Panel σ L, p.bare.parts.length = p.parts.length
  | .mk h ps hs ss => by
    simp only [Panel.bare, Panel.parts, List.length_append, h.size_bare (σ := σ), size_barePanels ps, size_bareHandlers hs,
      size_bareSnapshooters ss]

theorem size_barePanels : ∀ ps : List (Panel σ L), (partsOfPanels (barePanels ps)).length = (partsOfPanels ps).length
  | [] => rfl
  | p :: ps => by simp only [barePanels, partsOfPanels, List.length_append, p.size_bare, size_barePanels ps]

theorem Handler.size_bare : ∀ h : Handler σ L, h.bare.parts.length = h.parts.length
  | .instrument a => by simp [Handler.bare, Handler.parts]
  | .gauge a => by simp [Handler.bare, Handler.parts]
  | .panel p => by simp only [Handler.bare, Handler.parts, p.size_bare]
  | .cockpit h ps hs ss => by
    simp only [Handler.bare, Handler.parts, List.length_append, size_barePanels ps, size_bareHandlers hs, size_bareSnapshooters ss]
  | .custom s => by simp [Handler.bare, Handler.parts]

theorem size_bareHandlers : ∀ hs : List (Handler σ L), (partsOfHandlers (bareHandlers hs)).length = (partsOfHandlers hs).length
  | [] => rfl
  | h :: hs => by simp only [bareHandlers, partsOfHandlers, List.length_append, h.size_bare, size_bareHandlers hs]

theorem Snapshooter.size_bare : ∀ s : Snapshooter σ L, s.bare.parts.length = s.parts.length
  | .constant n d v => by simp [Snapshooter.bare, Snapshooter.parts]
  | .polling n d g poll => by simp only [Snapshooter.bare, Snapshooter.parts, poll.size_bare]
  | .instrument i => by simp [Snapshooter.bare, Snapshooter.parts]
  | .handler h => by simp only [Snapshooter.bare, Snapshooter.parts, h.size_bare]
  | .custom s => by simp [Snapshooter.bare, Snapshooter.parts]

theorem size_bareSnapshooters : ∀ ss : List (Snapshooter σ L),
    (partsOfSnapshooters (bareSnapshooters ss)).length = (partsOfSnapshooters ss).length
  | [] => rfl
  | s :: ss => by simp only [bareSnapshooters, partsOfSnapshooters, List.length_append, s.size_bare, size_bareSnapshooters ss]
end

theorem Cockpit.size_bare (c : Cockpit σ L) : c.bare.parts.length = c.parts.length := by
  simp only [Cockpit.bare, Cockpit.parts, List.length_append, size_barePanels, size_bareHandlers, size_bareSnapshooters]

theorem size_bareCockpits (cs : List (Cockpit σ L)) : (partsOfCockpits (cs.map Cockpit.bare)).length = (partsOfCockpits cs).length := by
  induction cs with
  | nil => rfl
  | cons c cs ih => simp only [List.map_cons, partsOfCockpits, List.length_append, c.size_bare, ih]

theorem ProcessorState.size_bare (s : ProcessorState σ L) : s.bare.parts.length = s.parts.length := by
  simp only [ProcessorState.bare, ProcessorState.parts, List.length_append, size_bareCockpits, size_bareHandlers, size_bareSnapshooters]

theorem ProcessorState.size_of_bare {s s' : ProcessorState σ L} (h : s'.bare = s.bare) : s'.parts.length = s.parts.length := by
  rw [← s'.size_bare, h, s.size_bare]

/-! ## Updates that are reported -/

section
variable [DecidableEq L] [Custom σ L] (hb : 1 ≤ b) (hc : CustomModest σ L b)

omit [DecidableEq L] in
include hb hc in
theorem Instrument.reports (i : Instrument σ) (u : Update) : (Instrument.update L i u).Post fun r => r.2 ≤ b := by
  cases i with
  | custom s => exact .bind _ (fun e k r k' h => hc.update s u e k r k' h) fun _ h => .pure h
  | _ => exact (Instrument.update_le (L := L) _ (fun _ h => by cases h) u).mono fun _ h => Nat.le_trans h hb

theorem InstrumentAdapter.reports {I : Type} {update : I → Update → M (I × Nat)}
    (a : InstrumentAdapter L I) (h : ∀ u, (update a.instrument u).Post fun r => r.2 ≤ b) (o : Observation L) :
    (a.handle update o).Post fun r => r.2 ≤ b :=
  .ite (.bind _ (h _) fun _ h => .pure h) (.pure (Nat.zero_le _))

omit [Custom σ L] in
include hb in
theorem PanelHead.reports (h : PanelHead L) (o : Observation L) : (h.handle o).Post fun r => r.2 ≤ b * (h.parts (σ := σ)).length := by
  have slot : ∀ {A : Type} {f : A → M (A × Nat)} (g : A → Tuned σ L), (∀ a, (f a).Post fun r => r.2 ≤ b) → ∀ a : Option A,
      (handleSlot f a).Post fun r => r.2 ≤ b * (a.toList.map g).length := by
    intro A f g hf a
    cases a with
    | none => exact .pure (Nat.zero_le _)
    | some a => exact .bind _ (hf a) fun _ h => .pure (by simpa using h)
  have one : ∀ {A : Type} {x : M (A × Nat)}, (x.Post fun r => r.2 ≤ 1) → x.Post fun r => r.2 ≤ b := fun hx =>
    hx.mono fun _ h => Nat.le_trans h hb
  refine .bind _ (slot (fun a => ⟨.counter a.instrument, a.modifyUpdate⟩) (fun a => a.reports (fun u => one (Counter.update_le _ u)) o) _) fun r h1 =>
    .bind _ (slot (fun a => ⟨.gauge a.gauge, a.modifyUpdate⟩) (fun a => one (a.handle_le o)) _) fun r2 h2 =>
    .bind _ (slot (fun a => ⟨.meter a.instrument, a.modifyUpdate⟩) (fun a => a.reports (fun u => one (Meter.update_le _ u)) o) _) fun r3 h3 =>
    .bind _ (slot (fun a => ⟨.histogram a.instrument, a.modifyUpdate⟩) (fun a => a.reports (fun u => one (Histogram.update_le _ u)) o) _) fun r4 h4 =>
    .pure ?_
  simp only [PanelHead.parts, List.length_append, Nat.mul_add]
  omega

mutual
theorem Panel.reports (hb : 1 ≤ b) (hc : CustomModest σ L b) (o : Observation L) : ∀ p : Panel σ L, (p.handle o).Post fun r => r.2 ≤ b * p.parts.length
  | .mk h ps hs ss => by
    rw [Panel.handle]
    refine .ite (.bind _ (h.reports (σ := σ) hb o) fun _ h₁ => .bind _ (reports_handlePanels hb hc o ps) fun _ h₂ =>
      .bind _ (reports_handleHandlers hb hc o hs) fun _ h₃ => .pure ?_) (.pure (Nat.zero_le _))
    simp only [Panel.parts, List.length_append, Nat.mul_add]
    omega

theorem reports_handlePanels (hb : 1 ≤ b) (hc : CustomModest σ L b) (o : Observation L) : ∀ ps : List (Panel σ L),
    (handlePanels o ps).Post fun r => r.2 ≤ b * (partsOfPanels ps).length
  | [] => by rw [handlePanels]; exact .pure (Nat.zero_le _)
  | p :: ps => by
    rw [handlePanels]
    refine .bind _ (p.reports hb hc o) fun _ h₁ => .bind _ (reports_handlePanels hb hc o ps) fun _ h₂ => .pure ?_
    simp only [partsOfPanels, List.length_append, Nat.mul_add]
    omega

theorem Handler.reports (hb : 1 ≤ b) (hc : CustomModest σ L b) (o : Observation L) : ∀ h : Handler σ L,
    (h.handle o).Post fun r => r.2 ≤ b * h.parts.length
  | .instrument a => by
    rw [Handler.handle]
    exact .bind _ (a.reports (fun u => Instrument.reports hb hc _ u) o) fun _ h => .pure (by simpa [Handler.parts] using h)
  | .gauge a => by
    rw [Handler.handle]
    exact .bind _ (a.handle_le o) fun _ h => .pure (by simp [Handler.parts]; omega)
  | .panel p => by
    rw [Handler.handle]
    exact .bind _ (p.reports hb hc o) fun _ h => .pure (by simpa only [Handler.parts] using h)
  | .cockpit h ps hs ss => by
    rw [Handler.handle]
    refine .bindAny fun _ => .bind _ (reports_handleHandlers hb hc o hs) fun _ h₁ => .bind _ (reports_handlePanels hb hc o ps)
      fun _ h₂ => .pure ?_
    simp only [Handler.parts, List.length_append, Nat.mul_add]
    omega
  | .custom s => by
    rw [Handler.handle]
    exact .bind _ (fun e k r k' h => hc.handle s o e k r k' h) fun _ h => .pure (by simpa [Handler.parts] using h)

theorem reports_handleHandlers (hb : 1 ≤ b) (hc : CustomModest σ L b) (o : Observation L) : ∀ hs : List (Handler σ L),
    (handleHandlers o hs).Post fun r => r.2 ≤ b * (partsOfHandlers hs).length
  | [] => by rw [handleHandlers]; exact .pure (Nat.zero_le _)
  | h :: hs => by
    rw [handleHandlers]
    refine .bind _ (h.reports hb hc o) fun _ h₁ => .bind _ (reports_handleHandlers hb hc o hs) fun _ h₂ => .pure ?_
    simp only [partsOfHandlers, List.length_append, Nat.mul_add]
    omega
end

include hb hc

theorem Cockpit.reports (o : Observation L) (c : Cockpit σ L) : (c.handle o).Post fun r => r.2 ≤ b * c.parts.length := by
  refine .bindAny fun _ => .bind _ (reports_handleHandlers hb hc o c.handlers) fun _ h₁ =>
    .bind _ (reports_handlePanels hb hc o c.panels) fun _ h₂ => .pure ?_
  simp only [Cockpit.parts, List.length_append, Nat.mul_add]
  omega

/-- Cockpits keep their instruments, and report no more than there are. -/
theorem reports_handleCockpits (o : Observation L) (cs : List (Cockpit σ L)) :
    (handleCockpits o cs).Post fun r => r.2 ≤ b * (partsOfCockpits cs).length ∧
      (partsOfCockpits r.1).length = (partsOfCockpits cs).length := by
  induction cs with
  | nil => exact .pure ⟨Nat.zero_le _, rfl⟩
  | cons c cs ih =>
    refine .bind (fun r => r.2 ≤ b * c.parts.length ∧ r.1.parts.length = c.parts.length) ?_ fun r h₁ => .bind _ ih fun r2 h₂ => .pure ?_
    · intro e k r k' h
      exact ⟨c.reports hb hc o e k r k' h, by rw [← Cockpit.size_bare, c.keepsBare_handle o e k r k' h, Cockpit.size_bare]⟩
    · simp only [partsOfCockpits, List.length_append, Nat.mul_add]
      omega

/-! ## Processors -/

/-- A message raises the tally by one, or the number of instruments by what it contains. -/
theorem ProcessorState.reports (dec : Decider) (s : ProcessorState σ L) (t : Tally) (m : Message σ L) :
    (s.receive dec t m).Post fun r => r.1.parts.length ≤ s.parts.length + m.parts.length ∧
      r.2.processed + r.2.dropped ≤ t.processed + t.dropped + 1 ∧ r.2.updated ≤ t.updated + b * s.parts.length := by
  cases m with
  | observation o =>
    refine .ite (.bind _ (reports_handleCockpits hb hc o s.cockpits) fun r h₁ =>
      .bind (fun r => r.2 ≤ b * (partsOfHandlers s.handlers).length ∧ (partsOfHandlers r.1).length = (partsOfHandlers s.handlers).length)
        ?_ fun r2 h₂ => .pure ⟨?_, ?_, ?_⟩) (.pure ⟨?_, ?_, ?_⟩)
    · intro e k r k' h
      exact ⟨reports_handleHandlers hb hc o _ e k r k' h, by
        rw [← size_bareHandlers, keepsBare_handleHandlers o _ e k r k' h, size_bareHandlers]⟩
    all_goals simp only [ProcessorState.parts, Message.parts, List.length_append, List.length_nil, Nat.mul_add]
    all_goals omega
  | addCockpit c =>
    refine .pure ⟨?_, by simp only; omega, by simp only; omega⟩
    have key : ∀ cs : List (Cockpit σ L), (partsOfCockpits (cs ++ [c])).length = (partsOfCockpits cs).length + c.parts.length := by
      intro cs
      induction cs with
      | nil => simp [partsOfCockpits]
      | cons d cs ih => simp only [List.cons_append, partsOfCockpits, List.length_append, ih]; omega
    simp only [ProcessorState.addCockpit]
    split
    · split
      · omega
      · simp only [ProcessorState.parts, Message.parts, List.length_append, key]; omega
    · simp only [ProcessorState.parts, Message.parts, List.length_append, key]; omega
  | removeCockpit n =>
    refine .pure ⟨?_, by simp only; omega, by simp only; omega⟩
    have key : ∀ (f : Cockpit σ L → Bool) (cs : List (Cockpit σ L)), (partsOfCockpits (cs.filter f)).length ≤ (partsOfCockpits cs).length := by
      intro f cs
      induction cs with
      | nil => simp
      | cons d cs ih =>
        by_cases hf : f d = true
        · rw [List.filter_cons_of_pos hf]; simp only [partsOfCockpits, List.length_append]; omega
        · rw [List.filter_cons_of_neg hf]; simp only [partsOfCockpits, List.length_append]; omega
    simp only [ProcessorState.removeCockpit, ProcessorState.parts, Message.parts, List.length_append, List.length_nil]
    exact Nat.add_le_add_right (key _ _) _
  | addHandler h =>
    refine .pure ⟨?_, by simp only; omega, by simp only; omega⟩
    have key : ∀ hs : List (Handler σ L), (partsOfHandlers (hs ++ [h])).length = (partsOfHandlers hs).length + h.parts.length := by
      intro hs
      induction hs with
      | nil => simp [partsOfHandlers]
      | cons d hs ih => simp only [List.cons_append, partsOfHandlers, List.length_append, ih]; omega
    simp only [ProcessorState.addHandler, ProcessorState.parts, Message.parts, List.length_append, key]; omega
  | addPanelToCockpit n p =>
    refine .pure ⟨?_, by simp only; omega, by simp only; omega⟩
    have key : ∀ c : Cockpit σ L, (c.addPanel p).parts.length ≤ c.parts.length + p.parts.length := by
      intro c
      have app : ∀ ps : List (Panel σ L), (partsOfPanels (ps ++ [p])).length = (partsOfPanels ps).length + p.parts.length := by
        intro ps
        induction ps with
        | nil => simp [partsOfPanels]
        | cons d ps ih => simp only [List.cons_append, partsOfPanels, List.length_append, ih]; omega
      unfold Cockpit.addPanel
      split
      · split
        · omega
        · simp only [Cockpit.parts, List.length_append, app]; omega
      · simp only [Cockpit.parts, List.length_append, app]; omega
    have key2 : ∀ cs : List (Cockpit σ L), (partsOfCockpits (ProcessorState.modifyFirst n (·.addPanel p) cs)).length ≤
        (partsOfCockpits cs).length + p.parts.length := by
      intro cs
      induction cs with
      | nil => simp [ProcessorState.modifyFirst, partsOfCockpits]
      | cons d cs ih =>
        unfold ProcessorState.modifyFirst
        have := key d
        split <;> simp only [partsOfCockpits, List.length_append] <;> omega
    have := key2 s.cockpits
    simp only [ProcessorState.parts, Message.parts, List.length_append]
    omega
  | removePanelFromCockpit n q =>
    refine .pure ⟨?_, by simp only; omega, by simp only; omega⟩
    have key : ∀ c : Cockpit σ L, (c.removePanel q).parts.length ≤ c.parts.length := by
      intro c
      have fil : ∀ (f : Panel σ L → Bool) (ps : List (Panel σ L)), (partsOfPanels (ps.filter f)).length ≤ (partsOfPanels ps).length := by
        intro f ps
        induction ps with
        | nil => simp
        | cons d ps ih =>
          by_cases hf : f d = true
          · rw [List.filter_cons_of_pos hf]; simp only [partsOfPanels, List.length_append]; omega
          · rw [List.filter_cons_of_neg hf]; simp only [partsOfPanels, List.length_append]; omega
      unfold Cockpit.removePanel
      simp only [Cockpit.parts, List.length_append]
      exact Nat.add_le_add_right (fil _ _) _
    have key2 : ∀ cs : List (Cockpit σ L), (partsOfCockpits (ProcessorState.modifyFirst n (·.removePanel q) cs)).length ≤
        (partsOfCockpits cs).length := by
      intro cs
      induction cs with
      | nil => simp [ProcessorState.modifyFirst, partsOfCockpits]
      | cons d cs ih =>
        unfold ProcessorState.modifyFirst
        have := key d
        split <;> simp only [partsOfCockpits, List.length_append] <;> omega
    have := key2 s.cockpits
    simp only [ProcessorState.parts, Message.parts, List.length_append, List.length_nil]
    omega

end
end Metrix
