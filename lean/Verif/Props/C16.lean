import Verif.Props.C14

/-! # C16: panel messages address one cockpit -/

namespace Metrix
variable {σ L : Type} [DecidableEq L] [Custom σ L]

omit [DecidableEq L] [Custom σ L] in
theorem modifyFirst_none {name : String} {f : Cockpit σ L → Cockpit σ L} {cs : List (Cockpit σ L)}
    (h : ∀ c ∈ cs, c.name ≠ some name) : ProcessorState.modifyFirst name f cs = cs := by
  induction cs with
  | nil => rfl
  | cons c cs ih =>
    simp only [ProcessorState.modifyFirst]
    rw [if_neg (by simpa using h c (by simp)), ih fun c hc => h c (List.mem_cons_of_mem _ hc)]

omit [DecidableEq L] [Custom σ L] in
theorem modifyFirst_some {name : String} {f : Cockpit σ L → Cockpit σ L} {pre post : List (Cockpit σ L)} {c : Cockpit σ L}
    (h : ∀ c ∈ pre, c.name ≠ some name) (hc : c.name = some name) :
    ProcessorState.modifyFirst name f (pre ++ c :: post) = pre ++ f c :: post := by
  induction pre with
  | nil => simp [ProcessorState.modifyFirst, hc]
  | cons d pre ih =>
    simp only [List.cons_append, ProcessorState.modifyFirst]
    rw [if_neg (by simpa using h d (by simp)), ih fun c hc => h c (List.mem_cons_of_mem _ hc)]

/-- A message that adds a panel: the cockpit with the given name adds it by its own rules (see C15). Nothing else in the
processor changes, in particular no other cockpit. Nothing changes at all if there is no such cockpit. -/
theorem C16_add {d : Decider} {s s' : ProcessorState σ L} {t t' : Tally} {name : String} {p : Panel σ L} {e : Env}
    {k k' : Nat} (h : s.receive d t (.addPanelToCockpit name p) e k = some ((s', t'), k')) :
    ((∀ c ∈ s.cockpits, c.name ≠ some name) → s' = s) ∧
    (∀ pre c post, s.cockpits = pre ++ c :: post → (∀ c ∈ pre, c.name ≠ some name) → c.name = some name →
      s' = { s with cockpits := pre ++ c.addPanel p :: post }) := by
  simp [ProcessorState.receive] at h
  obtain ⟨⟨rfl, _⟩, _⟩ := h
  constructor
  · intro hc; rw [modifyFirst_none hc]
  · intro pre c post hs hpre hc
    rw [hs, modifyFirst_some hpre hc]

/-- Same for a message that removes a panel. -/
theorem C16_remove {d : Decider} {s s' : ProcessorState σ L} {t t' : Tally} {name panel : String} {e : Env}
    {k k' : Nat} (h : s.receive d t (.removePanelFromCockpit name panel) e k = some ((s', t'), k')) :
    ((∀ c ∈ s.cockpits, c.name ≠ some name) → s' = s) ∧
    (∀ pre c post, s.cockpits = pre ++ c :: post → (∀ c ∈ pre, c.name ≠ some name) → c.name = some name →
      s' = { s with cockpits := pre ++ c.removePanel panel :: post }) := by
  simp [ProcessorState.receive] at h
  obtain ⟨⟨rfl, _⟩, _⟩ := h
  constructor
  · intro hc; rw [modifyFirst_none hc]
  · intro pre c post hs hpre hc
    rw [hs, modifyFirst_some hpre hc]

/-- Such messages are processed under every strategy, and update no instrument. -/
theorem C16_processed (d : Decider) (s : ProcessorState σ L) (t : Tally) (name panel : String) (p : Panel σ L) (e : Env)
    (k : Nat) :
    (∃ s', s.receive d t (.addPanelToCockpit name p) e k = some ((s', { t with processed := t.processed + 1 }), k)) ∧
    (∃ s', s.receive d t (.removePanelFromCockpit name panel) e k =
      some ((s', { t with processed := t.processed + 1 }), k)) := ⟨⟨_, rfl⟩, ⟨_, rfl⟩⟩

/-- Two cockpits, the second one is addressed. -/
example (a b : Cockpit Empty Nat) (ha : a.name = some "a") (hb : b.name = some "b") (p : Panel Empty Nat) :
    ∃ s' t' k', ({ activity := ⟨0, none, true⟩, cockpits := [a, b] } : ProcessorState Empty Nat).receive .dropAll {}
        (.addPanelToCockpit "b" p) ticking 0 = some ((s', t'), k') ∧ s'.cockpits = [a, b.addPanel p] :=
  ⟨_, _, _, rfl, by simp [ProcessorState.modifyFirst, ha, hb]⟩

example := C16_add (d := .processAll) (s := { exampleProcessor.state with cockpits := [{ head := { name := some "c", activity := ⟨0, none, true⟩ } }] })
  (t := {}) (name := "c") (p := exampleTree) (e := ticking) (k := 1) rfl
example := C16_remove (d := .processAll) (s := { exampleProcessor.state with cockpits := [{ head := { name := some "c", activity := ⟨0, none, true⟩ } }] })
  (t := {}) (name := "c") (panel := "p") (e := ticking) (k := 1) rfl

end Metrix
