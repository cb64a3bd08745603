import Verif.Props.C06

/-! # C14: named cockpits are unique in a processor -/

namespace Metrix
variable {σ L : Type}

/-- The names of the cockpits that have one. -/
def ProcessorState.cockpitNames (s : ProcessorState σ L) : List String := s.cockpits.filterMap (·.name)

theorem mem_cockpitNames {s : ProcessorState σ L} {n : String} : n ∈ s.cockpitNames ↔ ∃ c ∈ s.cockpits, c.name = some n := by
  simp [ProcessorState.cockpitNames]

/-- Adding a cockpit by a call. If it has a name that is taken, nothing changes; in all other cases it becomes the last of
the cockpits. -/
theorem C14_add (s : ProcessorState σ L) (c : Cockpit σ L) :
    ((∃ d ∈ s.cockpits, d.name = c.name ∧ c.name ≠ none) → s.addCockpit c = s) ∧
    (¬ (∃ d ∈ s.cockpits, d.name = c.name ∧ c.name ≠ none) →
      s.addCockpit c = { s with cockpits := s.cockpits ++ [c] }) := by
  rw [addCockpit_eq]
  simp only [ProcessorState.configured]
  constructor
  · rintro ⟨d, hd, h1, h2⟩
    exact if_pos ⟨h2, List.mem_map.mpr ⟨d, hd, h1⟩⟩
  · intro h
    refine if_neg fun ⟨h2, h3⟩ => h ?_
    obtain ⟨d, hd, h1⟩ := List.mem_map.mp h3
    exact ⟨d, hd, h1, h2⟩

/-- A cockpit without a name is always added. -/
theorem C14_add_unnamed (s : ProcessorState σ L) (c : Cockpit σ L) (h : c.name = none) :
    (s.addCockpit c).cockpits = s.cockpits ++ [c] := by
  rw [(C14_add s c).2 (fun ⟨_, _, _, hn⟩ => hn h)]

/-- Removing by name. If the names are unique, exactly the cockpit with that name vanishes, the others keep their order. If
there is no cockpit with that name, nothing changes. -/
theorem C14_remove (s : ProcessorState σ L) (name : String) :
    (name ∉ s.cockpitNames → s.removeCockpit name = s) ∧
    (∀ pre c post, s.cockpits = pre ++ c :: post → c.name = some name → s.cockpitNames.Nodup →
      s.removeCockpit name = { s with cockpits := pre ++ post }) := by
  rw [removeCockpit_eq]
  simp only [ProcessorState.configured]
  have hkeep : ∀ l : List (Cockpit σ L), (∀ c ∈ l, c.name ≠ some name) → l.filter (·.name ≠ some name) = l := fun l hl =>
    List.filter_eq_self.mpr fun c hc => by simpa using hl c hc
  constructor
  · intro h
    rw [hkeep _ fun c hc hn => h (mem_cockpitNames.mpr ⟨c, hc, hn⟩)]
  · intro pre c post hs hc hu
    simp only [ProcessorState.cockpitNames, hs, List.filterMap_append, List.filterMap_cons, hc] at hu
    rw [List.Perm.nodup_iff List.perm_middle, List.nodup_cons] at hu
    have hno : ∀ d, d ∈ pre ++ post → d.name ≠ some name := by
      intro d hd hn
      apply hu.1
      rw [← List.filterMap_append]
      exact List.mem_filterMap.mpr ⟨d, hd, hn⟩
    have h1 := hkeep pre fun d hd => hno d (by simp [hd])
    have h2 := hkeep post fun d hd => hno d (by simp [hd])
    rw [hs, List.filter_append, List.filter_cons, h1, h2]
    simp [hc]

/-- Cockpits without a name cannot be removed, by no name. -/
theorem C14_unnamed_stay (s : ProcessorState σ L) (name : String) :
    (s.removeCockpit name).cockpits.filter (·.name = none) = s.cockpits.filter (·.name = none) := by
  rw [removeCockpit_eq]
  simp only [ProcessorState.configured, List.filter_filter]
  apply List.filter_congr
  intro c _
  cases c.name <;> simp

variable [DecidableEq L] [Custom σ L]

/-- The messages do the same as the calls. -/
theorem C14_messages (d : Decider) (s s' : ProcessorState σ L) (t t' : Tally) (e : Env) (k k' : Nat) :
    (∀ c, s.receive d t (.addCockpit c) e k = some ((s', t'), k') → s' = s.addCockpit c) ∧
    (∀ name, s.receive d t (.removeCockpit name) e k = some ((s', t'), k') → s' = s.removeCockpit name) := by
  constructor
  · intro c h; simp [ProcessorState.receive] at h; exact h.1.1.symm
  · intro c h; simp [ProcessorState.receive] at h; exact h.1.1.symm

omit [DecidableEq L] [Custom σ L] in
theorem names_add {s : ProcessorState σ L} {c : Cockpit σ L} (h : s.cockpitNames.Nodup) :
    (s.addCockpit c).cockpitNames.Nodup := by
  by_cases hn : ∃ d ∈ s.cockpits, d.name = c.name ∧ c.name ≠ none
  · rw [(C14_add s c).1 hn]; exact h
  · rw [(C14_add s c).2 hn]
    simp only [ProcessorState.cockpitNames, List.filterMap_append] at h ⊢
    cases hc : c.name with
    | none => simpa [hc] using h
    | some n =>
      simp only [List.filterMap_cons, hc, List.filterMap_nil]
      rw [List.nodup_append]
      refine ⟨h, by simp, ?_⟩
      intro a ha b hb hab
      simp at hb; subst hb; subst hab
      obtain ⟨d, hd, hdn⟩ := List.mem_filterMap.mp ha
      exact hn ⟨d, hd, by rw [hdn, hc], by simp [hc]⟩

theorem handles_names {e : Env} {o : Observation L} {cs cs' : List (Cockpit σ L)} {ns : List Nat} {k k' : Nat}
    (h : Handles e o k cs ns k' cs') : cs'.map (·.name) = cs.map (·.name) := by
  induction h with
  | nil => rfl
  | cons h1 _ ih => simp only [List.map_cons, ih]; rw [Cockpit.handle_name h1]

omit [DecidableEq L] in
theorem putCockpits_names {d : Bool} {cs cs' : List (Cockpit σ L)} {s s' : Snapshot} {e : Env} {k k' : Nat}
    (h : putCockpits d cs s e k = some ((cs', s'), k')) : cs'.map (·.name) = cs.map (·.name) := by
  induction cs generalizing cs' s s' k with
  | nil => simp [putCockpits] at h; rw [h.1.1]
  | cons c cs ih =>
    simp only [putCockpits, M.bind_eq_some, M.run_pure, Option.some.injEq, Prod.mk.injEq] at h
    obtain ⟨⟨a, _⟩, _, h1, ⟨b, _⟩, _, h2, ⟨rfl, _⟩, rfl⟩ := h
    have := Cockpit.put_name h1
    simp only [List.map_cons, ih h2]
    simp only [Cockpit.name, this]

omit [DecidableEq L] in
theorem put_names {d : Bool} {s s' : ProcessorState σ L} {i i' : Snapshot} {e : Env} {k k' : Nat}
    (h : s.putSnapshot i d e k = some ((s', i'), k')) : s'.cockpits.map (·.name) = s.cockpits.map (·.name) := by
  simp only [ProcessorState.putSnapshot, M.bind_eq_some] at h
  obtain ⟨⟨g, lv⟩, k₀, h0, h⟩ := h
  by_cases hg : g = true
  · rw [if_pos hg] at h
    simp only [M.bind_eq_some, M.run_pure, Option.some.injEq, Prod.mk.injEq] at h
    obtain ⟨⟨cs, _⟩, _, h1, _, _, _, _, _, _, ⟨rfl, _⟩, _⟩ := h
    exact putCockpits_names h1
  · rw [if_neg hg] at h
    simp at h; rw [← h.1.1]

omit [DecidableEq L] [Custom σ L] in
theorem modify_names (cs : List (Cockpit σ L)) (i : Nat) (f : Cockpit σ L → Cockpit σ L) (hf : ∀ c, (f c).name = c.name) :
    (cs.modify i f).map (·.name) = cs.map (·.name) := by
  apply List.ext_getElem?
  intro j
  simp only [List.getElem?_map, List.getElem?_modify]
  cases cs[j]? with
  | none => rfl
  | some c => simp; split <;> simp [hf]

omit [DecidableEq L] [Custom σ L] in
theorem names_of_map {s s' : ProcessorState σ L} (h : s'.cockpits.map (·.name) = s.cockpits.map (·.name)) :
    s'.cockpitNames = s.cockpitNames := by
  have : ∀ cs : List (Cockpit σ L), cs.filterMap (·.name) = (cs.map (·.name)).filterMap id := by
    intro cs; rw [List.filterMap_map]; rfl
  simp only [ProcessorState.cockpitNames]
  rw [this, this, h]

theorem names_applied {e : Env} {keeps : Observation L → Prop} {k k' : Nat} {s s' : ProcessorState σ L} {m : Message σ L}
    {v : Verdict} (h : Applied e keeps k s m v k' s') (hs : s.cockpitNames.Nodup) : s'.cockpitNames.Nodup := by
  cases h with
  | processed _ h1 _ => rw [names_of_map (s := s) (handles_names h1)]; exact hs
  | dropped => exact hs
  | config hc =>
    cases m with
    | observation o => exact hc.elim
    | addCockpit c => rw [← addCockpit_eq]; exact names_add hs
    | removeCockpit n =>
      simp only [ProcessorState.configured, ProcessorState.cockpitNames] at hs ⊢
      exact List.Nodup.sublist (List.Sublist.filterMap _ List.filter_sublist) hs
    | addHandler h => exact hs
    | addPanelToCockpit n p =>
      simp only [ProcessorState.configured]
      split
      · rw [names_of_map (s := s) (modify_names _ _ _ fun c => addPanel_name c p)]; exact hs
      · exact hs
    | removePanelFromCockpit n p =>
      simp only [ProcessorState.configured]
      split
      · rw [names_of_map (s := s) (modify_names _ _ (·.removePanel p) fun c => rfl)]; exact hs
      · exact hs

theorem names_trail {e : Env} {k k' : Nat} {s s' : ProcessorState σ L} {ms : List (Message σ L × Verdict)}
    (h : Trail e k s ms k' s') (hs : s.cockpitNames.Nodup) : s'.cockpitNames.Nodup := by
  induction h with
  | nil => exact hs
  | message _ h1 _ ih => exact ih (names_applied h1 hs)
  | active _ ih => exact ih hs
  | snapshot _ h1 _ ih => exact ih (by rw [names_of_map (put_names h1)]; exact hs)
  | @set k k' s s' c ms _ ih =>
    refine ih ?_
    cases c with
    | addCockpit c => exact names_add hs
    | _ => exact hs

omit [DecidableEq L] [Custom σ L] in
theorem create_names {e : Env} {k₀ k : Nat} {name : Option String} {r : Receiver (Message σ L)} {p : Processor σ L}
    (hnew : Processor.create name r e k₀ = some (p, k)) : p.state.cockpitNames = [] := by
  simp only [Processor.create, M.bind_eq_some, M.run_pure, Option.some.injEq, Prod.mk.injEq] at hnew
  obtain ⟨_, _, _, rfl, _⟩ := hnew
  rfl

/-- A new processor, used in any way while threads send by any schedule: no two of its cockpits have the same name. -/
theorem C14_unique {e : Env} {k₀ k k' : Nat} {name : Option String} {r : Receiver (Message σ L)} {p p' : Processor σ L}
    {log : List (Called σ L)} (hnew : Processor.create name r e k₀ = some (p, k)) (h : Life e k p log k' p') :
    (p'.state.cockpits.filterMap (·.name)).Nodup := by
  obtain ⟨_, hst, _⟩ := life_story h
  refine names_trail hst.trail ?_
  rw [create_names hnew]
  exact List.nodup_nil

/-- Same for every state between any two messages. -/
theorem C14_unique_always {e : Env} {k₀ k k' : Nat} {name : Option String} {r : Receiver (Message σ L)}
    {p p' : Processor σ L} {log : List (Called σ L)} (hnew : Processor.create name r e k₀ = some (p, k))
    (h : Life e k p log k' p') :
    ∃ consumed, Story e k p.state log consumed k' p'.state ∧
      Took p.receiver.chan p'.receiver.chan (consumed.flatten.map (·.1)) ∧
      ∀ pre m v post, consumed.flatten = pre ++ (m, v) :: post →
        ∃ k₁ s₁ k₂ s₂ strategy start, Trail e k p.state pre k₁ s₁ ∧
          Applied e (Strategy.Keeps strategy start) k₁ s₁ m v k₂ s₂ ∧ Trail e k₂ s₂ post k' p'.state ∧
          (s₁.cockpits.filterMap (·.name)).Nodup ∧ (s₂.cockpits.filterMap (·.name)).Nodup := by
  obtain ⟨consumed, hst, ht⟩ := life_story h
  have hs : p.state.cockpitNames.Nodup := by
    rw [create_names hnew]; exact List.nodup_nil
  refine ⟨consumed, hst, ht, fun pre m v post hm => ?_⟩
  have ht := hst.trail
  rw [hm] at ht
  obtain ⟨k₁, s₁, k₂, s₂, st, start, h1, h2, h3⟩ := ht.split
  exact ⟨k₁, s₁, k₂, s₂, st, start, h1, h2, h3, names_trail h1 hs, names_applied h2 (names_trail h1 hs)⟩

/-- Two with the same name and one without: the second one with the name is not added. -/
example (c d : Cockpit Empty Nat) (hc : c.name = some "a") (hd : d.name = some "a") (u : Cockpit Empty Nat)
    (hu : u.name = none) :
    (((({ activity := ⟨0, none, true⟩ : ProcessorState Empty Nat }.addCockpit c).addCockpit u).addCockpit d).addCockpit u).cockpits
      = [c, u, u] := by
  simp [ProcessorState.addCockpit, hc, hd, hu]

/-- A new processor; two cockpits of the same name and one without a name are sent to it. -/
def namedTwice : Receiver (Message Empty Nat) where
  chan := .fresh none true [{ todo := [.addCockpit { head := { name := some "c", activity := ⟨0, none, true⟩ } },
    .addCockpit { head := { name := some "c", activity := ⟨5, none, true⟩ } },
    .addCockpit { head := { name := none, activity := ⟨0, none, true⟩ } }] }]
  ahead := [[0, 0, 0]]

example := C14_unique (name := some "p") (r := namedTwice) (e := ticking) (k₀ := 0) rfl
  (lived_life (cs := [.process 3 .processAll]) rfl)
example := C14_unique_always (name := some "p") (r := namedTwice) (e := ticking) (k₀ := 0) rfl
  (lived_life (cs := [.process 3 .processAll]) rfl)
example : ((Processor.create (some "p") namedTwice ticking 0).bind fun x => lived ticking x.2 x.1 [.process 3 .processAll]).map
    (fun x => x.2.2.state.cockpits.map (·.name)) = some [some "c", none] := rfl
example := C14_add_unnamed exampleProcessor.state { head := { name := none, activity := ⟨0, none, true⟩ } } rfl

end Metrix
