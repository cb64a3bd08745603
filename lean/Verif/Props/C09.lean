import Verif.Props.C10
import Verif.Props.C14
import Verif.Props.C16

/-! # C09: configuration messages and observations take effect in the order sent -/

namespace Metrix
variable {σ L : Type} [DecidableEq L] [Custom σ L]

/-- However a processor is used: its state results from the consumed messages, applied one by one in the order in which
they were taken from the queue. In between there is only what its owner does. -/
theorem C09_order {e : Env} {k k' : Nat} {p p' : Processor σ L} {log : List (Called σ L)} (h : Life e k p log k' p') :
    ∃ consumed, Story e k p.state log consumed k' p'.state ∧
      Took p.receiver.chan p'.receiver.chan (consumed.flatten.map (·.1)) ∧
      Trail e k p.state consumed.flatten k' p'.state := by
  obtain ⟨consumed, hst, ht⟩ := life_story h
  exact ⟨consumed, hst, ht, hst.trail⟩

theorem trail_config {e : Env} {k k' : Nat} {s s' : ProcessorState σ L} {ms : List (Message σ L × Verdict)}
    (h : Trail e k s ms k' s') {m : Message σ L} {v : Verdict} (hm : (m, v) ∈ ms) (hc : m.IsConfig) : v = .processed 0 := by
  obtain ⟨pre, post, rfl⟩ := List.append_of_mem hm
  obtain ⟨k₁, s₁, k₂, s₂, st, start, _, h2, _⟩ := h.split
  cases h2 with
  | processed => exact hc.elim
  | dropped => exact hc.elim
  | config => rfl

/-- Configuration messages are never dropped, under no strategy and however old they are. -/
theorem C09_config_never_dropped {p p' : Processor σ L} {max : Nat} {strategy : Strategy} {out : Outcome} {e : Env}
    {k k' : Nat} (h : p.process max strategy e k = some ((p', out), k')) :
    ∃ ms, Took p.receiver.chan p'.receiver.chan (ms.map (·.1)) ∧ out.Accounts ms ∧
      ∀ m v, (m, v) ∈ ms → m.IsConfig → v = .processed 0 := by
  obtain ⟨ms, k₂, k₃, s₁, ht, hacc, happ, _⟩ := C05_run h
  exact ⟨ms, ht, hacc, fun m v hm hc => trail_config happ.trail hm hc⟩

/-- A handler that was added by a message: it is in the processor from then on, and its history is one of exactly the
observations processed later. -/
theorem C09_handler (hc : CustomForward σ L) {e : Env} {k k' : Nat} {s s' : ProcessorState σ L}
    {pre post : List (Message σ L × Verdict)} {x : Handler σ L} {v : Verdict}
    (h : Trail e k s (pre ++ (.addHandler x, v) :: post) k' s') :
    ∃ (k₁ i : Nat) (history : _) (x' : _), History e k₁ x history k' x' ∧ s'.handlers[i]? = some x' ∧
      inputs history = post.filterMap processedObservation := by
  obtain ⟨k₁, s₁, k₂, s₂, st, start, h1, h2, h3⟩ := h.split
  cases h2 with
  | config =>
    obtain ⟨log', x', ha, hb, hc'⟩ := h3.part hc (handler_part hc e s₁.handlers.length) (fun _ _ => trivial) (d := x)
      (by simp [ProcessorState.configured])
    exact ⟨_, _, log', x', ha, hb, hc'⟩

/-- A cockpit that was added by a message when its name was not taken (or that has no name). Unless a later message
removes it, it is in the processor from then on, and its history is one of exactly the later messages that are meant for
it: the processed observations, and the panels added to and removed from it. -/
theorem C09_cockpit (hc : CustomForward σ L) {e : Env} {k k' : Nat} {s s' : ProcessorState σ L}
    {pre post : List (Message σ L × Verdict)} {c : Cockpit σ L} {v : Verdict}
    (h : Trail e k s (pre ++ (.addCockpit c, v) :: post) k' s') :
    ∃ k₁ s₁, Trail e k s pre k₁ s₁ ∧
      ((∀ d ∈ s₁.cockpits, c.name ≠ none → d.name ≠ c.name) →
       (∀ m ∈ post, ∀ n, m.1 = .removeCockpit n → c.name ≠ some n) →
       ∃ history c', History e k₁ (ManagedCockpit.mk c) history k' ⟨c'⟩ ∧ c' ∈ s'.cockpits ∧ c'.name = c.name ∧
        inputs history = post.filterMap (forCockpit c.name)) := by
  obtain ⟨k₁, s₁, k₂, s₂, st, start, h1, h2, h3⟩ := h.split
  cases h2 with
  | config =>
    refine ⟨k₁, s₁, h1, fun hfree hrem => ?_⟩
    have hadd : s₁.configured (.addCockpit c) = { s₁ with cockpits := s₁.cockpits ++ [c] } := by
      rw [← addCockpit_eq]
      exact (C14_add s₁ c).2 fun ⟨d, hd, h1, h2⟩ => hfree d hd h2 h1
    rw [hadd] at h3
    cases hn : c.name with
    | some n =>
      have hat : ({ s₁ with cockpits := s₁.cockpits ++ [c] } : ProcessorState σ L).cockpitAt (.named n) = some c := by
        simp only [ProcessorState.cockpitAt, ProcessorState.named, List.find?_append]
        rw [List.find?_eq_none.mpr]
        · simp [hn]
        · intro d hd
          have := hfree d hd (by simp [hn])
          simpa [hn] using this
      obtain ⟨log', c', ha, hb, hi⟩ := Trail.cockpit hc h3 hat (fun m hm n' hr => by
        have := hrem m hm n' hr
        intro heq; cases heq; exact this hn)
      simp only [ProcessorState.cockpitAt, ProcessorState.named] at hb
      exact ⟨log', c', ha, List.mem_of_find?_eq_some hb, by have := List.find?_some hb; simpa using this, hi⟩
    | none =>
      have hat : ({ s₁ with cockpits := s₁.cockpits ++ [c] } : ProcessorState σ L).cockpitAt (.unnamed s₁.unnamed.length) =
          some c := by
        simp [ProcessorState.cockpitAt, ProcessorState.unnamed, hn]
      obtain ⟨log', c', ha, hb, hi⟩ := Trail.cockpit hc h3 hat (fun m hm n' hr => by simp)
      simp only [ProcessorState.cockpitAt, ProcessorState.unnamed] at hb
      have hmem := List.mem_of_getElem? hb
      rw [List.mem_filter] at hmem
      exact ⟨log', c', ha, hmem.1, by simpa using hmem.2, hi⟩

/-- A panel that was added by a message to a cockpit with the given name, when its own name was not taken there. Unless a
later message removes it or its cockpit, it is there from then on, and its history is one of exactly the observations
processed later. -/
theorem C09_panel (hc : CustomForward σ L) {e : Env} {k k' : Nat} {s s' : ProcessorState σ L}
    {pre post : List (Message σ L × Verdict)} {n : String} {p : Panel σ L} {v : Verdict}
    (h : Trail e k s (pre ++ (.addPanelToCockpit n p, v) :: post) k' s') :
    ∃ k₁ s₁, Trail e k s pre k₁ s₁ ∧ ∀ c, s₁.named n = some c →
      (∀ d ∈ c.panels, p.name ≠ none → d.name ≠ p.name) →
      (∀ m ∈ post, m.1 ≠ .removeCockpit n ∧ ∀ m', m.1 = .removePanelFromCockpit n m' → p.name ≠ some m') →
      ∃ history p' c', History e k₁ p history k' p' ∧ s'.named n = some c' ∧ p' ∈ c'.panels ∧ p'.name = p.name ∧
        inputs history = post.filterMap processedObservation := by
  obtain ⟨k₁, s₁, k₂, s₂, st, start, h1, h2, h3⟩ := h.split
  cases h2 with
  | config =>
    refine ⟨k₁, s₁, h1, fun c hcn hfree hrem => ?_⟩
    have hadd : (c.addPanel p).panels = c.panels ++ [p] := by
      unfold Cockpit.addPanel
      split
      · rename_i name hn
        rw [if_neg]
        intro hany
        rw [List.any_eq_true] at hany
        obtain ⟨d, hd, hdn⟩ := hany
        refine hfree d hd (by simp [hn]) ?_
        split at hdn
        · rename_i x hx; rw [hx, hn]; simpa using hdn
        · cases hdn
      · rfl
    have hat : (s₁.configured (.addPanelToCockpit n p)).cockpitAt (.named n) = some (c.addPanel p) := by
      rw [configured_addPanel]
      simp only [ProcessorState.cockpitAt, ProcessorState.named] at hcn ⊢
      exact find?_modifyFirst_same (fun c => addPanel_name c p) hcn
    obtain ⟨log', c', ha, hb, hi⟩ := Trail.cockpit hc h3 hat (fun m hm n' hr => by
      intro heq; cases heq; exact (hrem m hm).1 hr)
    have hid : ∃ id, (c.addPanel p).panelAt id = some p ∧ (∀ m', id = .named m' → p.name = some m') ∧
        (∀ (c : Cockpit σ L) q, c.panelAt id = some q → q ∈ c.panels ∧ q.name = p.name) := by
      cases hn : p.name with
      | some m =>
        refine ⟨.named m, ?_, fun m' h => by cases h; rfl, ?_⟩
        · simp only [Cockpit.panelAt, hadd, List.find?_append]
          rw [List.find?_eq_none.mpr]
          · simp [hn]
          · intro d hd
            have := hfree d hd (by simp [hn])
            simpa [hn] using this
        · intro c q hq
          simp only [Cockpit.panelAt] at hq
          exact ⟨List.mem_of_find?_eq_some hq, by have := List.find?_some hq; simpa using this⟩
      | none =>
        refine ⟨.unnamed (c.panels.filter (·.name = none)).length, ?_, fun m' h => (nomatch h), ?_⟩
        · simp [Cockpit.panelAt, hadd, hn]
        · intro c q hq
          simp only [Cockpit.panelAt] at hq
          have hmem := List.mem_of_getElem? hq
          rw [List.mem_filter] at hmem
          exact ⟨hmem.1, by simpa using hmem.2⟩
    obtain ⟨id, hid1, hid2, hid3⟩ := hid
    obtain ⟨log'', p', ha', hb', hi'⟩ := managed_panel hc ha hid1 (by
      intro a ham m hrm hidm
      subst hrm
      rw [hi, List.mem_filterMap] at ham
      obtain ⟨⟨msg, v'⟩, hmsg, hfor⟩ := ham
      have hname := hid2 m hidm
      cases msg <;> simp [forCockpit] at hfor
      · cases v' <;> simp at hfor
      · rename_i cn pn
        obtain ⟨rfl, rfl⟩ : cn = n ∧ pn = m := by
          simpa [CockpitId.name] using hfor
        exact (hrem _ hmsg).2 _ rfl hname)
    obtain ⟨hm1, hm2⟩ := hid3 c' p' hb'
    exact ⟨log'', p', c', ha', hb, hm1, hm2, by rw [hi', hi, observation_forCockpit]⟩

/-- A removed cockpit is gone right after the message. -/
theorem C09_removed_cockpit {e : Env} {k k' : Nat} {s s' : ProcessorState σ L}
    {pre post : List (Message σ L × Verdict)} {n : String} {v : Verdict}
    (h : Trail e k s (pre ++ (.removeCockpit n, v) :: post) k' s') :
    ∃ k₁ s₁ k₂ s₂, Trail e k s pre k₁ s₁ ∧ Trail e k₂ s₂ post k' s' ∧
      s₂ = { s₁ with cockpits := s₁.cockpits.filter (·.name ≠ some n) } := by
  obtain ⟨k₁, s₁, k₂, s₂, st, start, h1, h2, h3⟩ := h.split
  cases h2 with
  | config => exact ⟨k₁, s₁, _, _, h1, h3, rfl⟩

/-- So is a removed panel. -/
theorem C09_removed_panel {e : Env} {k k' : Nat} {s s' : ProcessorState σ L}
    {pre post : List (Message σ L × Verdict)} {n m : String} {v : Verdict}
    (h : Trail e k s (pre ++ (.removePanelFromCockpit n m, v) :: post) k' s') :
    ∃ k₁ s₁ k₂ s₂, Trail e k s pre k₁ s₁ ∧ Trail e k₂ s₂ post k' s' ∧
      ∀ c, s₂.named n = some c → ∀ p ∈ c.panels, p.name ≠ some m := by
  obtain ⟨k₁, s₁, k₂, s₂, st, start, h1, h2, h3⟩ := h.split
  cases h2 with
  | config =>
    refine ⟨k₁, s₁, _, _, h1, h3, fun c hcn p hp => ?_⟩
    rw [configured_removePanel] at hcn
    simp only [ProcessorState.named] at hcn
    cases hf : s₁.cockpits.find? (·.name = some n) with
    | none =>
      rw [modifyFirst_none (by simpa using hf), hf] at hcn
      cases hcn
    | some d =>
      rw [find?_modifyFirst_same (f := (·.removePanel m)) (fun c => rfl) hf] at hcn
      simp at hcn; subst hcn
      simp only [Cockpit.removePanel, List.mem_filter] at hp
      intro hn
      simp [hn] at hp

/-! ## Example: an observation, then a handler, then the same observation -/

def configuredProcessor : Processor Empty Nat where
  state := { activity := ⟨0, none, true⟩ }
  receiver := { chan := .fresh (some 10) true [{ todo :=
      [.observation (.observedOneValue 1 (.changedBy 2) 0), .addHandler (.gauge (.deltasOnly .acceptAll { name := "g" })),
       .observation (.observedOneValue 1 (.changedBy 3) 0)] }], ahead := [[0, 0, 0]] }

/-- The handler is there although everything is dropped. -/
example : ∃ p' k', configuredProcessor.process 3 .dropAll ticking 1 = some ((p', ⟨1, 2, 0, 0⟩), k') ∧
    p'.state.handlers.length = 1 := ⟨_, _, rfl, rfl⟩

/-- It sees only the second observation. -/
example : ∃ p' k', configuredProcessor.process 3 .processAll ticking 1 = some ((p', ⟨3, 0, 1, 0⟩), k') ∧
    p'.state.leafAt (.handler 0 0) = some ([], .gauge (.deltasOnly .acceptAll { name := "g", value := some 3 })) :=
  ⟨_, _, rfl, rfl⟩

example := C09_order (lived_life (e := ticking) (k := 1) (p := configuredProcessor) (cs := [.process 2 .processAll, .process 2 .processAll]) rfl)
example := C09_config_never_dropped (p := configuredProcessor) (max := 3) (strategy := .dropAll) (e := ticking) (k := 1) rfl

/-- A cockpit is added, a panel to it, then an observation is processed. The panel and the cockpit are removed again. -/
def managed : Cockpit Empty Nat := { head := { name := some "c", activity := ⟨0, none, true⟩ } }

theorem managedTrail : ∃ s', Trail ticking 1 configuredProcessor.state
    [(.addHandler (.gauge (.deltasOnly .acceptAll { name := "g" })), .processed 0), (.addCockpit managed, .processed 0),
     (.addPanelToCockpit "c" exampleTree, .processed 0), (.observation (.observedOne 2 0), .processed 2),
     (.removePanelFromCockpit "c" "x", .processed 0), (.removeCockpit "d", .processed 0)] 2 s' :=
  ⟨_, .message (Nat.le_refl _) (strategy := .processAll) (start := 0) (.config (by trivial)) <|
  .message (Nat.le_refl _) (strategy := .processAll) (start := 0) (.config (by trivial)) <|
  .message (Nat.le_refl _) (strategy := .processAll) (start := 0) (.config (by trivial)) <|
  .message (Nat.le_refl _) (strategy := .processAll) (start := 0)
    (.processed (ns := [2]) (ms := [0]) trivial (.cons rfl .nil) (.cons rfl .nil)) <|
  .message (Nat.le_refl _) (strategy := .processAll) (start := 0) (.config (by trivial)) <|
  .message (Nat.le_refl _) (strategy := .processAll) (start := 0) (.config (by trivial)) <|
  .nil (Nat.le_refl _)⟩

example := C09_handler emptyForward (pre := []) managedTrail.choose_spec
example := C09_cockpit emptyForward (pre := [_]) managedTrail.choose_spec
example := C09_panel emptyForward (pre := [_, _]) managedTrail.choose_spec
example := C09_removed_panel (pre := [_, _, _, _]) managedTrail.choose_spec
example := C09_removed_cockpit (pre := [_, _, _, _, _]) managedTrail.choose_spec

end Metrix
