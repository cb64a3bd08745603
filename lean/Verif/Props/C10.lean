import Verif.Props.C06

/-! # C10: dropped observations leave no trace -/

namespace Metrix
variable {σ L : Type} [DecidableEq L] [Custom σ L]

/-- A message that is dropped changes nothing at all in the cockpits, handlers and everything else of the processor. The
clock is not even read for it. -/
theorem C10_message {d : Decider} {s s' : ProcessorState σ L} {t t' : Tally} {o : Observation L} {e : Env} {k k' : Nat}
    (h : s.receive d t (.observation o) e k = some ((s', t'), k')) (hd : t'.dropped ≠ t.dropped) :
    s' = s ∧ k' = k := by
  simp only [ProcessorState.receive] at h
  by_cases hk : d.shouldBeProcessed o = true
  · rw [if_pos hk] at h
    simp only [M.bind_eq_some, M.run_pure, Option.some.injEq, Prod.mk.injEq] at h
    obtain ⟨_, _, _, _, _, _, ⟨_, rfl⟩, _⟩ := h
    exact absurd rfl hd
  · rw [if_neg hk] at h
    simp at h
    exact ⟨h.1.1.symm, h.2.symm⟩

theorem applies_dropped {e : Env} {keeps : Observation L → Prop} {k k' : Nat} {s s' : ProcessorState σ L}
    {ms : List (Message σ L × Verdict)} (h : Applies e keeps k s ms k' s') (hd : ∀ m ∈ ms, m.2.isDropped = true) : s' = s := by
  induction h with
  | nil => rfl
  | cons h1 _ ih =>
    have h2 := ih fun m hm => hd m (List.mem_cons_of_mem _ hm)
    have := hd _ (List.mem_cons_self ..)
    cases h1 with
    | processed => cases this
    | dropped => exact h2
    | config => cases this

/-- A run that drops everything changes nothing but the moment of the last activity. -/
theorem C10_run {p p' : Processor σ L} {max : Nat} {strategy : Strategy} {out : Outcome} {e : Env} {k k' : Nat}
    (h : p.process max strategy e k = some ((p', out), k')) (hout : out.processed = 0) :
    ∃ t, p'.state = p.state.activeAt t := by
  obtain ⟨ms, _, k₃, s₁, _, _, _, happ, hacc, hs, _⟩ := process_spec h
  have hall : ∀ m ∈ ms, m.2.isDropped = true := by
    have := hacc.processed
    rw [hout] at this
    have := List.eq_nil_of_length_eq_zero this.symm
    intro m hm
    have := List.filter_eq_nil_iff.mp this m hm
    simpa using this
  have := applies_dropped happ hall
  subst this
  split at hs
  · exact ⟨_, hs⟩
  · exact ⟨_, hs⟩

theorem Trail.drop {e : Env} {k k' : Nat} {s s' : ProcessorState σ L} {ms : List (Message σ L × Verdict)}
    (h : Trail e k s ms k' s') : Trail e k s (ms.filter fun m => !m.2.isDropped) k' s' := by
  induction h with
  | nil h => exact .nil h
  | @message k k₁ k₂ k' s s₁ s' m v ms start strategy hk ha _ ih =>
    cases ha with
    | processed hkeep hc hh => exact .message hk (.processed hkeep hc hh) ih
    | dropped => exact ih.weaken hk
    | config hm => exact .message (strategy := strategy) (start := start) hk (.config hm) ih
  | active _ ih => exact .active ih
  | snapshot hk h1 _ ih => exact .snapshot hk h1 ih
  | set _ ih => exact .set ih

/-- However a processor is used: its state is the same as if the dropped observations had never been sent. -/
theorem C10_never_sent {e : Env} {k k' : Nat} {p p' : Processor σ L} {log : List (Called σ L)}
    (h : Life e k p log k' p') :
    ∃ consumed, Story e k p.state log consumed k' p'.state ∧
      Took p.receiver.chan p'.receiver.chan (consumed.flatten.map (·.1)) ∧
      Trail e k p.state (consumed.flatten.filter fun m => !m.2.isDropped) k' p'.state := by
  obtain ⟨consumed, hst, ht⟩ := life_story h
  exact ⟨consumed, hst, ht, hst.trail.drop⟩

/-- However a processor is used: the history of any instrument (or other thing that reacts to observations) in it is one
of only those observations that were not dropped. -/
theorem C10_leaf (hc : CustomForward σ L) {e : Env} {k k' : Nat} {p p' : Processor σ L} {log : List (Called σ L)}
    (h : Life e k p log k' p') {place : Place} {path : List (LabelFilter L)} {leaf : Leaf σ L}
    (hplace : p.state.leafAt place = some (path, leaf)) :
    ∃ consumed, Story e k p.state log consumed k' p'.state ∧
      Took p.receiver.chan p'.receiver.chan (consumed.flatten.map (·.1)) ∧
      ((∀ m ∈ consumed.flatten, ¬ place.RemovedBy m.1) →
       ∃ history leaf', History e k leaf history k' leaf' ∧ p'.state.leafAt place = some (path, leaf') ∧
        ∀ o ∈ inputs history, ∃ v, (Message.observation o, v) ∈ consumed.flatten ∧ v.isDropped = false) := by
  obtain ⟨consumed, hst, ht⟩ := life_story h
  refine ⟨consumed, hst, ht, fun hrem => ?_⟩
  obtain ⟨l, leaf', h1, h2, h3⟩ := Trail.leaf hc hst.trail hplace hrem
  refine ⟨l, leaf', h1, h2, fun o ho => ?_⟩
  rw [h3, List.mem_filter, List.mem_filterMap] at ho
  obtain ⟨⟨⟨m, v⟩, hmv, hp⟩, _⟩ := ho
  refine ⟨v, ?_⟩
  cases m with
  | observation o' => cases v <;> simp [processedObservation] at hp; subst hp; exact ⟨hmv, rfl⟩
  | _ => simp [processedObservation] at hp

/-- All four messages of the example are dropped. -/
example : ∃ p' k', exampleProcessor.process 4 .dropAll ticking 1 = some ((p', ⟨0, 4, 0, 0⟩), k') ∧
    p'.state = exampleProcessor.state.activeAt 700000000 := ⟨_, _, rfl, rfl⟩

example := C10_message (d := .dropAll) (s := exampleProcessor.state) (t := {}) (o := .observedOne 1 0) (e := ticking) (k := 1) rfl (by decide)
example := C10_run (p := exampleProcessor) (max := 4) (strategy := .dropAll) (e := ticking) (k := 1) rfl rfl
example := C10_never_sent (lived_life (e := ticking) (k := 1) (p := exampleProcessor) (cs := exampleCalls) rfl)
example := C10_leaf emptyForward (lived_life (e := ticking) (k := 1) (p := exampleProcessor) (cs := exampleCalls) rfl) (place := .handler 1 0) rfl

end Metrix
