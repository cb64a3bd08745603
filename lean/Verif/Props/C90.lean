import Verif.Proof.Timeless
import Verif.Props.C89

/-!
# C90: the timestamp of an observation decides only whether it is dropped

`Happening.Restamped` (in `Verif.Spec.Timeless`): the same happened, only that an observation has another timestamp. By the strategy of the run
it is kept with both timestamps or dropped with both.
-/

namespace Metrix
variable {σ L : Type} [DecidableEq L] [Custom σ L]

/-- One observation, handled by a processor. With another timestamp exactly the same happens, whatever the time is, if it is not dropped
because of the timestamp. -/
theorem C90_handled (hc : CustomTimeless σ L) (s : ProcessorState σ L) (h : ∀ m ∈ s.modifiers, m.Timeless) (tally : Tally) (o : Observation L)
    (t : Int) (e : Env) (k₁ k : Nat) {strategy : Strategy} {dec : Decider} {k₀ : Nat} (hdec : strategy.decider e k₁ = some (dec, k₀))
    (hk : strategy.Keeps (e.clock k₁) o ↔ strategy.Keeps (e.clock k₁) (o.stamped t)) :
    s.receive dec tally (.observation (o.stamped t)) e k = s.receive dec tally (.observation o) e k := by
  have hs := (decider_spec (L := L) hdec).2
  rw [ProcessorState.receive_stamped hc s h dec tally o t (by rw [hs, hs]; exact hk)]

/-- Two processors that are alike at the beginning. The same happens to them, except for the timestamps. All later snapshots show the same. -/
theorem C90_snapshots (hc : CustomStill σ L) (ht : CustomTimeless σ L) {e : Env} (mono : e.Mono) {p₁ p₂ p₁' p₂' : Processor σ L}
    {log₁ log₂ : List (Nat × Call σ L × Reply)} {hs₁ hs₂ : List (Happening σ L)} (h₁ : Happened e p₁ log₁ hs₁ p₁')
    (h₂ : Happened e p₂ log₂ hs₂ p₂') (hre : List.Forall₂ (Happening.Restamped e) hs₁ hs₂) (hsame : p₁.state = p₂.state)
    (hm : ∀ m ∈ p₁.state.modifiers, m.Timeless) (hms : ∀ a ∈ hs₁, ∀ m ∈ a.modifiers, m.Timeless)
    (hr : RingsOk p₁.state.instruments) (hrs : ∀ a ∈ hs₁, RingsOk a.instruments) (ho₁ : MomentsInOrder log₁) (ho₂ : MomentsInOrder log₂)
    {n : Nat} (hn₁ : ∀ c ∈ log₁, c.1 ≤ n) (hn₂ : ∀ c ∈ log₂, c.1 ≤ n) (into : Snapshot) (d : Bool) :
    (p₁'.putSnapshot into d (e.at n) 0).map (·.1.2) = (p₂'.putSnapshot into d (e.at n) 0).map (·.1.2) := by
  obtain ⟨y, h3, h4⟩ := h₁.plays hc mono p₁.state {} n ho₁ hrs (moments_le hn₁) fun m _ => ProcessorState.alike_refl hr
  obtain ⟨y', h5, h6⟩ := h₂.plays hc mono p₁.state {} n ho₂ (Happening.Restamped.ringsOk hre hrs) (moments_le hn₂) fun m _ => by
    rw [← hsame]; exact ProcessorState.alike_refl hr
  rw [Happening.Restamped.plays ht hre _ hm hms, h3] at h5
  obtain ⟨rfl, _⟩ := Prod.mk.inj (Option.some.inj h5)
  rw [h4.shown hc, h6.shown hc]

/-- The runs report the same numbers in total. -/
theorem C90_totals (hc : CustomStill σ L) (ht : CustomTimeless σ L) {e : Env} (mono : e.Mono) {p₁ p₂ p₁' p₂' : Processor σ L}
    {log₁ log₂ : List (Nat × Call σ L × Reply)} {hs₁ hs₂ : List (Happening σ L)} (h₁ : Happened e p₁ log₁ hs₁ p₁')
    (h₂ : Happened e p₂ log₂ hs₂ p₂') (hre : List.Forall₂ (Happening.Restamped e) hs₁ hs₂) (hsame : p₁.state = p₂.state)
    (hm : ∀ m ∈ p₁.state.modifiers, m.Timeless) (hms : ∀ a ∈ hs₁, ∀ m ∈ a.modifiers, m.Timeless)
    (hr : RingsOk p₁.state.instruments) (hrs : ∀ a ∈ hs₁, RingsOk a.instruments) (ho₁ : MomentsInOrder log₁) (ho₂ : MomentsInOrder log₂) :
    totalsOf log₁ = totalsOf log₂ := by
  obtain ⟨n₁, hn₁⟩ := exists_bound (log₁.map (·.1))
  obtain ⟨n₂, hn₂⟩ := exists_bound (log₂.map (·.1))
  obtain ⟨y, h3, _⟩ := h₁.plays hc mono p₁.state ⟨0, 0, 0⟩ n₁ ho₁ hrs hn₁ fun m _ => ProcessorState.alike_refl hr
  obtain ⟨y', h5, _⟩ := h₂.plays hc mono p₁.state ⟨0, 0, 0⟩ n₂ ho₂ (Happening.Restamped.ringsOk hre hrs) hn₂ fun m _ => by
    rw [← hsame]; exact ProcessorState.alike_refl hr
  rw [Happening.Restamped.plays ht hre _ hm hms, h3] at h5
  exact totals_inj (Prod.mk.inj (Option.some.inj h5)).2

/-- If everything is processed, the timestamps do not matter at all. -/
theorem C90_all {e : Env} (m : Nat) (o : Observation L) (t : Int) :
    Happening.Restamped (σ := σ) e (.message m .processAll (.observation o)) (.message m .processAll (.observation (o.stamped t))) :=
  .observation _ _ _ _ Iff.rfl

/-- Otherwise only the age limit matters: with any two timestamps that are within the limit, the same happens, and also with any two that are
not. -/
theorem C90_age {e : Env} (m : Nat) (o : Observation L) (t : Int) (age : Nat) (deltas : Bool)
    (h : e.clock m - o.madeAt ≤ age ↔ e.clock m - t ≤ age) :
    Happening.Restamped (σ := σ) e (.message m (.dropOlderThan age deltas) (.observation o))
      (.message m (.dropOlderThan age deltas) (.observation (o.stamped t))) := by
  refine .observation _ _ _ _ ?_
  have h1 : (o.stamped t).madeAt = t := by cases o <;> rfl
  have h2 : (o.stamped t).ChangesValue ↔ o.ChangesValue := by
    unfold Observation.ChangesValue
    cases o with
    | observed l n s => constructor <;> rintro ⟨_, _, _, h⟩ <;> cases h
    | observedOne l s => constructor <;> rintro ⟨_, _, _, h⟩ <;> cases h
    | observedOneValue l v s =>
      constructor
      · rintro ⟨_, _, _, h⟩
        cases h
        exact ⟨_, _, _, rfl⟩
      · rintro ⟨_, _, _, h⟩
        cases h
        exact ⟨_, _, _, rfl⟩
  simp only [Strategy.Keeps, h1, h2, h]

omit [DecidableEq L] in
/-- Without a modifier an update is not changed. -/
theorem timeless_none : UpdateModifier.Timeless (none : UpdateModifier L) := fun _ _ t => ⟨t, rfl⟩

/-! ## Example -/

omit [DecidableEq L] in
/-- A modifier that turns everything into the number of the label, with a timestamp of its own. -/
example (f : L → Nat) : UpdateModifier.Timeless (some fun l _ => .observations (f l) 0) := fun _ _ _ => ⟨0, rfl⟩

omit [DecidableEq L] in
/-- A modifier that tells how old something is, is not timeless. -/
example (l : L) : ¬ UpdateModifier.Timeless (L := L) (some fun _ u => match u with
    | .observation t => .observations t.toNat t
    | u => u) := by
  intro h
  obtain ⟨t', h⟩ := h l (.observation 0) 1
  simp [UpdateModifier.modify, Update.stamped] at h

theorem emptyTimeless : CustomTimeless Empty Nat := ⟨nofun, nofun⟩

/-- A counter and a gauge. Three messages wait, which were made at the given times. -/
def stampedProcessor (a b c : Int) : Processor Empty Nat where
  state := { name := some "p", activity := ⟨0, some 3000000000, true⟩
             handlers := [.instrument ⟨.acceptAll, .counter { name := "c" }, none⟩,
               .gauge (.deltasOnly .acceptAll { name := "g", value := some 0, tracking := some ⟨List.replicate 3 default, 0, 2⟩ })] }
  receiver := { chan := { Channel.fresh (some 10) true [{ todo := [] }] with queue :=
    [(0, .observation (.observed 1 5 a)), (0, .observation (.observedOneValue 1 (.changedBy 5) b)), (0, .removeCockpit "x"),
     (0, .observation (.observedOne 1 c))] } }

theorem stamped_queue (a b c : Int) : (stampedProcessor a b c).receiver.chan.queue.map (·.2) = [.observation (.observed 1 5 a),
    .observation (.observedOneValue 1 (.changedBy 5) b), .removeCockpit "x", .observation (.observedOne 1 c)] := rfl

/-- What happens in one run that drops what is older than one second, except for changes of values. -/
theorem stamped_happens (a b c : Int)
    (h : (callsAt Processor.call ticking (stampedProcessor a b c) [(3, .process 6 (.dropOlderThan 1000000000 false))]).isSome) :
    ∃ p' log, log.map (fun c => (c.1, c.2.1)) = [(3, .process 6 (.dropOlderThan 1000000000 false))] ∧
      Happened ticking (stampedProcessor a b c) log [.message 3 (.dropOlderThan 1000000000 false) (.observation (.observed 1 5 a)),
        .message 3 (.dropOlderThan 1000000000 false) (.observation (.observedOneValue 1 (.changedBy 5) b)),
        .message 3 (.dropOlderThan 1000000000 false) (.removeCockpit "x"),
        .message 3 (.dropOlderThan 1000000000 false) (.observation (.observedOne 1 c))] p' := by
  obtain ⟨p', log, h1, h2⟩ := callsAt_spec h
  refine ⟨p', log, h2, ?_⟩
  have calls : ∀ d ∈ log, d.1 = 3 ∧ ((∃ max, d.2.1 = .process max (.dropOlderThan 1000000000 false)) ∨ d.2.1.IsSnapshot) := by
    intro d hd
    have : (d.1, d.2.1) ∈ log.map (fun c => (c.1, c.2.1)) := List.mem_map_of_mem hd
    rw [h2] at this
    simp only [List.mem_cons, Prod.mk.injEq, List.not_mem_nil, or_false] at this
    exact ⟨this.1, .inl ⟨6, this.2⟩⟩
  have sum : (log.map (·.2.1.polls)).sum = 6 := by
    have : log.map (·.2.1.polls) = (log.map (fun c => (c.1, c.2.1))).map (·.2.polls) := by rw [List.map_map]; rfl
    rw [this, h2]; rfl
  have := happened_quiet (p := stampedProcessor a b c) rfl nofun calls h1
  rw [sum, stamped_queue] at this
  exact this

theorem stamped_rings (a b c : Int) : RingsOk (stampedProcessor a b c).state.instruments := by
  intro g r hg hr
  have : (stampedProcessor a b c).state.instruments = [.counter { name := "c" },
    .gauge { name := "g", value := some 0, tracking := some ⟨List.replicate 3 default, 0, 2⟩ }] := rfl
  rw [this] at hg
  simp only [List.mem_cons, reduceCtorEq, Instrument.gauge.injEq, List.not_mem_nil, or_false, false_or] at hg
  subst hg
  cases hr
  decide

/-- Five occurrences that were counted just now or half a second ago; a change of the gauge that was made long ago or just now; an
occurrence that is too old, or even older. -/
example : ∃ p₁ log₁ hs₁ p₂ log₂ hs₂, log₁ ≠ [] ∧ Happened ticking (stampedProcessor 2000000000 0 7) log₁ hs₁ p₁ ∧
    Happened ticking (stampedProcessor 1500000000 2000000000 (-5)) log₂ hs₂ p₂ ∧ hs₁.length = 4 ∧
    totalsOf log₁ = totalsOf log₂ ∧ ∀ n into d, 3 ≤ n →
      (p₁.putSnapshot into d (ticking.at n) 0).map (·.1.2) = (p₂.putSnapshot into d (ticking.at n) 0).map (·.1.2) := by
  obtain ⟨p₁, log₁, hl₁, h₁⟩ := stamped_happens 2000000000 0 7 (by decide +kernel)
  obtain ⟨p₂, log₂, hl₂, h₂⟩ := stamped_happens 1500000000 2000000000 (-5) (by decide +kernel)
  have hre := List.Forall₂.cons (C90_age (σ := Empty) (e := ticking) 3 (.observed 1 5 2000000000) 1500000000 1000000000 false (by decide)) <|
     .cons (.observation 3 (.dropOlderThan 1000000000 false) (.observedOneValue 1 (.changedBy 5) 0) 2000000000
      ⟨fun _ => .inr ⟨⟨_, _, _, rfl⟩, rfl⟩, fun _ => .inr ⟨⟨_, _, _, rfl⟩, rfl⟩⟩) <|
     .cons (.same (.message 3 (.dropOlderThan 1000000000 false) (.removeCockpit "x"))) <|
     .cons (C90_age (σ := Empty) (e := ticking) 3 (.observedOne 1 7) (-5) 1000000000 false (by decide)) .nil
  have order : ∀ {log : List (Nat × Call Empty Nat × Reply)} {o : Call Empty Nat}, log.map (fun c => (c.1, c.2.1)) = [(3, o)] →
      MomentsInOrder log ∧ (∀ c ∈ log, c.1 = 3) ∧ log ≠ [] := by
    intro log o h
    obtain ⟨c, rfl⟩ := List.length_eq_one_iff.1 ((List.length_map _).symm.trans (congrArg List.length h))
    simp only [List.map_cons, List.map_nil, List.cons.injEq, Prod.mk.injEq] at h
    exact ⟨by simp [MomentsInOrder], by simp [h.1.1], by simp⟩
  have hm : ∀ m ∈ (stampedProcessor 2000000000 0 7).state.modifiers, m.Timeless := by
    intro m hm
    have : (stampedProcessor 2000000000 0 7).state.modifiers = [none, none] := rfl
    rw [this] at hm
    have hm : m = none := List.eq_of_mem_replicate (n := 2) hm
    rw [hm]; exact timeless_none
  refine ⟨p₁, log₁, _, p₂, log₂, _, (order hl₁).2.2, h₁, h₂, rfl, ?_, fun n into d hn => ?_⟩
  · exact C90_totals emptyStill emptyTimeless ticking_mono h₁ h₂ hre rfl hm
      (by simp [Happening.modifiers, Message.modifiers]) (stamped_rings _ _ _)
      (by simp [Happening.instruments, Message.instruments, RingsOk]) (order hl₁).1 (order hl₂).1
  · exact C90_snapshots emptyStill emptyTimeless ticking_mono h₁ h₂ hre rfl hm
      (by simp [Happening.modifiers, Message.modifiers]) (stamped_rings _ _ _)
      (by simp [Happening.instruments, Message.instruments, RingsOk]) (order hl₁).1 (order hl₂).1
      (fun c hc => by rw [(order hl₁).2.1 c hc]; exact hn) (fun c hc => by rw [(order hl₂).2.1 c hc]; exact hn) into d

end Metrix
