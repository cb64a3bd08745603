import Verif.Proof.SafeRun
import Verif.Props.C18
import Verif.Props.C25
import Verif.Props.C52

/-! # C57: release builds do not panic on any sequence of observations and snapshots

`AllSafe` (in `Verif.Spec.Safe`): all configured durations are in the range of the clock. -/

namespace Metrix
variable {σ L : Type} [DecidableEq L] [Custom σ L] {e : Env} {safe : σ → Prop}

/-- A panel: no sequence of observations and snapshots panics. -/
theorem C57_panel (he : e.profile = .release) (hc : CustomSafe L e safe) {p : Panel σ L}
    (hp : AllSafe e safe p.instruments) (ops : List (Op (Observation L))) (k : Nat) :
    ∃ p' outs k', runOps p ops e k = some ((p', outs), k') := by
  obtain ⟨⟨p', outs⟩, k', h, _⟩ := tot_runOps (fun p o hp => Panel.tot_handle he hc o p hp)
    (fun p s d hp => Panel.tot_putSnapshot he hc d p s hp) ops hp k
  exact ⟨p', outs, k', h⟩

/-- A cockpit: no sequence of observations and snapshots panics. -/
theorem C57_cockpit (he : e.profile = .release) (hc : CustomSafe L e safe) {c : Cockpit σ L}
    (h : AllSafe e safe c.instruments) (ops : List (Op (Observation L))) (k : Nat) :
    ∃ c' outs k', runOps c ops e k = some ((c', outs), k') := by
  obtain ⟨⟨p', outs⟩, k', h, _⟩ := tot_runOps (fun c o h => Cockpit.tot_handle he hc o c h)
    (fun c s d h => Cockpit.tot_putSnapshot he hc d c s h) ops h k
  exact ⟨p', outs, k', h⟩

/-- Any handler, like an instrument behind an adapter: no sequence of observations and snapshots panics. -/
theorem C57_handler (he : e.profile = .release) (hc : CustomSafe L e safe) {x : Handler σ L}
    (h : AllSafe e safe x.instruments) (ops : List (Op (Observation L))) (k : Nat) :
    ∃ x' outs k', runOps x ops e k = some ((x', outs), k') := by
  obtain ⟨⟨p', outs⟩, k', h, _⟩ := tot_runOps (fun c o h => Handler.tot_handle he hc o c h)
    (fun c s d h => Handler.tot_putSnapshot he hc d c s h) ops h k
  exact ⟨p', outs, k', h⟩

omit [DecidableEq L] [Custom σ L] in
/-- Turning on tracking does not panic, and the gauge is safe afterwards. -/
theorem C57_tracking (name : String) (seconds k : Nat) :
    ∃ g k', Gauge.setTracking { name } seconds e k = some (g, k') ∧ (Instrument.gauge (σ := σ) g).Safe e safe := by
  unfold Gauge.setTracking
  by_cases h : seconds ≠ 0
  · rw [if_pos h]
    refine ⟨{ name, tracking := some { buckets := List.replicate seconds default, currentTime := e.clock k, currentIdx := seconds - 1 } },
      k + 1, ?_, ?_⟩
    · rw [M.run_bind_some (k' := k + 1)
        (a := { buckets := List.replicate seconds default, currentTime := e.clock k, currentIdx := seconds - 1 })]
      · rfl
      · simp only [SecondsBuckets.new, SecondsBuckets.initialized]
        rw [if_neg (by simp [h])]
        simp [M.run_bind]
    · intro r hr; cases hr; simp; omega
  · rw [if_neg h]
    exact ⟨_, k, rfl, fun r hr => (nomatch hr)⟩

/-- A processor: no sequence of calls panics, whatever arrives meanwhile. -/
theorem C57_processor (he : e.profile = .release) (hc : CustomSafe L e safe) {p : Processor σ L}
    (hp : AllSafe e safe p.instruments) (cs : List (Call σ L)) (hcs : ∀ c ∈ cs, c.Safe e safe) (k : Nat) :
    ∃ p' rs k', p.calls cs e k = some ((p', rs), k') := by
  obtain ⟨⟨p', rs⟩, k', h, _⟩ := Processor.tot_calls he hc cs hcs p hp k
  exact ⟨p', rs, k', h⟩

variable [CustomProcessor σ]

/-- A mount (or anything else that can be mounted): no sequence of runs and snapshots panics, whatever arrives meanwhile. -/
theorem C57_mount (he : e.profile = .release) (hc : CustomSafe L e safe) (hcp : CustomProcessorSafe e safe) {n : Node σ L}
    (hn : AllSafe e safe n.instruments) (cs : List NodeCall) (hcs : ∀ c ∈ cs, c.Safe e) (k : Nat) :
    ∃ n' rs k', n.calls cs e k = some ((n', rs), k') := by
  obtain ⟨⟨n', rs⟩, k', h, _⟩ := Node.tot_calls he hc hcp cs hcs n hn k
  exact ⟨n', rs, k', h⟩

omit [DecidableEq L] [Custom σ L] [CustomProcessor σ] in
/-- A driver can be created. -/
theorem C57_new_driver (h60 : Fits e (60 * nanosPerSec)) (name : Option String) (descr : Descr) (strategy : Strategy)
    (withMetrics : Bool) (k₀ : Nat) :
    ∃ (state : LoopState σ L) (k : Nat), LoopState.new name descr strategy withMetrics e k₀ = some (state, k) := by
  obtain ⟨l, k, h, _⟩ := LoopState.tot_new (σ := σ) (L := L) h60 name descr strategy withMetrics k₀
  exact ⟨l, k, h⟩

/-- The thread of a driver does not panic: it only ends when there are no handles any more, and all requests are answered.
Any number of threads use its handles by any schedule; what they send is safe. -/
theorem C57_driver (he : e.profile = .release) (hc : CustomSafe L e safe) (hcp : CustomProcessorSafe e safe)
    (h60 : Fits e (60 * nanosPerSec)) {k k' : Nat} {name : Option String} {descr : Descr} {strategy : Strategy}
    (hstrategy : strategy.Safe e) {withMetrics : Bool} {programs : List (SendThread (DriverMsg σ L))}
    (hprograms : ∀ th ∈ programs, ∀ m ∈ th.todo, m.Safe e safe) {t t' : DriverThread σ L}
    (hnew : NewDriver e k name descr strategy withMetrics programs t) {log : List (Iteration σ L)}
    (h : DriverLife e k t log k' t') :
    (t'.Runs ∨ t'.channel.abandoned = true) ∧
      ∀ x ∈ log, ∀ id d, x.message = some (.getSnapshot id d) → ∃ s, x.answer = some s := by
  obtain ⟨k₀, state, ahead, blind, hn, rfl⟩ := hnew.created
  obtain ⟨l, k₁, hl, h1, h2, h3, h4⟩ := LoopState.tot_new (σ := σ) (L := L) h60 name descr strategy withMetrics k₀
  rw [hl] at hn; cases hn
  obtain ⟨a, b, c⟩ := h.staysSafe he hc hcp (safe := safe) (by
    intro l hl
    cases hl
    refine ⟨⟨h1, ?_, ?_, by rw [h2]; exact hstrategy⟩, ?_⟩
    · show AllSafe e safe (instrumentsOfNodes state.processors)
      rw [h3, instrumentsOfNodes]; exact AllSafe.nil
    · show AllSafe e safe (instrumentsOfSnapshooters state.snapshooters)
      rw [h4, instrumentsOfSnapshooters]; exact AllSafe.nil
    · intro m hm
      simp only [Channel.pending, Channel.fresh, List.map_nil, List.nil_append, List.mem_flatMap] at hm
      obtain ⟨th, hth, hm⟩ := hm
      exact hprograms th hth m hm) (by intro c hc; cases hc)
  refine ⟨?_, fun x hx id d hm => Option.ne_none_iff_exists'.mp (c x hx id d hm)⟩
  cases t' with
  | running l => exact .inl ⟨l, rfl⟩
  | ended c => exact .inr (a c rfl)

/-! The limit on durations is needed: a staircase timer that is to be switched off after 10 seconds panics
on its first update if the clock is within 10 seconds of the end of its range. -/
section
def nearTheEnd : Env := { ticking with instMax := 5 * nanosPerSec }

theorem C57_duration_out_of_range :
    (StaircaseTimer.update { name := "t", switchOffAfter := 10 * nanosPerSec } (.observation 0)) nearTheEnd 0 = none := by
  decide

/-- **Finding.** The thread of a new driver panics before its first iteration if the clock of the platform started less than 60
seconds ago and cannot represent moments before its start (as with an `Instant` that counts from the start of the machine). -/
theorem C57_finding_start {σ L : Type} (e : Env) (k : Nat) (name : Option String) (descr : Descr) (strategy : Strategy)
    (h : e.clock k < e.instMin + 60 * nanosPerSec) :
    (LoopState.new name descr strategy false : M (LoopState σ L)) e k = none := by
  have hn : ¬ e.instMin ≤ e.clock k - 60 * nanosPerSec := by omega
  simp only [LoopState.new, Bool.false_eq_true, if_false]
  simp only [bind, M.bind, pure, M.pure, M.now, subDur]
  simp [hn]

example : (LoopState.new none {} .default false : M (LoopState Empty Nat)) { ticking with instMin := 0 } 3 = none :=
  C57_finding_start _ _ _ _ _ (by decide)

/-- The same goes for the limit of the strategy: a driver with a processor is told to drop what is older than 200 years, and the
platform's clock starts 100 years ago. Its thread ends although a handle is still there. -/
theorem C57_max_age_out_of_range :
    let e := { ticking with instMin := -100 * 365 * 24 * 3600 * nanosPerSec }
    let programs : List (SendThread (DriverMsg Empty Nat)) :=
      [{ todo := [.addProcessor (.processor idleProcessor), .setStrategy (.dropOlderThan (200 * 365 * 24 * 3600 * nanosPerSec) false)]
         drops := false }]
    ∃ t k, NewDriver e k none {} .default false programs t ∧
      ¬ (t.iterations 3 e k).2.2.Runs ∧ (t.iterations 3 e k).2.2.channel.abandoned = false := by
  refine ⟨.running { state := { metrics := none, lastOutcomeLogged := -60000000000, strategy := .default }
                     receiver := { chan := .fresh none true _, ahead := [[0, 0]] } }, 1, ⟨0, _, _, _, rfl, rfl⟩, ?_, by decide +kernel⟩
  have hend : ∀ t : DriverThread Empty Nat, (match t with | .running _ => true | .ended _ => false) = false → ¬ t.Runs := by
    rintro t h ⟨l, rfl⟩; cases h
  exact hend _ (by decide +kernel)
end

/-! Non-vacuity: a panel with a tracking gauge, a timer and a nested panel, at a clock with a wide range. -/
section
def wide : Env :=
  { ticking with clock := fun k => min (k * 700000000) (10 ^ 18), instMin := -10 ^ 30, instMax := 10 ^ 30 }

theorem wide_fits {d : Nat} (h : d ≤ 10 ^ 20) : Fits wide d := by
  intro k
  simp only [wide]
  omega

def trackingGauge : Gauge :=
  { name := "g", tracking := some { buckets := [default, default], currentTime := 0, currentIdx := 1 } }

def guarded : Panel Empty Nat :=
  .mk { labelFilter := .acceptAll, activity := ⟨0, some 5, true⟩, gauge := some (.new trackingGauge) }
    [exampleTree]
    [.instrument (.new (.staircaseTimer { name := "t" })), .instrument (.new (.dataDisplay { name := "d", resetAfter := some 100 }))]
    [.polling "p" {} true (.instrument (.occurrenceIndicator { name := "o", happenedLast := 0 }))]

theorem guarded_safe : AllSafe wide (fun _ => False) guarded.instruments := by
  simp only [guarded, exampleTree, Panel.instruments, instrumentsOfPanels, instrumentsOfHandlers,
    instrumentsOfSnapshooters, Handler.instruments, Snapshooter.instruments, AllSafe.append, AllSafe.nil, AllSafe.single,
    PanelHead.allSafe, InstrumentAdapter.new, Instrument.Safe, and_true]
  refine ⟨?_, ⟨?_, ?_⟩, ⟨wide_fits (by decide), ?_⟩, wide_fits (by decide)⟩
  · intro a ha r hr; cases ha; cases hr; decide
  · intro a ha; cases ha
  · intro a ha; cases ha
  · intro r hr; cases hr; exact wide_fits (by decide)

theorem noCustom : CustomSafe Nat wide (fun _ : Empty => False) := ⟨fun s => s.elim, fun s => s.elim, fun s => s.elim⟩

example (ops : List (Op (Observation Nat))) (k : Nat) : ∃ p outs k', runOps guarded ops wide k = some ((p, outs), k') :=
  C57_panel rfl noCustom guarded_safe ops k

theorem noCustomProcessor : CustomProcessorSafe wide (fun _ : Empty => False) := ⟨fun s => s.elim, fun s => s.elim⟩

/-- A processor with a panel, to which a cockpit with a panel is going to be added, then the panel of another thread. -/
def guardedProcessor : Processor Empty Nat where
  state := { activity := ⟨0, none, true⟩, handlers := [.panel guarded] }
  receiver := {
    chan := .fresh (some 2) false [{ todo := [.addCockpit { head := { activity := ⟨0, none, true⟩ }, panels := [guarded] }, .observation (.observed 1 0 0)] },
      { todo := [.observation (.observedOne 2 0)], drops := false }]
    ahead := [[0, 1], [0]] }

theorem guardedProcessor_safe : AllSafe wide (fun _ => False) guardedProcessor.instruments := by
  simp only [Processor.allSafe, ProcessorState.allSafe, guardedProcessor, instrumentsOfHandlers, instrumentsOfCockpits,
    instrumentsOfSnapshooters, Handler.instruments, AllSafe.append, AllSafe.nil, and_true, true_and, guarded_safe]
  intro m hm
  simp only [Channel.pending, Channel.fresh, List.map_nil, List.nil_append, List.flatMap_cons, List.flatMap_nil,
    List.append_nil, List.cons_append, List.mem_cons, List.not_mem_nil, or_false] at hm
  rcases hm with rfl | rfl | rfl
  · simp only [Message.instruments, Cockpit.instruments, instrumentsOfPanels, instrumentsOfHandlers, instrumentsOfSnapshooters,
      AllSafe.append, AllSafe.nil, and_true, guarded_safe]
  · exact AllSafe.nil
  · exact AllSafe.nil

example (cs : List (Call Empty Nat)) (h : ∀ c ∈ cs, c.Safe wide (fun _ => False)) (k : Nat) :
    ∃ p rs k', guardedProcessor.calls cs wide k = some ((p, rs), k') :=
  C57_processor rfl noCustom guardedProcessor_safe cs h k

example (cs : List NodeCall) (h : ∀ c ∈ cs, c.Safe wide) (k : Nat) :
    ∃ p rs k', (Node.mount { lastActivity := 0 } [.processor guardedProcessor] []).calls cs wide k = some ((p, rs), k') :=
  C57_mount rfl noCustom noCustomProcessor (by
    simp only [Node.instruments, instrumentsOfNodes, instrumentsOfSnapshooters, AllSafe.append, AllSafe.nil, and_true]
    exact guardedProcessor_safe) cs h k

def guardedPrograms : List (SendThread (DriverMsg Empty Nat)) :=
  [{ todo := [.addProcessor (.processor guardedProcessor), .setStrategy (.dropOlderThan (30 * nanosPerSec) true)], drops := false },
   { todo := [.getSnapshot 1 true, .getSnapshot 2 true] }]

theorem guardedPrograms_safe : ∀ th ∈ guardedPrograms, ∀ m ∈ th.todo, m.Safe wide (fun _ => False) := by
  simp only [guardedPrograms, List.forall_mem_cons, List.not_mem_nil, false_implies, implies_true, and_true, DriverMsg.Safe]
  refine ⟨?_, wide_fits (by decide)⟩
  simp only [Node.instruments]
  exact guardedProcessor_safe

example {k k' : Nat} {t t' : DriverThread Empty Nat} (hnew : NewDriver wide k none {} .default true guardedPrograms t)
    {log : List (Iteration Empty Nat)} (h : DriverLife wide k t log k' t') :
    (t'.Runs ∨ t'.channel.abandoned = true) ∧
      ∀ x ∈ log, ∀ id d, x.message = some (.getSnapshot id d) → ∃ s, x.answer = some s :=
  C57_driver rfl noCustom noCustomProcessor (wide_fits (by decide)) (by exact wide_fits (by decide)) guardedPrograms_safe hnew h

end
end Metrix
