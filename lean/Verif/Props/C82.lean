import Verif.Proof.BusyDriver
import Verif.Props.C55
import Verif.Props.C57
import Verif.Props.C81

/-! # C82: below a limit no build panics

`Load` and `Within` (in `Verif.Spec.Light`): how much was observed, and how large the numbers in instruments can be after that. -/

namespace Metrix
variable {σ L : Type} [DecidableEq L] [Custom σ L] {e : Env} {safe : σ → Prop} {peak : Nat}

/-- The observations among operations. -/
def observed (ops : List (Op (Observation L))) : List (Observation L) := ops.filterMap fun
  | .input o => some o
  | .snapshot _ _ => none

omit [DecidableEq L] [Custom σ L] in
/-- The parts of a component stay within what was observed. -/
theorem within_runOps {C : Type} [Component C (Observation L)] {parts : C → List (Tuned σ L)}
    (ht : ∀ (l : Load) c (o : Observation L), (l + o.load).Small peak → o.AtMost peak → AllWithin e safe peak l (parts c) →
      M.Tot e (Component.take c o) fun r => AllWithin e safe peak (l + o.load) (parts r.1))
    (hp : ∀ (l : Load) c s d, l.Small peak → AllWithin e safe peak l (parts c) →
      M.Tot e (Component.putSnapshot (A := Observation L) c s d) fun r => AllWithin e safe peak l (parts r.1))
    (ops : List (Op (Observation L))) {l : Load} {c : C} (h : AllWithin e safe peak l (parts c))
    (ho : ∀ o ∈ observed ops, o.AtMost peak) (hs : (l + loadOf (observed ops)).Small peak) :
    M.Tot e (runOps c ops) fun r => AllWithin e safe peak (l + loadOf (observed ops)) (parts r.1) := by
  induction ops generalizing l c with
  | nil => exact .pure (by rw [show l + loadOf (observed ([] : List (Op (Observation L)))) = l from Load.add_zero l]; exact h)
  | cons op ops ih =>
    cases op with
    | input o =>
      have e1 : l + loadOf (observed (.input o :: ops)) = l + o.load + loadOf (observed ops) := (Load.add_assoc _ _ _).symm
      rw [e1] at hs ⊢
      refine .bind (.bind (ht l c o (hs.mono (Load.le_add _ _)) (ho o (by simp [observed])) h) fun r hr =>
        .pure (P := fun r : C × Out => AllWithin e safe peak (l + o.load) (parts r.1)) hr) fun r hr => ?_
      exact .bind (ih hr (fun o' h' => ho o' (by simp only [observed, List.filterMap_cons, List.mem_cons]; exact .inr h')) hs)
        fun r hr => .pure hr
    | snapshot s d =>
      refine .bind (.bind (hp l c s d (hs.mono (Load.le_add _ _)) h) fun r hr =>
        .pure (P := fun r : C × Out => AllWithin e safe peak l (parts r.1)) hr) fun r hr => ?_
      exact .bind (ih hr ho hs) fun r hr => .pure hr

/-- A panel: no sequence of observations and snapshots panics as long as everything observed adds up to little enough. Afterwards
its instruments are within what was observed. -/
theorem C82_panel (hc : CustomSafe L e safe) {p : Panel σ L} {l : Load} (hp : AllWithin e safe peak l p.parts)
    (ops : List (Op (Observation L))) (ho : ∀ o ∈ observed ops, o.AtMost peak) (hs : (l + loadOf (observed ops)).Small peak)
    (k : Nat) : ∃ p' outs k', runOps p ops e k = some ((p', outs), k') ∧
      AllWithin e safe peak (l + loadOf (observed ops)) p'.parts := by
  obtain ⟨⟨p', outs⟩, k', h, h'⟩ := within_runOps (parts := Panel.parts) (fun l p o hS ho hp => Panel.within_handle hc o hS ho p hp)
    (fun l p s d hS hp => Panel.within_putSnapshot hS hc d p s hp) ops hp ho hs k
  exact ⟨p', outs, k', h, h'⟩

/-- The same for a cockpit. -/
theorem C82_cockpit (hc : CustomSafe L e safe) {c : Cockpit σ L} {l : Load} (h : AllWithin e safe peak l c.parts)
    (ops : List (Op (Observation L))) (ho : ∀ o ∈ observed ops, o.AtMost peak) (hs : (l + loadOf (observed ops)).Small peak)
    (k : Nat) : ∃ c' outs k', runOps c ops e k = some ((c', outs), k') ∧
      AllWithin e safe peak (l + loadOf (observed ops)) c'.parts := by
  obtain ⟨⟨p', outs⟩, k', h, h'⟩ := within_runOps (parts := Cockpit.parts) (fun l p o hS ho hp => Cockpit.within_handle hc o hS ho p hp)
    (fun l p s d hS hp => Cockpit.within_putSnapshot hS hc d p s hp) ops h ho hs k
  exact ⟨p', outs, k', h, h'⟩

/-- The same for any handler, like an instrument behind an adapter. -/
theorem C82_handler (hc : CustomSafe L e safe) {x : Handler σ L} {l : Load} (h : AllWithin e safe peak l x.parts)
    (ops : List (Op (Observation L))) (ho : ∀ o ∈ observed ops, o.AtMost peak) (hs : (l + loadOf (observed ops)).Small peak)
    (k : Nat) : ∃ x' outs k', runOps x ops e k = some ((x', outs), k') ∧
      AllWithin e safe peak (l + loadOf (observed ops)) x'.parts := by
  obtain ⟨⟨p', outs⟩, k', h, h'⟩ := within_runOps (parts := Handler.parts) (fun l p o hS ho hp => Handler.within_handle hc o hS ho p hp)
    (fun l p s d hS hp => Handler.within_putSnapshot hS hc d p s hp) ops h ho hs k
  exact ⟨p', outs, k', h, h'⟩

omit [DecidableEq L] [Custom σ L] in
/-- New instruments, and gauges that track their values, are within their limits before anything was observed. Meters need a clock
that shows less than 584 years after their creation. -/
theorem C82_new (name : String) (k : Nat) :
    (Instrument.counter { name } : Instrument σ).Within e safe peak 0 ∧
    (∀ seconds, ∃ g k', Gauge.setTracking { name } seconds e k = some (g, k') ∧ (Instrument.gauge g : Instrument σ).Within e safe peak 0) ∧
    (∃ m k', Meter.new name e k = some (m, k') ∧
      ((∀ j, e.clock j - e.clock (k + 1) < 2 ^ 64) → (Instrument.meter m : Instrument σ).Within e safe peak 0)) ∧
    (∃ m k', ValueMeter.new name e k = some (m, k') ∧
      ((∀ j, e.clock j - e.clock (k + 1) < 2 ^ 64) → (Instrument.valueMeter m : Instrument σ).Within e safe peak 0)) ∧
    ∃ h k', Histogram.new name e k = some (h, k') ∧ (Instrument.histogram h : Instrument σ).Within e safe peak 0 := by
  refine ⟨Nat.le_refl _, fun seconds => ?_, ⟨_, _, rfl, fun h => ⟨Nat.le_refl _, h⟩⟩, ⟨_, _, rfl, fun h => ⟨Nat.zero_le _, h⟩⟩,
    _, _, rfl, trivial⟩
  unfold Gauge.setTracking
  by_cases h : seconds ≠ 0
  · rw [if_pos h]
    refine ⟨{ name, tracking := some { buckets := List.replicate seconds default, currentTime := e.clock k, currentIdx := seconds - 1 } },
      k + 1, ?_, Gauge.Within.of (fun v hv => by cases hv) ?_⟩
    · rw [M.run_bind_some (k' := k + 1)
        (a := { buckets := List.replicate seconds default, currentTime := e.clock k, currentIdx := seconds - 1 })]
      · rfl
      · simp only [SecondsBuckets.new, SecondsBuckets.initialized]
        rw [if_neg (by simp [h])]
        simp [M.run_bind]
    · intro r hr
      cases hr
      refine ⟨by simp; omega, ?_, ?_, ?_⟩
      · rw [List.map_replicate, show (default : Bucket).sum.natAbs = 0 from rfl]; simp
      · rw [List.map_replicate, show (default : Bucket).count = 0 from rfl]; simp
      · intro b hb
        rw [List.eq_of_mem_replicate hb]
        exact ⟨Nat.zero_le _, Nat.zero_le _⟩
  · rw [if_neg h]
    exact ⟨_, k, rfl, Gauge.Within.of (fun v hv => by cases hv) fun r hr => (nomatch hr)⟩

omit [DecidableEq L] [Custom σ L] in
/-- How much is little enough: for example a billion observations of numbers up to five billion, with changes that add up to at most
another billion. -/
theorem C82_enough {l : Load} (h1 : l.observations ≤ 10 ^ 9) (h2 : l.changes ≤ 10 ^ 9) (h3 : l.occurrences < 2 ^ 63) :
    l.Small (5 * 10 ^ 9) := by
  refine ⟨h3, ?_⟩
  have : l.observations * l.reach (5 * 10 ^ 9) ≤ 10 ^ 9 * (7 * 10 ^ 9) :=
    Nat.mul_le_mul h1 (by unfold Load.reach; omega)
  omega

/-- A processor: no sequence of calls panics, whatever arrives meanwhile, as long as all that is going to be sent to it adds up to
little enough. -/
theorem C82_processor (hc : CustomSafe L e safe) {p : Processor σ L} (hp : p.Within e safe peak) (cs : List (Call σ L))
    (hcs : ∀ c ∈ cs, c.Within e safe peak) (k : Nat) : ∃ p' rs k', p.calls cs e k = some ((p', rs), k') := by
  obtain ⟨⟨p', rs⟩, k', h, _⟩ := Processor.within_calls hc cs hcs p hp k
  exact ⟨p', rs, k', h⟩

variable [CustomProcessor σ]

/-- A mount (or anything else that can be mounted): no sequence of runs and snapshots panics, whatever arrives meanwhile. -/
theorem C82_mount (hc : CustomSafe L e safe) (hcp : CustomProcessorSafe e safe) {n : Node σ L} (hn : n.Within e safe peak)
    (cs : List NodeCall) (hcs : ∀ c ∈ cs, c.Safe e) (k : Nat) : ∃ n' rs k', n.calls cs e k = some ((n', rs), k') := by
  obtain ⟨⟨n', rs⟩, k', h, _⟩ := Node.within_calls hc hcp cs hcs n hn k
  exact ⟨n', rs, k', h⟩

/-- The thread of a driver (without metrics about itself) does not panic: it only ends when there are no handles any more, and all
requests are answered. -/
theorem C82_driver (hc : CustomSafe L e safe) (hcp : CustomProcessorSafe e safe)
    (h60 : Fits e (60 * nanosPerSec)) {k k' : Nat} {name : Option String} {descr : Descr} {strategy : Strategy}
    (hstrategy : strategy.Safe e) {programs : List (SendThread (DriverMsg σ L))}
    (hprograms : ∀ th ∈ programs, ∀ m ∈ th.todo, m.Within e safe peak) {t t' : DriverThread σ L}
    (hnew : NewDriver e k name descr strategy false programs t) {log : List (Iteration σ L)}
    (h : DriverLife e k t log k' t') :
    (t'.Runs ∨ t'.channel.abandoned = true) ∧
      ∀ x ∈ log, ∀ id d, x.message = some (.getSnapshot id d) → ∃ s, x.answer = some s := by
  obtain ⟨k₀, state, ahead, blind, hn, rfl⟩ := hnew.created
  obtain ⟨l, k₁, hl, -, h2, h3, h4⟩ := LoopState.tot_new (σ := σ) (L := L) h60 name descr strategy false k₀
  rw [hl] at hn; cases hn
  have hmet : state.metrics = none := by
    simp only [LoopState.new, Bool.false_eq_true, if_false, pure_bind] at hl
    rw [M.run_bind_some (M.run_now _ _)] at hl
    obtain ⟨x, k₂, -, hx⟩ := M.bind_eq_some.mp hl
    cases hx; rfl
  obtain ⟨a, b, c⟩ := h.staysLight hc hcp (safe := safe) (peak := peak) (by
    intro l hl
    cases hl
    refine ⟨⟨hmet, ?_, ?_, by rw [h2]; exact hstrategy⟩, ?_⟩
    · show NodesWithin e safe peak state.processors
      rw [h3, NodesWithin]; trivial
    · show SnapshootersWithin e safe peak state.snapshooters
      rw [h4]; exact fun s hs => nomatch hs
    · intro m hm
      simp only [Channel.pending, Channel.fresh, List.map_nil, List.nil_append, List.mem_flatMap] at hm
      obtain ⟨th, hth, hm⟩ := hm
      exact hprograms th hth m hm) (by intro c hc; cases hc)
  refine ⟨?_, fun x hx id d hm => Option.ne_none_iff_exists'.mp (c x hx id d hm)⟩
  cases t' with
  | running l => exact .inl ⟨l, rfl⟩
  | ended c => exact .inr (a c rfl)

/-- Also the thread of a driver that measures itself does not panic. What is to be sent to its processors limits what it adds up about
them (`mostOfMessages`); user defined components report at most `b` at once. -/
theorem C82_metrics {b limit : Nat} (hc : CustomSafe L e safe) (hcp : CustomProcessorSafe e safe) (hmodest : CustomModest σ L b)
    (hpmodest : CustomProcessorModest σ b) (hb : 1 ≤ b) (hf : AllForward σ L) (hmono : e.Mono) (hround : IsRounding e.rnd)
    (hshort : e.Short) (h60 : Fits e (60 * nanosPerSec)) {k k' : Nat} {name : Option String} {descr : Descr} {strategy : Strategy}
    (hstrategy : strategy.Safe e) {withMetrics : Bool} {programs : List (SendThread (DriverMsg σ L))}
    (hprograms : ∀ th ∈ programs, ∀ m ∈ th.todo, m.Within e safe peak)
    (hmost : mostOfMessages b (programs.flatMap (·.todo)) ≤ limit) (h1000 : 1000 ≤ limit) {t t' : DriverThread σ L}
    (hnew : NewDriver e k name descr strategy withMetrics programs t) {log : List (Iteration σ L)}
    (hlimit : log.length * (limit + log.length) < 2 ^ 63) (h : DriverLife e k t log k' t') :
    (t'.Runs ∨ t'.channel.abandoned = true) ∧
      ∀ x ∈ log, ∀ id d, x.message = some (.getSnapshot id d) → ∃ s, x.answer = some s := by
  obtain ⟨k₀, state, ahead, blind, hn, rfl⟩ := hnew.created
  obtain ⟨l, k₁, hl, -, h2, h3, h4⟩ := LoopState.tot_new (σ := σ) (L := L) h60 name descr strategy withMetrics k₀
  rw [hl] at hn; cases hn
  have hmet : ∀ i, state.metrics = some i → i.Within e limit ⟨0, 0, 0, 0, 0, 0, 0⟩ := by
    intro i hi
    cases withMetrics with
    | false =>
      simp only [LoopState.new, Bool.false_eq_true, if_false, pure_bind] at hl
      rw [M.run_bind_some (M.run_now _ _)] at hl
      obtain ⟨x, k₂, -, hx⟩ := M.bind_eq_some.mp hl
      cases hx; cases hi
    | true =>
      obtain ⟨j, k₄, hj, hw⟩ := DriverInstruments.within_new (limit := limit) h60 hshort k₀
      simp only [LoopState.new, if_true, map_eq_pure_bind, bind_assoc, pure_bind] at hl
      rw [M.run_bind_some hj, M.run_bind_some (M.run_now _ _)] at hl
      obtain ⟨x, k₂, -, hx⟩ := M.bind_eq_some.mp hl
      cases hx; cases hi
      exact hw
  obtain ⟨a, c⟩ := h.staysBusy (⟨hc, hcp, hmodest, hpmodest, hf, hmono, hshort, hround, hb, h1000⟩ : BusyWorld σ L e safe b limit)
    (peak := peak) (n := 0) (by rw [Nat.zero_add]; exact hlimit) (by
    intro l hl
    cases hl
    have hpend : (Channel.fresh none true programs).pending = programs.flatMap (·.todo) := by
      simp only [Channel.pending, Channel.fresh, List.map_nil, List.nil_append]
    refine ⟨⟨hmet, ?_, ?_, by rw [h2]; exact hstrategy⟩, ?_, ?_⟩
    · show NodesWithin e safe peak state.processors
      rw [h3, NodesWithin]; trivial
    · show SnapshootersWithin e safe peak state.snapshooters
      rw [h4]; exact fun s hs => nomatch hs
    · intro m hm
      simp only [hpend, List.mem_flatMap] at hm
      obtain ⟨th, hth, hm⟩ := hm
      exact hprograms th hth m hm
    · show mostOfNodes b state.processors + mostOfMessages b (Channel.fresh none true programs).pending ≤ limit
      rw [h3, hpend, mostOfNodes, Nat.zero_add]
      exact hmost) (by intro c hc; cases hc)
  refine ⟨?_, fun x hx id d hm => Option.ne_none_iff_exists'.mp (c x hx id d hm)⟩
  cases t' with
  | running l => exact .inl ⟨l, rfl⟩
  | ended c => exact .inr (a c rfl)

/-! The limit is needed: a build with checks panics if a tracking gauge is set to 2^62 twice within a second. -/

theorem C82_too_much :
    runOps (Handler.gauge { strategy := .filter .acceptAll, gauge := trackingGauge } : Handler Empty Nat)
      [.input (.observedOneValue 1 (.signedInteger (2 ^ 62)) 0), .input (.observedOneValue 1 (.signedInteger (2 ^ 62)) 0)]
      { ticking with profile := .debug, clock := fun _ => 0 } 0 = none := by decide +kernel

/-! ## Examples -/
section
/-- A build with checks, and a clock with a wide range. -/
def wideChecked : Env := { wide with profile := .debug }

theorem wideChecked_fits {d : Nat} (h : d ≤ 10 ^ 20) : Fits wideChecked d := wide_fits h

theorem wideChecked_recent {m : StdMeter} (h : 0 ≤ m.start) : m.Recent wideChecked := by
  intro k
  show min ((k : Int) * 700000000) (10 ^ 18) - m.start < 2 ^ 64
  omega

def lightPanel : Panel Empty Nat :=
  .mk { labelFilter := .acceptAll, activity := ⟨0, some 5, true⟩, gauge := some (.new trackingGauge),
        counter := some (.new { name := "c", count := 3 }) }
    []
    [.instrument { labelFilter := .acceptAll, instrument := .meter { name := "m", lastTick := 0, inner := { count := 2, ewma1 := .new 0, ewma5 := .new 0, ewma15 := .new 0, nextTick := 0, start := 0 } }, modifyUpdate := some fun _ u => match u with
       | .withValue _ t => .withValue (.changedBy 1) t
       | u => u },
     .instrument (.new (.dataDisplay { name := "d", resetAfter := some 100 }))]
    [.polling "p" {} true (.instrument (.occurrenceIndicator { name := "o", happenedLast := 0 }))]

theorem lightPanel_within : AllWithin wideChecked (fun _ => False) (5 * 10 ^ 9) ⟨1, 3, 0⟩ lightPanel.parts := by
  simp only [lightPanel, Panel.parts, partsOfPanels, partsOfHandlers, partsOfSnapshooters, Handler.parts, Snapshooter.parts,
    PanelHead.parts, Option.toList, List.map_cons, List.map_nil, AllWithin.append, AllWithin.nil, AllWithin.single, InstrumentAdapter.new, GaugeAdapter.new,
    Instrument.Within, and_true, true_and]
  refine ⟨⟨⟨by decide, tame_none⟩, ⟨?_, tame_none⟩⟩, ⟨⟨⟨by decide, wideChecked_recent (by decide)⟩, ?_⟩, ?_, tame_none⟩,
    wideChecked_fits (by decide), tame_none⟩
  · refine .of (fun v hv => by cases hv) fun r hr => ?_
    cases hr
    exact ⟨by decide, by decide, by decide, by decide⟩
  · intro f hf l u hu
    cases hf
    cases u with
    | withValue v t => exact ⟨fun x hx => (nomatch hx), Nat.le_refl _, Nat.le_add_left _ _⟩
    | _ => exact ⟨hu, Nat.le_refl _, Nat.le_succ _⟩
  · intro r hr; cases hr; exact wideChecked_fits (by decide)

theorem noCustomChecked : CustomSafe Nat wideChecked (fun _ : Empty => False) := ⟨fun s => s.elim, fun s => s.elim, fun s => s.elim⟩

theorem noCustomProcessorChecked : CustomProcessorSafe wideChecked (fun _ : Empty => False) := ⟨fun s => s.elim, fun s => s.elim⟩

/-- A million times a value of five billion, a change, and a snapshot. -/
def lightOps : List (Op (Observation Nat)) :=
  (List.replicate 1000000 [.input (.observedOneValue 1 (.signedInteger (5 * 10 ^ 9)) 0), .input (.observedOneValue 1 (.changedBy 7) 0),
    .snapshot {} true]).flatten

theorem observed_append (a b : List (Op (Observation Nat))) : observed (a ++ b) = observed a ++ observed b :=
  List.filterMap_append ..

theorem lightOps_observed (n : Nat) : ∀ ops : List (Op (Observation Nat)), ops = (List.replicate n
      [.input (.observedOneValue 1 (.signedInteger (5 * 10 ^ 9)) 0), .input (.observedOneValue 1 (.changedBy 7) 0),
        .snapshot {} true]).flatten →
    (∀ o ∈ observed ops, o.AtMost (5 * 10 ^ 9)) ∧ loadOf (observed ops) = ⟨2 * n, 2 * n, 7 * n⟩ := by
  induction n with
  | zero => rintro _ rfl; exact ⟨(fun o ho => nomatch ho), rfl⟩
  | succ n ih =>
    rintro _ rfl
    obtain ⟨a, b⟩ := ih _ rfl
    simp only [List.replicate_succ, List.flatten_cons, observed_append]
    refine ⟨?_, ?_⟩
    · intro o ho
      rcases List.mem_append.mp ho with h | h
      · simp only [observed, List.filterMap_cons, List.filterMap_nil, List.mem_cons, List.not_mem_nil, or_false] at h
        rcases h with rfl | rfl
        · intro x hx; cases hx; decide
        · intro x hx; cases hx
      · exact a o h
    · show (⟨1, 1, 0⟩ : Load) + (⟨1, 1, 7⟩ + loadOf (observed (List.replicate n _).flatten)) = _
      rw [b]
      show Load.mk (1 + (1 + 2 * n)) (1 + (1 + 2 * n)) (0 + (7 + 7 * n)) = _
      congr 1 <;> omega

example (k : Nat) : ∃ p outs k', runOps lightPanel lightOps wideChecked k = some ((p, outs), k') ∧
    AllWithin wideChecked (fun _ => False) (5 * 10 ^ 9) (⟨1, 3, 0⟩ + loadOf (observed lightOps)) p.parts := by
  obtain ⟨a, b⟩ := lightOps_observed _ lightOps rfl
  exact C82_panel noCustomChecked lightPanel_within lightOps a (by rw [b]; exact C82_enough (by decide) (by decide) (by decide)) k

def lightProcessor : Processor Empty Nat where
  state := { activity := ⟨0, none, true⟩, handlers := [.panel lightPanel] }
  receiver := {
    chan := .fresh (some 2) false [{ todo := [.addCockpit { head := { activity := ⟨0, none, true⟩ }, panels := [lightPanel] },
        .observation (.observedOneValue 1 (.signedInteger 7) 0)] },
      { todo := [.observation (.observedOne 2 0)], drops := false }]
    ahead := [[0, 1], [0]] }

theorem lightProcessor_within : lightProcessor.Within wideChecked (fun _ => False) (5 * 10 ^ 9) := by
  have hw := lightPanel_within
  refine ⟨⟨1, 3, 0⟩, ?_, ?_, ?_, ?_⟩
  · simp only [ProcessorState.parts, lightProcessor, partsOfCockpits, partsOfHandlers, partsOfSnapshooters, Handler.parts,
      AllWithin.append, AllWithin.nil, and_true, hw]
  · intro m hm
    simp only [lightProcessor, Channel.pending, Channel.fresh, List.map_nil, List.nil_append, List.flatMap_cons, List.flatMap_nil,
      List.append_nil, List.cons_append, List.mem_cons, List.not_mem_nil, or_false] at hm
    rcases hm with rfl | rfl | rfl
    · simp only [Message.parts, Cockpit.parts, partsOfPanels, partsOfHandlers, partsOfSnapshooters, AllWithin.append, AllWithin.nil,
        and_true, hw]
    · exact AllWithin.nil
    · exact AllWithin.nil
  · intro o ho
    simp only [lightProcessor, Channel.observations, Channel.pending, Channel.fresh, List.map_nil, List.nil_append, List.flatMap_cons,
      List.flatMap_nil, List.append_nil, List.cons_append, List.filterMap_cons, List.filterMap_nil, Message.observation?,
      List.mem_cons, List.not_mem_nil, or_false] at ho
    rcases ho with rfl | rfl
    · intro x hx; cases hx; decide
    · trivial
  · exact C82_enough (by decide) (by decide) (by decide)

example (cs : List (Call Empty Nat)) (h : ∀ c ∈ cs, c.Within wideChecked (fun _ => False) (5 * 10 ^ 9)) (k : Nat) :
    ∃ p rs k', lightProcessor.calls cs wideChecked k = some ((p, rs), k') :=
  C82_processor noCustomChecked lightProcessor_within cs h k

example (cs : List NodeCall) (h : ∀ c ∈ cs, c.Safe wideChecked) (k : Nat) :
    ∃ p rs k', (Node.mount { lastActivity := 0 } [.processor lightProcessor] []).calls cs wideChecked k = some ((p, rs), k') :=
  C82_mount (peak := 5 * 10 ^ 9) noCustomChecked noCustomProcessorChecked (by
    simp only [Node.Within, NodesWithin, and_true]
    exact ⟨lightProcessor_within, fun s hs => nomatch hs⟩) cs h k

def lightPrograms : List (SendThread (DriverMsg Empty Nat)) :=
  [{ todo := [.addProcessor (.processor lightProcessor), .setStrategy (.dropOlderThan (30 * nanosPerSec) true)], drops := false },
   { todo := [.getSnapshot 1 true, .getSnapshot 2 true] }]

theorem lightPrograms_within : ∀ th ∈ lightPrograms, ∀ m ∈ th.todo, m.Within wideChecked (fun _ => False) (5 * 10 ^ 9) := by
  simp only [lightPrograms, List.forall_mem_cons, List.not_mem_nil, false_implies, implies_true, and_true, DriverMsg.Within,
    Node.Within]
  exact ⟨lightProcessor_within, wideChecked_fits (by decide)⟩

example {k k' : Nat} {t t' : DriverThread Empty Nat} (hnew : NewDriver wideChecked k none {} .default false lightPrograms t)
    {log : List (Iteration Empty Nat)} (h : DriverLife wideChecked k t log k' t') :
    (t'.Runs ∨ t'.channel.abandoned = true) ∧
      ∀ x ∈ log, ∀ id d, x.message = some (.getSnapshot id d) → ∃ s, x.answer = some s :=
  C82_driver noCustomChecked noCustomProcessorChecked (wideChecked_fits (by decide)) (by exact wideChecked_fits (by decide))
    lightPrograms_within hnew h

/-! A driver with metrics, for a billion iterations. -/

theorem wideChecked_short : wideChecked.Short := by
  intro j k
  show min ((k : Int) * 700000000) (10 ^ 18) - min ((j : Int) * 700000000) (10 ^ 18) < 2 ^ 64
  omega

theorem wideChecked_mono : wideChecked.Mono := by
  intro j k h
  show min ((j : Int) * 700000000) (10 ^ 18) ≤ min ((k : Int) * 700000000) (10 ^ 18)
  omega

theorem lightPrograms_most : mostOfMessages 1 (lightPrograms.flatMap (·.todo)) = 33 := by decide +kernel

example {k k' : Nat} {t t' : DriverThread Empty Nat} (hnew : NewDriver wideChecked k none {} .default true lightPrograms t)
    {log : List (Iteration Empty Nat)} (hlog : log.length ≤ 10 ^ 9) (h : DriverLife wideChecked k t log k' t') :
    (t'.Runs ∨ t'.channel.abandoned = true) ∧
      ∀ x ∈ log, ∀ id d, x.message = some (.getSnapshot id d) → ∃ s, x.answer = some s :=
  C82_metrics (b := 1) (limit := 1000) noCustomChecked noCustomProcessorChecked ⟨fun s => s.elim, fun s => s.elim⟩ (fun s => s.elim) (Nat.le_refl _)
    emptyAllForward wideChecked_mono ⟨fun _ _ h => h, fun _ _ => rfl⟩ wideChecked_short (wideChecked_fits (by decide))
    (by exact wideChecked_fits (by decide)) lightPrograms_within (by rw [lightPrograms_most]; decide) (Nat.le_refl _) hnew
    (Nat.lt_of_le_of_lt (Nat.mul_le_mul hlog (Nat.add_le_add_left hlog _)) (by decide)) h

end
end Metrix
