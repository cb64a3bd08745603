import Verif.Spec.Told
import Verif.Props.C03
import Verif.Props.C40
import Verif.Props.C60

/-!
# C76 Each call of a transmitter reports exactly what it says

`TransmitCall.told` (in `Verif.Spec.Told`) says what each call is to report.
-/

namespace Metrix
open Transmitter
variable {σ L : Type}

/-- Every call succeeds and hands over at most one message, at once. -/
theorem C76_succeeds (c : TransmitCall σ L) (e : Env) (k : Nat) (hs : c.Short (e.clock k)) :
    ∃ ms k', c.messages e k = some (ms, k') ∧ ms.length ≤ 1 ∧ k' ≤ k + 1 := by
  cases c with
  | observedDuration label d t =>
    refine ⟨_, _, M.run_bind_some (C03_of_duration_exact e k d ?_), by simp [observedOneValue, transmit], by omega⟩
    simpa [U64, u64Bound, TransmitCall.Short] using hs
  | observedOneDurationNow label d =>
    refine ⟨_, _, (M.run_bind_some (M.run_now e k)).trans (M.run_bind_some (C03_of_duration_exact e (k + 1) d ?_)),
      by simp [observedOneValue, transmit], by omega⟩
    simpa [U64, u64Bound, TransmitCall.Short] using hs
  | measureTime label start =>
    have hs' : e.clock k - start < 2 ^ 64 := hs
    by_cases h : start ≤ e.clock k
    · refine ⟨_, _, (M.run_bind_some (M.run_now e k)).trans ((congrFun (congrFun (if_pos h) e) (k + 1)).trans
        (M.run_bind_some (C03_of_duration_exact e (k + 1) _ ?_))), by simp [observedOneValue, transmit], by omega⟩
      simp only [U64, u64Bound, sinceNs]; omega
    · exact ⟨[], k + 1, (M.run_bind_some (M.run_now e k)).trans (by rw [if_neg h]; rfl), by simp, by omega⟩
  | _ => exact ⟨_, _, rfl, by simp [Transmitter.transmit, Transmitter.observed, Transmitter.observedOne, Transmitter.observedOneValue, Transmitter.addHandler, Transmitter.addCockpit, Transmitter.removeCockpit, Transmitter.addPanelToCockpit, Transmitter.removePanelFromCockpit], by omega⟩

/-- What it hands over says what the call says: the same label, the same number of occurrences, the same value and the same
moment; for the calls without a timestamp it is the moment of the call. -/
theorem C76_told {c : TransmitCall σ L} {e : Env} {k k' : Nat} {ms : List (Message σ L)} (hs : c.Short (e.clock k))
    (h : c.messages e k = some (ms, k')) :
    (ms.filterMap Message.observation?).map Observation.told = (c.told (e.clock k)).toList := by
  cases c with
  | observedDuration label d t =>
    have hr : TransmitCall.messages (σ := σ) (.observedDuration label d t) e k = _ :=
      M.run_bind_some (C03_of_duration_exact e k d (by simpa [U64, u64Bound, TransmitCall.Short] using hs))
    rw [hr] at h; cases h; rfl
  | observedOneDurationNow label d =>
    have hr : TransmitCall.messages (σ := σ) (.observedOneDurationNow label d) e k = _ :=
      (M.run_bind_some (M.run_now e k)).trans
        (M.run_bind_some (C03_of_duration_exact e (k + 1) d (by simpa [U64, u64Bound, TransmitCall.Short] using hs)))
    rw [hr] at h; cases h; rfl
  | measureTime label start =>
    have hs' : e.clock k - start < 2 ^ 64 := hs
    by_cases hle : start ≤ e.clock k
    · have hr : TransmitCall.messages (σ := σ) (.measureTime label start) e k = _ :=
        (M.run_bind_some (M.run_now e k)).trans ((congrFun (congrFun (if_pos hle) e) (k + 1)).trans
          (M.run_bind_some (C03_of_duration_exact e (k + 1) _ (by simp only [U64, u64Bound, sinceNs]; omega))))
      rw [hr] at h; cases h
      simp only [TransmitCall.told, if_pos hle]; rfl
    · have hr : TransmitCall.messages (σ := σ) (.measureTime label start) e k = _ :=
        (M.run_bind_some (M.run_now e k)).trans (congrFun (congrFun (if_neg hle) e) (k + 1))
      rw [hr] at h; cases h
      simp only [TransmitCall.told, if_neg hle]; rfl
  | transmit o => cases h; rfl
  | _ => cases h; rfl

/-- An observation can also be made first and then be transmitted. Making it never fails, it says what the call says, and
transmitting it hands over the same as the function of the transmitter with the same name, if that is called at the same
moment. -/
theorem C76_made (c : ObservationCall L) (e : Env) (k : Nat) :
    ∃ o k', c.make e k = some (o, k') ∧ o.told = c.told (e.clock k) ∧
      (TransmitCall.transmit (σ := σ) o).messages e k' = c.direct.messages e k := by
  cases c <;> exact ⟨_, _, rfl, rfl, rfl⟩

variable [DecidableEq L] [Custom σ L]

/-- Calls that change the configuration send exactly one message. Its effect on the processor that receives it is the one that
the call says, under every strategy. -/
theorem C76_configures {c : TransmitCall σ L} (hc : c.IsConfig) (e : Env) (k : Nat) :
    ∃ m, c.messages e k = some ([m], k) ∧ ∀ decider (s : ProcessorState σ L) (tally : Tally) (e' : Env) (j : Nat),
      s.receive decider tally m e' j = some ((c.configures s, { tally with processed := tally.processed + 1 }), j) := by
  have key : ∀ m : Message σ L, m.IsConfig → ∀ decider (s : ProcessorState σ L) (tally : Tally) (e' : Env) (j : Nat),
      s.receive decider tally m e' j = some ((s.configured m, { tally with processed := tally.processed + 1 }), j) := by
    intro m hm decider s tally e' j
    cases m with
    | observation o => exact hm.elim
    | addCockpit c => rw [← addCockpit_eq]; rfl
    | removeCockpit name => rw [← removeCockpit_eq]; rfl
    | addHandler h => rfl
    | addPanelToCockpit name p | removePanelFromCockpit name p =>
      simp only [ProcessorState.receive, ProcessorState.configured, modifyFirst_eq, M.run_pure]
      cases hi : s.cockpits.findIdx? (fun x => decide (x.name = some name)) <;> simp only
  cases c with
  | addHandler | addCockpit | removeCockpit | addPanelToCockpit | removePanelFromCockpit =>
    exact ⟨_, rfl, fun decider s tally e' j => key _ (by exact trivial) decider s tally e' j⟩
  | _ => exact hc.elim

omit [DecidableEq L] [Custom σ L] in
theorem Performs.told {e : Env} {calls : List (Nat × TransmitCall σ L)} {ms : List (Message σ L)} (h : Performs e calls ms) :
    (ms.filterMap Message.observation?).map Observation.told = toldBy e calls := by
  induction h with
  | nil => rfl
  | @cons k k' c ms cs ms' hs hm _ ih =>
    rw [List.filterMap_append, List.map_append, C76_told hs hm, ih]
    simp only [toldBy, List.filterMap_cons]
    cases c.told (e.clock k) <;> rfl

omit [DecidableEq L] [Custom σ L] in
/-- Threads that make any calls: the observations they send say exactly what the calls say. -/
theorem C76_threads {e : Env} {programs : List (SendThread (Message σ L))} {calls : List (List (Nat × TransmitCall σ L))}
    (h : List.Forall₂ (fun cs th => Performs e cs th.todo) calls programs) :
    (observationsOf programs).map Observation.told = calls.flatMap (toldBy e) := by
  unfold observationsOf
  induction h with
  | nil => rfl
  | cons h _ ih =>
    rw [List.flatMap_cons, List.flatMap_cons, List.filterMap_append, List.map_append, h.told, ih]

/-- From the calls of all threads to a counter: if nothing is lost, it shows what it started with plus the occurrences in all
calls with labels for which it is meant. -/
theorem C76_counter (hc : CustomForward σ L) {e : Env} {k k' : Nat} {p p' : Processor σ L} {log : List (Called σ L)}
    {programs : List (SendThread (Message σ L))} {calls : List (List (Nat × TransmitCall σ L))}
    (hcalls : List.Forall₂ (fun cs th => Performs e cs th.todo) calls programs)
    (h : CompleteRun e k p log k' p' programs) {place : Place} {path : List (LabelFilter L)} {f : LabelFilter L} {c : Counter}
    (hplace : p.state.leafAt place = some (path, .instrument ⟨f, .counter c, none⟩)) (hstays : place.Stays programs)
    (hcount : c.count < 2 ^ 64) :
    ∃ c', p'.state.leafAt place = some (path, .instrument ⟨f, .counter c', none⟩) ∧
      c'.count = (c.count + (((calls.flatMap (toldBy e)).filter fun x =>
        path.all (·.accepts x.label) && f.accepts x.label).map Told.occurrences).sum) % 2 ^ 64 := by
  obtain ⟨c', h1, h2⟩ := C60_counter hc h hplace hstays hcount
  refine ⟨c', h1, ?_⟩
  rw [h2, ← C76_threads hcalls, observationsFor, List.filter_map, List.map_map]
  have hl : ∀ o : Observation L, o.told.label = o.label := by intro o; cases o <;> rfl
  have ho : ∀ o : Observation L, o.told.occurrences = o.occurrences := by intro o; cases o <;> rfl
  simp only [Function.comp_def, hl, ho]

/-! ## Examples -/

def telling : List (Nat × TransmitCall Empty Nat) :=
  [(0, .observed 1 5 0), (1, .observedOneNow 2), (2, .measureTime 3 0), (3, .measureTime 3 9000000000),
   (3, .removePanelFromCockpit "c" "p"), (4, .observedOneDurationNow 1 17)]

example : Performs ticking telling
    ([.observation (.observed 1 5 0)] ++ ([.observation (.observedOne 2 700000000)] ++
      ([.observation (.observedOneValue 3 (.duration 1400000000 .nanoseconds) 1400000000)] ++ ([] ++
      ([.removePanelFromCockpit "c" "p"] ++
      ([.observation (.observedOneValue 1 (.duration 17 .nanoseconds) 2800000000)] ++ [])))))) :=
  .cons (k' := 0) trivial rfl <| .cons (k' := 2) trivial rfl <|
    .cons (k' := 3) (by unfold TransmitCall.Short; decide) (C40_measured 3 0 ticking 2 (by decide) (by decide)) <|
    .cons (k' := 4) (by unfold TransmitCall.Short; decide) (C40_future 3 9000000000 ticking 3 (by decide)) <|
    .cons (k' := 3) trivial rfl <| .cons (k' := 5) (by unfold TransmitCall.Short; decide) rfl .nil

example : (toldBy ticking telling).map (fun x => (x.label, x.occurrences, x.value, x.moment)) =
    [(1, 5, none, 0), (2, 1, none, 700000000), (3, 1, some (.duration 1400000000 .nanoseconds), 1400000000),
      (1, 1, some (.duration 17 .nanoseconds), 2800000000)] := rfl

example : (ObservationCall.observedOneValueNow 3 (.signedInteger 8)).make ticking 2 =
    some (Observation.observedOneValue 3 (.signedInteger 8) 1400000000, 3) := rfl

/-- Calls of two threads that send what the threads of the example in C60 send. -/
def toldCalls : List (List (Nat × TransmitCall Empty Nat)) :=
  [[(0, .observed 1 5 0), (0, .observedOneValue 2 (.changedBy (-3)) 0), (0, .observedOneValue 2 (.signedInteger 4) 0)],
    [(0, .observedOneNow 3), (7, .transmit (.observedOneValue 1 (.changedBy 10) 0))]]

example : List.Forall₂ (fun cs th => Performs ticking cs th.todo) toldCalls totalPrograms := by
  refine .cons ?_ (.cons ?_ .nil)
  · exact Performs.cons (c := .observed 1 5 0) (k' := 0) trivial rfl
      (.cons (c := .observedOneValue 2 (.changedBy (-3)) 0) (k' := 0) trivial rfl
      (.cons (c := .observedOneValue 2 (.signedInteger 4) 0) (k' := 0) trivial rfl .nil))
  · exact Performs.cons (c := .observedOneNow 3) (k' := 1) trivial rfl
      (.cons (c := .transmit (.observedOneValue 1 (.changedBy 10) 0)) (k' := 7) trivial rfl .nil)

end Metrix
