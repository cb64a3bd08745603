import Verif.Proof.DriverMetrics
import Verif.Props.C06
import Verif.Props.C52

/-! # C55: The metrics of a driver add up

`MetricsShow` (in `Verif.Spec.DriverMetrics`) says what the group `_metrix` is to show. -/

namespace Metrix
variable {σ L : Type} [DecidableEq L] [Custom σ L] [CustomProcessor σ]

variable {e : Env} {k k' : Nat} {name : Option String} {descr : Descr} {strategy : Strategy}
  {programs : List (SendThread (DriverMsg σ L))} {t t' : DriverThread σ L}

theorem countable_sum (f : Outcome → Nat) (runs : List Outcome) (h : totalOf f runs < 2 ^ 63) :
    (runs.map fun o => countable (f o)).sum = totalOf f runs := by
  induction runs with
  | nil => rfl
  | cons o runs ih =>
    simp only [totalOf, List.map_cons, List.sum_cons] at h ih ⊢
    rw [ih (by omega)]
    unfold countable i64Max
    rw [if_pos (by omega)]

theorem le_totalOf (f : Outcome → Nat) {runs : List Outcome} {o : Outcome} (h : o ∈ runs) : f o ≤ totalOf f runs := by
  induction runs with
  | nil => cases h
  | cons x runs ih =>
    simp only [totalOf, List.map_cons, List.sum_cons] at ih ⊢
    rcases List.mem_cons.mp h with rfl | h
    · omega
    · have := ih h; omega

theorem countable_runs (f : Outcome → Nat) (runs : List Outcome) (h : totalOf f runs < 2 ^ 63) :
    (runs.countP fun o => decide (0 < f o ∧ (f o : Int) ≤ i64Max)) = runsWith f runs := by
  rw [runsWith, ← List.countP_eq_length_filter]
  apply List.countP_congr
  intro o ho
  have := le_totalOf f ho
  unfold i64Max
  simp; omega

theorem wrapU64_small (n : Nat) (h : n < 2 ^ 64) : wrapU64 n = n := by unfold wrapU64; omega

omit [DecidableEq L] [Custom σ L] [CustomProcessor σ] in
/-- What a new driver with metrics has noted. -/
theorem NewDriver.noted (h : NewDriver e k name descr strategy true programs t) :
    ∀ l, t = .running l → ∃ last til, l.state.Noted name [] 0 last til ∧ (∃ j, j < k ∧ last = e.clock j) ∧ til = none := by
  obtain ⟨k₀, state, ahead, blind, hn, rfl⟩ := h.created
  intro l hl; cases hl
  simp only [LoopState.new, if_true, M.bind_eq_some, M.map_eq_some, M.run_now, M.run_pure, Option.some.injEq, Prod.mk.injEq] at hn
  obtain ⟨_, _, ⟨i, hi, rfl⟩, _, _, ⟨rfl, rfl⟩, _, _, hs, rfl, rfl⟩ := hn
  obtain ⟨j, h1, h2, h3⟩ := DriverInstruments.new_noted hi
  obtain ⟨rfl, rfl, _⟩ := subDur_eq_some hs
  exact ⟨_, none, ⟨rfl, i, rfl, h3⟩, ⟨j, by omega, rfl⟩, rfl⟩

/-- What an answer shows in terms of the instruments. -/
theorem DriverTimeline.shown (hnew : NewDriver e k name descr strategy true programs t)
    {tl before after : List (TimedIteration σ L)} (h : DriverTimeline e k t tl k' t')
    {x : TimedIteration σ L} (htl : tl = before ++ x :: after) {id : Nat} {d : Bool}
    (hm : x.what.message = some (.getSnapshot id d)) {s : Snapshot} (hs : x.what.answer = some s) :
    ∃ front c last til j₁ j₂, s = grouped name (front ++ [("_metrix", .snapshot c)]) ∧
      (AllForward σ L → x.start ≤ j₁ ∧ j₁ ≤ x.stop ∧ x.start ≤ j₂ ∧ j₂ ≤ x.stop) ∧
      LastSet (fun x => x.what.outcome.any fun _ => true) (ReadIn e) (fun last => ∃ j, j < k ∧ last = e.clock j) before last ∧
      LastSet (fun x => x.what.outcome.any fun o => decide (o.dropped > 0))
        (fun x til => ∃ v, ReadIn e x v ∧ til = some (v + (60 * nanosPerSec : Nat))) (fun til => til = none) before til ∧
      DriverShown (runsOf (before.map TimedIteration.what)) ((answersIn (before.map TimedIteration.what)).length + 1) last til
        (e.clock j₁) (e.clock j₂) c := by
  obtain ⟨l, t₁, last, til, hi, hn, hl1, hl2⟩ := h.noted hnew.noted htl
  rw [List.nil_append, Nat.zero_add] at hn
  have key : ∃ (m : Option (DriverMsg σ L)) (l' : LoopState σ L) (started : Int) (answer : Option Snapshot) (k₃ : Nat),
      l.state.begin m e x.start = some ((l', started, answer), k₃) ∧ x.what.message = m ∧ x.what.answer = answer ∧
      (AllForward σ L → k₃ ≤ x.stop) := by
    generalize x.what = w at hi hm hs
    generalize x.stop = st at hi
    cases iterates hi with
    | panicEarly hp hb => cases hs
    | panicLate hp hb hw => exact ⟨_, _, _, _, _, hb, rfl, rfl, fun _ => le_rfl⟩
    | done hp hb hw => exact ⟨_, _, _, _, _, hb, rfl, rfl, (work_noted (begin_noted hn hb).1 hw).1⟩
  obtain ⟨m, l', started, answer, k₃, hb, rfl, rfl, hk⟩ := key
  rcases (begin_spec hb).2 with ⟨h1, _⟩ | ⟨m', h1, hh⟩
  · rw [hm] at h1; cases h1
  · rw [hm] at h1; cases h1
    simp only [LoopState.handle, M.bind_eq_some, M.run_pure, Option.some.injEq, Prod.mk.injEq] at hh
    obtain ⟨⟨l₁, s₁⟩, k₄, hh, ⟨rfl, hs'⟩, rfl⟩ := hh
    rw [hs] at hs'; cases hs'
    obtain ⟨-, -, front, c, j₁, j₂, h1, h2, h3, h4, h5, h6⟩ := makeSnapshot_noted hn hh
    exact ⟨front, c, last, til, j₁, j₂, h1, fun hf => by have := h2 hf; have := h4 hf; have := hk hf; omega, hl1, hl2, h6⟩

/-- A driver with metrics, used from any number of threads by any schedule. Let `i` be an iteration in which a request for
a snapshot is answered, and `before` all the iterations before it. The answer ends with the group `_metrix`, and what it
shows are the sums over all runs in `before`; the number of snapshots includes the one that is being made. The sums must be
less than 2^63. -/
theorem C55_totals (hnew : NewDriver e k name descr strategy true programs t)
    {log before after : List (Iteration σ L)} (h : DriverLife e k t log k' t')
    {i : Iteration σ L} (hlog : log = before ++ i :: after) {id : Nat} {d : Bool}
    (hm : i.message = some (.getSnapshot id d)) {s : Snapshot} (hs : i.answer = some s)
    (hprocessed : totalOf (·.processed) (runsOf before) < 2 ^ 63) (hdropped : totalOf (·.dropped) (runsOf before) < 2 ^ 63)
    (hupdated : totalOf (·.instrumentsUpdated) (runsOf before) < 2 ^ 63)
    (henqueued : ∀ o ∈ runsOf before, o.observationsEnqueued < 2 ^ 63) (hbefore : before.length < 2 ^ 63) :
    ∃ front c, s = grouped name (front ++ [("_metrix", .snapshot c)]) ∧
      MetricsShow (runsOf before) ((answersIn before).length + 1) c := by
  obtain ⟨tl, rfl, hl⟩ := h.timeline
  obtain ⟨tb, ta, rfl, rfl, hta⟩ := List.map_eq_append_iff.mp hlog
  obtain ⟨x, ta, rfl, rfl, rfl⟩ := List.map_eq_cons_iff.mp hta
  obtain ⟨front, c, last, til, j₁, j₂, hs, -, -, -, hsh⟩ := hl.shown hnew rfl hm hs
  refine ⟨front, c, hs, ?_⟩
  obtain ⟨v1, v2, v3, v4, v5, v6, v7, v8, v9, v10, b11, b12, v13, v14, rfl, w1, w2, w3, w4, w5, w6, w7, w8, w9, w10, -⟩ := hsh
  rw [countable_sum _ _ hprocessed, wrapU64_small _ (by omega)] at w3
  rw [countable_sum _ _ hdropped, wrapU64_small _ (by omega)] at w5
  rw [countable_sum _ _ hupdated, wrapU64_small _ (by omega)] at w8
  rw [countable_runs _ _ hprocessed] at w4
  rw [countable_runs _ _ hdropped] at w6
  have hruns : (runsOf (tb.map TimedIteration.what)).length ≤ (tb.map TimedIteration.what).length := List.length_filterMap_le _ _
  have hans : (answersIn (tb.map TimedIteration.what)).length ≤ (tb.map TimedIteration.what).length := List.length_filterMap_le _ _
  rw [wrapU64_small _ (by omega)] at w1 w9
  rw [List.filter_eq_self.mpr (by
    intro o ho
    have := henqueued o ho
    unfold i64Max; simp; omega)] at w7
  exact ⟨rfl, ⟨v1, by simp, w1⟩, ⟨v2, by simp, w2⟩, ⟨v3, by simp, w3⟩, ⟨v4, by simp, w4⟩, ⟨v5, by simp, w5⟩, ⟨v6, by simp, w6⟩,
    ⟨v7, by simp, w7⟩, ⟨v8, by simp, w8⟩, ⟨v9, by simp, w9⟩, ⟨v10, by simp, w10⟩⟩

/-- The alarm for dropped observations. It shows `false` if none were dropped. Let `y` be the last iteration before the answer
(in the iteration `x`) with a run that dropped observations. The alarm shows `true` if not more than 60 seconds passed from the
beginning of `y` to the end of `x`. It shows `false` if more than 60 seconds passed from the end of `y` to the beginning of `x`. -/
theorem C55_dropped_alarm (hmono : e.Mono) (hf : AllForward σ L) (hnew : NewDriver e k name descr strategy true programs t)
    {tl before after : List (TimedIteration σ L)} (h : DriverTimeline e k t tl k' t')
    {x : TimedIteration σ L} (htl : tl = before ++ x :: after) {id : Nat} {d : Bool}
    (hm : x.what.message = some (.getSnapshot id d)) {s : Snapshot} (hs : x.what.answer = some s) :
    ∃ front c on, s = grouped name (front ++ [("_metrix", .snapshot c)]) ∧
      ("dropped_observations_alarm", .boolean on) ∈ c ∧
      match (generalizing := false) lastRunWith (fun o => decide (o.dropped > 0)) before with
      | none => on = false
      | some y =>
        (e.clock x.stop ≤ e.clock y.start + (60 * nanosPerSec : Nat) → on = true) ∧
        (e.clock y.stop + (60 * nanosPerSec : Nat) < e.clock x.start → on = false) := by
  obtain ⟨front, c, last, til, j₁, j₂, hs, hj, -, hl2, hsh⟩ := h.shown hnew htl hm hs
  obtain ⟨v1, v2, v3, v4, v5, v6, v7, v8, v9, v10, b11, b12, v13, v14, rfl, -, -, -, -, -, -, -, -, -, -, w11, -⟩ := hsh
  refine ⟨front, _, b11, hs, by simp, ?_⟩
  rw [LastSet.iff] at hl2
  unfold lastRunWith
  generalize (before.filter fun x => x.what.outcome.any fun o => decide (o.dropped > 0)).getLast? = last at hl2
  obtain ⟨g1, g2, -, -⟩ := hj hf
  cases last with
  | none =>
    simp only at hl2 ⊢
    subst hl2
    simpa using w11
  | some y =>
    simp only at hl2 ⊢
    obtain ⟨v, ⟨j, r1, r2, rfl⟩, rfl⟩ := hl2
    have q1 := hmono _ _ (r1 hf)
    have q2 := hmono _ _ r2.le
    have q3 := hmono _ _ g1
    have q4 := hmono _ _ g2
    refine ⟨fun h => w11.mpr ⟨_, rfl, by omega⟩, fun h => ?_⟩
    rw [Bool.eq_false_iff]
    intro hb
    obtain ⟨_, h1, h2⟩ := w11.mp hb
    cases h1
    omega

/-! ## Examples -/

theorem measured_some (strategy : Strategy) :
    ((LoopState.new (σ := Empty) (L := Nat) (some "d") {} strategy true) ticking 0).isSome = true := rfl

/-- The driver of C52, with metrics. -/
def measuredState : LoopState Empty Nat × Nat := Option.get _ (measured_some .processAll)

def measuredDriver : DriverThread Empty Nat :=
  .running { state := measuredState.1, receiver := { chan := .fresh none true driverPrograms, ahead := [[1, 0], [1]] } }

theorem measuredDriver_new : NewDriver ticking measuredState.2 (some "d") {} .processAll true driverPrograms measuredDriver :=
  ⟨0, measuredState.1, _, _, (Option.some_get (measured_some .processAll)).symm, rfl⟩

def measuredLog : List (Iteration Empty Nat) := (measuredDriver.iterations 3 ticking measuredState.2).1

theorem measuredLog_runs : measuredLog.length = 3 ∧ runsOf (measuredLog.take 2) = [{}, ⟨4, 0, 7, 0⟩] ∧
    ((measuredLog[2]?.bind (·.message)).map fun m => requests [m]) = some [2] ∧
    ((measuredLog[2]?.bind (·.answer)).isSome) = true := by decide +kernel

/-- After an empty run and one with four messages, the second snapshot shows two runs and four messages. -/
example : ∃ s front c v w, (measuredLog[2]?.bind (·.answer)) = some s ∧
    s = grouped (some "d") (front ++ [("_metrix", .snapshot c)]) ∧
    ("collections_per_second", v) ∈ c ∧ ShowsCount 2 v ∧ ("observations_processed_per_second", w) ∈ c ∧ ShowsCount 4 w := by
  obtain ⟨h1, h2, h3, h4⟩ := measuredLog_runs
  have hlife : DriverLife ticking measuredState.2 measuredDriver measuredLog _ _ := .ofIterations 3 measuredDriver ticking _
  have hi : measuredLog[2]? = some (measuredLog[2]'(by omega)) := List.getElem?_eq_getElem _
  have hsplit : measuredLog = measuredLog.take 2 ++ measuredLog[2]'(by omega) :: measuredLog.drop 3 := by
    conv_lhs => rw [← List.take_append_drop 2 measuredLog, List.drop_eq_getElem_cons (by omega)]
  obtain ⟨s, hs⟩ := Option.isSome_iff_exists.mp h4
  generalize measuredLog[2]'(by omega) = i at hi hsplit
  rw [hi] at h3 hs
  simp only [Option.bind_some] at h3 hs
  obtain ⟨m, hm, hr⟩ := Option.map_eq_some_iff.mp h3
  have hget : ∃ id d, m = .getSnapshot id d := by
    cases m <;> simp [requests] at hr ⊢
  obtain ⟨id, d, rfl⟩ := hget
  obtain ⟨front, c, hc, hshow⟩ := C55_totals measuredDriver_new hlife hsplit hm hs (by rw [h2]; decide) (by rw [h2]; decide)
    (by rw [h2]; decide) (by rw [h2]; decide) (by rw [List.length_take, h1]; decide)
  rw [h2] at hshow
  obtain ⟨v, hv⟩ := hshow.collections
  obtain ⟨w, hw⟩ := hshow.processed
  exact ⟨s, front, c, v, w, by rw [hi]; exact hs, hc, hv.1, hv.2, hw.1, hw.2⟩

/-- With the strategy to drop everything. -/
def droppingState : LoopState Empty Nat × Nat := Option.get _ (measured_some .dropAll)

def droppingDriver : DriverThread Empty Nat :=
  .running { state := droppingState.1, receiver := { chan := .fresh none true driverPrograms, ahead := [[1, 0], [1]] } }

theorem droppingDriver_new : NewDriver ticking droppingState.2 (some "d") {} .dropAll true driverPrograms droppingDriver :=
  ⟨0, droppingState.1, _, _, (Option.some_get (measured_some .dropAll)).symm, rfl⟩

/-- The first three iterations. -/
def dropping₁ := droppingDriver.iterate ticking droppingState.2
def dropping₂ := dropping₁.1.iterate ticking dropping₁.2.2
def dropping₃ := dropping₂.1.iterate ticking dropping₂.2.2

theorem emptyAllForward : AllForward Empty Nat := ⟨emptyForward, ⟨fun s => s.elim, fun s => s.elim⟩⟩

/-- The second run drops four observations. The snapshot in the third iteration shows the alarm, within 49 seconds. -/
example : ∃ s front c, (dropping₃.2.1.bind (·.answer)) = some s ∧
    s = grouped (some "d") (front ++ [("_metrix", .snapshot c)]) ∧ ("dropped_observations_alarm", .boolean true) ∈ c := by
  have h1 : (dropping₁.2.1.map fun i => i.outcome) = some (some {}) ∧ dropping₁.2.2 = 64 := by decide +kernel
  have h2 : (dropping₂.2.1.map fun i => i.outcome) = some (some ⟨0, 4, 0, 0⟩) ∧ dropping₂.2.2 = 84 := by decide +kernel
  have h3 : (dropping₃.2.1.map fun i => (i.message.map fun m => requests [m], i.answer.isSome)) = some (some [2], true) ∧
      dropping₃.2.2 = 134 := by decide +kernel
  obtain ⟨i₁, e₁, o₁⟩ := Option.map_eq_some_iff.mp h1.1
  obtain ⟨i₂, e₂, o₂⟩ := Option.map_eq_some_iff.mp h2.1
  obtain ⟨i₃, e₃, o₃⟩ := Option.map_eq_some_iff.mp h3.1
  simp only [Prod.mk.injEq] at o₃
  obtain ⟨s, hs⟩ := Option.isSome_iff_exists.mp o₃.2
  obtain ⟨m, hm, hr⟩ := Option.map_eq_some_iff.mp o₃.1
  have hget : ∃ id d, m = .getSnapshot id d := by
    cases m <;> simp [requests] at hr ⊢
  obtain ⟨id, d, rfl⟩ := hget
  have life : DriverTimeline ticking droppingState.2 droppingDriver
      [⟨droppingState.2, i₁, 64⟩, ⟨64, i₂, 84⟩, ⟨84, i₃, 134⟩] 134 dropping₃.1 :=
    .iteration (t₁ := dropping₁.1) le_rfl (by rw [← e₁, ← h1.2]; rfl) <|
    .iteration (t₁ := dropping₂.1) le_rfl (by rw [← e₂, ← h2.2, ← h1.2]; rfl) <|
    .iteration (t₁ := dropping₃.1) le_rfl (by rw [← e₃, ← h3.2, ← h2.2]; rfl) <| .nil le_rfl
  obtain ⟨front, c, on, hc, hin, hon⟩ := C55_dropped_alarm (before := [⟨droppingState.2, i₁, 64⟩, ⟨64, i₂, 84⟩]) (after := [])
    ticking_mono emptyAllForward droppingDriver_new life rfl hm hs
  have hlast : lastRunWith (fun o => decide (o.dropped > 0)) [⟨droppingState.2, i₁, 64⟩, ⟨64, i₂, 84⟩] = some ⟨64, i₂, 84⟩ := by
    simp [lastRunWith, o₁, o₂]
  rw [hlast] at hon
  have hclock : ticking.clock 134 ≤ ticking.clock 64 + (60 * nanosPerSec : Nat) := by decide
  rw [hon.1 hclock] at hin
  exact ⟨s, front, c, by rw [e₃]; exact hs, hc, hin⟩

end Metrix
