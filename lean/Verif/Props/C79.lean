import Verif.Spec.Rest
import Verif.Proof.Delivery
import Verif.Proof.DriverMetrics
import Verif.Props.C53

/-! # C79: A driver rests when there is little to do, and only then -/

namespace Metrix
variable {σ L : Type} [DecidableEq L] [Custom σ L] [CustomProcessor σ]
variable {e : Env} {k k' : Nat} {t t' : DriverThread σ L} {tl : List (TimedIteration σ L)}

/-- What is known about the sleep of the second part of an iteration. -/
theorem work_rest (hf : AllForward σ L) {l l' : LoopState σ L} {started : Int} {outcome : Option Outcome} {rest : Option Nap}
    (h : l.work started e k = some ((l', outcome, rest), k')) :
    (l.paused = true ∧ outcome = none ∧ k' = k ∧ rest = some ⟨k, 50 * 10 ^ 6⟩) ∨
    (∃ o, outcome = some o ∧ k < k' ∧ (0 < o.dropped ∨ 100 < o.processed) ∧ rest = none) ∨
    (∃ o ps k₁ j, outcome = some o ∧ o.dropped = 0 ∧ o.processed ≤ 100 ∧ k₁ < j ∧ j < k' ∧
      processNodes 1000 l.strategy l.processors e (k + 1) = some ((ps, o), k₁) ∧ k < k₁ ∧
      rest = if (e.clock j - e.clock k).toNat < 10 * 10 ^ 6
        then some ⟨j + 1, 10 * 10 ^ 6 - (e.clock j - e.clock k).toNat⟩ else none) := by
  unfold LoopState.work at h
  by_cases hp : l.paused = true
  · simp only [hp, if_true, M.run_bind_some (M.run_readings e k), M.run_pure, Option.some.injEq, Prod.mk.injEq] at h
    obtain ⟨⟨rfl, rfl, rfl⟩, rfl⟩ := h
    exact .inl ⟨hp, rfl, rfl, rfl⟩
  · refine .inr ?_
    simp only [if_neg hp, M.bind_eq_some, M.run_now, Option.some.injEq, Prod.mk.injEq] at h
    obtain ⟨_, _, ⟨rfl, rfl⟩, ⟨ps, o⟩, k₁, h1, _, _, ⟨rfl, rfl⟩, l₁, k₂, h2, l₂, k₃, h3, h⟩ := h
    have hk₁ := (fwd_processNodes hf.custom hf.processor _ _ _).le h1
    obtain ⟨hk₂, t, c, w, rfl⟩ := logDropped_spec h2
    have hk₃ : k₂ ≤ k₃ := by
      obtain ⟨m₂, rfl, _, h7⟩ := noteRun_spec h3
      cases hm : l.metrics with
      | none => simp only [hm] at h7; omega
      | some i =>
        simp only [hm] at h7
        obtain ⟨i', a, _⟩ := h7
        exact (DriverInstruments.fwd_updatePostCollection _ _ _).le a
    by_cases hc : (decide (o.dropped > 0) || decide (o.processed > 100)) = true
    · simp only [if_pos hc, M.run_pure, Option.some.injEq, Prod.mk.injEq] at h
      obtain ⟨⟨rfl, rfl, rfl⟩, rfl⟩ := h
      exact .inl ⟨o, rfl, by omega, by simpa using hc, rfl⟩
    · simp only [if_neg hc, M.bind_eq_some, M.run_now, M.run_readings, M.run_pure, Option.some.injEq, Prod.mk.injEq] at h
      obtain ⟨_, _, ⟨rfl, rfl⟩, _, _, ⟨rfl, rfl⟩, l₃, k₄, h, ⟨rfl, rfl, rfl⟩, rfl⟩ := h
      simp only [Bool.or_eq_true, decide_eq_true_eq, not_or, not_lt, Nat.le_zero] at hc
      have hk₄ : k₃ + 1 ≤ k₄ := by
        obtain ⟨m₃, rfl, _, h8⟩ := reportElapsed_spec h
        cases hm : l₂.metrics with
        | none => simp only [hm] at h8; omega
        | some i =>
          simp only [hm] at h8
          rcases h8 with ⟨_, h8⟩ | ⟨i', q, a, _⟩
          · omega
          · have := (DriverInstruments.fwd_updateRunRatio _ _).le a
            omega
      exact .inr ⟨o, ps, k₁, k₃, rfl, by omega, by omega, by omega, by omega, h1, by omega, rfl⟩

theorem fwd_makeSnapshot (hf : AllForward σ L) (l : LoopState σ L) (d : Bool) : M.Fwd (l.makeSnapshot d) := by
  unfold LoopState.makeSnapshot
  refine .bind .now fun _ => ?_
  cases l.name with
  | none => exact fwd_addSnapshotValues hf.custom hf.processor _ _ _ _
  | some name => exact .bind (fwd_addSnapshotValues hf.custom hf.processor _ _ _ _) fun _ => .pure _

theorem begin_later (hf : AllForward σ L) {l l' : LoopState σ L} {m : Option (DriverMsg σ L)} {started : Int}
    {answer : Option Snapshot} (h : l.begin m e k = some ((l', started, answer), k')) : k < k' := by
  rcases (begin_spec h).2 with ⟨_, _, _, rfl⟩ | ⟨m', rfl, hh⟩
  · omega
  · cases m' with
    | getSnapshot id d =>
      simp only [LoopState.handle, M.bind_eq_some, M.run_pure, Option.some.injEq, Prod.mk.injEq] at hh
      obtain ⟨⟨l₁, s⟩, k₁, hh, ⟨rfl, rfl⟩, rfl⟩ := hh
      have := (fwd_makeSnapshot hf l d).le hh
      omega
    | _ =>
      simp only [LoopState.handle, M.run_pure, Option.some.injEq, Prod.mk.injEq] at hh
      omega

/-- An iteration of a timeline, and what comes after it. -/
theorem DriverTimeline.split (h : DriverTimeline e k t tl k' t') {before after : List (TimedIteration σ L)}
    {x : TimedIteration σ L} (hx : tl = before ++ x :: after) :
    ∃ (l : Loop σ L) (t₁ : DriverThread σ L), (DriverThread.running l).iterate e x.start = (t₁, some x.what, x.stop) ∧
      DriverTimeline e x.stop t₁ after k' t' := by
  induction h generalizing before with
  | nil => simp at hx
  | @iteration k k₁ k₂ k' t t₁ t' j tl hk hi hl ih =>
    cases t with
    | ended c => have := (iterate_ended hi).2.1; simp at this
    | running l =>
      cases before with
      | nil =>
        simp only [List.nil_append, List.cons.injEq] at hx
        obtain ⟨rfl, rfl⟩ := hx
        exact ⟨l, t₁, hi, hl⟩
      | cons b before =>
        simp only [List.cons_append, List.cons.injEq] at hx
        exact ih hx.2
  | over _ _ _ ih => exact ih hx
  | others _ ih => exact ih hx

/-- The first iteration of a timeline does not begin before the timeline does. -/
theorem DriverTimeline.first {x : TimedIteration σ L} {tl : List (TimedIteration σ L)} (h : DriverTimeline e k t (x :: tl) k' t') :
    k ≤ x.start := by
  generalize hx : x :: tl = tl' at h
  induction h with
  | nil => cases hx
  | iteration hk _ _ _ => cases hx; exact hk
  | @over k k₁ k₂ k' t t₁ t' tl hk hi _ ih =>
    cases t with
    | ended c => obtain ⟨-, -, rfl⟩ := iterate_ended hi; have := ih hx; omega
    | running l => cases iterates hi with | stop hp => have := ih hx; omega
  | others _ ih => exact ih hx

/-- After a run in which observations were dropped, or more than 100 were processed, the driver goes on without a rest. After a run
that found less to do it rests until 10 milliseconds have passed since it began that run, unless this has taken longer already. The
run began after the reading `j₁` of the clock and ended before the reading `j₂`; the rest comes directly after the reading `j₃`.
In an iteration without a run it rests for 50 milliseconds, unless the thread has ended by a panic. -/
theorem C79_rest (hf : AllForward σ L) (h : DriverTimeline e k t tl k' t') {before after : List (TimedIteration σ L)}
    {x : TimedIteration σ L} (hx : tl = before ++ x :: after) :
    (x.what.Busy ∧ x.what.rest = none ∧ x.start < x.stop) ∨
    (x.what.Idle ∧ ∃ (s : Strategy) (ns ns' : List (Node σ L)) (o : Outcome) (j₁ j₂ j₃ : Nat), x.start < j₁ ∧ j₁ < j₂ ∧ j₂ < j₃ ∧ j₃ < x.stop ∧ x.what.outcome = some o ∧
      processNodes 1000 s ns e (j₁ + 1) = some ((ns', o), j₂) ∧
      x.what.rest = if (e.clock j₃ - e.clock j₁).toNat < 10 * 10 ^ 6
        then some ⟨j₃ + 1, 10 * 10 ^ 6 - (e.clock j₃ - e.clock j₁).toNat⟩ else none) ∨
    (x.what.outcome = none ∧ x.what.rest = some ⟨x.stop, 50 * 10 ^ 6⟩ ∧ x.start < x.stop) ∨
    (x.what.outcome = none ∧ x.what.rest = none ∧ after = [] ∧ ∃ c, t' = .ended c) := by
  obtain ⟨l, t₁, hi, hrest⟩ := h.split hx
  have over : ∀ c, t₁ = .ended c → after = [] ∧ ∃ c, t' = .ended c := by
    rintro c rfl
    obtain ⟨h1, s, h2⟩ := hrest.life.ended rfl
    exact ⟨by simpa using h1, _, h2⟩
  generalize hw : x.what = w at *
  generalize hs : x.stop = stop at *
  cases iterates hi with
  | panicEarly hp hb => exact .inr (.inr (.inr ⟨rfl, rfl, over _ rfl⟩))
  | panicLate hp hb hw => exact .inr (.inr (.inr ⟨rfl, rfl, over _ rfl⟩))
  | @done r m s started answer k₁ s' outcome rest k₂ hp hb hw =>
    have h0 := begin_later hf hb
    rcases work_rest hf hw with ⟨_, rfl, rfl, rfl⟩ | ⟨o, rfl, _, hc, rfl⟩ | ⟨o, ps, k₂, j, rfl, h1, h2, h3, h4, h5, h6, rfl⟩
    · exact .inr (.inr (.inl ⟨rfl, rfl, h0⟩))
    · exact .inl ⟨⟨o, rfl, hc⟩, rfl, by omega⟩
    · exact .inr (.inl ⟨⟨o, rfl, h1, h2⟩, _, _, _, o, k₁, k₂, j, h0, h6, h3, h4, rfl, h5, rfl⟩)

/-- No rest is longer than 50 milliseconds, and after a run none is longer than 10. -/
theorem C79_short (hf : AllForward σ L) (h : DriverTimeline e k t tl k' t') {x : TimedIteration σ L} (hx : x ∈ tl) {n : Nap}
    (hn : x.what.rest = some n) : 0 < n.length ∧ n.length ≤ 50 * 10 ^ 6 ∧ (x.what.outcome ≠ none → n.length ≤ 10 * 10 ^ 6) := by
  obtain ⟨before, after, hx⟩ := List.append_of_mem hx
  rcases C79_rest hf h hx with ⟨_, h1, _⟩ | ⟨_, s, ns, ns', o, j₁, j₂, j₃, _, _, _, _, ho, _, h1⟩ | ⟨ho, h1, _⟩ | ⟨_, h1, _⟩
  · rw [h1] at hn; cases hn
  · rw [h1] at hn
    split at hn
    · cases hn
      refine ⟨?_, ?_, fun _ => ?_⟩ <;> simp only <;> omega
    · cases hn
  · rw [h1] at hn; cases hn
    exact ⟨by simp, by simp, fun h => absurd ho h⟩
  · rw [h1] at hn; cases hn

/-- Between the beginning of an iteration with little to do and the beginning of the next one there are at least 10 milliseconds,
and at least 50 if there was no run. -/
theorem rest_apart (hmono : e.Mono) (hf : AllForward σ L) (h : DriverTimeline e k t tl k' t')
    {before after : List (TimedIteration σ L)} {x y : TimedIteration σ L} (hx : tl = before ++ x :: y :: after)
    (hsleep : ∀ n, x.what.rest = some n → n.Takes e) :
    e.clock x.start + (if x.what.Idle then 10 * 10 ^ 6 else if x.what.outcome = none then 50 * 10 ^ 6 else 0 : Nat) ≤
      e.clock y.start := by
  obtain ⟨_, _, hi, hrest⟩ := h.split hx
  have hy := hrest.first
  rcases C79_rest hf h hx with ⟨⟨o, ho, hb⟩, h1, hlt⟩ | ⟨hidle, s, ns, ns', o, j₁, j₂, j₃, a1, a2, a3, a4, ho, _, h1⟩ | ⟨ho, h1, hlt⟩ | ⟨_, _, h1, _⟩
  · have hn : ¬ x.what.Idle := by
      rintro ⟨o', ho', h2⟩
      rw [ho] at ho'; cases ho'; omega
    have := hmono x.start y.start (by omega)
    simp only [if_neg hn, ho]
    simpa using this
  · simp only [if_pos hidle]
    have b1 := hmono x.start j₁ (by omega)
    have b2 := hmono j₁ j₃ (by omega)
    have b3 := hmono (j₃ + 1) y.start (by omega)
    have b4 := hmono j₃ y.start (by omega)
    split at h1
    · have := hsleep _ h1
      simp only [Nap.Takes, Nat.add_sub_cancel] at this
      omega
    · omega
  · have hn : ¬ x.what.Idle := by
      rintro ⟨o', ho', h2⟩
      rw [ho] at ho'; cases ho'
    have := hsleep _ h1
    simp only [Nap.Takes] at this
    have b1 := hmono x.start (x.stop - 1) (by omega)
    have b3 := hmono x.stop y.start (by omega)
    simp only [if_neg hn, if_pos ho]
    omega
  · cases h1

/-- A driver does not run faster than this, however many iterations there are: from the beginning of the iteration `y` to that of
any later one, `x`, at least 10 milliseconds pass for each iteration in between with little to do, and 50 for each one without a
run. The clock does not go backwards, and `thread::sleep` takes at least as long as it says. -/
theorem C79_pace (hmono : e.Mono) (hf : AllForward σ L) (h : DriverTimeline e k t tl k' t')
    {before between after : List (TimedIteration σ L)} {x y : TimedIteration σ L}
    (hx : tl = before ++ y :: between ++ x :: after) (hsleep : SleepsTake e (y :: between)) :
    (10 * 10 ^ 6 * (y :: between).countP (fun z => z.what.Idle) +
      50 * 10 ^ 6 * (y :: between).countP (fun z => z.what.outcome.isNone) : Nat) ≤ e.clock x.start - e.clock y.start := by
  have count : ∀ z : TimedIteration σ L, 10 * 10 ^ 6 * [z].countP (fun z => z.what.Idle) +
      50 * 10 ^ 6 * [z].countP (fun z => z.what.outcome.isNone) =
      (if z.what.Idle then 10 * 10 ^ 6 else if z.what.outcome = none then 50 * 10 ^ 6 else 0 : Nat) := by
    intro z
    by_cases hi : z.what.Idle
    · have : z.what.outcome.isNone = false := by
        obtain ⟨o, ho, _⟩ := hi
        rw [ho]; rfl
      simp [hi, this]
    · cases ho : z.what.outcome <;> simp [hi, ho]
  induction between generalizing before y with
  | nil =>
    have := rest_apart hmono hf h (before := before) (x := y) (y := x) (after := after) (by simpa using hx)
      (hsleep y (by simp))
    rw [count]
    omega
  | cons z between ih =>
    have h1 := ih (before := before ++ [y]) (y := z) (by simpa using hx) (fun w hw => hsleep w (List.mem_cons_of_mem _ hw))
    have h2 := rest_apart hmono hf h (before := before) (x := y) (y := z) (after := between ++ x :: after) (by simpa using hx)
      (hsleep y (by simp))
    rw [← count] at h2
    have e1 := List.countP_append (p := fun z : TimedIteration σ L => decide z.what.Idle) (l₁ := [y]) (l₂ := z :: between)
    have e2 := List.countP_append (p := fun z : TimedIteration σ L => z.what.outcome.isNone) (l₁ := [y]) (l₂ := z :: between)
    rw [List.singleton_append] at e1 e2
    rw [e1, e2]
    omega

/-- While a driver is paused it looks for messages after every 50 milliseconds, and it does not rest otherwise: with all messages
handled so far it is paused, so it rests 50 milliseconds. -/
theorem C79_paused (hf : AllForward σ L) {name : Option String} {descr : Descr} {strategy : Strategy} {withMetrics : Bool}
    {programs : List (SendThread (DriverMsg σ L))} (hnew : NewDriver e k name descr strategy withMetrics programs t)
    (h : DriverTimeline e k t tl k' t') (hrun : t'.Runs) {before after : List (TimedIteration σ L)} {x : TimedIteration σ L}
    (hx : tl = before ++ x :: after) :
    x.what.rest = some ⟨x.stop, 50 * 10 ^ 6⟩ ↔ pausedAfter (handled ((before ++ [x]).map TimedIteration.what)) = true := by
  have hr := C53_runs hnew h.life hrun (before := before.map TimedIteration.what) (i := x.what)
    (after := after.map TimedIteration.what) (by rw [hx]; simp)
  simp only [List.map_append, List.map_cons, List.map_nil]
  have hp : pausedAfter (handled (before.map TimedIteration.what ++ [x.what])) = true ↔ x.what.outcome = none := by
    cases hpa : pausedAfter (handled (before.map TimedIteration.what ++ [x.what])) <;> cases ho : x.what.outcome <;>
      simp_all
  rw [hp]
  rcases C79_rest hf h hx with ⟨⟨o, ho, _⟩, h1, _⟩ | ⟨_, s, ns, ns', o, j₁, j₂, j₃, _, _, _, _, ho, _, h1⟩ | ⟨ho, h1, _⟩ | ⟨_, _, _, c, h1⟩
  · simp [ho, h1]
  · rw [h1, ho]
    split
    · simp only [Option.some.injEq, Nap.mk.injEq, reduceCtorEq, iff_false, not_and]
      omega
    · simp
  · simp [ho, h1]
  · subst h1; simp [DriverThread.Runs] at hrun

/-! ## Example: a driver without processors, which is paused and resumed -/

/-- A clock for the sleeps of `restingDriver`: 8 milliseconds, 50 and 8. -/
def resting : Env :=
  { ticking with clock := fun k => (if k ≤ 4 then k else if k = 5 then 12 else if k ≤ 9 then 56 + k else 64 + k : Nat) * 10 ^ 6 }

theorem resting_mono : resting.Mono := by
  intro i j hij
  simp only [resting]
  split <;> split <;> (try split) <;> (try split) <;> (try split) <;> (try split) <;> omega

def restingPrograms : List (SendThread (DriverMsg Empty Nat)) := [{ todo := [.pause, .resume], drops := false }]

def restingDriver : DriverThread Empty Nat :=
  .running { state := { metrics := none, lastOutcomeLogged := -60 * 10 ^ 9, strategy := .processAll }
             receiver := { chan := .fresh none true restingPrograms, ahead := [[], [], [0], [], [0], []] } }

def restingAt : Nat → DriverThread Empty Nat × Option (Iteration Empty Nat) × Nat
  | 0 => restingDriver.iterate resting 1
  | n + 1 => (restingAt n).1.iterate resting (restingAt n).2.2

example : (List.range 4).map (fun n => ((restingAt n).2.1.bind (·.rest), (restingAt n).2.2)) =
    [(some ⟨5, 8000000⟩, 5), (some ⟨6, 50000000⟩, 6), (some ⟨10, 8000000⟩, 10), (some ⟨14, 8000000⟩, 14)] := by decide +kernel

/-- From the first to the third iteration at least 60 milliseconds pass. In fact they are 61. -/
example : ∃ (x y z : TimedIteration Empty Nat), NewDriver resting 1 none {} .processAll false restingPrograms restingDriver ∧
    DriverTimeline resting 1 restingDriver [x, y, z] 10 (restingAt 2).1 ∧ SleepsTake resting [x, y] ∧
    x.what.Idle ∧ y.what.outcome = none ∧ resting.clock z.start - resting.clock x.start = 61 * 10 ^ 6 := by
  refine ⟨⟨1, (restingAt 0).2.1.getD {}, 5⟩, ⟨5, (restingAt 1).2.1.getD {}, 6⟩, ⟨6, (restingAt 2).2.1.getD {}, 10⟩,
    ⟨0, _, _, _, rfl, rfl⟩, ?_, ?_, by decide +kernel, by decide +kernel, by decide +kernel⟩
  · refine .iteration (t₁ := (restingAt 0).1) (Nat.le_refl _) rfl
      (.iteration (t₁ := (restingAt 1).1) (Nat.le_refl _) rfl (.iteration (t₁ := (restingAt 2).1) (Nat.le_refl _) rfl (.nil (Nat.le_refl _))))
  · intro x hx n hn
    simp only [List.mem_cons, List.not_mem_nil, or_false] at hx
    rcases hx with rfl | rfl
    · have : ((restingAt 0).2.1.getD {}).rest = some ⟨5, 8000000⟩ := by decide +kernel
      rw [this] at hn; cases hn
      unfold Nap.Takes; decide +kernel
    · have : ((restingAt 1).2.1.getD {}).rest = some ⟨6, 50000000⟩ := by decide +kernel
      rw [this] at hn; cases hn
      unfold Nap.Takes; decide +kernel

/-- A processor with `n` observations in its queue. -/
def loaded (n : Nat) : LoopState Empty Nat :=
  { metrics := none, lastOutcomeLogged := 0, strategy := .processAll
    processors := [.processor { state := { activity := ⟨0, none, true⟩ }, receiver :=
      { chan := { (Channel.fresh none true [{ todo := [], drops := false }] : Channel (Message Empty Nat)) with
          queue := List.replicate n (0, .observation (.observedOne 0 0)) } } }] }

/-- After a run with more than 100 observations there is no rest, after one with 100 there is. -/
example : ((loaded 101).work 0 resting 10).map (fun r => (r.1.2.1.map (·.processed), r.1.2.2)) = some (some 101, none) ∧
    ((loaded 100).work 0 resting 10).map (fun r => (r.1.2.1.map (·.processed), r.1.2.2)) =
      some (some 100, some ⟨14, 7000000⟩) := by decide +kernel

end Metrix
