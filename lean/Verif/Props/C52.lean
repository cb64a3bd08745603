import Verif.Proof.Driver
import Verif.Props.C51

/-! # C52: A driver handles requests one by one in order -/

namespace Metrix
variable {σ L : Type}

/-- The messages received from an unbounded channel, thread by thread. -/
structure Channel.Front {μ : Type} (c : Channel μ) : Prop where
  cap : c.cap = none
  alive : c.receiver = true → ∀ t, byThread t c.taken ++ byThread t c.queue = c.sentBy t
  dead : c.receiver = false → c.queue = []
  front : ∀ t, byThread t c.taken <+: c.sentBy t

theorem Channel.front_act {μ : Type} (c : Channel μ) (a : Action) (h : c.Front) : (c.act a).Front := by
  obtain ⟨h1, h2, h3, h4⟩ := h
  cases a with
  | thread u =>
    simp only [Channel.act]
    have hs := c.step_spec u
    generalize c.step u = c' at hs
    cases hs with
    | nothing => exact ⟨h1, h2, h3, h4⟩
    | drop th hth hh htd hd => exact ⟨h1, h2, h3, h4⟩
    | accept th m rest hth hh htd hr hf =>
      refine ⟨h1, fun _ t => ?_, fun h => ?_, fun t => ?_⟩
      · have := h2 hr t
        by_cases ht : u = t
        · subst ht; simp [byThread, Channel.sentBy] at this ⊢; rw [← this]; simp
        · simp [byThread, Channel.sentBy, ht] at this ⊢; rw [← this]
      · rw [show c.receiver = false from h] at hr; cases hr
      · refine (h4 t).trans ?_
        simp [Channel.sentBy]
    | lose th m rest hth hh htd hr =>
      have hno : c.receiver = false := by
        rcases hr with hr | hr
        · exact hr
        · simp [Channel.isFull, h1] at hr
      refine ⟨h1, fun h => ?_, h3, fun t => ?_⟩
      · rw [show c.receiver = true from h] at hno; cases hno
      · refine (h4 t).trans ?_
        simp [Channel.sentBy]
  | receive =>
    simp only [Channel.act, Channel.take]
    cases hq : c.queue with
    | nil => exact ⟨h1, fun h t => by have := h2 h t; rw [hq] at this; rw [hq]; exact this, fun _ => hq, h4⟩
    | cons x q =>
      obtain ⟨u, m⟩ := x
      have hr : c.receiver = true := by
        cases hr : c.receiver with
        | true => rfl
        | false => rw [h3 hr] at hq; cases hq
      have key : ∀ t, byThread t (c.taken ++ [(u, m)]) ++ byThread t q = c.sentBy t := by
        intro t
        rw [← h2 hr t, hq, ← Channel.byThread_append, ← Channel.byThread_append]; simp
      exact ⟨h1, fun _ => key, fun h => absurd (hr.symm.trans h) (by simp), fun t => ⟨_, key t⟩⟩
  | dropReceiver =>
    exact ⟨h1, fun h => (nomatch h), fun _ => rfl, h4⟩

variable [DecidableEq L] [Custom σ L] [CustomProcessor σ]

variable {e : Env} {k k' : Nat} {name : Option String} {descr : Descr} {strategy : Strategy} {withMetrics : Bool}
  {programs : List (SendThread (DriverMsg σ L))} {t t' : DriverThread σ L} {log : List (Iteration σ L)}

/-- A new driver is used from any number of threads by any schedule. The messages of a thread are handled in the order in which
it sent them: those handled are a beginning of its program. Over all threads they are handled in the order in which they
were sent. While the driver runs, what was sent but not handled is in the queue. An iteration handles at most one (by the
type of `Iteration`). -/
theorem C52_order (hnew : NewDriver e k name descr strategy withMetrics programs t) (h : DriverLife e k t log k' t') :
    ∃ sources : List (Nat × DriverMsg σ L), sources.map (·.2) = handled log ∧
      (∀ u, byThread u sources <+: programOf programs u) ∧
      sources <+: t'.channel.accepted ∧
      (t'.Runs → (∀ s ∈ t'.channel.log, s.accepted = true) ∧ t'.channel.accepted = sources ++ t'.channel.queue) := by
  obtain ⟨l₀, rfl, hchan, -⟩ := hnew.fromMessages
  obtain ⟨as, l, h1, h2, h3, h4⟩ := h.channel
  have hc : (DriverThread.running l₀).channel = .fresh none true programs := hchan
  rw [hc] at h1 h4
  have hl : t'.channel.taken = l := by rw [h4]; rfl
  have hfront : t'.channel.Front := by
    rw [h1]
    exact Channel.acts_induction (fun c a => Channel.front_act c a) _ as ⟨rfl, fun _ _ => rfl, fun h => (nomatch h), fun _ => ⟨[], rfl⟩⟩
  have hpre : t'.channel.Prefix := by
    rw [h1]
    exact Channel.acts_induction (fun c a => Channel.prefix_act c a) _ as ⟨fun _ => rfl, fun h => (nomatch h)⟩
  refine ⟨l, h3, fun u => ?_, ?_, fun hrun => ?_⟩
  · rw [← hl]
    refine (hfront.front u).trans ?_
    have : t'.channel.sentBy u ++ t'.channel.todo u = programOf programs u := by
      rw [h1, Channel.program_acts]
      simp [Channel.fresh, Channel.sentBy, Channel.todo, programOf]
      cases programs[u]? <;> rfl
    exact ⟨_, this⟩
  · rw [← hl]
    cases hr : t'.channel.receiver with
    | true => exact ⟨_, hpre.1 hr⟩
    | false => exact (hpre.2 hr).2
  · have halive : t'.channel.receiver = true := by rw [h1]; exact noDrop_alive (h2 hrun) rfl
    refine ⟨?_, by rw [← hpre.1 halive, hl]⟩
    have := C12_lossless none true programs as (.inl rfl) (by rw [← h1]; exact halive)
    rw [← h1] at this; exact this

/-- If something waits in the queue when an iteration begins, its first message is the one that is handled, unless the
loop ends because there are no handles any more. -/
theorem C52_next {l : Loop σ L} {u : Nat} {m : DriverMsg σ L} {q : List (Nat × DriverMsg σ L)}
    (hq : l.receiver.chan.queue = (u, m) :: q) {i : Option (Iteration σ L)}
    (h : (DriverThread.running l).iterate e k = (t', i, k')) :
    (i = none ∧ t'.channel.abandoned = true) ∨ ∃ j, i = some j ∧ j.message = some m ∧
      (t'.Runs → ∃ q', t'.channel.queue = q ++ q') := by
  cases iterates h with
  | stop hp => exact .inl ⟨rfl, (pollDriver_stop hp).2⟩
  | panicEarly hp hb =>
    refine .inr ⟨_, rfl, ?_, fun h => ?_⟩
    · exact (pollDriver_queue hq hp).1
    · obtain ⟨l', hl'⟩ := h; cases hl'
  | panicLate hp hb hw =>
    refine .inr ⟨_, rfl, ?_, fun h => ?_⟩
    · exact (pollDriver_queue hq hp).1
    · obtain ⟨l', hl'⟩ := h; cases hl'
  | done hp hb hw => exact .inr ⟨_, rfl, (pollDriver_queue hq hp).1, fun _ => (pollDriver_queue hq hp).2⟩

/-- Every handled request is answered exactly once, in the order in which they are handled, and nothing else is answered. Only
the very last one may remain without an answer, if the thread panicked. -/
theorem C52_answered (h : DriverLife e k t log k' t') :
    (answersIn log).map (·.1) <+: requests (handled log) ∧
    (requests (handled log)).length ≤ (answersIn log).length + 1 ∧
    (t'.Runs → (answersIn log).map (·.1) = requests (handled log)) := by
  induction h with
  | nil => exact ⟨⟨[], rfl⟩, by simp [handled, requests], fun _ => rfl⟩
  | @iteration k k₁ k₂ k' t t₁ t' i log _ hi hl ih =>
    cases t with
    | ended c => have := (iterate_ended hi).2.1; simp at this
    | running l =>
      rw [handled_cons, requests_append, answersIn_cons]
      have notRuns : ∀ {c}, t₁ = .ended c → log = [] ∧ ¬ t'.Runs := by
        intro c hc
        obtain ⟨h1, s, h2⟩ := hl.ended hc
        exact ⟨h1, fun ⟨l', hl'⟩ => by rw [h2] at hl'; cases hl'⟩
      have full : (answersIn [i]).map (·.1) = requests i.message.toList → _ := fun hb =>
        (⟨by rw [List.map_append, hb]; exact (List.prefix_append_right_inj _).mpr ih.1,
          by
            have hlen := congrArg List.length hb
            simp only [List.length_map] at hlen
            simp only [List.length_append]; omega,
          fun hrun => by rw [List.map_append, hb, ih.2.2 hrun]⟩ :
          ((answersIn [i] ++ answersIn log).map (·.1) <+: requests i.message.toList ++ requests (handled log)) ∧
          (requests i.message.toList ++ requests (handled log)).length ≤ (answersIn [i] ++ answersIn log).length + 1 ∧
          (t'.Runs → (answersIn [i] ++ answersIn log).map (·.1) = requests i.message.toList ++ requests (handled log)))
      cases iterates hi with
      | panicEarly hp hb =>
        rename_i r m
        obtain ⟨rfl, hn⟩ := notRuns rfl
        have h0 : answersIn [({ message := m } : Iteration σ L)] = [] := by
          cases m with
          | none => rfl
          | some m => cases m <;> rfl
        rw [h0]
        refine ⟨by simp [answersIn], ?_, fun h => absurd h hn⟩
        cases m with
        | none => simp [requests, handled]
        | some m => cases m <;> simp [requests, handled, answersIn]
      | panicLate hp hb hw => exact full (begin_answered hb)
      | done hp hb hw => exact full (begin_answered hb)
  | over _ _ _ ih => exact ih
  | others _ ih => exact ih

/-- What is in an answer. Let `i` be the iteration in which the request was handled and `before` all the iterations before it.
There is a group with the name of the driver if it has one. In it are first the texts of the driver, then what each of the
processors added before puts there, then what each of the snapshooters added before puts there, and at last the
metrics of the driver, if they are enabled. The processors and snapshooters are exactly those added by messages in
`before`, in that order, in the state they have reached. -/
theorem C52_contents (hnew : NewDriver e k name descr strategy withMetrics programs t) (h : DriverLife e k t log k' t')
    {before after : List (Iteration σ L)} {i : Iteration σ L} (hlog : log = before ++ i :: after) {id : Nat} {d : Bool}
    (hm : i.message = some (.getSnapshot id d)) {s : Snapshot} (hs : i.answer = some s) :
    ∃ ps ss ps' ss' items₁ items₂ metrics k₁ k₂ k₃,
      List.Forall₂ (Node.Became e) (addedProcessors (handled before)) ps ∧
      List.Forall₂ (Snapshooter.Became e) (addedSnapshooters (handled before)) ss ∧
      PutInTurn (Node.putSnapshot d) e k₁ ps (driverTexts descr d) ps' items₁ k₂ ∧
      PutInTurn (Snapshooter.putSnapshot d) e k₂ ss items₁ ss' items₂ k₃ ∧
      MetricsEntry withMetrics metrics ∧
      s = grouped name (items₂ ++ metrics) := by
  obtain ⟨l₀, rfl, hchan, h0⟩ := hnew.fromMessages
  obtain ⟨l, k₁, k₂, t₁, hi, hl, -⟩ := h.at (ms := []) (fun l hl => by cases hl; exact h0) hlog
  rw [List.nil_append] at hl
  have key : ∃ (m : Option (DriverMsg σ L)) (l' : LoopState σ L) (started : Int) (answer : Option Snapshot) (k₃ : Nat),
      l.state.begin m e k₁ = some ((l', started, answer), k₃) ∧ i.message = m ∧ i.answer = answer := by
    cases iterates hi with
    | panicEarly hp hb => cases hs
    | panicLate hp hb hw => exact ⟨_, _, _, _, _, hb, rfl, rfl⟩
    | done hp hb hw => exact ⟨_, _, _, _, _, hb, rfl, rfl⟩
  obtain ⟨m, l', started, answer, k₃, hb, rfl, rfl⟩ := key
  rcases (begin_spec hb).2 with ⟨h1, _⟩ | ⟨m', h1, hh⟩
  · rw [hm] at h1; cases h1
  · rw [hm] at h1; cases h1
    simp only [LoopState.handle, M.bind_eq_some, M.run_pure, Option.some.injEq, Prod.mk.injEq] at hh
    obtain ⟨⟨l₁, s₁⟩, k₄, hh, ⟨rfl, hs'⟩, rfl⟩ := hh
    rw [hs] at hs'; cases hs'
    obtain ⟨level, hv, rfl⟩ := makeSnapshot_spec hh
    obtain ⟨ps, ss, items₁, items₂, k₅, k₆, metrics, entry, hp, hsn, rfl, he, -, -, -⟩ := addSnapshotValues_spec hv
    refine ⟨_, _, ps, ss, items₁, items₂, entry, k₁ + 1 + 1, k₅, k₆, hl.processors, hl.snapshooters, ?_, hsn, ?_, ?_⟩
    · rw [hl.descr, driverTexts_eq] at hp; exact hp
    · rw [hl.metrics] at he; exact he
    · rw [hl.name]

/-! ## Example: a thread that adds a processor and a second one that asks twice for a snapshot -/

def driverPrograms : List (SendThread (DriverMsg Empty Nat)) :=
  [{ todo := [.addProcessor (.processor exampleProcessor)] },
   { todo := [.getSnapshot 1 true, .getSnapshot 2 true] }]

def newDriver : DriverThread Empty Nat :=
  .running { state := { name := some "d", descr := { title := some "t" }, metrics := none, lastOutcomeLogged := -59300000000,
                        strategy := .processAll }
             receiver := { chan := .fresh none true driverPrograms, ahead := [[1, 0], [1]] } }

example : NewDriver ticking 2 (some "d") { title := some "t" } .processAll false driverPrograms newDriver :=
  ⟨1, _, _, _, rfl, rfl⟩

def driverLog : List (Iteration Empty Nat) := (newDriver.iterations 4 ticking 2).1

example : DriverLife ticking 2 newDriver driverLog (newDriver.iterations 4 ticking 2).2.1 (newDriver.iterations 4 ticking 2).2.2 :=
  .ofIterations 4 newDriver ticking 2

example : driverLog.length = 4 ∧ requests (handled driverLog) = [1, 2] ∧
    (addedProcessors (handled driverLog)).length = 1 ∧
    (answersIn driverLog).map (fun a => (a.1, a.2.length)) = [(1, 1), (2, 1)] := by decide +kernel

theorem newDriver_new : NewDriver ticking 2 (some "d") { title := some "t" } .processAll false driverPrograms newDriver :=
  ⟨1, _, _, _, rfl, rfl⟩

example := C52_order newDriver_new (.ofIterations 4 newDriver ticking 2)
example := C52_answered (.ofIterations 4 newDriver ticking 2)

/-- The loop of that driver when both handles have been used and a message waits. -/
def busyLoop : Loop Empty Nat where
  state := { name := some "d", metrics := none, lastOutcomeLogged := -59300000000, strategy := .processAll }
  receiver := { chan := (Channel.fresh none true driverPrograms).acts [.thread 1, .thread 0, .thread 1] }

example := C52_next (l := busyLoop) (e := ticking) (k := 2) rfl rfl
example : driverLog.map (fun i => (i.message.map (fun m => requests [m]), i.answer.isSome)) =
    [(some [1], true), (some [], false), (some [2], true), (none, false)] := by decide +kernel

end Metrix

