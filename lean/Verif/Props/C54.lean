import Verif.Props.C53

/-! # C54: A driver runs as long as a handle exists and answers or fails every snapshot call -/

namespace Metrix
variable {σ L : Type} [DecidableEq L] [Custom σ L] [CustomProcessor σ]

variable {e : Env} {k k₁ k' : Nat} {name : Option String} {descr : Descr} {strategy : Strategy} {withMetrics : Bool}
  {programs : List (SendThread (DriverMsg σ L))} {t t' : DriverThread σ L} {log : List (Iteration σ L)}

theorem abandoned_acts {μ : Type} {c : Channel μ} {as : List Action} (h : c.abandoned = true) :
    (c.acts as).abandoned = true := by
  induction as generalizing c with
  | nil => exact h
  | cons a as ih =>
    refine ih ?_
    cases a with
    | thread t => simp only [Channel.act]; rw [Channel.abandoned_step c t h]; exact h
    | receive => simp only [Channel.act, Channel.take]; split <;> exact h
    | dropReceiver => exact h

/-- The loop ends only if all handles have been dropped, or by a panic. -/
theorem C54_runs {l : Loop σ L} {i : Option (Iteration σ L)} {c : Channel (DriverMsg σ L)}
    (h : (DriverThread.running l).iterate e k = (.ended c, i, k')) :
    c.abandoned = true ∨ ∃ j, i = some j ∧ ((l.state.begin j.message e k = none) ∨
      ∃ s started k₁, l.state.begin j.message e k = some ((s, started, j.answer), k₁) ∧ s.work started e k₁ = none) := by
  cases iterates h with
  | stop hp => exact .inl (pollDriver_stop hp).2
  | panicEarly hp hb => exact .inr ⟨_, rfl, .inl hb⟩
  | panicLate hp hb hw => exact .inr ⟨_, rfl, .inr ⟨_, _, _, hb, hw⟩⟩

/-- When all handles have been dropped, and the thread sees it, the next iteration is the end of the thread. It handles
nothing. -/
theorem C54_stops {l : Loop σ L} (h : l.receiver.chan.abandoned = true) (hsees : l.blind.headD false = false) :
    ∃ c, (DriverThread.running l).iterate e k = (.ended c, none, k) ∧ c.receiver = false ∧ c.queue = [] := by
  obtain ⟨r, hr, hc⟩ := pollDriver_abandoned h
  refine ⟨r.chan.dropReceiver, ?_, rfl, rfl⟩
  simp only [DriverThread.iterate, hsees, hr]

/-- When all handles have been dropped and there is no message, the next iteration is the end of the thread, whatever it sees. -/
theorem C54_drained {l : Loop σ L} (h : l.receiver.chan.abandoned = true) (hq : l.receiver.chan.queue = []) :
    ∃ c, (DriverThread.running l).iterate e k = (.ended c, none, k) ∧ c.receiver = false ∧ c.queue = [] := by
  rcases hp : pollDriver (l.blind.headD false) l.receiver with ⟨r, p⟩
  cases p with
  | stop => exact ⟨r.chan.dropReceiver, by simp only [DriverThread.iterate, hp], rfl, rfl⟩
  | go m =>
    obtain ⟨-, x, q, hx, -⟩ := pollDriver_abandoned_go h hp
    rw [hq] at hx; cases hx

/-- Dropped handles do not come back: the channel of a driver stays without handles. -/
theorem C54_dropped (h : DriverLife e k t log k' t') (ha : t.channel.abandoned = true) : t'.channel.abandoned = true := by
  obtain ⟨as, l, h1, -⟩ := h.channel
  rw [h1]; exact abandoned_acts ha

/-- Together: when all handles have been dropped and the thread sees it, there is no further iteration. In any case there are
at most as many as there are messages in the queue, and they handle the first of these messages, one each. -/
theorem C54_no_more {l : Loop σ L} (h : DriverLife e k (.running l) log k' t') (ha : l.receiver.chan.abandoned = true) :
    (l.blind.headD false = false → log = []) ∧
    log.map (·.message) = (l.receiver.chan.queue.take log.length).map (some ·.2) := by
  generalize ht : DriverThread.running l = t at h
  induction h generalizing l with
  | nil => simp
  | @iteration k k₁ k₂ k' t t₁ t' i log _ hi hl ih =>
    subst ht
    refine ⟨fun hsees => ?_, ?_⟩
    · obtain ⟨c, hc, _⟩ := C54_stops (e := e) (k := k₁) ha hsees
      rw [hc] at hi; cases hi
    · cases iterates hi with
      | panicEarly hp hb =>
        obtain ⟨-, x, q, hq, rfl, -⟩ := pollDriver_abandoned_go ha hp
        obtain rfl := (hl.ended rfl).1
        simp [hq]
      | panicLate hp hb hw =>
        obtain ⟨-, x, q, hq, rfl, -⟩ := pollDriver_abandoned_go ha hp
        obtain rfl := (hl.ended rfl).1
        simp [hq]
      | done hp hb hw =>
        obtain ⟨-, x, q, hq, rfl, hq', ha'⟩ := pollDriver_abandoned_go ha hp
        have := (ih ha' rfl).2
        simp only [hq'] at this
        simp only [List.map_cons, List.length_cons, hq, List.take_succ_cons, this]
  | over _ hi hl ih =>
    subst ht
    cases iterates hi with
    | stop hp => obtain rfl := (hl.ended rfl).1; simp
  | others => cases ht

/-! ## Calls of `snapshot` -/

omit [DecidableEq L] [Custom σ L] [CustomProcessor σ] in
theorem ended_closed {c : Channel (DriverMsg σ L)} (s : List Nat) (hr : c.receiver = false) (hq : c.queue = []) :
    (c.run s).receiver = false ∧ (c.run s).queue = [] := by
  induction s generalizing c with
  | nil => exact ⟨hr, hq⟩
  | cons u s ih =>
    refine ih (c := c.step u) (by rw [Channel.step_receiver]; exact hr) ?_
    have hs := c.step_spec u
    generalize c.step u = c' at hs
    cases hs with
    | nothing => exact hq
    | drop => exact hq
    | accept th m rest hth hh htd hr' hf => rw [hr] at hr'; cases hr'
    | lose => exact hq

/-- The queue of an ended driver is empty, and stays so. -/
theorem DriverLife.closed (h : DriverLife e k t log k' t') (ht : ∀ c, t = .ended c → c.receiver = false ∧ c.queue = []) :
    ∀ c, t' = .ended c → c.receiver = false ∧ c.queue = [] := by
  induction h with
  | nil => exact ht
  | @iteration k k₁ k₂ k' t t₁ t' i log _ hi hl ih =>
    refine ih ?_
    cases t with
    | ended c => have := (iterate_ended hi).2.1; simp at this
    | running l =>
      cases iterates hi with
      | panicEarly => rintro c ⟨⟩; exact ⟨rfl, rfl⟩
      | panicLate => rintro c ⟨⟩; exact ⟨rfl, rfl⟩
      | done => rintro c ⟨⟩
  | @over k k₁ k₂ k' t t₁ t' log _ hi hl ih =>
    refine ih ?_
    cases t with
    | ended c => obtain ⟨rfl, -, -⟩ := iterate_ended hi; exact ht
    | running l => cases iterates hi with | stop hp => rintro c ⟨⟩; exact ⟨rfl, rfl⟩
  | @others k k' c s log t' hl ih =>
    refine ih ?_
    rintro c' ⟨⟩
    obtain ⟨h1, h2⟩ := ht c rfl
    exact ended_closed s h1 h2

/-- After the thread has ended, whether stopped or panicked, no call is waiting: each has its answer or an error, also those
made afterwards. -/
theorem C54_ended (hnew : NewDriver e k name descr strategy withMetrics programs t) (h : DriverLife e k t log k' t')
    (hend : ¬ t'.Runs) (id : Nat) : callState id log t' ≠ .waiting := by
  obtain ⟨l₀, rfl, -, -⟩ := hnew.fromMessages
  cases t' with
  | running l => exact absurd ⟨l, rfl⟩ hend
  | ended c =>
    obtain ⟨-, hq⟩ := h.closed (fun c hc => by cases hc) c rfl
    unfold callState
    split
    · simp
    · simp [DriverThread.channel, hq, requests]

/-- As long as the thread runs no call fails: each one that has sent its request has its answer or is still waiting. -/
theorem C54_running (hnew : NewDriver e k name descr strategy withMetrics programs t) (h : DriverLife e k t log k' t')
    (hrun : t'.Runs) {id : Nat} (hsent : id ∈ requests (t'.channel.log.map (·.message))) :
    (∃ s, callState id log t' = .ok s) ∨ callState id log t' = .waiting := by
  obtain ⟨sources, h1, -, -, h4⟩ := C52_order hnew h
  obtain ⟨hacc, heq⟩ := h4 hrun
  have hall : t'.channel.log.map (·.message) = (t'.channel.accepted).map (·.2) := by
    unfold Channel.accepted
    rw [List.filter_eq_self.mpr hacc]; simp
  rw [hall, heq, List.map_append, h1, requests_append] at hsent
  unfold callState
  cases hf : (answersIn log).find? (·.1 == id) with
  | some a => exact .inl ⟨a.2, rfl⟩
  | none =>
    rcases List.mem_append.mp hsent with hs | hs
    · rw [← (C52_answered h).2.2 hrun] at hs
      obtain ⟨a, ha, rfl⟩ := List.mem_map.mp hs
      have := List.find?_eq_none.mp hf a ha
      simp at this
    · simp [hs]

/-- What is in the queue is handled in the next iterations. -/
theorem DriverLife.handles_queue (h : DriverLife e k t log k' t') {l : Loop σ L} (ht : t = .running l)
    {q rest : List (Nat × DriverMsg σ L)} (hq : l.receiver.chan.queue = q ++ rest) (hn : q.length ≤ log.length)
    (hrun : t'.Runs) : q.map (·.2) <+: handled log := by
  induction h generalizing l q rest with
  | nil => cases q with
    | nil => simp
    | cons a q => simp at hn
  | @iteration k k₁ k₂ k' t t₁ t' i log _ hi hl ih =>
    subst ht
    cases q with
    | nil => simp
    | cons a q =>
      rcases C52_next (u := a.1) (m := a.2) hq hi with ⟨h1, _⟩ | ⟨j, hj, hm, hrest⟩
      · cases h1
      · cases hj
        have hr : t₁.Runs := by
          cases t₁ with
          | running l => exact ⟨l, rfl⟩
          | ended c =>
            obtain ⟨_, s, h2⟩ := hl.ended rfl
            obtain ⟨l', hl'⟩ := hrun
            rw [h2] at hl'; cases hl'
        obtain ⟨q', hq'⟩ := hrest hr
        obtain ⟨l₁, rfl⟩ := hr
        have := ih rfl (q := q) (rest := rest ++ q') (by rw [← List.append_assoc]; exact hq') (by simpa using hn) hrun
        rw [handled_cons, hm]
        simpa using this
  | @over k k₁ k₂ k' t t₁ t' log _ hi hl ih =>
    subst ht
    cases iterates hi with
    | stop hp =>
      obtain ⟨_, s, h2⟩ := hl.ended rfl
      obtain ⟨l', hl'⟩ := hrun
      rw [h2] at hl'; cases hl'
  | others hl ih => cases ht

/-- A waiting call does not wait for ever. If its request is in the queue behind `n` others, then after `n + 1` further
iterations it has its answer, unless the thread has ended, which is the case of `C54_ended`. -/
theorem C54_answered {l : Loop σ L} {id n : Nat} {d : Bool}
    (hq : (l.receiver.chan.queue.map (·.2))[n]? = some (.getSnapshot id d)) (h : DriverLife e k (.running l) log k' t')
    (hn : n < log.length) (hrun : t'.Runs) : ∃ s, (id, s) ∈ answersIn log := by
  have hlen : n < l.receiver.chan.queue.length := by
    by_contra hc
    rw [List.getElem?_eq_none (by simpa using Nat.le_of_not_lt hc)] at hq
    cases hq
  have hpre := h.handles_queue rfl (q := l.receiver.chan.queue.take (n + 1)) (rest := l.receiver.chan.queue.drop (n + 1))
    (by rw [List.take_append_drop]) (by rw [List.length_take]; omega) hrun
  have hmem : DriverMsg.getSnapshot id d ∈ handled log := by
    refine hpre.subset ?_
    rw [List.map_take]
    refine List.mem_of_getElem? (i := n) ?_
    rw [List.getElem?_take, if_pos (Nat.lt_succ_self n)]; exact hq
  have : id ∈ requests (handled log) := List.mem_filterMap.mpr ⟨_, hmem, rfl⟩
  rw [← (C52_answered h).2.2 hrun] at this
  obtain ⟨a, ha, rfl⟩ := List.mem_map.mp this
  exact ⟨a.2, ha⟩

/-! ## Example: the handle is dropped while a request is waiting -/

def leavingPrograms : List (SendThread (DriverMsg Empty Nat)) :=
  [{ todo := [.getSnapshot 1 false, .getSnapshot 2 false, .getSnapshot 3 false] }]

def leavingDriver : DriverThread Empty Nat :=
  .running { state := { name := some "d", metrics := none, lastOutcomeLogged := -59300000000, strategy := .processAll }
             receiver := { chan := .fresh none true leavingPrograms, ahead := [[0, 0], [], [], [], [0, 0]] } }

example : NewDriver ticking 2 (some "d") {} .processAll false leavingPrograms leavingDriver := ⟨1, _, _, _, rfl, rfl⟩

def CallState.code : CallState → Nat
  | .waiting => 0
  | .ok _ => 1
  | .error => 2

/-- After one iteration the first call has its answer and the second one waits. After two both have it. Then the third
request is sent and the handle is dropped, so this request is never handled. -/
example :
    (([1, 2].map fun id => (callState id (leavingDriver.iterations 1 ticking 2).1 (leavingDriver.iterations 1 ticking 2).2.2).code)
      = [1, 0]) ∧
    (([1, 2].map fun id => (callState id (leavingDriver.iterations 2 ticking 2).1 (leavingDriver.iterations 2 ticking 2).2.2).code)
      = [1, 1]) ∧
    (([1, 2, 3].map fun id => (callState id (leavingDriver.iterations 3 ticking 2).1 (leavingDriver.iterations 3 ticking 2).2.2).code)
      = [1, 1, 2]) ∧
    (leavingDriver.iterations 3 ticking 2).2.2.channel.abandoned = true := by decide +kernel

/-- The same driver, but in the third iteration the thread does not see that the handle was dropped: it still answers the third
request. The fourth iteration is the end, although the thread still does not see it. -/
def leavingUnseen : DriverThread Empty Nat :=
  match leavingDriver with
  | .running l => .running { l with blind := [false, false, true, true, true] }
  | t => t

example : (leavingUnseen.iterations 2 ticking 2).2.2.channel.abandoned = false ∧
    (leavingUnseen.iterations 3 ticking 2).2.2.channel.abandoned = true ∧
    (([1, 2, 3].map fun id => (callState id (leavingUnseen.iterations 3 ticking 2).1 (leavingUnseen.iterations 3 ticking 2).2.2).code)
      = [1, 1, 1]) ∧
    (leavingUnseen.iterations 3 ticking 2).2.2.channel.receiver = true ∧
    (leavingUnseen.iterations 4 ticking 2).2.2.channel.receiver = false := by decide +kernel

end Metrix
