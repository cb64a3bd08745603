import Verif.Proof.Latency
import Verif.Props.C12
import Verif.Props.C74

/-!
# C75 Sending waits only where it was asked for, and only for the processor

With the default queue, which has no limit, and with one that drops messages if it is full, a thread needs one step for each
message, whatever the processor and other threads do. With a queue that blocks if it is full a thread waits exactly as long as the
queue is full and the processor exists.
-/

namespace Metrix
variable {μ : Type}

/-- How many steps thread `t` got the chance to take. -/
def stepsOf (t : Nat) (as : List Action) : Nat :=
  (as.filter fun a => match a with
    | .thread t' => t' == t
    | _ => false).length

/-- The thread has something to send, and its transmitter. -/
def Channel.Sending (c : Channel μ) (t : Nat) : Prop := ∃ th, c.threads[t]? = some th ∧ th.holds = true ∧ th.todo ≠ []

/-- Who has something to send has a transmitter. -/
def Channel.Held (c : Channel μ) : Prop := ∀ t, c.todo t ≠ [] → c.Sending t

/-- With or without success: a step of a thread that is sending completes a call of `send`, unless it has to wait. It has to wait
if and only if the transmitter is a blocking one, the queue is full and the processor exists. -/
theorem C75_step (c : Channel μ) (t : Nat) (h : c.Sending t) :
    (c.step t).todo t = if c.useSend = true ∧ c.isFull = true ∧ c.receiver = true then c.todo t else (c.todo t).tail := by
  obtain ⟨th, hth, hh, htd⟩ := h
  have hlt : t < c.threads.length := (List.getElem?_eq_some_iff.mp hth).1
  have htodo : c.todo t = th.todo := by simp [Channel.todo, hth]
  cases hm : th.todo with
  | nil => exact absurd hm htd
  | cons m rest =>
    have h1 := (C12_send c t m).1
    by_cases hb : (c.send t m).2 = .blocked
    · rw [if_pos (h1.mp hb)]
      unfold Channel.step
      rw [hth]
      simp only [hh, if_true, hm, hb]
    · rw [if_neg fun hc => hb (h1.mpr hc), htodo, hm, List.tail_cons]
      unfold Channel.step
      rw [hth]
      simp only [hh, if_true, hm, hb, if_false, Channel.todo]
      simp [hlt]

theorem Channel.step_other (c : Channel μ) {t t' : Nat} (h : t ≠ t') : (c.step t).todo t' = c.todo t' := by
  have hs := c.step_spec t
  generalize c.step t = c' at hs
  cases hs with
  | nothing => rfl
  | _ => simp [Channel.todo, List.getElem?_set_ne h]

theorem Channel.held_step {c : Channel μ} (h : c.Held) (t : Nat) : (c.step t).Held := by
  have hs := c.step_spec t
  generalize c.step t = c' at hs
  intro t' ht'
  cases hs with
  | nothing => exact h t' ht'
  | drop th hth hh htd =>
    by_cases heq : t = t'
    · subst heq
      have hlt : t < c.threads.length := (List.getElem?_eq_some_iff.mp hth).1
      exact absurd (by simp [Channel.todo, hlt, htd]) ht'
    · have hsame : Channel.todo { c with threads := c.threads.set t { th with holds := false } } t' = c.todo t' := by
        simp [Channel.todo, List.getElem?_set_ne heq]
      rw [hsame] at ht'
      obtain ⟨th', h1, h2⟩ := h t' ht'
      exact ⟨th', by rw [List.getElem?_set_ne heq]; exact h1, h2⟩
  | accept th m rest hth hh htd | lose th m rest hth hh htd =>
    have hlt : t < c.threads.length := (List.getElem?_eq_some_iff.mp hth).1
    by_cases heq : t = t'
    · subst heq
      refine ⟨{ th with todo := rest }, by simp [hlt], hh, ?_⟩
      intro hr
      exact absurd (by simp [Channel.todo, hlt]; exact hr) ht'
    · have h0 : c.todo t' ≠ [] := by
        intro h0
        exact ht' (by simpa [Channel.todo, List.getElem?_set_ne heq] using h0)
      obtain ⟨th', h1, h2⟩ := h t' h0
      exact ⟨th', by rw [List.getElem?_set_ne heq]; exact h1, h2⟩

theorem Channel.held_act {c : Channel μ} (h : c.Held) (a : Action) : (c.act a).Held := by
  cases a with
  | thread t => exact Channel.held_step h t
  | receive =>
    simp only [Channel.act, Channel.take]
    split <;> exact h
  | dropReceiver => exact h

/-- Without a limit (the default), or if messages are dropped when the queue is full: after any events each thread has completed
one call of `send` for each step it could take, until it had nothing more to send. -/
theorem C75_never_waits (cap : Option Nat) (useSend : Bool) (programs : List (SendThread μ))
    (hhold : ∀ th ∈ programs, th.holds = true) (h : cap = none ∨ useSend = false) (as : List Action) (t : Nat) :
    ((Channel.fresh cap useSend programs).acts as).todo t = (programOf programs t).drop (stepsOf t as) := by
  have key : ∀ (as : List Action) (c : Channel μ), c.Held → (c.cap = none ∨ c.useSend = false) →
      (c.acts as).todo t = (c.todo t).drop (stepsOf t as) := by
    intro as
    induction as with
    | nil => intro c _ _; rfl
    | cons a as ih =>
      intro c hheld hfree
      have hfree' : (c.act a).cap = none ∨ (c.act a).useSend = false := by
        cases a with
        | thread t' => simp only [Channel.act]; rw [Channel.step_cap, Channel.step_useSend]; exact hfree
        | receive => simp only [Channel.act, Channel.take]; split <;> exact hfree
        | dropReceiver => exact hfree
      show ((c.act a).acts as).todo t = _
      rw [ih _ (Channel.held_act hheld a) hfree']
      cases a with
      | thread t' =>
        by_cases heq : t' = t
        · subst heq
          have hn : stepsOf t' (.thread t' :: as) = stepsOf t' as + 1 := by simp [stepsOf]
          rw [hn]
          by_cases htd : c.todo t' = []
          · have : (c.step t').todo t' = [] := by
              have hs := c.step_spec t'
              generalize c.step t' = c' at hs
              cases hs with
              | nothing => exact htd
              | drop th hth hh htd' =>
                have hlt : t' < c.threads.length := (List.getElem?_eq_some_iff.mp hth).1
                simp [Channel.todo, hlt, htd']
              | accept th m rest hth hh htd' => simp [Channel.todo, hth, htd'] at htd
              | lose th m rest hth hh htd' => simp [Channel.todo, hth, htd'] at htd
            simp [Channel.act, this, htd]
          · have hw : ¬ (c.useSend = true ∧ c.isFull = true ∧ c.receiver = true) := by
              rintro ⟨h1, h2, -⟩
              rcases hfree with hf | hf
              · simp [Channel.isFull, hf] at h2
              · rw [hf] at h1; cases h1
            simp only [Channel.act]
            rw [C75_step c t' (hheld t' htd), if_neg hw, ← List.drop_one, List.drop_drop, Nat.add_comm]
        · have hn : stepsOf t (.thread t' :: as) = stepsOf t as := by simp [stepsOf, heq]
          rw [hn]
          simp only [Channel.act]
          rw [c.step_other heq]
      | receive =>
        have : c.take.todo t = c.todo t := by simp only [Channel.take]; split <;> rfl
        simp only [Channel.act, this]
        rfl
      | dropReceiver => rfl
  have hheld : (Channel.fresh cap useSend programs).Held := by
    intro t ht
    simp only [Channel.fresh, Channel.todo] at ht
    cases hth : programs[t]? with
    | none => simp [hth] at ht
    | some th =>
      simp only [hth] at ht
      exact ⟨th, hth, hhold th (List.mem_of_getElem? hth), ht⟩
  rw [key as _ hheld h]
  simp only [Channel.fresh, Channel.todo, programOf]
  cases programs[t]? <;> rfl

/-- If a blocking queue is full, then whatever the sending threads do, no message gets in: they all wait. -/
theorem C75_all_wait (c : Channel μ) (hu : c.useSend = true) (hf : c.isFull = true) (hr : c.receiver = true) (schedule : List Nat) :
    (c.run schedule).queue = c.queue ∧ (c.run schedule).log = c.log ∧ ∀ t, (c.run schedule).todo t = c.todo t := by
  induction schedule generalizing c with
  | nil => exact ⟨rfl, rfl, fun _ => rfl⟩
  | cons x s ih =>
    have hs := c.step_spec x
    show ((c.step x).run s).queue = _ ∧ ((c.step x).run s).log = _ ∧ ∀ t, ((c.step x).run s).todo t = _
    generalize c.step x = c' at hs
    cases hs with
    | nothing => exact ih c hu hf hr
    | drop th hth hh htd =>
      obtain ⟨h1, h2, h3⟩ := ih { c with threads := c.threads.set x { th with holds := false } } hu hf hr
      refine ⟨h1, h2, fun t => (h3 t).trans ?_⟩
      have hlt : x < c.threads.length := (List.getElem?_eq_some_iff.mp hth).1
      by_cases heq : x = t
      · subst heq
        have h0 : c.todo x = th.todo := by simp only [Channel.todo, hth]
        rw [h0]
        simp [Channel.todo, hlt]
      · simp [Channel.todo, List.getElem?_set_ne heq]
    | accept _ _ _ _ _ _ _ h => rw [hf] at h; cases h
    | lose _ _ _ _ _ _ h =>
      rcases h with h | ⟨_, h⟩
      · rw [hr] at h; cases h
      · rw [hu] at h; cases h

/-- They wait for the processor only: as soon as it takes a message or is dropped, the next thread that takes a step has sent
its message. -/
theorem C75_released (n : Nat) (hn : 0 < n) (useSend : Bool) (programs : List (SendThread μ)) (as : List Action) (t : Nat) :
    let c := (Channel.fresh (some n) useSend programs).acts as
    c.Sending t → (c.take.step t).todo t = (c.todo t).tail ∧ (c.dropReceiver.step t).todo t = (c.todo t).tail := by
  intro c ⟨th, hth, hh, htd⟩
  have hcap : c.cap = some n := by simp only [c]; rw [Channel.acts_cap]; rfl
  have hlen : c.queue.length ≤ n := C12_bounded n useSend programs as
  have hsame : c.take.threads = c.threads ∧ c.take.cap = c.cap ∧ (c.take.queue.length ≤ c.queue.length - 1) := by
    unfold Channel.take
    split
    · rename_i hq; exact ⟨rfl, rfl, by simp [hq]⟩
    · rename_i hq; exact ⟨rfl, rfl, by simp [hq]⟩
  constructor
  · rw [C75_step _ t ⟨th, by rw [hsame.1]; exact hth, hh, htd⟩, if_neg]
    · simp [Channel.todo, hsame.1]
    · rintro ⟨-, hfull, -⟩
      simp only [Channel.isFull, hsame.2.1, hcap, decide_eq_true_eq] at hfull
      omega
  · rw [C75_step c.dropReceiver t ⟨th, hth, hh, htd⟩, if_neg]
    · rfl
    · rintro ⟨-, -, hr⟩; cases hr

variable {σ L : Type} [DecidableEq L] [Custom σ L] [CustomProcessor σ]

omit [CustomProcessor σ] in
theorem life_without_runs {e : Env} {k k' : Nat} {p p' : Processor σ L} {log : List (Called σ L)} (h : Life e k p log k' p')
    (hr : log.filterMap (·.call.run?) = []) : p'.receiver = p.receiver := by
  induction h with
  | nil => rfl
  | @cons k k₁ k₂ k' p p₁ p' c r log hk hc _ ih =>
    have hnot : ∀ m x, c ≠ .process m x := by
      rintro m x rfl
      simp [Call.run?] at hr
    rw [List.filterMap_cons] at hr
    split at hr
    · exact (ih hr).trans (call_receiver hc hnot).1
    · cases hr

/-- **Finding.** A driver that is paused takes nothing from the queues. So as long as it is paused, whoever sends to a processor
of the driver with a full queue that blocks waits, as in `C75_all_wait`. -/
theorem C75_finding_pause (hc : CustomForward σ L) (hp : CustomProcessorForward σ) {e : Env} {k k' : Nat} {l l' : Loop σ L}
    {log : List (Iteration σ L)} (h : DriverLife e k (.running l) log k' (.running l')) (hpaused : runsOf log = [])
    {index : Nat} {way : List Nat} {p : Processor σ L} (hl : l.state.at index way = some (.processor p)) :
    ∃ p', l'.state.at index way = some (.processor p') ∧ p'.receiver = p.receiver := by
  unfold LoopState.at at hl ⊢
  obtain ⟨n, hn, hat⟩ := Option.bind_eq_some_iff.mp hl
  obtain ⟨n', hn', hkeep⟩ := DriverLife.keeps hc hp (Node.Keeps.stepWise hc hp e way) index h n hn
  obtain ⟨calls, p', hlife, hr, ha, -⟩ := hkeep p hat
  refine ⟨p', by rw [hn', Option.bind_some, ha], life_without_runs hlife ?_⟩
  rw [hr.runs]
  have : (strategiesIn l.state.strategy log).length = 0 := by rw [strategiesIn_length, hpaused]; rfl
  rw [List.length_eq_zero_iff.mp this]; rfl

/-! ## Examples -/

/-- Capacity 1, blocking: the second thread waits until the processor takes the message of the first. -/
example : let c := (Channel.fresh (some 1) true [{ todo := [1, 2] }, { todo := [3] }]).acts [.thread 0]
    c.useSend = true ∧ c.isFull = true ∧ c.receiver = true ∧ (c.run [1, 0, 1]).todo 1 = [3] ∧ (c.take.step 1).todo 1 = [] :=
  ⟨rfl, rfl, rfl, rfl, rfl⟩

example : ((Channel.fresh (some 1) true [{ todo := [1, 2] }, { todo := [3] }]).acts [.thread 0]).Sending 1 :=
  ⟨_, rfl, rfl, by simp⟩

/-- No limit: two steps, two messages. -/
example : ((Channel.fresh none true [{ todo := [1, 2] }, { todo := [3] }]).acts [.thread 0, .thread 1, .thread 0]).todo 0 = [] := rfl

/-- A processor with a blocking queue for one message. One is in it, another one waits to be sent. -/
def fullProcessor : Processor Empty Nat where
  state := { name := some "p", activity := ⟨0, none, true⟩, handlers := [.instrument ⟨.acceptAll, .counter { name := "c" }, none⟩] }
  receiver := { chan := (Channel.fresh (some 1) true [{ todo := [.observation (.observedOne 1 0), .observation (.observedOne 1 0)] }]).acts
                          [.thread 0] }

def fullDriver : DriverThread Empty Nat :=
  .running { state := { name := some "d", descr := {}, metrics := none, lastOutcomeLogged := -59300000000, strategy := .processAll }
             receiver := { chan := .fresh none true [{ todo := [.pause, .addProcessor (.processor fullProcessor)], drops := false }]
                           ahead := [[0], [], [0]] } }

/-- The driver is paused and gets the processor. In three further iterations it makes no run, and the sender still waits. -/
example : (match (fullDriver.iterations 2 ticking 2).2.2, (fullDriver.iterations 5 ticking 2).2.2 with
    | .running l, .running l' => match l.state.at 0 [], l'.state.at 0 [] with
      | some (.processor p), some (.processor p') =>
        p.receiver.chan.isFull && p.receiver.chan.useSend && p'.receiver.chan.isFull && (p'.receiver.chan.todo 0).length == 1
      | _, _ => false
    | _, _ => false) = true ∧
    (runsOf (fullDriver.iterations 5 ticking 2).1).length = 0 ∧ (fullDriver.iterations 5 ticking 2).1.length = 5 := by
  decide +kernel

end Metrix
