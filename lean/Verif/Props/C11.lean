import Verif.Props.C13

/-! # C11: disconnect drains first and is final -/

namespace Metrix
variable {σ L : Type} [DecidableEq L] [Custom σ L]

/-- Final: a run of a disconnected processor does nothing, under every strategy, and has an empty outcome. -/
theorem C11_final (p : Processor σ L) (h : p.isDisconnected = true) (max : Nat) (strategy : Strategy) (e : Env) (k : Nat) :
    p.process max strategy e k = some ((p, {}), k) := by
  unfold Processor.process
  rw [if_pos h]; rfl

/-- A disconnected processor, used in any way: all runs have an empty outcome, no message is consumed, it stays
disconnected. -/
theorem C11_final_life {e : Env} {k k' : Nat} {p p' : Processor σ L} {log : List (Called σ L)} (h : Life e k p log k' p')
    (hd : p.isDisconnected = true) :
    p'.isDisconnected = true ∧ p'.receiver = p.receiver ∧
    ∀ c ∈ log, ∀ max strategy, c.call = .process max strategy → c.reply = .outcome {} := by
  induction h with
  | nil => exact ⟨hd, rfl, by simp⟩
  | @cons k k₁ k₂ k' p p₁ p' c r log hk hc _ ih =>
    have hsame : p₁.receiver = p.receiver ∧ p₁.isDisconnected = p.isDisconnected ∧
        ∀ m x, c = .process m x → r = .outcome {} := by
      by_cases hpr : ∃ m x, c = .process m x
      · obtain ⟨max, x, rfl⟩ := hpr
        obtain ⟨out, hpr, rfl⟩ := call_process.mp hc
        rw [C11_final p hd] at hpr
        simp at hpr; obtain ⟨⟨rfl, rfl⟩, _⟩ := hpr
        exact ⟨rfl, rfl, fun _ _ _ => rfl⟩
      · by_cases hs : ∃ i d, c = .snapshot i d
        · obtain ⟨i, d, rfl⟩ := hs
          obtain ⟨s, i', hput, rfl, rfl⟩ := call_snapshot.mp hc
          exact ⟨rfl, rfl, fun m x h => absurd ⟨m, x, h⟩ hpr⟩
        · have hp' : ∀ m x, c ≠ .process m x := fun m x h => hpr ⟨m, x, h⟩
          have hs' : ∀ i d, c ≠ .snapshot i d := fun i d h => hs ⟨i, d, h⟩
          obtain ⟨rfl, rfl, rfl⟩ := (call_set hp' hs').mp hc
          exact ⟨rfl, rfl, fun m x h => absurd ⟨m, x, h⟩ hpr⟩
    obtain ⟨h1, h2, h3⟩ := ih (by rw [hsame.2.1]; exact hd)
    refine ⟨h1, h2.trans hsame.1, ?_⟩
    intro c' hc' max strategy hcall
    rcases List.mem_cons.mp hc' with rfl | hc'
    · exact hsame.2.2 _ _ hcall
    · exact h3 c' hc' max strategy hcall

/-- Snapshots keep working: they do not depend on whether the processor is disconnected. -/
theorem C11_snapshots (p : Processor σ L) (into : Snapshot) (d : Bool) (e : Env) (k : Nat) (b : Bool) :
    (({ p with isDisconnected := b } : Processor σ L).putSnapshot into d e k).map (fun r => (r.1.1.state, r.1.2, r.2)) =
      (p.putSnapshot into d e k).map (fun r => (r.1.1.state, r.1.2, r.2)) ∧
    (p.putSnapshot into d e k).map (fun r => (r.1.2, r.2)) = (p.state.putSnapshot into d e k).map (fun r => (r.1.2, r.2)) := by
  have : ∀ (q : Processor σ L), q.putSnapshot into d e k =
      (q.state.putSnapshot into d e k).map fun r => (({ q with state := r.1.1 }, r.1.2), r.2) := by
    intro q
    cases h : q.state.putSnapshot into d e k with
    | none =>
      cases h' : q.putSnapshot into d e k with
      | none => rfl
      | some r =>
        simp only [Processor.putSnapshot, M.bind_eq_some] at h'
        obtain ⟨a, b, h'', _⟩ := h'
        rw [h] at h''; cases h''
    | some r =>
      obtain ⟨⟨a, b⟩, c⟩ := r
      exact M.run_bind_some h
  rw [this, this]
  constructor
  · cases p.state.putSnapshot into d e k <;> rfl
  · cases p.state.putSnapshot into d e k <;> rfl

theorem life_disconnected {e : Env} {k k' : Nat} {p p' : Processor σ L} {log : List (Called σ L)} (h : Life e k p log k' p')
    (hp : p.isDisconnected = true → p.receiver.chan.queue = [] ∧ p.receiver.chan.abandoned = true) :
    p'.isDisconnected = true → p'.receiver.chan.queue = [] ∧ p'.receiver.chan.abandoned = true := by
  induction h with
  | nil => exact hp
  | @cons k k₁ k₂ k' p p₁ p' c r log hk hc _ ih =>
    refine ih ?_
    by_cases hpr : ∃ m x, c = .process m x
    · obtain ⟨max, x, rfl⟩ := hpr
      obtain ⟨out, hpr, rfl⟩ := call_process.mp hc
      obtain ⟨_, _, _, _, _, _, _, _, _, _, _, _, h1, h2⟩ := process_spec hpr
      cases hd : p.isDisconnected with
      | true => obtain ⟨rfl, _⟩ := h2 hd; exact hp
      | false => exact h1 hd
    · by_cases hs : ∃ i d, c = .snapshot i d
      · obtain ⟨i, d, rfl⟩ := hs
        obtain ⟨s, i', hput, rfl, rfl⟩ := call_snapshot.mp hc
        exact hp
      · have hp' : ∀ m x, c ≠ .process m x := fun m x h => hpr ⟨m, x, h⟩
        have hs' : ∀ i d, c ≠ .snapshot i d := fun i d h => hs ⟨i, d, h⟩
        obtain ⟨rfl, rfl, rfl⟩ := (call_set hp' hs').mp hc
        exact hp

/-- A processor with a new channel, used in any way: when it is disconnected, all transmitters are gone, the queue is
empty, and everything the queue ever accepted was consumed. -/
theorem C11_drained {e : Env} {k k' : Nat} {p p' : Processor σ L} {log : List (Called σ L)} (h : Life e k p log k' p')
    {cap : Option Nat} {useSend : Bool} {programs : List (SendThread (Message σ L))}
    (hnew : p.receiver.chan = .fresh cap useSend programs) (hconn : p.isDisconnected = false)
    (hd : p'.isDisconnected = true) :
    p'.receiver.chan.queue = [] ∧ p'.receiver.chan.abandoned = true ∧
    ∃ consumed, Story e k p.state log consumed k' p'.state ∧
      consumed.flatten.map (·.1) = p'.receiver.chan.accepted.map (·.2) := by
  obtain ⟨h1, h2⟩ := life_disconnected h (by simp [hconn]) hd
  obtain ⟨consumed, hst, hc⟩ := C08_consumed h hnew
  refine ⟨h1, h2, consumed, hst, ?_⟩
  rw [h1] at hc
  simpa using hc

/-- Until then it is not disconnected: as long as a transmitter exists or a message is queued, it keeps working. -/
theorem C11_not_before {e : Env} {k k' : Nat} {p p' : Processor σ L} {log : List (Called σ L)} (h : Life e k p log k' p')
    (hconn : p.isDisconnected = false)
    (ht : p'.receiver.chan.abandoned = false ∨ p'.receiver.chan.queue ≠ []) : p'.isDisconnected = false := by
  cases hd : p'.isDisconnected with
  | false => rfl
  | true =>
    obtain ⟨h1, h2⟩ := life_disconnected h (by simp [hconn]) hd
    rcases ht with ht | ht
    · rw [h2] at ht; cases ht
    · exact absurd h1 ht

omit [DecidableEq L] [Custom σ L] in
theorem wait_abandoned (r : Receiver (Message σ L)) (h : r.chan.abandoned = true) : r.wait.chan = r.chan := by
  unfold Receiver.wait
  split
  · rfl
  · exact Channel.abandoned_run _ _ h

theorem receiveLoop_abandoned {d : Decider} {e : Env} {n : Nat} {p p' : Processor σ L} {t t' : Tally} {k k' : Nat}
    (h : p.receiveLoop d n t e k = some ((p', t'), k')) (ha : p.receiver.chan.abandoned = true)
    (hconn : p.isDisconnected = false) :
    p'.receiver.chan.abandoned = true ∧ p'.receiver.chan.queue = p.receiver.chan.queue.drop n ∧
    p'.receiver.chan.taken = p.receiver.chan.taken ++ p.receiver.chan.queue.take n ∧
    (p'.isDisconnected = true ↔ p.receiver.chan.queue.length < n) := by
  induction n generalizing p t k with
  | zero =>
    simp [Processor.receiveLoop] at h; obtain ⟨⟨rfl, rfl⟩, rfl⟩ := h
    simp [ha, hconn]
  | succ n ih =>
    have hw := wait_abandoned _ ha
    simp only [Processor.receiveLoop, Receiver.tryRecv, hw] at h
    cases hq : p.receiver.chan.queue with
    | nil =>
      simp only [hq, ha, if_true] at h
      simp at h; obtain ⟨⟨rfl, rfl⟩, rfl⟩ := h
      simp [hw, ha, hq]
    | cons x q =>
      obtain ⟨u, m⟩ := x
      simp only [hq, M.bind_eq_some] at h
      obtain ⟨⟨s₁, t₁⟩, k₁, _, h⟩ := h
      have htake : p.receiver.chan.take.abandoned = true := by
        unfold Channel.abandoned; rw [Channel.take_threads]; exact ha
      obtain ⟨h1, h2, h3, h4⟩ := ih h htake hconn
      refine ⟨h1, ?_, ?_, ?_⟩
      · rw [h2]; simp [Channel.take, hq]
      · rw [h3]; simp [Channel.take, hq]
      · rw [h4]; simp [Channel.take, hq]

/-- When all transmitters are gone, a run consumes the messages in the queue, in order, as many as it is allowed to. If it
is allowed to consume more than that, the processor gets disconnected. -/
theorem C11_drains {p p' : Processor σ L} {max : Nat} {strategy : Strategy} {out : Outcome} {e : Env} {k k' : Nat}
    (h : p.process max strategy e k = some ((p', out), k')) (hgone : p.receiver.chan.abandoned = true)
    (hconn : p.isDisconnected = false) :
    p'.receiver.chan.abandoned = true ∧ p'.receiver.chan.queue = p.receiver.chan.queue.drop max ∧
    p'.receiver.chan.taken = p.receiver.chan.taken ++ p.receiver.chan.queue.take max ∧
    out.processed + out.dropped = min max p.receiver.chan.queue.length ∧
    out.observationsEnqueued = p.receiver.chan.queue.length - max ∧
    (p'.isDisconnected = true ↔ p.receiver.chan.queue.length < max) := by
  have key : p'.receiver.chan.abandoned = true ∧ p'.receiver.chan.queue = p.receiver.chan.queue.drop max ∧
      p'.receiver.chan.taken = p.receiver.chan.taken ++ p.receiver.chan.queue.take max ∧
      (p'.isDisconnected = true ↔ p.receiver.chan.queue.length < max) := by
    unfold Processor.process at h
    rw [if_neg (by simp [hconn])] at h
    simp only [M.bind_eq_some] at h
    obtain ⟨d, k₂, hd, ⟨p₁, t⟩, k₃, hl, h⟩ := h
    obtain ⟨h1, h2, h3, h4⟩ := receiveLoop_abandoned hl hgone hconn
    have hw := wait_abandoned _ h1
    have hlen' : p₁.receiver.len = (p₁.receiver.wait, p₁.receiver.wait.chan.queue.length) := rfl
    simp only [hlen'] at h
    split at h
    · simp only [M.bind_eq_some, M.run_pure, Option.some.injEq, Prod.mk.injEq, M.run_now] at h
      obtain ⟨now, k₄, ⟨rfl, rfl⟩, ⟨rfl, rfl⟩, rfl⟩ := h
      simp only [hw]; exact ⟨h1, h2, h3, h4⟩
    · simp only [M.run_pure, Option.some.injEq, Prod.mk.injEq] at h
      obtain ⟨⟨rfl, rfl⟩, rfl⟩ := h
      simp only [hw]; exact ⟨h1, h2, h3, h4⟩
  obtain ⟨h1, h2, h3, h4⟩ := key
  obtain ⟨ms, _, _, _, _, _, _, _, hacc, _, ⟨_, l, hl, htk⟩, henq, _⟩ := process_spec h
  refine ⟨h1, h2, h3, ?_, ?_, h4⟩
  · have : l = p.receiver.chan.queue.take max := by
      rw [htk] at h3; exact List.append_cancel_left h3
    have hlen : ms.length = min max p.receiver.chan.queue.length := by
      have := congrArg List.length hl
      simp at this
      rw [← this, ‹l = _›]; simp
    rw [← hlen, hacc.processed, hacc.dropped]
    clear * -
    induction ms with
    | nil => rfl
    | cons m ms ih => cases hm : m.2.isDropped <;> simp [hm] <;> omega
  · rw [henq hconn, h2]; simp

/-- Enough runs after the last transmitter is gone: the processor has consumed the rest of the queue and is disconnected. -/
theorem C11_disconnects {e : Env} {k k' : Nat} {p p' : Processor σ L} {log : List (Called σ L)} (h : Life e k p log k' p')
    (hgone : p.receiver.chan.abandoned = true) (hconn : p.isDisconnected = false)
    (hpolls : p.receiver.chan.queue.length < (log.map (·.call.polls)).sum) :
    p'.isDisconnected = true ∧ p'.receiver.chan.taken = p.receiver.chan.taken ++ p.receiver.chan.queue := by
  induction h with
  | nil => simp at hpolls
  | @cons k k₁ k₂ k' p p₁ p' c r log hk hc hl ih =>
    by_cases hpr : ∃ m x, c = .process m x
    · obtain ⟨max, x, rfl⟩ := hpr
      obtain ⟨out, hpr, rfl⟩ := call_process.mp hc
      obtain ⟨h1, h2, h3, _, _, h6⟩ := C11_drains hpr hgone hconn
      by_cases hm : p.receiver.chan.queue.length < max
      · have hd := h6.mpr hm
        obtain ⟨ha, hb, _⟩ := C11_final_life hl hd
        refine ⟨ha, ?_⟩
        rw [hb, h3, List.take_of_length_le (by omega)]
      · have hd : p₁.isDisconnected = false := by
          cases hd : p₁.isDisconnected with
          | false => rfl
          | true => exact absurd (h6.mp hd) hm
        simp only [List.map_cons, List.sum_cons] at hpolls
        rw [show (Call.process max x : Call σ L).polls = max from rfl] at hpolls
        obtain ⟨ha, hb⟩ := ih h1 hd (by rw [h2]; simp only [List.length_drop]; omega)
        refine ⟨ha, ?_⟩
        rw [hb, h3, h2, List.append_assoc, List.take_append_drop]
    · have hsame : p₁.receiver = p.receiver ∧ p₁.isDisconnected = p.isDisconnected := by
        by_cases hs : ∃ i d, c = .snapshot i d
        · obtain ⟨i, d, rfl⟩ := hs
          obtain ⟨s, i', hput, rfl, rfl⟩ := call_snapshot.mp hc
          exact ⟨rfl, rfl⟩
        · have hp' : ∀ m x, c ≠ .process m x := fun m x h => hpr ⟨m, x, h⟩
          have hs' : ∀ i d, c ≠ .snapshot i d := fun i d h => hs ⟨i, d, h⟩
          obtain ⟨rfl, rfl, rfl⟩ := (call_set hp' hs').mp hc
          exact ⟨rfl, rfl⟩
      have hu : c.polls = 0 := by
        cases c <;> first | rfl | exact absurd ⟨_, _, rfl⟩ hpr
      simp only [List.map_cons, List.sum_cons, hu, Nat.zero_add] at hpolls
      rw [hsame.1, hsame.2] at ih
      exact ih hgone hconn hpolls

/-! ## Example: the thread drops its transmitter after its four messages, the third run notices -/

def leavingProcessor : Processor Empty Nat :=
  { exampleProcessor with receiver := { exampleProcessor.receiver with ahead := [[0, 0, 0, 0, 0]] } }

example : (leavingProcessor.process 3 .processAll ticking 1).map
    (fun r => (r.1.2, r.1.1.receiver.chan.abandoned, r.1.1.isDisconnected)) = some (⟨3, 0, 5, 1⟩, true, false) := rfl

example : (do
      let (p, _) ← leavingProcessor.process 3 .processAll
      let (p, o) ← p.process 1 .processAll
      let d := p.isDisconnected
      let (p, o') ← p.process 1 .processAll
      return (o, d, o', p.isDisconnected) : M _) ticking 1 = some ((⟨1, 0, 2, 0⟩, false, {}, true), 3) := rfl

example := C11_final { leavingProcessor with isDisconnected := true } rfl 3 .default ticking 1
example := C11_final_life (lived_life (e := ticking) (k := 1) (p := { leavingProcessor with isDisconnected := true })
  (cs := exampleCalls) rfl) rfl
example := C11_drained (lived_life (e := ticking) (k := 1) (p := leavingProcessor) (cs := exampleCalls) rfl) rfl rfl rfl
example := C11_not_before (lived_life (e := ticking) (k := 1) (p := leavingProcessor) (cs := [.process 3 .default]) rfl) rfl
  (.inr nofun)

/-- After its first run: the threads are gone, one message is left. -/
def abandonedProcessor : Processor Empty Nat :=
  { leavingProcessor with receiver := { chan := leavingProcessor.receiver.chan.acts (List.replicate 5 (.thread 0)) } }

example := C11_drains (p := abandonedProcessor) (max := 3) (strategy := .processAll) (e := ticking) (k := 1) rfl rfl rfl
example := C11_disconnects (lived_life (e := ticking) (k := 1) (p := abandonedProcessor) (cs := exampleCalls) rfl) rfl rfl (by decide)

end Metrix
