import Verif.Props.C08

/-! # C12: queue bounds -/

namespace Metrix
variable {μ : Type}

/-- Whatever threads and receiver do, in any order: a queue with a capacity never holds more than that. -/
theorem C12_bounded (n : Nat) (useSend : Bool) (programs : List (SendThread μ)) (as : List Action) :
    ((Channel.fresh (some n) useSend programs).acts as).queue.length ≤ n := by
  have := Channel.acts_induction (P := Channel.Bounded) Channel.bounded_act (.fresh (some n) useSend programs) as
    (by intro m hm; simp [Channel.fresh])
  refine this n ?_
  rw [Channel.acts_cap]; rfl

/-- The queue of a new processor, used in any way. -/
theorem C12_processor {σ L : Type} [DecidableEq L] [Custom σ L] {e : Env} {k k' : Nat} {p p' : Processor σ L}
    {log : List (Called σ L)} (h : Life e k p log k' p') {n : Nat} {useSend : Bool}
    {programs : List (SendThread (Message σ L))} (hnew : p.receiver.chan = .fresh (some n) useSend programs) :
    p'.receiver.chan.queue.length ≤ n := by
  obtain ⟨_, _, ⟨as, _, hacts⟩, _⟩ := life_story h
  rw [hacts, hnew]
  exact C12_bounded n useSend programs as

/-- What a call of `send` does. It waits only if it is a blocking one, the queue is full and the receiver lives. The
message is lost only if the receiver is gone, or if the queue is full and the call does not block; the queue is left
as it is. Otherwise the message becomes the last one in the queue. -/
theorem C12_send (c : Channel μ) (t : Nat) (m : μ) :
    ((c.send t m).2 = .blocked ↔ c.useSend = true ∧ c.isFull = true ∧ c.receiver = true) ∧
    ((c.send t m).2 = .lost ↔ c.receiver = false ∨ (c.isFull = true ∧ c.useSend = false)) ∧
    ((c.send t m).2 = .accepted ↔ c.receiver = true ∧ c.isFull = false) ∧
    ((c.send t m).2 = .blocked → (c.send t m).1 = c) ∧
    ((c.send t m).2 = .lost → (c.send t m).1.queue = c.queue) ∧
    ((c.send t m).2 = .accepted → (c.send t m).1.queue = c.queue ++ [(t, m)]) := by
  unfold Channel.send
  cases c.receiver <;> cases c.isFull <;> cases c.useSend <;> simp

/-- A queue is full if it has a capacity and holds that many messages. -/
theorem C12_full (cap : Option Nat) (useSend : Bool) (programs : List (SendThread μ)) (as : List Action) :
    ((Channel.fresh cap useSend programs).acts as).isFull = true ↔
      ∃ n, cap = some n ∧ ((Channel.fresh cap useSend programs).acts as).queue.length = n := by
  have hcap : ((Channel.fresh cap useSend programs).acts as).cap = cap := by rw [Channel.acts_cap]; rfl
  cases hc : cap with
  | none => subst hc; simp [Channel.isFull, hcap]
  | some n =>
    subst hc
    have := C12_bounded n useSend programs as
    simp [Channel.isFull, hcap]
    omega

/-- What is reported about the queue. -/
theorem C12_reports (cap : Option Nat) (useSend : Bool) (programs : List (SendThread μ)) (as : List Action) :
    let c := (Channel.fresh cap useSend programs).acts as
    c.size = c.queue.length ∧ (c.isEmpty = true ↔ c.queue = []) ∧ c.capacity = cap ∧
    (c.isFull = true ↔ c.capacity = some c.size) := by
  intro c
  have hcap : c.cap = cap := by simp only [c]; rw [Channel.acts_cap]; rfl
  refine ⟨rfl, by simp [Channel.isEmpty], hcap, ?_⟩
  rw [show c.isFull = true ↔ ∃ n, cap = some n ∧ c.queue.length = n from C12_full cap useSend programs as]
  simp only [Channel.capacity, hcap, Channel.size]
  constructor
  · rintro ⟨n, h, h'⟩; rw [h, h']
  · intro h; exact ⟨_, h, rfl⟩

/-- Blocking transmitters, or no capacity: while the receiver lives, no send is lost. -/
theorem C12_lossless (cap : Option Nat) (useSend : Bool) (programs : List (SendThread μ)) (as : List Action)
    (h : useSend = true ∨ cap = none) (halive : ((Channel.fresh cap useSend programs).acts as).receiver = true) :
    ∀ s ∈ ((Channel.fresh cap useSend programs).acts as).log, s.accepted = true := by
  have : ((Channel.fresh cap useSend programs).acts as).Lossless ∧
      (((Channel.fresh cap useSend programs).acts as).useSend = true ∨
        ((Channel.fresh cap useSend programs).acts as).cap = none) := by
    refine Channel.acts_induction_alive (P := fun c => c.Lossless ∧ (c.useSend = true ∨ c.cap = none)) ?_ _ as halive
      ⟨by intro s hs; simp [Channel.fresh] at hs, h⟩
    intro c a ha ⟨h1, h2⟩
    exact ⟨Channel.lossless_act c a h2 ha h1, by rw [Channel.act_useSend, Channel.act_cap]; exact h2⟩
  exact this.1

/-- Non-blocking transmitters never wait: a thread that has something to send and gets the chance has sent it after one
step. -/
theorem C12_never_waits (c : Channel μ) (h : c.useSend = false) (t : Nat) (th : SendThread μ) (m : μ) (rest : List μ)
    (hth : c.threads[t]? = some th) (hh : th.holds = true) (htd : th.todo = m :: rest) :
    (c.step t).todo t = rest ∧ (c.step t).sentBy t = c.sentBy t ++ [m] := by
  have hlt : t < c.threads.length := (List.getElem?_eq_some_iff.mp hth).1
  have hb : (c.send t m).2 ≠ .blocked := by
    intro hb
    have := (C12_send c t m).1.mp hb
    rw [h] at this; cases this.1
  have hsent : (c.send t m).1.log = c.log ++ [⟨t, m, decide ((c.send t m).2 = .accepted)⟩] := by
    unfold Channel.send at hb ⊢
    cases hr : c.receiver <;> cases hf : c.isFull <;> simp [hr, hf, h] at hb ⊢
  unfold Channel.step
  rw [hth]
  simp only [hh, if_true, htd]
  rw [if_neg hb]
  refine ⟨by simp [Channel.todo, hlt], ?_⟩
  simp [Channel.sentBy, hsent]

/-- Finding: a capacity of 0 is allowed, and then non-blocking transmitters lose everything. (The queue of the model is that of a
channel without capacity only if the transmitters do not block.) -/
theorem C12_finding_capacity_zero (programs : List (SendThread μ)) (as : List Action) :
    let c := (Channel.fresh (some 0) false programs).acts as
    c.queue = [] ∧ c.taken = [] ∧ ∀ s ∈ c.log, s.accepted = false := by
  have := Channel.acts_induction (μ := μ)
    (P := fun c => c.cap = some 0 ∧ c.queue = [] ∧ c.taken = [] ∧ ∀ s ∈ c.log, s.accepted = false) ?_
    (.fresh (some 0) false programs) as ⟨rfl, rfl, rfl, by simp [Channel.fresh]⟩
  · exact this.2
  · rintro c a ⟨h1, h2, h3, h4⟩
    refine ⟨by rw [Channel.act_cap]; exact h1, ?_⟩
    cases a with
    | thread t =>
      simp only [Channel.act]
      have hs := c.step_spec t
      generalize c.step t = c' at hs
      cases hs with
      | nothing => exact ⟨h2, h3, h4⟩
      | drop => exact ⟨h2, h3, h4⟩
      | accept th m rest _ _ _ _ hf => simp [Channel.isFull, h1] at hf
      | lose th m rest => exact ⟨h2, h3, by simpa using fun s hs => hs.elim (h4 s) (fun h => by rw [h])⟩
    | receive => simp only [Channel.act, Channel.take, h2]; exact ⟨trivial, h3, h4⟩
    | dropReceiver => exact ⟨rfl, h3, h4⟩

/-- Finding: the documentation of `is_queue_empty` says that it is always true for an unbounded queue (`src/lib.rs:319-321`). It
tells whether the queue is empty. -/
theorem C12_finding_unbounded_not_empty : ∃ (programs : List (SendThread Nat)) (as : List Action),
    ((Channel.fresh none true programs).acts as).isEmpty = false := ⟨[{ todo := [1] }], [.thread 0], rfl⟩

/-- Capacity 1, two threads: with blocking transmitters the second message waits, without it is lost. -/
example : let c := (Channel.fresh (some 1) true [{ todo := [1, 2] }, { todo := [3] }]).acts [.thread 0, .thread 1]
    c.queue = [(0, 1)] ∧ c.todo 1 = [3] := ⟨rfl, rfl⟩

example : let c := (Channel.fresh (some 1) false [{ todo := [1, 2] }, { todo := [3] }]).acts [.thread 0, .thread 1]
    c.queue = [(0, 1)] ∧ c.todo 1 = [] ∧ c.isFull = true := ⟨rfl, rfl, rfl⟩

example := C12_processor (lived_life (e := ticking) (k := 1) (p := exampleProcessor) (cs := exampleCalls) rfl) rfl
example := C12_lossless (some 1) true [{ todo := [1, 2] }, { todo := [3] }] [.thread 0, .thread 1] (.inl rfl) rfl
example := C12_never_waits (Channel.fresh (some 1) false [{ todo := [1, 2] }, { todo := [3] }]) rfl 0 _ 1 [2] rfl rfl rfl

end Metrix
