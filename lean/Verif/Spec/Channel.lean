import Verif.Model.Processor

/-! # What happens to a channel, seen from outside -/

namespace Metrix

/-- Something that happens to a channel: a thread takes a step, or the receiver takes a message (if there is one), or the
receiver is dropped. -/
inductive Action
  | thread (t : Nat)
  | receive
  | dropReceiver

variable {μ : Type}

def Channel.act (c : Channel μ) : Action → Channel μ
  | .thread t => c.step t
  | .receive => c.take
  | .dropReceiver => c.dropReceiver

/-- Many of them. -/
def Channel.acts (c : Channel μ) (as : List Action) : Channel μ := as.foldl Channel.act c

/-- A new channel with the given capacity and threads with the given programs. -/
def Channel.fresh (cap : Option Nat) (useSend : Bool) (programs : List (SendThread μ)) : Channel μ :=
  { cap, useSend, threads := programs }

/-- The messages accepted by the queue, in the order of acceptance, with the thread that sent each. -/
def Channel.accepted (c : Channel μ) : List (Nat × μ) :=
  (c.log.filter (·.accepted)).map fun s => (s.thread, s.message)

/-- Of some messages those sent by thread `t`. -/
def byThread (t : Nat) (l : List (Nat × μ)) : List μ := (l.filter (·.1 == t)).map (·.2)

/-- The messages that thread `t` has sent, whether accepted or not. -/
def Channel.sentBy (c : Channel μ) (t : Nat) : List μ :=
  (c.log.filter (·.thread == t)).map (·.message)

/-- The messages that thread `t` has still to send. -/
def Channel.todo (c : Channel μ) (t : Nat) : List μ :=
  match c.threads[t]? with
  | some th => th.todo
  | none => []

/-- Before each of the next `n` operations of the receiver every thread takes at least one step. -/
structure Receiver.Fair (r : Receiver μ) (n : Nat) : Prop where
  long : n ≤ r.ahead.length
  fair : ∀ s ∈ r.ahead, ∀ t < r.chan.threads.length, t ∈ s

end Metrix
