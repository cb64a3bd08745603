import Verif.Model.Tree

/-!
# Channels and transmitters: `crossbeam_channel` as used by `src/processor.rs` and `src/lib.rs`

`crossbeam_channel` is not part of `/repo`. Its documented behaviour is modelled: a queue, blocking and
non-blocking sends, `try_recv` and `len`, each of them atomic. A capacity of 0 (a rendezvous channel)
is modelled only with non-blocking sends, which then always fail since the receiver never waits.

Any number of threads send. Each has a transmitter of its own (a clone) and a program: the messages it
is going to send. What the other threads do between two operations of the receiving thread is given by
a schedule, over which the theorems quantify.
-/

namespace Metrix

/-- A thread with a transmitter. -/
structure SendThread (μ : Type) where
  /-- What it is still going to send. -/
  todo : List μ
  /-- Whether it drops its transmitter after the last message. -/
  drops : Bool := true
  /-- Whether it still has its transmitter. -/
  holds : Bool := true

/-- A completed call of `send`: by which thread, of which message, and whether the message got into the queue. -/
structure Sent (μ : Type) where
  thread : Nat
  message : μ
  accepted : Bool

/-- A channel, together with the threads that send to it. `useSend` is the field `use_send` of all the
transmitters (`src/lib.rs:293-298`); they are clones of one.

For the specification only, the queue holds the sending thread along with each message, `log` records the completed
sends and `taken` what was received. Nothing in the model depends on these. -/
structure Channel (μ : Type) where
  queue : List (Nat × μ) := []
  cap : Option Nat := none
  useSend : Bool := true
  /-- Whether the receiver still exists. -/
  receiver : Bool := true
  threads : List (SendThread μ) := []
  log : List (Sent μ) := []
  taken : List (Nat × μ) := []

/-- What a call of `send` does. `blocked` means that the thread has to wait. -/
inductive SendResult
  | accepted
  | lost
  | blocked
  deriving DecidableEq

namespace Channel
variable {μ : Type}

/-- `src/lib.rs:315-317` (`is_queue_full`): `Sender::is_full`. -/
def isFull (c : Channel μ) : Bool :=
  match c.cap with
  | some n => decide (n ≤ c.queue.length)
  | none => false

/-- `src/lib.rs:322-324` (`is_queue_empty`): `Sender::is_empty`. -/
def isEmpty (c : Channel μ) : Bool := c.queue.isEmpty

/-- `src/lib.rs:326-328` (`queue_size`): `Sender::len`. -/
def size (c : Channel μ) : Nat := c.queue.length

/-- `src/lib.rs:333-335` (`queue_capacity`): `Sender::capacity`. -/
def capacity (c : Channel μ) : Option Nat := c.cap

/-- `src/lib.rs:301-310` (`TelemetryTransmitter::send`) by thread `t`: `Sender::send` if `use_send`, otherwise
`Sender::try_send`. Errors are only logged. -/
def send (c : Channel μ) (t : Nat) (m : μ) : Channel μ × SendResult :=
  if !c.receiver then ({ c with log := c.log ++ [⟨t, m, false⟩] }, .lost)
  else if c.isFull then
    if c.useSend then (c, .blocked) else ({ c with log := c.log ++ [⟨t, m, false⟩] }, .lost)
  else ({ c with queue := c.queue ++ [(t, m)], log := c.log ++ [⟨t, m, true⟩] }, .accepted)

/-- Thread `t` gets the chance to do its next step. -/
def step (c : Channel μ) (t : Nat) : Channel μ :=
  match c.threads[t]? with
  | none => c
  | some th =>
    if th.holds then
      match th.todo with
      | m :: rest =>
        let (c', r) := c.send t m
        if r = .blocked then c else { c' with threads := c.threads.set t { th with todo := rest } }
      | [] => if th.drops then { c with threads := c.threads.set t { th with holds := false } } else c
    else c

/-- The threads take steps in the order given. -/
def run (c : Channel μ) (schedule : List Nat) : Channel μ := schedule.foldl step c

/-- All transmitters were dropped. -/
def abandoned (c : Channel μ) : Bool := c.threads.all fun th => !th.holds

/-- The receiver takes the first message, if there is one. -/
def take (c : Channel μ) : Channel μ :=
  match c.queue with
  | (t, m) :: queue => { c with queue, taken := c.taken ++ [(t, m)] }
  | [] => c

/-- The receiver is dropped, and with it all messages in the queue. -/
def dropReceiver (c : Channel μ) : Channel μ := { c with queue := [], receiver := false }

end Channel

/-- The result of `Receiver::try_recv`. -/
inductive TryRecv (μ : Type)
  | ok (m : μ)
  | empty
  | disconnected

/-- `crossbeam_channel::Receiver`. `ahead` is the schedule of the other threads: which of them take steps, and in
which order, before the receiver's next operation, before the one after that, and so on. After the end of the list
they do nothing more. -/
structure Receiver (μ : Type) where
  chan : Channel μ
  ahead : List (List Nat) := []

namespace Receiver
variable {μ : Type}

/-- Until the receiver's next operation. -/
def wait (r : Receiver μ) : Receiver μ :=
  match r.ahead with
  | [] => r
  | s :: ahead => { chan := r.chan.run s, ahead }

/-- `Receiver::try_recv`. -/
def tryRecv (r : Receiver μ) : Receiver μ × TryRecv μ :=
  let r := r.wait
  match r.chan.queue with
  | (_, m) :: _ => ({ r with chan := r.chan.take }, .ok m)
  | [] => (r, if r.chan.abandoned then .disconnected else .empty)

/-- `Receiver::len`. -/
def len (r : Receiver μ) : Receiver μ × Nat :=
  let r := r.wait
  (r, r.chan.queue.length)

end Receiver
end Metrix
