import Verif.Model.Channel

/-!
# Threads with several transmitters: `src/lib.rs`

`Verif.Model.Channel` is about one channel and its threads. A thread of a program may have transmitters of several processors,
and uses them one after the other. While one of its calls of `send` waits (`src/lib.rs:301-310`) the thread does nothing else.
So what happens to different channels is connected by the order of the calls in each thread.
-/

namespace Metrix

/-- All channels, and for each thread the channels that it is still going to use, one for each call. What it sends with the call
is in the channel (`SendThread.todo`). The last use of a channel may be that the transmitter is dropped. -/
structure World (μ : Type) where
  chans : List (Channel μ)
  visits : List (List Nat)

/-- A thread: its calls of `TelemetryTransmitter::send` (`src/lib.rs:301-310`), as numbers of channels with messages, in order, and
then the transmitters that it drops. -/
structure Worker (μ : Type) where
  program : List (Nat × μ)
  leaves : List Nat := []

/-- Of the calls of a program those for channel `i`. -/
def callsTo {μ : Type} (i : Nat) (program : List (Nat × μ)) : List μ := (program.filter (·.1 == i)).map (·.2)

/-- What can happen next: a thread gets the chance to take a step; who owns receiver `i` calls `try_recv` or `len`
(`src/processor.rs:508, 578`); receiver `i` is dropped. -/
inductive WorldEvent
  | thread (t : Nat)
  | receive (i : Nat)
  | look (i : Nat)
  | dropReceiver (i : Nat)
  deriving DecidableEq

/-- Whether the next call of `send` of thread `t` has to wait (`src/lib.rs:301-310`: `Sender::send` on a full channel). -/
def Channel.holdsUp {μ : Type} (c : Channel μ) (t : Nat) : Bool :=
  match c.threads[t]? with
  | some { todo := m :: _, holds := true, .. } => decide ((c.send t m).2 = .blocked)
  | _ => false

namespace World
variable {μ : Type}

/-- New channels (`src/processor.rs:270-284`), each with its capacity and whether
transmitters wait, and the threads. -/
def fresh (channels : List (Option Nat × Bool)) (workers : List (Worker μ)) : World μ where
  chans := channels.mapIdx fun i c =>
    { cap := c.1, useSend := c.2,
      threads := workers.map fun w => { todo := callsTo i w.program, drops := w.leaves.contains i } }
  visits := workers.map fun w => w.program.map (·.1) ++ w.leaves

/-- Thread `t` gets the chance to do its next step (`src/lib.rs:301-310`). -/
def step (w : World μ) (t : Nat) : World μ :=
  match w.visits[t]? with
  | some (i :: rest) =>
    match w.chans[i]? with
    | some c =>
      if c.holdsUp t then w else { chans := w.chans.set i (c.step t), visits := w.visits.set t rest }
    | none => { w with visits := w.visits.set t rest }
  | _ => w

/-- Something happens. -/
def act (w : World μ) : WorldEvent → World μ
  | .thread t => w.step t
  | .receive i => { w with chans := w.chans.modify i Channel.take }
  | .look _ => w
  | .dropReceiver i => { w with chans := w.chans.modify i Channel.dropReceiver }

def run (w : World μ) (evs : List WorldEvent) : World μ := evs.foldl act w

end World
end Metrix
