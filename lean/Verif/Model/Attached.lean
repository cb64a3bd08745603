import Verif.Model.Mount

/-!
# Handles of attached mounts: `src/attached_mount.rs`

The handles send over an unbounded channel, see `Verif.Model.Channel`. Each handle is in the hands of one thread of the
channel; its program are the messages of its calls of `put_processor` (33-37), `put_snapshooter` (39-43), `add_processor`
(47-51), `add_snapshooter` (53-57) and `attach_mount` (17-31, a processor that is itself an attached mount).
-/

namespace Metrix
variable {σ L μ : Type}

/-- `src/attached_mount.rs:60-63` (`ScopedMountMessage`). -/
inductive Attach (σ L : Type)
  | processor (n : Node σ L)
  | snapshooter (s : Snapshooter σ L)

/-- The loop `src/attached_mount.rs:79-93`: what is received until `try_recv` fails, and whether it failed with
`Disconnected`. The first argument bounds the number of rounds. -/
def Receiver.drainWithin : Nat → Receiver μ → Receiver μ × List μ × Bool
  | 0, r => (r, [], false)
  | n + 1, r =>
    match r.tryRecv with
    | (r, .ok m) =>
      let (r, ms, closed) := r.drainWithin n
      (r, m :: ms, closed)
    | (r, .empty) => (r, [], false)
    | (r, .disconnected) => (r, [], true)

/-- The messages that can still be received. -/
def Channel.outstanding (c : Channel μ) : Nat := (c.threads.map (·.todo.length)).sum + c.queue.length

/-- The loop `src/attached_mount.rs:79-93`. `Receiver.drain_ends` shows that the bound is never reached. -/
def Receiver.drain (r : Receiver μ) : Receiver μ × List μ × Bool := r.drainWithin (r.chan.outstanding + 1)

/-- The processors among the messages, `src/attached_mount.rs:81-83`. -/
def Attach.processors : List (Attach σ L) → List (Node σ L)
  | [] => []
  | .processor n :: ms => n :: Attach.processors ms
  | .snapshooter _ :: ms => Attach.processors ms

/-- The snapshooters among the messages, `src/attached_mount.rs:84-86`. -/
def Attach.snapshooters : List (Attach σ L) → List (Snapshooter σ L)
  | [] => []
  | .processor _ :: ms => Attach.snapshooters ms
  | .snapshooter s :: ms => s :: Attach.snapshooters ms

/-- What the next `n` calls of `process` receive, for `Node.attached`. After `Disconnected` the receiver is gone
(`src/attached_mount.rs:91, 95-97`). -/
def Receiver.inbox : Nat → Receiver (Attach σ L) → List (Arrivals (Node σ L) (Snapshooter σ L))
  | 0, _ => []
  | n + 1, r =>
    match r.drain with
    | (r, ms, closed) =>
      { processors := Attach.processors ms, snapshooters := Attach.snapshooters ms, closed } ::
        (if closed then [] else r.inbox n)

end Metrix
