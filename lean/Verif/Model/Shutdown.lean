import Verif.Model.Driver

/-!
# What is dropped at the end of a driver

Rust drops what a thread owns when the thread ends, whether it returns or panics, and drops a value that nobody takes. The
closure of `start_telemetry_loop` (`src/driver.rs:329-348`) gives the receiver of the messages to the driver to
`telemetry_loop` (360-467), which also owns the processors and the snapshooters (369-370). No type in `/repo` except `DropGuard` (162-166) implements
`Drop`, so dropping a component means dropping its fields.

What matters to others are the receivers of processors, since threads may be sending to them. So dropping is modelled by the
channels of these receivers, in the state they are in afterwards. Snapshooters (`Verif.Model.Tree`) have no receivers, those
of user defined components are not modelled, and a driver handle in a driver does not own the other driver's processors.
-/

namespace Metrix
variable {σ L : Type}

mutual
/-- A component is dropped.
* a processor drops its receiver (`src/processor.rs:197-209`)
* a mount drops its processors (`src/processor.rs:616-624`)
* an attached mount also drops the receiver of what is attached to it, and with it everything in its queue
  (`src/attached_mount.rs:65-68`). What a handle attaches later is rejected by the channel, and the handle drops it
  (`src/attached_mount.rs:33-37, 47-51`). So everything that was going to arrive is dropped. -/
def Node.discards : Node σ L → List (Channel (Message σ L))
  | .processor p => [p.receiver.chan.dropReceiver]
  | .mount _ ns _ => discardsOfNodes ns
  | .attached _ ns _ inbox => discardsOfNodes ns ++ discardsOfInbox inbox
  | .driver _ => []
  | .custom _ => []

def discardsOfNodes : List (Node σ L) → List (Channel (Message σ L))
  | [] => []
  | n :: ns => n.discards ++ discardsOfNodes ns

def discardsOfInbox : List (Arrivals (Node σ L) (Snapshooter σ L)) → List (Channel (Message σ L))
  | [] => []
  | ⟨ps, _, _⟩ :: inbox => discardsOfNodes ps ++ discardsOfInbox inbox
end

/-- A message to a driver is dropped (`src/driver.rs:350-358`). -/
def DriverMsg.discards : DriverMsg σ L → List (Channel (Message σ L))
  | .addProcessor n => n.discards
  | _ => []

/-- `src/driver.rs:305-317`: the handle ignores the error, so a message that was not accepted is dropped. -/
def Sent.discards (s : Sent (DriverMsg σ L)) : List (Channel (Message σ L)) :=
  if s.accepted then [] else s.message.discards

variable [DecidableEq L] [Custom σ L] [CustomProcessor σ]

/-- What is dropped when the thread of the driver does an iteration: nothing if it runs on. Otherwise the processors of the
loop, the message it is handling, if there is one, and the messages in its queue.

Simplification: if the loop ends by a panic the processors are taken as they were before the iteration. A processor may have
taken messages since. The channel afterwards is without messages and without receiver in any case. -/
def DriverThread.discards (t : DriverThread σ L) (e : Env) (k : Nat) : List (Channel (Message σ L)) :=
  match t with
  | .ended _ => []
  | .running l =>
    match (DriverThread.running l).iterate e k with
    | (.running _, _, _) => []
    | (.ended _, _, _) =>
      match pollDriver (l.blind.headD false) l.receiver with
      | (r, .stop) => discardsOfNodes l.state.processors ++ r.chan.queue.flatMap fun x => x.2.discards
      | (r, .go message) =>
        discardsOfNodes l.state.processors ++ (message.toList.flatMap DriverMsg.discards) ++ r.chan.queue.flatMap fun x => x.2.discards

end Metrix
