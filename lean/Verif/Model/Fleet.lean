/-!
# Drivers that wait for each other: `src/driver.rs`

A `TelemetryDriver` can be mounted like any other processor, in another driver or in itself. Its `put_snapshot` asks the
driver for a snapshot and waits for the answer (`src/driver.rs:240-247, 288-297`). The thread that waits is the one of the
driver in which it is mounted, since that thread makes the snapshots (`src/driver.rs:386-411`).

This model is only about who waits for whom. What is in the snapshots is left out, and so is everything a driver's thread does
besides handling messages; see `Verif.Model.Driver` for both. There are `n` drivers.
-/

namespace Metrix.Fleet

/-- Who wants an answer: a call of `snapshot` or `snapshot_async` from outside of all drivers, or the thread of a driver. -/
inductive Caller (n : Nat)
  | outside (id : Nat)
  | driver (i : Fin n)
  deriving DecidableEq

/-- `src/driver.rs:350-358` (`DriverMessage`): those that matter here. `mount` is `AddProcessor` or `AddSnapshooter` with all
handles of drivers that are anywhere in what is added. `request` is `GetSnapshotSync` or `GetSnapshotAsync`. -/
inductive Msg (n : Nat)
  | request (c : Caller n)
  | mount (js : List (Fin n))

/-- A snapshot that is being made (`src/driver.rs:389-411`): for whom, and which drivers are still to be asked. If `waiting`,
the first of them has been asked and the thread is in `rx.recv()` (`src/driver.rs:246`). -/
structure Job (n : Nat) where
  caller : Caller n
  todo : List (Fin n)
  waiting : Bool := false

/-- A driver: its channel, the handles of drivers mounted in it, in order, and what its thread is doing: `none` if it is not
making a snapshot. The thread is `alive` until it ends. -/
structure Peer (n : Nat) where
  queue : List (Msg n) := []
  mounts : List (Fin n) := []
  job : Option (Job n) := none
  alive : Bool := true

/-- All drivers, and the answers to calls from outside, in order: an answer is a snapshot (`true`) or an error. -/
structure Net (n : Nat) where
  peer : Fin n → Peer n := fun _ => {}
  answers : List (Nat × Bool) := []

variable {n : Nat}

/-- `rx.recv()` returns, in `snapshot` (`src/driver.rs:246`). With the answer or an error, `put_snapshot` goes on
(`src/driver.rs:290-295`). -/
def Peer.resume (p : Peer n) : Peer n :=
  { p with job := p.job.map fun b => if b.waiting then { b with todo := b.todo.tail, waiting := false } else b }

namespace Net

/-- Only driver `i` changes. -/
def set (net : Net n) (i : Fin n) (p : Peer n) : Net n :=
  { net with peer := fun j => if j = i then p else net.peer j }

/-- `back_channel.send(snapshot)` (`src/driver.rs:398, 409`), or the back channel is dropped. -/
def answer (net : Net n) (c : Caller n) (ok : Bool) : Net n :=
  match c with
  | .outside id => { net with answers := net.answers ++ [(id, ok)] }
  | .driver j => net.set j (net.peer j).resume

/-- `self.sender.send(..)` (`src/driver.rs:243-245, 255-257, 330-347`). If the receiver is gone the message is dropped, and with
it its back channel. -/
def send (net : Net n) (i : Fin n) (m : Msg n) : Net n :=
  if (net.peer i).alive then net.set i { net.peer i with queue := (net.peer i).queue ++ [m] }
  else
    match m with
    | .request c => net.answer c false
    | .mount _ => net

/-- The thread of driver `i` takes a step (`src/driver.rs:386-423`): it receives a message (`try_recv`), asks the next of the
mounted drivers, or sends the answer. It does nothing while it waits. When a snapshot is begun, `order` tells at which
positions of `mounts` the drivers are that will be asked, and in which order. The code asks processors before snapshooters, and
does not ask what is in an inactive mount (`src/processor.rs:672-697`). Here any order is possible. -/
def turn (net : Net n) (i : Fin n) (order : List Nat) : Net n :=
  let p := net.peer i
  match p.job with
  | none =>
    match p.queue with
    | [] => net
    | .mount js :: queue => net.set i { p with queue, mounts := p.mounts ++ js }
    | .request caller :: queue => net.set i { p with queue, job := some { caller, todo := order.filterMap (p.mounts[·]?) } }
  | some { caller, todo := [], waiting := false } => (net.set i { p with job := none }).answer caller true
  | some { caller, todo := j :: todo, waiting := false } =>
    (net.set i { p with job := some { caller, todo := j :: todo, waiting := true } }).send j (.request (.driver i))
  | some { waiting := true, .. } => net

/-- All who wait for an answer of the driver: the one it is working for, and those in the queue. -/
def _root_.Metrix.Fleet.Peer.callers (p : Peer n) : List (Caller n) :=
  (p.job.toList.map (·.caller)) ++ p.queue.filterMap fun m => match m with
    | .request c => some c
    | .mount _ => none

/-- The thread of driver `i` ends (`src/driver.rs:378-380`), or it panics. The queue is dropped, and with it the back channels
(`crossbeam_channel` discards the messages when the last receiver is dropped). A thread that waits cannot end. -/
def stop (net : Net n) (i : Fin n) : Net n :=
  let p := net.peer i
  if p.alive && !(p.job.any (·.waiting)) then
    p.callers.foldl (fun net c => net.answer c false) (net.set i { p with queue := [], job := none, alive := false })
  else net

/-- Drivers `js` arrive at attached mounts (`src/attached_mount.rs:76-93`) in driver `i`. This happens in a run, not while a
snapshot is made. -/
def attach (net : Net n) (i : Fin n) (js : List (Fin n)) : Net n :=
  let p := net.peer i
  if p.job.isNone then net.set i { p with mounts := p.mounts ++ js } else net

end Net

/-- What can happen. -/
inductive Act (n : Nat)
  /-- The thread of driver `i` gets the chance to take a step. -/
  | turn (i : Fin n) (order : List Nat)
  /-- `snapshot` or `snapshot_async` is called on a handle of driver `i`, from outside. -/
  | call (i : Fin n) (id : Nat)
  /-- Something with handles of the drivers `js` in it is added to driver `i`. -/
  | mount (i : Fin n) (js : List (Fin n))
  | attach (i : Fin n) (js : List (Fin n))
  | stop (i : Fin n)

def Net.act (net : Net n) : Act n → Net n
  | .turn i order => net.turn i order
  | .call i id => net.send i (.request (.outside id))
  | .mount i js => net.send i (.mount js)
  | .attach i js => net.attach i js
  | .stop i => net.stop i

end Metrix.Fleet
