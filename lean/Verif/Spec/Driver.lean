import Verif.Spec.Mount
import Verif.Model.Driver

/-! # What a driver does, seen from outside -/

namespace Metrix
variable {σ L : Type}

/-- The channel of a driver. -/
def DriverThread.channel : DriverThread σ L → Channel (DriverMsg σ L)
  | .running l => l.receiver.chan
  | .ended c => c

/-- The thread is still in its loop. -/
def DriverThread.Runs (t : DriverThread σ L) : Prop := ∃ l, t = .running l

/-- The messages handled in some iterations. -/
def handled (log : List (Iteration σ L)) : List (DriverMsg σ L) := log.filterMap (·.message)

/-- The outcomes of the runs in some iterations. -/
def runsOf (log : List (Iteration σ L)) : List Outcome := log.filterMap (·.outcome)

/-- The processors added by messages. -/
def addedProcessors (ms : List (DriverMsg σ L)) : List (Node σ L) :=
  ms.filterMap fun m => match m with
    | .addProcessor n => some n
    | _ => none

/-- The snapshooters added by messages. -/
def addedSnapshooters (ms : List (DriverMsg σ L)) : List (Snapshooter σ L) :=
  ms.filterMap fun m => match m with
    | .addSnapshooter s => some s
    | _ => none

/-- The strategy after some messages: the last one set. -/
def strategyAfter (initial : Strategy) (ms : List (DriverMsg σ L)) : Strategy :=
  ((ms.filterMap fun m => match m with
    | .setStrategy s => some s
    | _ => none).getLast?).getD initial

/-- Whether the driver is paused after some messages: whether the last of all `pause` and `resume` is a `pause`. -/
def pausedAfter (ms : List (DriverMsg σ L)) : Bool :=
  ((ms.filterMap fun m => match m with
    | .pause => some true
    | .resume => some false
    | _ => none).getLast?).getD false

/-- The snapshot requests among messages. -/
def requests (ms : List (DriverMsg σ L)) : List Nat :=
  ms.filterMap fun m => match m with
    | .getSnapshot id _ => some id
    | _ => none

/-- The answer given in an iteration, with the request it belongs to. -/
def Iteration.answered (i : Iteration σ L) : Option (Nat × Snapshot) :=
  match i.message, i.answer with
  | some (.getSnapshot id _), some s => some (id, s)
  | _, _ => none

/-- All answers. -/
def answersIn (log : List (Iteration σ L)) : List (Nat × Snapshot) := log.filterMap Iteration.answered

/-- One after the other each of `xs` puts its items into a snapshot. -/
inductive PutInTurn {X : Type} (put : X → Snapshot → M (X × Snapshot)) (e : Env) :
    Nat → List X → Snapshot → List X → Snapshot → Nat → Prop
  | nil {k into} : PutInTurn put e k [] into [] into k
  | cons {k k₁ k' x x' xs xs' into into₁ into'} : put x into e k = some ((x', into₁), k₁) →
      PutInTurn put e k₁ xs into₁ xs' into' k' → PutInTurn put e k (x :: xs) into (x' :: xs') into' k'

/-- The texts of a driver. -/
def driverTexts (descr : Descr) (d : Bool) : Snapshot :=
  if d then
    (descr.title.toList.map fun t => ("_title", .text t)) ++
      (descr.description.toList.map fun t => ("_description", .text t))
  else []

/-- In a group of its own, if there is a name. -/
def grouped (name : Option String) (level : Snapshot) : Snapshot :=
  match name with
  | some n => [(n, .snapshot level)]
  | none => level

/-- A list with at most one entry, the metrics of the driver. -/
def MetricsEntry (withMetrics : Bool) (items : Snapshot) : Prop :=
  if withMetrics then ∃ c, items = [("_metrix", .snapshot c)] else items = []

variable [DecidableEq L] [Custom σ L] [CustomProcessor σ]

/-- `DriverLife e k t log k' t'`: in the iterations of `log` (oldest first) the thread `t` became `t'`. What other threads do
meanwhile is given by the schedule in the receiver while the thread runs; after its end they use the channel without
a receiver. -/
inductive DriverLife (e : Env) : Nat → DriverThread σ L → List (Iteration σ L) → Nat → DriverThread σ L → Prop
  | nil {k k' t} : k ≤ k' → DriverLife e k t [] k' t
  | iteration {k k₁ k₂ k' t t₁ t' i log} : k ≤ k₁ → t.iterate e k₁ = (t₁, some i, k₂) → DriverLife e k₂ t₁ log k' t' →
      DriverLife e k t (i :: log) k' t'
  | over {k k₁ k₂ k' t t₁ t' log} : k ≤ k₁ → t.iterate e k₁ = (t₁, none, k₂) → DriverLife e k₂ t₁ log k' t' →
      DriverLife e k t log k' t'
  | others {k k' c s log t'} : DriverLife e k (.ended (c.run s)) log k' t' → DriverLife e k (.ended c) log k' t'

/-- The next `n` iterations, without a pause between them. -/
def DriverThread.iterations : Nat → DriverThread σ L → Env → Nat → List (Iteration σ L) × Nat × DriverThread σ L
  | 0, t, _, k => ([], k, t)
  | n + 1, t, e, k =>
    match t.iterate e k with
    | (t₁, i, k₁) =>
      match t₁.iterations n e k₁ with
      | (log, k₂, t₂) => (i.toList ++ log, k₂, t₂)

/-- A driver that was just created with the given settings. Its handles are going to be used as given by `programs`. -/
structure NewDriver (e : Env) (k : Nat) (name : Option String) (descr : Descr) (strategy : Strategy) (withMetrics : Bool)
    (programs : List (SendThread (DriverMsg σ L))) (t : DriverThread σ L) : Prop where
  created : ∃ (k₀ : Nat) (state : LoopState σ L) (ahead : List (List Nat)) (blind : List Bool),
    LoopState.new name descr strategy withMetrics e k₀ = some (state, k) ∧
    t = .running { state, receiver := { chan := .fresh none true programs, ahead }, blind }

omit [DecidableEq L] in
/-- What a component may become by snapshots alone. -/
inductive Node.Shown (e : Env) (n : Node σ L) : Node σ L → Prop
  | refl : Node.Shown e n n
  | snapshot {n₁ n₂ into into' d k k'} : Node.Shown e n n₁ → n₁.putSnapshot d into e k = some ((n₂, into'), k') →
      Node.Shown e n n₂

omit [DecidableEq L] [Custom σ L] [CustomProcessor σ] in
/-- The receivers of the processors below a node: their channels with everything that is still queued. -/
def Node.receivers (n : Node σ L) : List (Receiver (Message σ L)) :=
  n.leaves.filterMap fun n => match n with
    | .processor p => some p.receiver
    | _ => none

mutual
/-- What is going to arrive at the attached mounts below a node (and at itself), in order. -/
def Node.inboxes : Node σ L → List (List (Arrivals (Node σ L) (Snapshooter σ L)))
  | .mount _ ns _ => inboxesOfNodes ns
  | .attached _ ns _ inbox => inbox :: inboxesOfNodes ns
  | _ => []

def inboxesOfNodes : List (Node σ L) → List (List (Arrivals (Node σ L) (Snapshooter σ L)))
  | [] => []
  | n :: ns => n.inboxes ++ inboxesOfNodes ns
end

/-- The processors added in some iterations, each with the number of runs from the iteration of its addition on. -/
def addedWithRuns : List (Iteration σ L) → List (Node σ L × Nat)
  | [] => []
  | i :: log => (addedProcessors i.message.toList).map (fun n => (n, (runsOf (i :: log)).length)) ++ addedWithRuns log

/-- What the caller of `snapshot` (or the future of `snapshot_async`) experiences. -/
inductive CallState
  | waiting
  | ok (s : Snapshot)
  | error

omit [DecidableEq L] [Custom σ L] [CustomProcessor σ] in
/-- The state of a call that has sent its request, after the iterations in `log`, which led to `t`: it has its answer if there
was one. Otherwise it waits as long as the request with the back channel in it exists, that is: as long as it is queued. -/
def callState (id : Nat) (log : List (Iteration σ L)) (t : DriverThread σ L) : CallState :=
  match (answersIn log).find? (·.1 == id) with
  | some (_, s) => .ok s
  | none => if id ∈ requests (t.channel.queue.map (·.2)) then .waiting else .error

end Metrix
