import Verif.Spec.Channel
import Verif.Spec.Dispatch
import Verif.Spec.History
import Verif.Spec.Observation

/-!
# What a processor does

`Life` is any use of a processor: its owner makes calls, other threads transmit meanwhile (see `Receiver.ahead`).
`Story` says the same without any queue: messages are consumed, one after the other, each of them is processed or dropped.
-/

namespace Metrix

/-- A change of a value, as transmitted by `Increment`, `ChangeBy`, ... -/
def Observation.ChangesValue {L : Type} (o : Observation L) : Prop :=
  ∃ label d t, o = .observedOneValue label (.changedBy d) t

/-- The staleness rule, in a run that started at `start`. -/
def Strategy.Keeps {L : Type} (s : Strategy) (start : Int) (o : Observation L) : Prop :=
  match s with
  | .processAll => True
  | .dropAll => False
  | .dropOlderThan maxAge dropDeltas => start - o.madeAt ≤ maxAge ∨ (o.ChangesValue ∧ dropDeltas = false)

/-- What became of a message. A processed one comes with the number of instruments it updated. -/
inductive Verdict
  | processed (updated : Nat)
  | dropped
  deriving DecidableEq

def Verdict.isDropped : Verdict → Bool
  | .processed _ => false
  | .dropped => true

/-- The number of updated instruments. -/
def Verdict.updated : Verdict → Nat
  | .processed n => n
  | .dropped => 0

variable {σ L : Type}

/-- A message that changes the configuration. -/
def Message.IsConfig : Message σ L → Prop
  | .observation _ => False
  | _ => True

/-- What messages other than observations do. -/
def ProcessorState.configured (s : ProcessorState σ L) : Message σ L → ProcessorState σ L
  | .observation _ => s
  | .addCockpit c =>
    if c.name ≠ none ∧ c.name ∈ s.cockpits.map (·.name) then s else { s with cockpits := s.cockpits ++ [c] }
  | .removeCockpit name => { s with cockpits := s.cockpits.filter (·.name ≠ some name) }
  | .addHandler h => { s with handlers := s.handlers ++ [h] }
  | .addPanelToCockpit cockpitName p =>
    match s.cockpits.findIdx? (·.name = some cockpitName) with
    | some i => { s with cockpits := s.cockpits.modify i (·.addPanel p) }
    | none => s
  | .removePanelFromCockpit cockpitName panelName =>
    match s.cockpits.findIdx? (·.name = some cockpitName) with
    | some i => { s with cockpits := s.cockpits.modify i (·.removePanel panelName) }
    | none => s

/-- All leaves of the cockpits. -/
def leavesOfCockpits : List (Cockpit σ L) → List (Placed σ L)
  | [] => []
  | c :: cs => c.leaves ++ leavesOfCockpits cs

/-- Everything in a processor that can react to an observation. -/
def ProcessorState.leaves (s : ProcessorState σ L) : List (Placed σ L) :=
  leavesOfCockpits s.cockpits ++ leavesOfHandlers s.handlers

/-- Everything in a processor but the state of its leaves. -/
def ProcessorState.frame (s : ProcessorState σ L) :=
  (s.name, s.descr, s.activity, s.snapshooters, s.cockpits.map (·.shape), shapesOfHandlers s.handlers)

variable [DecidableEq L] [Custom σ L]

/-- `Handles e o k xs ns k' xs'`: one after the other the components `xs` took the observation `o` and became `xs'`.
`ns` is what each of them reported. -/
inductive Handles {C : Type} [Component C (Observation L)] (e : Env) (o : Observation L) :
    Nat → List C → List Nat → Nat → List C → Prop
  | nil {k} : Handles e o k [] [] k []
  | cons {k k₁ k' x x' n xs xs' ns} : Component.take x o e k = some ((x', n), k₁) → Handles e o k₁ xs ns k' xs' →
      Handles e o k (x :: xs) (n :: ns) k' (x' :: xs')

/-- `Applied e keeps k s msg v k' s'`: the state `s` became `s'` by the message `msg`, `v` is what became of the message.
An observation that is kept is given to all cockpits and then to all handlers, and changes nothing else. One that is not
kept changes nothing. -/
inductive Applied (e : Env) (keeps : Observation L → Prop) :
    Nat → ProcessorState σ L → Message σ L → Verdict → Nat → ProcessorState σ L → Prop
  | processed {k k₁ k' s o ns ms cockpits handlers} : keeps o → Handles e o k s.cockpits ns k₁ cockpits →
      Handles e o k₁ s.handlers ms k' handlers →
      Applied e keeps k s (.observation o) (.processed (ns.sum + ms.sum)) k' { s with cockpits, handlers }
  | dropped {k s o} : ¬ keeps o → Applied e keeps k s (.observation o) .dropped k s
  | config {k s msg} : msg.IsConfig → Applied e keeps k s msg (.processed 0) k (s.configured msg)

/-- One message after the other. -/
inductive Applies (e : Env) (keeps : Observation L → Prop) :
    Nat → ProcessorState σ L → List (Message σ L × Verdict) → Nat → ProcessorState σ L → Prop
  | nil {k s} : Applies e keeps k s [] k s
  | cons {k k₁ k' s s₁ s' msg v ms} : Applied e keeps k s msg v k₁ s₁ → Applies e keeps k₁ s₁ ms k' s' →
      Applies e keeps k s ((msg, v) :: ms) k' s'

/-- The outcome of a run accounts for what became of the messages it consumed. -/
structure Outcome.Accounts (out : Outcome) (ms : List (Message σ L × Verdict)) : Prop where
  processed : out.processed = (ms.filter fun m => !m.2.isDropped).length
  dropped : out.dropped = (ms.filter fun m => m.2.isDropped).length
  updated : out.instrumentsUpdated = (ms.map fun m => m.2.updated).sum

/-- No action drops the receiver: threads take steps and messages are received. -/
def NoDrop (as : List Action) : Prop := ∀ a ∈ as, a ≠ .dropReceiver

/-- What one or more operations of a receiver do to its channel: threads take steps and the messages `ms` are taken. -/
structure Took {μ : Type} (c c' : Channel μ) (ms : List μ) : Prop where
  acts : ∃ as, NoDrop as ∧ c' = c.acts as
  taken : ∃ l, l.map (·.2) = ms ∧ c'.taken = c.taken ++ l

/-- What the owner of a processor can do with it. -/
inductive Call (σ L : Type)
  | process (max : Nat) (strategy : Strategy)
  | snapshot (into : Snapshot) (descriptive : Bool)
  | addCockpit (c : Cockpit σ L)
  | addHandler (h : Handler σ L)
  | addSnapshooter (x : Snapshooter σ L)
  | setName (n : String)
  | setInactivityLimit (d : Nat)
  | setShowActivityState (b : Bool)

omit [DecidableEq L] [Custom σ L] in
/-- How often the calls poll the queue at most. -/
def Call.polls : Call σ L → Nat
  | .process max _ => max
  | _ => 0

omit [DecidableEq L] [Custom σ L] in
/-- How often the receiver is used at most. -/
def Call.uses : Call σ L → Nat
  | .process max _ => max + 1
  | _ => 0

/-- What the owner gets back. -/
inductive Reply
  | outcome (o : Outcome)
  | snapshot (s : Snapshot)
  | nothing

omit [DecidableEq L] [Custom σ L] in
/-- The calls that configure a processor. -/
def ProcessorState.set (s : ProcessorState σ L) : Call σ L → ProcessorState σ L
  | .process _ _ => s
  | .snapshot _ _ => s
  | .addCockpit c => s.addCockpit c
  | .addHandler h => s.addHandler h
  | .addSnapshooter x => s.addSnapshooter x
  | .setName n => s.setName n
  | .setInactivityLimit d => s.setInactivityLimit d
  | .setShowActivityState b => s.setShowActivityState b

/-- Make a call. -/
def Processor.call (p : Processor σ L) : Call σ L → M (Processor σ L × Reply)
  | .process max strategy => do
    let (p, out) ← p.process max strategy
    return (p, .outcome out)
  | .snapshot into d => do
    let (p, s) ← p.putSnapshot into d
    return (p, .snapshot s)
  | c => return ({ p with state := p.state.set c }, .nothing)

/-- A call that was made when the clock had been read `start` times, and what it returned. -/
structure Called (σ L : Type) where
  start : Nat
  call : Call σ L
  reply : Reply

/-- `Life e k p log k' p'`: the calls in `log` (oldest first) made `p` to `p'`. -/
inductive Life (e : Env) : Nat → Processor σ L → List (Called σ L) → Nat → Processor σ L → Prop
  | nil {k k' p} : k ≤ k' → Life e k p [] k' p
  | cons {k k₁ k₂ k' p p₁ p' c r log} : k ≤ k₁ → p.call c e k₁ = some ((p₁, r), k₂) → Life e k₂ p₁ log k' p' →
      Life e k p (⟨k₁, c, r⟩ :: log) k' p'

/-- The moment of the last activity is now `t`. -/
def ProcessorState.activeAt (s : ProcessorState σ L) (t : Int) : ProcessorState σ L :=
  { s with activity := { s.activity with lastActivity := t } }

/-- `Story e k s log consumed k' s'`: the calls in `log` made the state `s` to `s'`. `consumed` tells which messages each
call consumed, and what became of them: a run consumes some messages, at most as many as it was allowed to, applies
them one by one, reports what became of them and remembers the moment if there were any; the other calls consume
nothing. -/
inductive Story (e : Env) : Nat → ProcessorState σ L → List (Called σ L) →
    List (List (Message σ L × Verdict)) → Nat → ProcessorState σ L → Prop
  | nil {k k' s} : k ≤ k' → Story e k s [] [] k' s
  | run {k k₁ k₂ k₃ k₄ k' s s₁ s₂ s' max strategy out ms log consumed} : k ≤ k₁ → k₁ ≤ k₂ → k₃ ≤ k₄ →
      ms.length ≤ max → Applies e (strategy.Keeps (e.clock k₁)) k₂ s ms k₃ s₁ → out.Accounts ms →
      s₂ = (if ms = [] then s₁ else s₁.activeAt (e.clock k₃)) →
      Story e k₄ s₂ log consumed k' s' →
      Story e k s (⟨k₁, .process max strategy, .outcome out⟩ :: log) (ms :: consumed) k' s'
  | snapshot {k k₁ k₂ k' s s₁ s' into d into' log consumed} : k ≤ k₁ →
      s.putSnapshot into d e k₁ = some ((s₁, into'), k₂) → Story e k₂ s₁ log consumed k' s' →
      Story e k s (⟨k₁, .snapshot into d, .snapshot into'⟩ :: log) ([] :: consumed) k' s'
  | set {k k₁ k' s s' c log consumed} : k ≤ k₁ → (∀ m x, c ≠ .process m x) → (∀ i d, c ≠ .snapshot i d) →
      Story e k₁ (s.set c) log consumed k' s' →
      Story e k s (⟨k₁, c, .nothing⟩ :: log) ([] :: consumed) k' s'

/-- `Trail e k s ms k' s'`: the state `s` became `s'` by the messages `ms`, applied one after the other, no matter by which
runs. In between snapshots are put, the moment of the last activity is set and the owner configures the processor. -/
inductive Trail (e : Env) : Nat → ProcessorState σ L → List (Message σ L × Verdict) → Nat → ProcessorState σ L → Prop
  | nil {k k' s} : k ≤ k' → Trail e k s [] k' s
  | message {k k₁ k₂ k' s s₁ s' m v ms start} {strategy : Strategy} : k ≤ k₁ →
      Applied e (strategy.Keeps start) k₁ s m v k₂ s₁ → Trail e k₂ s₁ ms k' s' → Trail e k s ((m, v) :: ms) k' s'
  | active {k k' s s' ms t} : Trail e k (s.activeAt t) ms k' s' → Trail e k s ms k' s'
  | snapshot {k k₁ k₂ k' s s₁ s' into d into' ms} : k ≤ k₁ → s.putSnapshot into d e k₁ = some ((s₁, into'), k₂) →
      Trail e k₂ s₁ ms k' s' → Trail e k s ms k' s'
  | set {k k' s s' c ms} : Trail e k (s.set c) ms k' s' → Trail e k s ms k' s'

end Metrix
