import Verif.Spec.Processing
import Verif.Model.Attached

/-! # What processing a mount means -/

namespace Metrix
variable {σ L : Type}

/-- The component-wise sum. -/
def Outcome.IsSum (o : Outcome) (os : List Outcome) : Prop :=
  o.processed = (os.map (·.processed)).sum ∧ o.dropped = (os.map (·.dropped)).sum ∧
    o.instrumentsUpdated = (os.map (·.instrumentsUpdated)).sum ∧
    o.observationsEnqueued = (os.map (·.observationsEnqueued)).sum

/-- One after the other, each of the components `ns` is processed once, with the budget `max`. They become `ns'` and
report `os`. The clock may be read in between. -/
inductive InTurn [DecidableEq L] [Custom σ L] [CustomProcessor σ] (e : Env) (max : Nat) (strategy : Strategy) :
    Nat → List (Node σ L) → List (Node σ L) → List Outcome → Nat → Prop
  | nil {k k' : Nat} : k ≤ k' → InTurn e max strategy k [] [] [] k'
  | cons {k k₁ k₂ k' : Nat} {n n' : Node σ L} {o : Outcome} {ns ns' : List (Node σ L)} {os : List Outcome} : k ≤ k₁ →
      n.process max strategy e k₁ = some ((n', o), k₂) → InTurn e max strategy k₂ ns ns' os k' →
      InTurn e max strategy k (n :: ns) (n' :: ns') (o :: os) k'

mutual
/-- The processors (and drivers and user defined components) below a node, in order, at any depth. -/
def Node.leaves : Node σ L → List (Node σ L)
  | .processor p => [.processor p]
  | .mount _ ns _ => leavesOfNodes ns
  | .attached _ ns _ _ => leavesOfNodes ns
  | .driver as => [.driver as]
  | .custom s => [.custom s]

def leavesOfNodes : List (Node σ L) → List (Node σ L)
  | [] => []
  | n :: ns => n.leaves ++ leavesOfNodes ns
end

mutual
/-- The node with everything in place that arrives at its attached mounts in the next run. -/
def Node.joined : Node σ L → Node σ L
  | .processor p => .processor p
  | .mount h ns ss => .mount h (joinedNodes ns) ss
  | .attached h ns ss [] => .attached h (joinedNodes ns) ss []
  | .attached h ns ss (⟨ps, ss', closed⟩ :: inbox) =>
    .attached h (joinedNodes ns ++ joinedNodes ps) (ss ++ ss') (if closed then [] else inbox)
  | .driver as => .driver as
  | .custom s => .custom s

def joinedNodes : List (Node σ L) → List (Node σ L)
  | [] => []
  | n :: ns => n.joined :: joinedNodes ns
end

/-- The receiver of an attached mount after the next `m` runs. -/
def Receiver.drains {μ : Type} : Nat → Receiver μ → Receiver μ
  | 0, r => r
  | m + 1, r => r.drain.1.drains m

/-- The channel of an attached mount whose handles have the given programs, at any time. -/
def HandleChannel (programs : List (SendThread (Attach σ L))) (c : Channel (Attach σ L)) : Prop :=
  ∃ as, NoDrop as ∧ c = (Channel.fresh none true programs).acts as

variable [DecidableEq L] [Custom σ L] [CustomProcessor σ]

/-- `n` became `n'` by runs and snapshots. -/
inductive Node.Became (e : Env) (n : Node σ L) : Node σ L → Prop
  | refl : Node.Became e n n
  | run {n₁ n₂ max strategy o k k'} : Node.Became e n n₁ → n₁.process max strategy e k = some ((n₂, o), k') →
      Node.Became e n n₂
  | snapshot {n₁ n₂ into into' d k k'} : Node.Became e n n₁ → n₁.putSnapshot d into e k = some ((n₂, into'), k') →
      Node.Became e n n₂

omit [DecidableEq L] [CustomProcessor σ] in
/-- `x` became `x'` by snapshots. -/
inductive Snapshooter.Became (e : Env) (x : Snapshooter σ L) : Snapshooter σ L → Prop
  | refl : Snapshooter.Became e x x
  | snapshot {x₁ x₂ into into' d k k'} : Snapshooter.Became e x x₁ →
      x₁.putSnapshot d into e k = some ((x₂, into'), k') → Snapshooter.Became e x x₂

/-- `Node.Used e n m n'`: runs, `m` of them, and snapshots in any order made `n` to `n'`. -/
inductive Node.Used (e : Env) : Node σ L → Nat → Node σ L → Prop
  | nil {n} : Node.Used e n 0 n
  | run {n n₁ n' m max strategy o k k'} : n.process max strategy e k = some ((n₁, o), k') → Node.Used e n₁ m n' →
      Node.Used e n (m + 1) n'
  | snapshot {n n₁ n' m into into' d k k'} : n.putSnapshot d into e k = some ((n₁, into'), k') → Node.Used e n₁ m n' →
      Node.Used e n m n'

end Metrix
