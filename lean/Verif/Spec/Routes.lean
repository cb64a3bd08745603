import Verif.Spec.Delivery

/-! # The way to something that has been or will be attached -/

namespace Metrix
variable {σ L : Type}

/-- A step from a mount to something in it: `here i` is component number `i` of those that are in it, `arriving run i` is
number `i` of the processors that will arrive in its `run`-th next run (0 is the next one). -/
inductive Step
  | here (i : Nat)
  | arriving (run i : Nat)
  deriving DecidableEq

/-- Where a step leads. Nothing arrives after the run in which the channel of the handles was found closed. -/
def Node.next : Step → Node σ L → Option (Node σ L)
  | .here i, n => n.children[i]?
  | .arriving run i, .attached _ _ _ inbox =>
    if (inbox.take run).all (!·.closed) then inbox[run]?.bind (·.processors[i]?) else none
  | .arriving _ _, _ => none

/-- Where a route leads. -/
def Node.reach : List Step → Node σ L → Option (Node σ L)
  | [], n => some n
  | s :: route, n => (n.next s).bind (Node.reach route)

/-- The names of the mounts on a route. -/
def Node.mountsVia : List Step → Node σ L → List String
  | [], _ => []
  | s :: route, n => n.mountName.toList ++ ((n.next s).map (Node.mountsVia route)).getD []

/-- The number of runs that pass before the processor at the end of the route is run for the first time. -/
def waits (route : List Step) : Nat := (route.map fun s => match s with
  | .here _ => 0
  | .arriving run _ => run).sum

end Metrix
