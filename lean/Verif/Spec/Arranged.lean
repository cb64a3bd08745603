import Verif.Spec.Reorder
import Verif.Spec.Renamed
import Verif.Spec.UndisturbedRun

/-!
# The same processors, arranged in another way

`n.Reordered n'` for processors and mounts: below `n'` are the same processors, mounts and snapshooters as below `n`. They may be in another
order, and mounts that only group their parts need not be there.
-/

namespace Metrix
variable {σ L : Type}

/-- The same messages are under way, and the parts are the same in another order. -/
structure Processor.Reordered (p p' : Processor σ L) : Prop where
  receiver : p.receiver = p'.receiver
  isDisconnected : p.isDisconnected = p'.isDisconnected
  state : p.state.Reordered p'.state

/-- The mount only groups what was added to it. -/
structure MountHead.Plain (h : MountHead) : Prop where
  name : h.name = none
  limit : h.maxInactivity = none

mutual
inductive Node.Reordered : Node σ L → Node σ L → Prop
  | processor {p p' : Processor σ L} : p.Reordered p' → Node.Reordered (.processor p) (.processor p')
  | mount (h : MountHead) {ns ns' : List (Node σ L)} {ss ss' : List (Snapshooter σ L)} : NodesReordered ns ns' →
      SnapshootersReordered ss ss' → Node.Reordered (.mount h ns ss) (.mount h ns' ss')
  /-- What is in a mount that only groups its parts may be in the mount around it. -/
  | ungroup {h g : MountHead} {ks ks' ns ns' : List (Node σ L)} {ss ss' ts ts' : List (Snapshooter σ L)} : g.Plain →
      NodesReordered ks ks' → NodesReordered ns ns' → SnapshootersReordered ss ss' → SnapshootersReordered ts ts' →
      Node.Reordered (.mount h (.mount g ks ts :: ns) ss) (.mount h (ks' ++ ns') (ts' ++ ss'))
  | attached (h : MountHead) {ns ns' : List (Node σ L)} {ss ss' : List (Snapshooter σ L)}
      (inbox : List (Arrivals (Node σ L) (Snapshooter σ L))) : NodesReordered ns ns' →
      SnapshootersReordered ss ss' → Node.Reordered (.attached h ns ss inbox) (.attached h ns' ss' inbox)
  | driver (as : List (Bool → Option Snapshot)) : Node.Reordered (.driver as) (.driver as)
  | custom (s : σ) : Node.Reordered (.custom s) (.custom s)
  | symm {n n' : Node σ L} : n.Reordered n' → Node.Reordered n' n
  | trans {n n' n'' : Node σ L} : n.Reordered n' → n'.Reordered n'' → Node.Reordered n n''
inductive NodesReordered : List (Node σ L) → List (Node σ L) → Prop
  | nil : NodesReordered [] []
  | cons {n n' : Node σ L} {ns ns' : List (Node σ L)} : n.Reordered n' → NodesReordered ns ns' → NodesReordered (n :: ns) (n' :: ns')
  | swap {m m' n n' : Node σ L} {ns ns' : List (Node σ L)} : m.Reordered m' → n.Reordered n' → NodesReordered ns ns' →
      NodesReordered (m :: n :: ns) (n' :: m' :: ns')
  /-- The processors in a mount that only groups them may be where the mount is. -/
  | mount {g : MountHead} {ks ks' ns ns' : List (Node σ L)} : g.Plain → NodesReordered ks ks' → NodesReordered ns ns' →
      NodesReordered (.mount g ks [] :: ns) (ks' ++ ns')
  | symm {ns ns' : List (Node σ L)} : NodesReordered ns ns' → NodesReordered ns' ns
  | trans {ns ns' ns'' : List (Node σ L)} : NodesReordered ns ns' → NodesReordered ns' ns'' → NodesReordered ns ns''
end

/-- Runs report the same, and snapshots show the same in another order. -/
inductive Reply.Reordered : Reply → Reply → Prop
  | outcome (o : Outcome) : Reply.Reordered (.outcome o) (.outcome o)
  | snapshot {s s' : Snapshot} : s.Reordered s' → Reply.Reordered (.snapshot s) (.snapshot s')
  | nothing : Reply.Reordered .nothing .nothing

/-- What can be added to a mount. -/
inductive MountPiece (σ L : Type)
  | processor (n : Node σ L)
  | snapshooter (s : Snapshooter σ L)

/-- The calls `add_processor` and `add_snapshooter` of a mount. -/
def Node.add (n : Node σ L) : MountPiece σ L → Node σ L
  | .processor x => Node.addProcessor x n
  | .snapshooter s => Node.addSnapshooter s n

end Metrix
