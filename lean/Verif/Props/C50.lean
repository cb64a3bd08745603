import Verif.Proof.Mount
import Verif.Props.C13

/-! # C50: The outcome of a mount is the sum over its processors -/

namespace Metrix
variable {σ L : Type} [DecidableEq L] [Custom σ L] [CustomProcessor σ]

/-- `InTurn` is about each of the components, exactly once: there are as many results and outcomes as components, and
the `i`-th of each belong together. -/
theorem C50_once {e : Env} {max : Nat} {strategy : Strategy} {k k' : Nat} {ns ns' : List (Node σ L)} {os : List Outcome}
    (h : InTurn e max strategy k ns ns' os k') :
    ns'.length = ns.length ∧ os.length = ns.length ∧
      ∀ (i : Nat) (n : Node σ L), ns[i]? = some n → ∃ n' o j j', ns'[i]? = some n' ∧ os[i]? = some o ∧
        n.process max strategy e j = some ((n', o), j') := by
  induction h with
  | nil => exact ⟨rfl, rfl, fun i n h => by simp at h⟩
  | cons hk hp _ ih =>
    obtain ⟨h1, h2, h3⟩ := ih
    refine ⟨by simp [h1], by simp [h2], fun i n hn => ?_⟩
    cases i with
    | zero => simp at hn; subst hn; exact ⟨_, _, _, _, rfl, rfl, hp⟩
    | succ i => simp at hn; simpa using h3 i n hn

/-- Processing a mount processes each of the processors in it once, in order, each with the whole budget. The outcome is
the sum of their outcomes. Nothing else about the mount changes, except for the moment of the last activity. -/
theorem C50_mount {e : Env} {max : Nat} {strategy : Strategy} {h : MountHead} {ns : List (Node σ L)}
    {ss : List (Snapshooter σ L)} {n' : Node σ L} {o : Outcome} {k k' : Nat}
    (hp : (Node.mount h ns ss).process max strategy e k = some ((n', o), k')) :
    ∃ ns' os k₁, InTurn e max strategy k ns ns' os k₁ ∧ k₁ ≤ k' ∧ o.IsSum os ∧
      n' = .mount { h with lastActivity := if o.processed > 0 ∨ o.dropped > 0 then e.clock k₁ else h.lastActivity } ns' ss := by
  obtain ⟨ns', os, k₁, h1, h2, h3, h4⟩ := process_mount hp
  refine ⟨ns', os, k₁, h1, h2, h3, ?_⟩
  rw [h4]
  simp [Outcome.somethingHappened]

/-- Processing a tree of mounts (and attached mounts) processes each of the processors at any depth once, from the first
to the last, each with the whole budget, and the outcome is the sum of all their outcomes. What arrives at attached
mounts in this run (`Node.joined`) takes part. -/
theorem C50_tree {e : Env} {max : Nat} {strategy : Strategy} {n n' : Node σ L} {o : Outcome} {k k' : Nat}
    (h : n.process max strategy e k = some ((n', o), k')) :
    ∃ os k₁, InTurn e max strategy k n.joined.leaves n'.leaves os k₁ ∧ k₁ ≤ k' ∧ o.IsSum os := process_leaves n h

/-- The same for a run of the driver over its processors. -/
theorem C50_run {e : Env} {max : Nat} {strategy : Strategy} {ns ns' : List (Node σ L)} {o : Outcome} {k k' : Nat}
    (h : processNodes max strategy ns e k = some ((ns', o), k')) :
    (∃ os, InTurn e max strategy k ns ns' os k' ∧ o.IsSum os) ∧
    ∃ os, InTurn e max strategy k (leavesOfNodes (joinedNodes ns)) (leavesOfNodes ns') os k' ∧ o.IsSum os :=
  ⟨processNodes_inTurn h, processNodes_leaves ns h⟩

/-! ## Example: two mounts, three processors, one of them with nothing to do -/

instance : CustomProcessor Empty where
  process s := nomatch s
  putSnapshot s := nomatch s

def idleProcessor : Processor Empty Nat where
  state := { activity := ⟨0, none, true⟩ }
  receiver := { chan := .fresh none true [{ todo := [], drops := false }] }

def exampleMount : Node Empty Nat :=
  .mount { name := some "m", lastActivity := 0, maxInactivity := some 1 }
    [.processor exampleProcessor, .mount { lastActivity := 0 } [.processor idleProcessor, .processor exampleProcessor] []] []

example : (exampleMount.process 3 .processAll ticking 1).map (fun r => (r.1.2, r.2)) = some (⟨6, 0, 10, 2⟩, 5) := rfl

example : exampleMount.joined.leaves.length = 3 := rfl

example := C50_mount (e := ticking) (max := 3) (strategy := .processAll) (k := 1) (h := { name := some "m", lastActivity := 0 })
  (ns := [.processor exampleProcessor, .processor idleProcessor]) (ss := []) rfl
example := C50_tree (e := ticking) (max := 3) (strategy := .processAll) (k := 1) (n := exampleMount) rfl
example := C50_run (e := ticking) (max := 3) (strategy := .processAll) (k := 1) (ns := [exampleMount, .processor idleProcessor]) rfl

end Metrix
