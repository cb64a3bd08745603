import Verif.Spec.Undisturbed
import Verif.Spec.SafeRun

/-!
# Calls at given moments

The same as in `Verif.Spec.Undisturbed` for processors and mounts: each call happens at one moment.
-/

namespace Metrix
variable {σ L : Type}

/-- `AtMoments call e x log x'`: the calls of `log` were made on `x` at the given moments, with the given results, oldest first.
Then it was `x'`. -/
inductive AtMoments {X O R : Type} (call : X → O → M (X × R)) (e : Env) : X → List (Nat × O × R) → X → Prop
  | nil (x : X) : AtMoments call e x [] x
  | cons {x x₁ x' : X} {m k : Nat} {o : O} {r : R} {log : List (Nat × O × R)} :
      call x o (e.at m) 0 = some ((x₁, r), k) → AtMoments call e x₁ log x' → AtMoments call e x ((m, o, r) :: log) x'

/-- `fewer` is `log` without some of the calls of the given kind. -/
inductive Without {O R : Type} (kind : O → Prop) : List (Nat × O × R) → List (Nat × O × R) → Prop
  | nil : Without kind [] []
  | keep {fewer log : List (Nat × O × R)} (x : Nat × O × R) : Without kind fewer log → Without kind (x :: fewer) (x :: log)
  | leaveOut {fewer log : List (Nat × O × R)} (x : Nat × O × R) : kind x.2.1 → Without kind fewer log →
      Without kind fewer (x :: log)

/-- The moments come one after the other. -/
def MomentsInOrder {O R : Type} (log : List (Nat × O × R)) : Prop := (log.map (·.1)).Pairwise (· ≤ ·)

def Call.IsSnapshot (c : Call σ L) : Prop := ∃ into d, c = .snapshot into d

def NodeCall.IsSnapshot (c : NodeCall) : Prop := ∃ into d, c = .snapshot into d

/-- The instruments in a call. -/
def Call.instruments : Call σ L → List (Instrument σ)
  | .addCockpit c => c.instruments
  | .addHandler h => h.instruments
  | .addSnapshooter x => x.instruments
  | _ => []

/-- Make a call. -/
def Node.call [DecidableEq L] [Custom σ L] [CustomProcessor σ] (n : Node σ L) : NodeCall → M (Node σ L × Reply)
  | .process max strategy => do
    let (n, o) ← n.process max strategy
    return (n, .outcome o)
  | .snapshot into d => do
    let (n, s) ← n.putSnapshot d into
    return (n, .snapshot s)

mutual
/-- There is no handle of a driver in there, and none is going to be attached. (A driver counts the snapshots that are taken of
it.) -/
def Node.NoDriver : Node σ L → Prop
  | .processor _ => True
  | .mount _ ns _ => NoDrivers ns
  | .attached _ ns _ inbox => NoDrivers ns ∧ NoDriversIn inbox
  | .driver _ => False
  | .custom _ => True

def NoDrivers : List (Node σ L) → Prop
  | [] => True
  | n :: ns => n.NoDriver ∧ NoDrivers ns

def NoDriversIn : List (Arrivals (Node σ L) (Snapshooter σ L)) → Prop
  | [] => True
  | ⟨ps, _, _⟩ :: inbox => NoDrivers ps ∧ NoDriversIn inbox
end

/-- What user defined processors do depends only on their state and the moment, and a snapshot does not change their state. -/
structure CustomProcessorStill (σ : Type) [CustomProcessor σ] : Prop where
  process : ∀ (e : Env) (m : Nat) (s : σ) max strategy k k',
    (CustomProcessor.process s max strategy (e.at m) k).map (·.1) = (CustomProcessor.process s max strategy (e.at m) k').map (·.1)
  putSnapshot : ∀ (e : Env) (m : Nat) (s : σ) into d k k',
    (CustomProcessor.putSnapshot s into d (e.at m) k).map (·.1) = (CustomProcessor.putSnapshot s into d (e.at m) k').map (·.1)
  unchanged : ∀ (e : Env) (m : Nat) (s : σ) into d k r,
    CustomProcessor.putSnapshot s into d (e.at m) k = some r → r.1.1 = s

end Metrix
