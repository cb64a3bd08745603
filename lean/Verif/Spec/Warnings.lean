import Verif.Spec.Driver

/-! # What a driver writes to the log about what was dropped -/

namespace Metrix
variable {σ L : Type}

/-- What the runs in some iterations dropped. -/
def droppedIn (log : List (Iteration σ L)) : Nat := ((runsOf log).map (·.dropped)).sum

/-- What the warnings tell altogether. -/
def warnedOf (ws : List Warning) : Nat := (ws.map (·.dropped)).sum

/-- The iterations of `log`, cut into stretches, one for each warning, and a rest. A warning tells what was dropped in its stretch, which was
something. -/
def WarnedFor (log : List (Iteration σ L)) (ws : List Warning) (rest : List (Iteration σ L)) : Prop :=
  ∃ stretches : List (List (Iteration σ L)), log = stretches.flatten ++ rest ∧
    List.Forall₂ (fun stretch w => w.dropped = droppedIn stretch ∧ 0 < w.dropped) stretches ws

/-- More than five seconds are between a warning and the next one. -/
def WarnsApart (e : Env) (ws : List Warning) : Prop :=
  ∀ (before after : List Warning) (a b : Warning), ws = before ++ a :: b :: after → e.clock b.readings - e.clock a.readings > 5 * 10 ^ 9

end Metrix
