import Verif.Spec.History

/-! # The last update of a kind -/

namespace Metrix

/-- The updates of a log that `sel` selects: when they arrived and what was selected, oldest first. The moment
is the last clock reading of the update. -/
def arrivals {β : Type} (clock : Nat → Int) (sel : Update → Option β) : List (Event Update) → List (Int × β)
  | [] => []
  | ⟨_, .input u, _, stop⟩ :: log =>
    match sel u with
    | some b => (clock (stop - 1), b) :: arrivals clock sel log
    | none => arrivals clock sel log
  | ⟨_, .snapshot _ _, _, _⟩ :: log => arrivals clock sel log

/-- The last of them. -/
def lastArrival {β : Type} (clock : Nat → Int) (sel : Update → Option β) (log : List (Event Update)) :
    Option (Int × β) := (arrivals clock sel log).getLast?

/-- When the last update arrived, whatever it was. -/
def lastTap (clock : Nat → Int) (log : List (Event Update)) : Option Int :=
  (lastArrival clock (fun _ => some ()) log).map (·.1)

/-- The truth value of an update: that of a boolean, for integers whether they are not zero. -/
def Update.truth : Update → Option Bool
  | .withValue (.bool b) _ => some b
  | .withValue (.signedInteger v) _ => some (decide (v ≠ 0))
  | .withValue (.unsignedInteger v) _ => some (decide (v ≠ 0))
  | _ => none

/-- What can be displayed of an update: numbers and booleans. -/
def Update.displayable : Update → Option ItemKind
  | .withValue (.signedInteger v) _ => some (.int v)
  | .withValue (.unsignedInteger v) _ => some (.uint v)
  | .withValue (.float v) _ => some (.float v)
  | .withValue (.bool v) _ => some (.boolean v)
  | _ => none

end Metrix
