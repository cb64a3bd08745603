import Verif.Model.Snapshot

/-! # Printing what was found in a snapshot: the implementations of `Display` -/

namespace Metrix

/-- What the standard library writes: a float with `{}` and a duration (in nanoseconds) with `{:?}`. -/
structure Texts where
  float : F64 → String
  duration : Nat → String

/-- `src/snapshot.rs:362-374` (`Display for ItemKind`). The standard library writes integers in decimal, `true` and `false`. -/
def ItemKind.display (t : Texts) : ItemKind → String
  | .text v => v
  | .boolean v => if v then "true" else "false"
  | .float v => t.float v
  | .uint v => Nat.repr v
  | .int v => Int.repr v
  | .snapshot items => "Snapshot(" ++ Nat.repr items.length ++ " items)"

/-- `src/snapshot.rs:289-297` (`Display for FindItem`). -/
def FindItem.display (t : Texts) : FindItem → String
  | .found v => v.display t
  | .notFound => "<item not found>"

/-- `src/snapshot.rs:315-324` (`Display for FindDurationItem`). -/
def FindDurationItem.display (t : Texts) : FindDurationItem → String
  | .duration d => t.duration d
  | .notFound => "<item not found>"
  | .notADuration => "<item not a duration>"

end Metrix
