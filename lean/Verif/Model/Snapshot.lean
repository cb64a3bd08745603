import Verif.Model.Prelude

/-!
# Snapshots: `src/snapshot.rs`
-/

namespace Metrix

/-- `src/snapshot.rs:326-337` (`ItemKind`). A `Snapshot` (12-14) is its list of items. -/
inductive ItemKind
  | text (s : String)
  | boolean (b : Bool)
  | float (f : F64)
  | uint (n : Nat)
  | int (i : Int)
  | snapshot (items : List (String × ItemKind))

/-- `src/snapshot.rs:12-14` (`Snapshot`): the field `items`. `Snapshot::default()` (16-20) is `[]` and
`push` (23-25) is `· ++ [(k, v)]`. -/
abbrev Snapshot := List (String × ItemKind)

/-- `src/snapshot.rs:23-25` (`Snapshot::push`), `into.items.push(..)`. -/
def Snapshot.push (s : Snapshot) (name : String) (v : ItemKind) : Snapshot := s ++ [(name, v)]

/-- `src/snapshot.rs:216-220` (`FindItem`). -/
inductive FindItem
  | found (item : ItemKind)
  | notFound

/-- `items.iter().find(|(name, _)| name == n).map(|x| &x.1)` in `src/snapshot.rs:37-41, 201-205`. -/
def Snapshot.first (s : Snapshot) (name : String) : Option ItemKind :=
  (s.find? fun x => x.1 == name).map (·.2)

/-- `src/snapshot.rs:187-214` (`find_item`). -/
def findItem (item : ItemKind) : List String → FindItem
  | [] => .found item
  | seg :: rest =>
    if seg.isEmpty then findItem item rest
    else match item with
      | .snapshot items =>
        match Snapshot.first items seg with
        | some item' => findItem item' rest
        | none => .notFound
      | other => .found other

/-- `str::split(separator)` on a list of characters: always at least one piece. -/
def splitChars (sep : Char) : List Char → List (List Char)
  | [] => [[]]
  | c :: cs =>
    if c = sep then [] :: splitChars sep cs
    else match splitChars sep cs with
      | [] => [[c]]
      | p :: ps => (c :: p) :: ps

/-- `src/snapshot.rs:31`: `path.split(separator).filter(|x| !x.is_empty()).collect()`. -/
def pathSegments (path : String) (sep : Char) : List String :=
  ((splitChars sep path.toList).filter (fun p => !p.isEmpty)).map String.ofList

/-- `src/snapshot.rs:30-47` (`Snapshot::find_with_separator`). -/
def Snapshot.findWithSeparator (s : Snapshot) (path : String) (sep : Char) : FindItem :=
  match pathSegments path sep with
  | [] => .notFound
  | seg :: rest =>
    match Snapshot.first s seg with
    | some item => findItem item rest
    | none => .notFound

/-- `src/snapshot.rs:96-98` (`Snapshot::find`). -/
def Snapshot.find (s : Snapshot) (path : String) : FindItem := s.findWithSeparator path '/'

/-- `src/snapshot.rs:223-229` (`FindItem::opt`). -/
def FindItem.opt : FindItem → Option ItemKind
  | .found v => some v
  | .notFound => none

/-- `src/snapshot.rs:231-238` (`FindItem::find_with_separator`). -/
def FindItem.findWithSeparator (f : FindItem) (path : String) (sep : Char) : FindItem :=
  match f with
  | .found (.snapshot s) => Snapshot.findWithSeparator s path sep
  | _ => .notFound

/-- `src/snapshot.rs:240-242` (`FindItem::find`). -/
def FindItem.find (f : FindItem) (path : String) : FindItem := f.findWithSeparator path '/'

/-- `src/snapshot.rs:299-304` (`FindDurationItem`). Durations in nanoseconds. -/
inductive FindDurationItem
  | notFound
  | notADuration
  | duration (ns : Nat)
  deriving DecidableEq

/-- `src/snapshot.rs:244-286` (`to_duration_nanoseconds` .. `to_duration_seconds`), which differ only in
the length of the unit. `Int(v)` is cast with `as u64`. -/
def FindItem.toDuration (unitNs : Nat) : FindItem → FindDurationItem
  | .found (.uint v) => .duration (v * unitNs)
  | .found (.int v) => .duration (wrapU64 v * unitNs)
  | .found _ => .notADuration
  | .notFound => .notFound

/-- `src/snapshot.rs:244-253`. -/
def FindItem.toDurationNanoseconds : FindItem → FindDurationItem := FindItem.toDuration 1
/-- `src/snapshot.rs:255-264`. -/
def FindItem.toDurationMicroseconds : FindItem → FindDurationItem := FindItem.toDuration 1000
/-- `src/snapshot.rs:266-275`. -/
def FindItem.toDurationMilliseconds : FindItem → FindDurationItem := FindItem.toDuration 1000000
/-- `src/snapshot.rs:277-286`. -/
def FindItem.toDurationSeconds : FindItem → FindDurationItem := FindItem.toDuration 1000000000

/-- `src/snapshot.rs:306-313` (`FindDurationItem::opt`). -/
def FindDurationItem.opt : FindDurationItem → Option Nat
  | .duration d => some d
  | _ => none

/-- The `json` crate's value, as far as this crate produces it. An object is an association list. -/
inductive Json
  | str (s : String)
  | bool (b : Bool)
  | float (f : F64)
  | num (i : Int)
  | obj (fields : List (String × Json))

/-- `data[k] = v` on an object of the `json` crate: overwrites the value of an existing key in place,
otherwise appends the key. -/
def Json.assign (fields : List (String × Json)) (k : String) (v : Json) : List (String × Json) :=
  match fields with
  | [] => [(k, v)]
  | f :: fs => if f.1 = k then (k, v) :: fs else f :: Json.assign fs k v

mutual
/-- `src/snapshot.rs:340-359` (`ItemKind::to_json_value`). `boolsAsInts` is
`JsonConfig::make_booleans_ints`. -/
def ItemKind.toJson (boolsAsInts : Bool) : ItemKind → Json
  | .text s => .str s
  | .boolean b => if boolsAsInts then (if b then .num 1 else .num 0) else .bool b
  | .float f => .float f
  | .uint n => .num n
  | .int i => .num i
  | .snapshot items => .obj (Snapshot.toJsonFields boolsAsInts items [])

/-- `src/snapshot.rs:120-128` (`Snapshot::to_json_value`): the loop over the items, with the fields
assigned so far. -/
def Snapshot.toJsonFields (boolsAsInts : Bool) :
    List (String × ItemKind) → List (String × Json) → List (String × Json)
  | [], acc => acc
  | (k, v) :: rest, acc =>
    Snapshot.toJsonFields boolsAsInts rest (Json.assign acc k (v.toJson boolsAsInts))
end

/-- `src/snapshot.rs:120-128` (`Snapshot::to_json_value`). -/
def Snapshot.toJson (boolsAsInts : Bool) (s : Snapshot) : Json :=
  .obj (Snapshot.toJsonFields boolsAsInts s [])

end Metrix
