import Verif.Model.Snapshot

/-!
# What snapshot lookup means, independently of how the code looks things up
-/

namespace Metrix

/-- `segs` are the segments of the path with characters `path`: non-empty, without the separator, with at least one
separator between them and any number of separators in front and at the end. -/
inductive SegmentsOf (sep : Char) : List String → List Char → Prop
  | nil : SegmentsOf sep [] []
  | separator {segs cs} : SegmentsOf sep segs cs → SegmentsOf sep segs (sep :: cs)
  | last {seg : String} : seg.toList ≠ [] → sep ∉ seg.toList → SegmentsOf sep [seg] seg.toList
  | segment {seg : String} {segs cs} : seg.toList ≠ [] → sep ∉ seg.toList → SegmentsOf sep segs cs →
      SegmentsOf sep (seg :: segs) (seg.toList ++ sep :: cs)

/-- `v` is the value of the first item called `name`. -/
def FirstNamed (s : Snapshot) (name : String) (v : ItemKind) : Prop :=
  ∃ before after, s = before ++ (name, v) :: after ∧ ∀ x ∈ before, x.1 ≠ name

/-- Following one item per segment, taking the first with the segment's name, arrives at `v`: at the end of the path
or at the first item that is not a snapshot. -/
inductive Follows : Snapshot → List String → ItemKind → Prop
  | value {s name v rest} : FirstNamed s name v → (∀ t, v ≠ .snapshot t) → Follows s (name :: rest) v
  | group {s name t} : FirstNamed s name (.snapshot t) → Follows s [name] (.snapshot t)
  | inside {s name t v rest} : FirstNamed s name (.snapshot t) → Follows t rest v → Follows s (name :: rest) v

/-- `v` is in `s` under the names `path`, the names on the way being unique. -/
inductive UniquelyAt : Snapshot → List String → ItemKind → Prop
  | here {s name v} : (s.map (·.1)).Nodup → (name, v) ∈ s → UniquelyAt s [name] v
  | inside {s name t v rest} : (s.map (·.1)).Nodup → (name, .snapshot t) ∈ s → UniquelyAt t rest v →
      UniquelyAt s (name :: rest) v

/-- The value of the last item called `name`. -/
def LastNamed (s : Snapshot) (name : String) (v : ItemKind) : Prop :=
  ∃ before after, s = before ++ (name, v) :: after ∧ ∀ x ∈ after, x.1 ≠ name

/-- Follow the names, always taking the last item of that name. -/
inductive FollowsLast : Snapshot → List String → ItemKind → Prop
  | here {s name v} : LastNamed s name v → FollowsLast s [name] v
  | inside {s name t v rest} : LastNamed s name (.snapshot t) → FollowsLast t rest v → FollowsLast s (name :: rest) v

/-- `v` is in `s` under the names `path`; on every level there is only one item of that name. -/
inductive OnlyAt : Snapshot → List String → ItemKind → Prop
  | here {s name v} : s.filter (·.1 = name) = [(name, v)] → OnlyAt s [name] v
  | inside {s name t v rest} : s.filter (·.1 = name) = [(name, .snapshot t)] → OnlyAt t rest v → OnlyAt s (name :: rest) v

/-- The value of a key of a JSON object. -/
def Json.get : Json → String → Option Json
  | .obj fields, k => (fields.find? fun f => f.1 == k).map (·.2)
  | _, _ => none

/-- The value reached by following keys. -/
def Json.at : Json → List String → Option Json
  | j, [] => some j
  | j, k :: ks => (j.get k).bind (·.at ks)

end Metrix
