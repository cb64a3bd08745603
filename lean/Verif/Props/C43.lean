import Verif.Proof.Snapshot

/-! # C43: JSON export keeps every item

The last sentence of the property (JSON and `find` agree) is false of the code for duplicate names: `find` takes the
first item, JSON keeps the last (`C43_finding_duplicates_disagree`). It is proved for unique names. -/

namespace Metrix

/-- With unique names: one field per item, in order, with the converted value. -/
theorem C43_unique (b : Bool) (s : Snapshot) (h : (s.map (·.1)).Nodup) :
    s.toJson b = .obj (s.map fun x => (x.1, x.2.toJson b)) := by
  unfold Snapshot.toJson
  rw [toJsonFields_unique b s [] (by simpa using h)]; rfl

/-- What the conversion of a value is. -/
theorem C43_values (b : Bool) :
    (∀ s, (ItemKind.text s).toJson b = .str s) ∧ (∀ f, (ItemKind.float f).toJson b = .float f) ∧
    (∀ n : Nat, (ItemKind.uint n).toJson b = .num n) ∧ (∀ i, (ItemKind.int i).toJson b = .num i) ∧
    (∀ s : Snapshot, (ItemKind.snapshot s).toJson b = s.toJson b) ∧
    (∀ x, (ItemKind.boolean x).toJson false = .bool x) ∧
    (ItemKind.boolean true).toJson true = .num 1 ∧ (ItemKind.boolean false).toJson true = .num 0 := by
  refine ⟨?_, ?_, ?_, ?_, ?_, ?_, ?_, ?_⟩ <;> intros <;> simp [ItemKind.toJson, Snapshot.toJson]

/-- In general: every name is a key exactly once, and its value is the conversion of the last item of that name. -/
theorem C43_last_wins (b : Bool) (s : Snapshot) :
    (∀ k v, LastNamed s k v → (s.toJson b).get k = some (v.toJson b)) ∧
    (∀ k, (∀ x ∈ s, x.1 ≠ k) → (s.toJson b).get k = none) ∧
    (∃ fields, s.toJson b = .obj fields ∧ (fields.map (·.1)).Nodup) := by
  have hget : ∀ k, (s.toJson b).get k = (s.reverse.find? fun f => f.1 == k).map fun x => x.2.toJson b := by
    intro k
    simp only [Snapshot.toJson, Json.get]
    rw [toJsonFields_find]; simp
  refine ⟨fun k v h => ?_, fun k h => ?_, _, rfl, toJsonFields_nodup b s [] (by simp)⟩
  · rw [lastNamed_iff] at h
    rw [hget]
    obtain ⟨x, hx, rfl⟩ := Option.map_eq_some_iff.mp h
    rw [hx]; rfl
  · rw [hget, List.find?_eq_none.mpr]; · rfl
    intro x hx; simpa using h x (by simpa using hx)

theorem follow_json {s : Snapshot} {names : List String} {v : ItemKind} (h : UniquelyAt s names v) (b : Bool) :
    (s.toJson b).at names = some (v.toJson b) := by
  have last : ∀ {s : Snapshot} {name v}, (s.map (·.1)).Nodup → (name, v) ∈ s → LastNamed s name v := by
    intro s name v hu hm
    obtain ⟨a, c, rfl⟩ := List.append_of_mem hm
    refine ⟨a, c, rfl, fun x hx heq => ?_⟩
    rw [List.map_append, List.nodup_append, List.map_cons, List.nodup_cons] at hu
    exact hu.2.1.1 (List.mem_map.mpr ⟨x, hx, heq⟩)
  induction h with
  | here hu hm =>
    simp only [Json.at]
    rw [(C43_last_wins b _).1 _ _ (last hu hm)]; rfl
  | inside hu hm _ ih =>
    simp only [Json.at]
    rw [(C43_last_wins b _).1 _ _ (last hu hm), (C43_values b).2.2.2.2.1]
    exact ih

/-- With unique names JSON and `find` agree: what is at a path in the one is at that path in the other. -/
theorem C43_agrees_with_find_partial {s : Snapshot} {names : List String} {v : ItemKind} (h : UniquelyAt s names v)
    {path : String} {sep : Char} (hp : SegmentsOf sep names path.toList) (b : Bool) :
    s.findWithSeparator path sep = .found v ∧ (s.toJson b).at names = some (v.toJson b) := by
  refine ⟨?_, follow_json h b⟩
  rw [findWithSeparator_eq, pathSegments_eq_iff.mpr hp, follow_eq_found (segmentsOf_ne_empty hp)]
  exact follows_of_uniquelyAt h

theorem first_last_of_only {s : Snapshot} {name : String} {v : ItemKind} (h : s.filter (·.1 = name) = [(name, v)]) :
    FirstNamed s name v ∧ LastNamed s name v := by
  obtain ⟨before, after, rfl, h1, h2, h3⟩ := List.filter_eq_cons_iff.mp h
  rw [List.filter_eq_nil_iff] at h3
  exact ⟨⟨before, after, rfl, fun x hx => by simpa using h1 x hx⟩, before, after, rfl, fun x hx => by simpa using h3 x hx⟩

/-- What is at a path in the JSON of any snapshot: the last item of each name counts. -/
theorem C43_path (b : Bool) {names : List String} (hne : names ≠ []) (s : Snapshot) (j : Json) :
    (s.toJson b).at names = some j ↔ ∃ v, FollowsLast s names v ∧ v.toJson b = j := by
  have hget : ∀ (s : Snapshot) k j, (s.toJson b).get k = some j ↔ ∃ v, LastNamed s k v ∧ v.toJson b = j := by
    intro s k j
    constructor
    · intro h
      by_cases hk : ∀ x ∈ s, x.1 ≠ k
      · rw [(C43_last_wins b s).2.1 k hk] at h; cases h
      · obtain ⟨v, hv⟩ : ∃ v, LastNamed s k v := by
          simp only [lastNamed_iff]
          cases hf : s.reverse.find? fun f => f.1 == k with
          | some x => exact ⟨_, rfl⟩
          | none =>
            refine absurd (fun x hx => ?_) hk
            have := List.find?_eq_none.mp hf x (by simpa using hx)
            simpa using this
        refine ⟨v, hv, ?_⟩
        rw [(C43_last_wins b s).1 k v hv] at h
        exact Option.some.inj h
    · rintro ⟨v, hv, rfl⟩
      exact (C43_last_wins b s).1 k v hv
  induction names generalizing s with
  | nil => exact absurd rfl hne
  | cons n ns ih =>
    cases ns with
    | nil =>
      have : (s.toJson b).at [n] = (s.toJson b).get n := by
        simp only [Json.at]; cases (s.toJson b).get n <;> rfl
      rw [this, hget]
      constructor
      · rintro ⟨v, hv, hj⟩; exact ⟨v, .here hv, hj⟩
      · rintro ⟨v, hv, hj⟩
        cases hv with
        | here hv => exact ⟨v, hv, hj⟩
        | inside _ h => cases h
    | cons m ns =>
      rw [Json.at]
      constructor
      · intro h
        obtain ⟨j', h1, h2⟩ := Option.bind_eq_some_iff.mp h
        obtain ⟨v, hv, rfl⟩ := (hget s n j').mp h1
        cases v with
        | snapshot t =>
          rw [(C43_values b).2.2.2.2.1] at h2
          obtain ⟨w, hw, hj⟩ := (ih (by simp) t).mp h2
          exact ⟨w, .inside hv hw, hj⟩
        | boolean x => cases b <;> cases x <;> simp [ItemKind.toJson, Json.at, Json.get] at h2
        | _ => simp [ItemKind.toJson, Json.at, Json.get] at h2
      · rintro ⟨v, hv, rfl⟩
        cases hv with
        | inside hn hv =>
          rw [(C43_last_wins b s).1 _ _ hn, (C43_values b).2.2.2.2.1]
          exact (ih (by simp) _).mpr ⟨v, hv, rfl⟩

/-- JSON and `find` agree on every path whose names are not repeated on their level, whatever else there is. -/
theorem C43_agrees_on_path_partial {s : Snapshot} {names : List String} {v : ItemKind} (h : OnlyAt s names v)
    {path : String} {sep : Char} (hp : SegmentsOf sep names path.toList) (b : Bool) :
    s.findWithSeparator path sep = .found v ∧ (s.toJson b).at names = some (v.toJson b) := by
  have hf : Follows s names v ∧ FollowsLast s names v ∧ names ≠ [] := by
    clear hp
    induction h with
    | @here s name v h =>
      refine ⟨?_, .here (first_last_of_only h).2, by simp⟩
      by_cases hsn : ∃ t, v = .snapshot t
      · obtain ⟨t, rfl⟩ := hsn; exact .group (first_last_of_only h).1
      · exact .value (first_last_of_only h).1 fun t ht => hsn ⟨t, ht⟩
    | inside h _ ih =>
      exact ⟨.inside (first_last_of_only h).1 ih.1, .inside (first_last_of_only h).2 ih.2.1, by simp⟩
  refine ⟨?_, (C43_path b hf.2.2 s _).mpr ⟨v, hf.2.1, rfl⟩⟩
  rw [findWithSeparator_eq, pathSegments_eq_iff.mpr hp, follow_eq_found (segmentsOf_ne_empty hp)]
  exact hf.1

/-- Finding: with a duplicate name `find` shows the first and JSON the last value. -/
theorem C43_finding_duplicates_disagree :
    ∃ s : Snapshot, s.find "a" = .found (.int 1) ∧ (s.toJson false).get "a" = some (.num 2) :=
  ⟨[("a", .int 1), ("a", .int 2)], rfl, rfl⟩

example : Snapshot.toJson true [("a", .boolean true), ("b", .snapshot [("c", .uint 3)])] =
    .obj [("a", .num 1), ("b", .obj [("c", .num 3)])] := rfl

example := C43_unique true [("a", .boolean true), ("b", .snapshot [("c", .uint 3)])] (by decide)
example : SegmentsOf '/' ["a", "b"] "/a/b/".toList :=
  .separator (.segment (seg := "a") (by decide) (by decide) (.segment (seg := "b") (by decide) (by decide) .nil))
example : UniquelyAt [("x", .int 1), ("a", .snapshot [("b", .int 3)])] ["a", "b"] (.int 3) :=
  .inside (t := [("b", .int 3)]) (by decide) (by simp) (.here (by decide) (by simp))

example := C43_agrees_with_find_partial (s := [("x", .int 1), ("a", .snapshot [("b", .int 3)])])
  (.inside (name := "a") (t := [("b", .int 3)]) (by decide) (by simp) (.here (name := "b") (v := .int 3) (by decide) (by simp)))
  (path := "/a/b/") (sep := '/')
  (.separator (.segment (seg := "a") (by decide) (by decide) (.segment (seg := "b") (by decide) (by decide) .nil))) true

/-- There are two items called `x` next to the path. -/
example := C43_agrees_on_path_partial (s := [("x", .int 1), ("a", .snapshot [("b", .int 3)]), ("x", .int 2)])
  (.inside (name := "a") (t := [("b", .int 3)]) rfl (.here (name := "b") (v := .int 3) rfl))
  (path := "/a/b/") (sep := '/')
  (.separator (.segment (seg := "a") (by decide) (by decide) (.segment (seg := "b") (by decide) (by decide) .nil))) true

end Metrix
