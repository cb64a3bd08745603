import Verif.Proof.Snapshot

/-! # C41: path lookup in snapshots -/

namespace Metrix

/-- Every path has exactly one list of segments in the sense of `SegmentsOf` (which ignores leading, trailing and
repeated separators), and `find` finds `v` iff following these segments arrives at `v`. Otherwise it finds nothing. -/
theorem C41_find (s : Snapshot) (path : String) (sep : Char) :
    ∃ segs, SegmentsOf sep segs path.toList ∧ (∀ segs', SegmentsOf sep segs' path.toList → segs' = segs) ∧
      (∀ v, s.findWithSeparator path sep = .found v ↔ Follows s segs v) ∧
      (s.findWithSeparator path sep = .notFound ↔ ∀ v, ¬ Follows s segs v) := by
  have hseg : SegmentsOf sep (pathSegments path sep) path.toList := pathSegments_eq_iff.mp rfl
  have key : ∀ v, s.findWithSeparator path sep = .found v ↔ Follows s (pathSegments path sep) v := fun v => by
    rw [findWithSeparator_eq]; exact follow_eq_found (segmentsOf_ne_empty hseg)
  refine ⟨_, hseg, fun segs' h' => (pathSegments_eq_iff.mpr h').symm, key, ?_⟩
  cases hf : s.findWithSeparator path sep with
  | found v => exact ⟨fun h => (nomatch h), fun h => absurd ((key v).mp hf) (h v)⟩
  | notFound => exact ⟨fun _ v hv => by
      have h := (key v).mpr hv
      rw [hf] at h
      exact (nomatch h), fun _ => rfl⟩

/-- The value is unique. -/
theorem C41_unique {s : Snapshot} {p : List String} {v w : ItemKind} (h : Follows s p v) (h' : Follows s p w) : v = w :=
  follows_unique h h'

/-- `find` is `find_with_separator` with a slash. -/
theorem C41_slash (s : Snapshot) (path : String) : s.find path = s.findWithSeparator path '/' := rfl

/-- An empty path, or one of separators only, finds nothing. -/
theorem C41_empty (s : Snapshot) (path : String) (sep : Char) (h : ∀ c ∈ path.toList, c = sep) :
    s.findWithSeparator path sep = .notFound := by
  obtain ⟨segs, hs, hu, -, hn⟩ := C41_find s path sep
  have : SegmentsOf sep [] path.toList := by
    generalize path.toList = cs at h
    clear hs hu hn
    induction cs with
    | nil => exact .nil
    | cons c cs ih =>
      rw [h c (by simp)]
      exact .separator (ih fun c hc => h c (by simp [hc]))
  rw [hn, ← hu _ this]
  intro v hv; cases hv

/-- A missing segment finds nothing. -/
theorem C41_missing {s : Snapshot} {path : String} {sep : Char} {seg : String} {rest : List String}
    (hs : SegmentsOf sep (seg :: rest) path.toList) (hm : ∀ x ∈ s, x.1 ≠ seg) :
    s.findWithSeparator path sep = .notFound := by
  obtain ⟨segs, -, hu, -, hn⟩ := C41_find s path sep
  rw [hn, ← hu _ hs]
  have no : ∀ w, ¬ FirstNamed s seg w := by
    rintro w ⟨a, b, rfl, -⟩; exact hm (seg, w) (by simp) rfl
  intro v hv
  cases hv with
  | value h => exact no _ h
  | group h => exact no _ h
  | inside h => exact no _ h

/-- Following a path and then, if that leads to a group, another one is following both. -/
theorem follows_append {s t : Snapshot} {p q : List String} {v : ItemKind} (h : Follows s p (.snapshot t)) (h' : Follows t q v) :
    Follows s (p ++ q) v := by
  generalize hw : ItemKind.snapshot t = w at h
  induction h with
  | value _ hn => exact absurd hw.symm (hn t)
  | group hf => cases hw; exact .inside hf h'
  | inside hf _ ih => exact .inside hf (ih hw)

theorem segmentsOf_append {sep : Char} {p q : List String} {a b : List Char} (h : SegmentsOf sep p a) (h' : SegmentsOf sep q b) :
    SegmentsOf sep (p ++ q) (a ++ sep :: b) := by
  induction h with
  | nil => exact .separator h'
  | separator _ ih => exact .separator ih
  | last hne hs => exact .segment hne hs h'
  | segment hne hs _ ih => rw [List.append_assoc]; exact .segment hne hs ih

/-- To look further in what was found: it finds `v` iff the first path leads to a group and the second one leads from there to
`v`. Behind a value, and if nothing was found, it finds nothing. -/
theorem C41_further {s : Snapshot} {path path' : String} {sep : Char} {segs segs' : List String}
    (hsegs : SegmentsOf sep segs path.toList) (hsegs' : SegmentsOf sep segs' path'.toList) :
    (∀ v, (s.findWithSeparator path sep).findWithSeparator path' sep = .found v ↔
      ∃ t, Follows s segs (.snapshot t) ∧ Follows t segs' v) ∧
    ((s.findWithSeparator path sep).findWithSeparator path' sep = .notFound ↔
      ∀ t v, Follows s segs (.snapshot t) → ¬ Follows t segs' v) := by
  have key : ∀ v, (s.findWithSeparator path sep).findWithSeparator path' sep = .found v ↔
      ∃ t, Follows s segs (.snapshot t) ∧ Follows t segs' v := by
    intro v
    obtain ⟨x, -, hu, hf, -⟩ := C41_find s path sep
    rw [← hu _ hsegs] at hf
    constructor
    · intro h
      cases hw : s.findWithSeparator path sep with
      | notFound => rw [hw] at h; cases h
      | found w =>
        rw [hw] at h
        cases w with
        | snapshot t =>
          obtain ⟨y, -, hu', hf', -⟩ := C41_find t path' sep
          rw [← hu' _ hsegs'] at hf'
          exact ⟨t, (hf _).mp hw, (hf' v).mp h⟩
        | _ => cases h
    · rintro ⟨t, h1, h2⟩
      obtain ⟨y, -, hu', hf', -⟩ := C41_find t path' sep
      rw [← hu' _ hsegs'] at hf'
      rw [(hf _).mpr h1]
      exact (hf' v).mpr h2
  refine ⟨key, ?_⟩
  cases hx : (s.findWithSeparator path sep).findWithSeparator path' sep with
  | notFound =>
    refine ⟨fun _ t v h1 h2 => ?_, fun _ => rfl⟩
    have := (key v).mpr ⟨t, h1, h2⟩
    rw [hx] at this; cases this
  | found v =>
    obtain ⟨t, h1, h2⟩ := (key v).mp hx
    exact ⟨fun h => (nomatch h), fun h => absurd h2 (h t v h1)⟩

/-- What is found in two steps is also found by the joined path. -/
theorem C41_joined {s : Snapshot} {path path' : String} {sep : Char} {v : ItemKind}
    (h : (s.findWithSeparator path sep).findWithSeparator path' sep = .found v) :
    s.findWithSeparator (path ++ String.singleton sep ++ path') sep = .found v := by
  obtain ⟨p, hp, -⟩ := C41_find s path sep
  obtain ⟨q, hq, -⟩ := C41_find s path' sep
  obtain ⟨t, h1, h2⟩ := ((C41_further hp hq).1 v).mp h
  obtain ⟨x, -, hu, hf, -⟩ := C41_find s (path ++ String.singleton sep ++ path') sep
  have hseg : SegmentsOf sep (p ++ q) (path ++ String.singleton sep ++ path').toList := by
    simpa [String.toList_append, List.append_assoc] using segmentsOf_append hp hq
  rw [hf v, ← hu _ hseg]
  exact follows_append h1 h2

/-- `find_item` starts from an item and takes segments. Empty ones are ignored. Without segments the item itself is found, and
it is also found if it is not a snapshot. -/
theorem C41_find_item (item : ItemKind) (segs : List String) :
    (segs.filter (· ≠ "") = [] → findItem item segs = .found item) ∧
    ((∀ t, item ≠ .snapshot t) → findItem item segs = .found item) ∧
    (∀ t, item = .snapshot t → segs.filter (· ≠ "") ≠ [] →
      (∀ v, findItem item segs = .found v ↔ Follows t (segs.filter (· ≠ "")) v) ∧
      (findItem item segs = .notFound ↔ ∀ v, ¬ Follows t (segs.filter (· ≠ "")) v)) := by
  have hskip : ∀ (segs : List String) (item : ItemKind), findItem item segs = findItem item (segs.filter (· ≠ "")) := by
    intro segs
    induction segs with
    | nil => intro item; rfl
    | cons x segs ih =>
      intro item
      by_cases hx : x = ""
      · subst hx
        simpa [findItem] using ih item
      · have he : x.isEmpty = false := by simpa [String.isEmpty_iff] using hx
        rw [List.filter_cons_of_pos (by simpa using hx)]
        cases item with
        | snapshot items =>
          simp only [findItem, he, Bool.false_eq_true, if_false]
          cases Snapshot.first items x with
          | none => rfl
          | some y => exact ih y
        | _ => simp only [findItem, he, Bool.false_eq_true, if_false]
  have hne : ∀ s ∈ segs.filter (· ≠ ""), s.isEmpty = false := by
    intro s hs
    have := (List.mem_filter.mp hs).2
    simpa [String.isEmpty_iff] using this
  refine ⟨fun h => by rw [hskip, h]; rfl, fun h => by rw [hskip]; exact findItem_other hne h, ?_⟩
  rintro t rfl h
  rw [hskip, findItem_snapshot hne h]
  refine ⟨fun v => follow_eq_found hne, ?_⟩
  cases hf : follow t (segs.filter (· ≠ "")) with
  | notFound =>
    refine ⟨fun _ v hv => ?_, fun _ => rfl⟩
    have := (follow_eq_found hne).mpr hv
    rw [hf] at this; cases this
  | found v => exact ⟨fun h => (nomatch h), fun h => absurd ((follow_eq_found hne).mp hf) (h v)⟩

/-- A path with three segments, many separators and a duplicate name. -/
example : Snapshot.find [("x", .int 1), ("a", .snapshot [("b", .snapshot [("c", .int 3)]), ("b", .int 4)]), ("a", .int 5)]
    "//a/b///c/" = .found (.int 3) := by rfl

example : SegmentsOf '/' ["a", "b"] "//a/b/".toList :=
  .separator (.separator (.segment (seg := "a") (by decide) (by decide) (.segment (seg := "b") (by decide) (by decide) .nil)))

/-- The value is returned at the first item that is not a snapshot, the rest of the path is ignored. -/
example : Snapshot.find [("a", .int 1)] "a/b/c" = .found (.int 1) := by rfl

/-- In two steps. The joined path would also find something where the second step does not: it ends at the first value. -/
example : (Snapshot.find [("a", .snapshot [("b", .snapshot [("c", .int 3)])])] "a/b").find "c" = .found (.int 3) ∧
    (Snapshot.find [("a", .int 1)] "a").find "b" = .notFound ∧ Snapshot.find [("a", .int 1)] "a/b" = .found (.int 1) :=
  ⟨by rfl, by rfl, by rfl⟩

example : findItem (.snapshot [("a", .snapshot [("b", .int 3)])]) ["", "a", "", "b"] = .found (.int 3) := by rfl

example := C41_empty [("a", .int 1)] "///" '/' (by decide +kernel)
example := C41_missing (s := [("a", .int 1)]) (path := "//x/b/") (sep := '/') (seg := "x") (rest := ["b"])
  (.separator (.separator (SegmentsOf.segment (sep := '/') (seg := "x") (by decide) (by decide) (SegmentsOf.segment (sep := '/') (seg := "b") (by decide) (by decide) .nil))))
  (by decide)
example : SegmentsOf '/' ["a"] "/a/".toList ∧ SegmentsOf '/' ["b"] "b/".toList :=
  ⟨.separator (.segment (seg := "a") (by decide) (by decide) .nil), .segment (seg := "b") (by decide) (by decide) .nil⟩
example := C41_joined (s := [("a", .snapshot [("b", .snapshot [("c", .int 3)])])]) (path := "a/b") (path' := "c") (sep := '/')
  (v := .int 3) (by rfl)

end Metrix
