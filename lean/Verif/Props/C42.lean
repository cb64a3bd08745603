import Verif.Proof.Snapshot

/-! # C42: every item of a snapshot can be found by its path, and lookups compose -/

namespace Metrix

/-- The names joined with the separator. -/
def joinPath (sep : Char) (names : List String) : String := String.ofList (List.intercalate [sep] (names.map String.toList))

theorem segmentsOf_join {sep : Char} {names : List String} (h : ∀ n ∈ names, n.toList ≠ [] ∧ sep ∉ n.toList) :
    SegmentsOf sep names (joinPath sep names).toList := by
  unfold joinPath
  rw [String.toList_ofList]
  induction names with
  | nil => exact .nil
  | cons n ns ih =>
    obtain ⟨h1, h2⟩ := h n (by simp)
    cases ns with
    | nil => simpa using SegmentsOf.last (sep := sep) h1 h2
    | cons m ms =>
      have := SegmentsOf.segment h1 h2 (ih fun n hn => h n (by simp [List.mem_cons.mp hn]))
      rw [List.map_cons, List.map_cons, List.intercalate_cons_cons, List.append_assoc]
      simpa using this

/-- An item under unique, non-empty names without the separator is found by the joined names. -/
theorem C42_found {s : Snapshot} {names : List String} {v : ItemKind} {sep : Char} (h : UniquelyAt s names v)
    (hn : ∀ n ∈ names, n.toList ≠ [] ∧ sep ∉ n.toList) :
    s.findWithSeparator (joinPath sep names) sep = .found v := by
  have hs := segmentsOf_join hn
  rw [findWithSeparator_eq, pathSegments_eq_iff.mpr hs, follow_eq_found (segmentsOf_ne_empty hs)]
  exact follows_of_uniquelyAt h

/-- Finding `a/b` is finding `b` in the snapshot found at `a`, provided `b` has any segment. -/
theorem C42_compose {s t : Snapshot} {a b : String} {sep : Char}
    (ha : s.findWithSeparator a sep = .found (.snapshot t)) (hb : ∃ c ∈ b.toList, c ≠ sep) :
    s.findWithSeparator (a ++ sep.toString ++ b) sep = t.findWithSeparator b sep ∧
    s.findWithSeparator (a ++ sep.toString ++ b) sep = (s.findWithSeparator a sep).findWithSeparator b sep := by
  have hseg : pathSegments (a ++ sep.toString ++ b) sep = pathSegments a sep ++ pathSegments b sep := by
    unfold pathSegments
    simp [splitChars_append_ne]
  have hne : pathSegments b sep ≠ [] := by
    intro h0
    have hs : SegmentsOf sep [] b.toList := pathSegments_eq_iff.mp h0
    obtain ⟨c, hc, hcs⟩ := hb
    have : ∀ {segs cs}, SegmentsOf sep segs cs → segs = [] → ∀ c ∈ cs, c = sep := by
      intro segs cs h
      induction h with
      | nil => simp
      | separator _ ih => intro h c hc; rcases List.mem_cons.mp hc with rfl | hc; exacts [rfl, ih h c hc]
      | last => simp
      | segment => simp
    exact hcs (this hs rfl c hc)
  have key : s.findWithSeparator (a ++ sep.toString ++ b) sep = t.findWithSeparator b sep := by
    rw [findWithSeparator_eq] at ha
    rw [findWithSeparator_eq, findWithSeparator_eq, hseg]
    refine follow_append ?_ hne ha
    rw [← hseg]
    exact segmentsOf_ne_empty (pathSegments_eq_iff.mp rfl)
  refine ⟨key, ?_⟩
  rw [key, ha]; rfl

/-- The hypotheses can be met. -/
example : UniquelyAt [("x", .int 1), ("a", .snapshot [("b", .int 3), ("c", .boolean true)])] ["a", "c"] (.boolean true) :=
  .inside (t := [("b", .int 3), ("c", .boolean true)]) (by decide) (by simp) (.here (by decide) (by simp))

example : joinPath '/' ["a", "c"] = "a/c" := by decide +kernel

example := C42_found (s := [("x", .int 1), ("a", .snapshot [("b", .int 3), ("c", .boolean true)])]) (names := ["a", "c"])
  (v := .boolean true) (sep := '/') (.inside (t := [("b", .int 3), ("c", .boolean true)]) (by decide) (by simp) (.here (by decide) (by simp))) (by decide)
example := C42_compose (s := [("a", .snapshot [("b", .int 3)])]) (t := [("b", .int 3)]) (a := "/a") (b := "b") (sep := '/') (by rfl)
  ⟨'b', by decide, by decide⟩

end Metrix
