import Verif.Model.LabelFilter

/-! # C01: a label filter is exactly the set it was built from -/

namespace Metrix
open LabelFilter
variable {L : Type} [DecidableEq L]

/-- Adding a label: accepted before, or the label itself. -/
theorem C01_accept_another (f : LabelFilter L) (l x : L) :
    (f.acceptAnother l).accepts x = true ↔ f.accepts x = true ∨ x = l := by
  cases f <;> simp [acceptAnother, accepts] <;> grind

/-- Any sequence of added labels, starting with any filter. -/
theorem C01_filter_is_the_set (f : LabelFilter L) (ls : List L) (x : L) :
    (ls.foldl acceptAnother f).accepts x = true ↔ f.accepts x = true ∨ x ∈ ls := by
  induction ls generalizing f with
  | nil => simp
  | cons l ls ih => rw [List.foldl_cons, ih, C01_accept_another]; simp [or_assoc]

/-- The starting points: a label, a list, tuples, a predicate, accept-all, accept-none and the default. -/
theorem C01_constructors (a b c d e x : L) (ls : List L) (p : L → Bool) :
    ((new a).accepts x = true ↔ x = a) ∧
    ((ofList ls).accepts x = true ↔ x ∈ ls) ∧
    ((ofPair a b).accepts x = true ↔ x ∈ [a, b]) ∧
    ((ofTriple a b c).accepts x = true ↔ x ∈ [a, b, c]) ∧
    ((ofQuad a b c d).accepts x = true ↔ x ∈ [a, b, c, d]) ∧
    ((ofQuint a b c d e).accepts x = true ↔ x ∈ [a, b, c, d, e]) ∧
    ((predicate p).accepts x = p x) ∧
    ((acceptAll : LabelFilter L).accepts x = true) ∧
    ((LabelFilter.default : LabelFilter L).accepts x = true) ∧
    ((acceptNone : LabelFilter L).accepts x = false) := by
  refine ⟨?_, ?_, ?_, ?_, ?_, ?_, rfl, rfl, rfl, rfl⟩
  · simp [new, acceptAnother, accepts]
  · rw [ofList, C01_filter_is_the_set]; simp [accepts]
  all_goals simp [ofPair, ofTriple, ofQuad, ofQuint, new, acceptAnother, accepts, or_assoc]

/-- Accept-all stays accept-all; accept-none plus labels is exactly those labels. -/
theorem C01_accept_all_and_none (ls : List L) (x : L) :
    (ls.foldl acceptAnother (acceptAll : LabelFilter L)).accepts x = true ∧
    ((ls.foldl acceptAnother (acceptNone : LabelFilter L)).accepts x = true ↔ x ∈ ls) := by
  constructor
  · rw [C01_filter_is_the_set]; exact .inl rfl
  · rw [C01_filter_is_the_set]; simp [accepts]

/-- A filter that went through all sizes. -/
example : let f := [3, 4, 5, 6, 7, 8, 9].foldl acceptAnother (ofPair 1 2)
    f.accepts 2 = true ∧ f.accepts 9 = true ∧ f.accepts 10 = false := by decide

/-- A predicate with an added label. -/
example : let f := (predicate fun n : Nat => n % 2 == 0).acceptAnother 3
    f.accepts 4 = true ∧ f.accepts 3 = true ∧ f.accepts 5 = false := by decide

end Metrix
