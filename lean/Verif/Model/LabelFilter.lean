/-!
# Label filters: `src/instruments/label_filter.rs`
-/

namespace Metrix

/-- `src/instruments/label_filter.rs:192-202` (`LabelFilterInternal`). `LabelFilter` (1-3) only wraps it. -/
inductive LabelFilter (L : Type)
  | acceptNone
  | acceptAll
  | one (a : L)
  | two (a b : L)
  | three (a b c : L)
  | four (a b c d : L)
  | five (a b c d e : L)
  | many (ls : List L)
  | predicate (p : L → Bool)

namespace LabelFilter
variable {L : Type} [DecidableEq L]

/-- `src/instruments/label_filter.rs:219-242` (`add_label`), called by `accept_another` (36-38). -/
def acceptAnother (f : LabelFilter L) (label : L) : LabelFilter L :=
  match f with
  | .acceptNone => .one label
  | .acceptAll => .acceptAll
  | .one a => .two a label
  | .two a b => .three a b label
  | .three a b c => .four a b c label
  | .four a b c d => .five a b c d label
  | .five a b c d e => .many [a, b, c, d, e, label]
  | .many ls => .many (ls ++ [label])
  | .predicate p => .predicate fun x => decide (x = label) || p x

/-- `src/instruments/label_filter.rs:244-260` (`accepts`), called by `LabelFilter::accepts` (40-42). -/
def accepts (f : LabelFilter L) (label : L) : Bool :=
  match f with
  | .acceptNone => false
  | .acceptAll => true
  | .one a => decide (label = a)
  | .two a b => decide (label = a) || decide (label = b)
  | .three a b c => decide (label = a) || decide (label = b) || decide (label = c)
  | .four a b c d =>
    decide (label = a) || decide (label = b) || decide (label = c) || decide (label = d)
  | .five a b c d e =>
    decide (label = a) || decide (label = b) || decide (label = c) || decide (label = d)
      || decide (label = e)
  | .many ls => ls.contains label
  | .predicate p => p label

/-- `src/instruments/label_filter.rs:9-13` (`new`); also `From<L>`, `From<L<LL>>` and
`From<AcceptOneLabel<L>>` (56-63, 103-118). -/
def new (label : L) : LabelFilter L := acceptAnother .acceptNone label

/-- `src/instruments/label_filter.rs:120-131` (`From<Vec<L>>`). -/
def ofList (ls : List L) : LabelFilter L := ls.foldl acceptAnother .acceptNone

/-- `src/instruments/label_filter.rs:133-142` (`From<(L, L)>`). -/
def ofPair (a b : L) : LabelFilter L := (new a).acceptAnother b

/-- `src/instruments/label_filter.rs:144-154` (`From<(L, L, L)>`). -/
def ofTriple (a b c : L) : LabelFilter L := ((new a).acceptAnother b).acceptAnother c

/-- `src/instruments/label_filter.rs:156-167` (`From<(L, L, L, L)>`). -/
def ofQuad (a b c d : L) : LabelFilter L :=
  (((new a).acceptAnother b).acceptAnother c).acceptAnother d

/-- `src/instruments/label_filter.rs:169-181` (`From<(L, L, L, L, L)>`). -/
def ofQuint (a b c d e : L) : LabelFilter L :=
  ((((new a).acceptAnother b).acceptAnother c).acceptAnother d).acceptAnother e

/-- `src/instruments/label_filter.rs:183-190, 263-267` (`Default`). -/
def default : LabelFilter L := .acceptAll

end LabelFilter
end Metrix
