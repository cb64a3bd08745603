import Std.Data.String.ToInt
import Verif.Model.Display
import Verif.Props.C42
import Verif.Props.C44

/-!
# C88: what is printed can be told apart and read back

`String.toInt?` reads an integer in decimal, as `str::parse` does.
-/

namespace Metrix
variable (t : Texts)

/-- The text of a number is read as this number. -/
theorem C88_number (n : Nat) (i : Int) :
    ((ItemKind.uint n).display t).toInt? = some (n : Int) ∧ ((ItemKind.int i).display t).toInt? = some i :=
  ⟨Nat.toInt?_repr n, Int.toInt?_repr i⟩

/-- The number in an item, if it is an integer. -/
def ItemKind.integer : ItemKind → Option Int
  | .uint n => some n
  | .int i => some i
  | _ => none

theorem display_integer {x : ItemKind} {a : Int} (h : x.integer = some a) : (x.display t).toInt? = some a := by
  cases x <;> simp only [ItemKind.integer, reduceCtorEq, Option.some.injEq] at h
  · subst h; exact (C88_number t _ 0).1
  · subst h; exact (C88_number t 0 _).2

/-- Two integers have the same text exactly if they are the same number, whatever their types are. -/
theorem C88_integers {x y : ItemKind} {a b : Int} (hx : x.integer = some a) (hy : y.integer = some b) :
    x.display t = y.display t ↔ a = b := by
  constructor
  · intro h
    have := display_integer t hx
    rw [h, display_integer t hy] at this
    exact (Option.some.inj this).symm
  · rintro rfl
    cases x <;> simp only [ItemKind.integer, reduceCtorEq, Option.some.injEq] at hx <;>
      cases y <;> simp only [ItemKind.integer, reduceCtorEq, Option.some.injEq] at hy
    · rw [← hy] at hx; rw [Int.ofNat.inj hx]
    · subst hx; subst hy; rfl
    · subst hx; subst hy; rfl
    · subst hx; subst hy; rfl

theorem repr_first (n : Nat) : ∃ c cs, (Nat.repr n).toList = c :: cs ∧ c.isDigit = true := by
  rw [Nat.toList_repr]
  cases h : Nat.toDigits 10 n with
  | nil => exact absurd h Nat.toDigits_ne_nil
  | cons c cs => exact ⟨c, cs, rfl, Nat.isDigit_of_mem_toDigits (b := 10) (n := n) (by omega) (by omega) (by rw [h]; exact List.mem_cons_self)⟩

theorem integer_first {x : ItemKind} {a : Int} (h : x.integer = some a) :
    ∃ c cs, (x.display t).toList = c :: cs ∧ (c = '-' ∨ c.isDigit = true) := by
  cases x <;> simp only [ItemKind.integer, reduceCtorEq, Option.some.injEq] at h
  · obtain ⟨c, cs, h1, h2⟩ := repr_first _
    exact ⟨c, cs, h1, .inr h2⟩
  · rename_i i
    cases i with
    | ofNat n =>
      obtain ⟨c, cs, h1, h2⟩ := repr_first n
      exact ⟨c, cs, h1, .inr h2⟩
    | negSucc n => exact ⟨'-', (Nat.repr (n + 1)).toList, by simp [ItemKind.display, Int.repr], .inl rfl⟩

/-- What can be seen of an item that is printed. -/
inductive Seen
  | integer (i : Int)
  | boolean (b : Bool)
  | snapshot (length : Nat)
  deriving DecidableEq

/-- Texts are written as they are, and floats by the standard library. Nothing is said about these. -/
def ItemKind.seen : ItemKind → Option Seen
  | .uint n => some (.integer n)
  | .int i => some (.integer i)
  | .boolean b => some (.boolean b)
  | .snapshot items => some (.snapshot items.length)
  | _ => none

/-- The first character of what is written, for each kind of item. -/
def Seen.First (c : Char) : Seen → Prop
  | .integer _ => c = '-' ∨ c.isDigit = true
  | .boolean b => c = if b then 't' else 'f'
  | .snapshot _ => c = 'S'

theorem seen_first {x : ItemKind} {a : Seen} (h : x.seen = some a) : ∃ c cs, (x.display t).toList = c :: cs ∧ a.First c := by
  cases x <;> simp only [ItemKind.seen, reduceCtorEq, Option.some.injEq] at h <;> subst h
  · rename_i b
    cases b
    · exact ⟨'f', ['a', 'l', 's', 'e'], by simp [ItemKind.display], rfl⟩
    · exact ⟨'t', ['r', 'u', 'e'], by simp [ItemKind.display], rfl⟩
  · exact integer_first t (a := _) rfl
  · exact integer_first t (a := _) rfl
  · rename_i items
    refine ⟨'S', "napshot(".toList ++ (Nat.repr items.length).toList ++ " items)".toList, ?_, rfl⟩
    simp only [ItemKind.display, String.toList_append]
    rfl

theorem snapshot_text {a b : Nat} (h : "Snapshot(" ++ Nat.repr a ++ " items)" = "Snapshot(" ++ Nat.repr b ++ " items)") : a = b := by
  have h := congrArg String.toList h
  simp only [String.toList_append] at h
  have h := List.append_cancel_left (List.append_cancel_right h)
  exact Nat.repr_injective (String.toList_injective h)

/-- Two items (other than texts and floats) have the same text exactly if they are the same number, the same truth value or snapshots
with equally many items. In particular a number is never written like a truth value or a snapshot. -/
theorem C88_told_apart {x y : ItemKind} {a b : Seen} (hx : x.seen = some a) (hy : y.seen = some b) :
    x.display t = y.display t ↔ a = b := by
  constructor
  · intro h
    obtain ⟨c, cs, h1, h2⟩ := seen_first t hx
    obtain ⟨c', cs', h1', h2'⟩ := seen_first t hy
    rw [h, h1'] at h1
    obtain ⟨rfl, rfl⟩ := List.cons.inj h1
    have key : ∀ {x y : ItemKind} {i j : Int}, x.seen = some (.integer i) → y.seen = some (.integer j) → x.display t = y.display t → i = j := by
      intro x y i j hx hy h
      refine (C88_integers t (x := x) (y := y) ?_ ?_).1 h
      · cases x <;> simp_all [ItemKind.seen, ItemKind.integer]
      · cases y <;> simp_all [ItemKind.seen, ItemKind.integer]
    cases a with
    | integer i =>
      cases b with
      | integer j => rw [key hx hy h]
      | boolean b => cases b <;> simp only [Seen.First] at h2 h2' <;> subst h2' <;> exact absurd h2 (by decide)
      | snapshot n => simp only [Seen.First] at h2 h2'; subst h2'; exact absurd h2 (by decide)
    | boolean a =>
      cases b with
      | integer j => cases a <;> simp only [Seen.First] at h2 h2' <;> subst h2 <;> exact absurd h2' (by decide)
      | boolean b => cases a <;> cases b <;> simp only [Seen.First] at h2 h2' <;> first | rfl | (subst h2; exact absurd h2' (by decide))
      | snapshot n => cases a <;> simp only [Seen.First] at h2 h2' <;> subst h2 <;> exact absurd h2' (by decide)
    | snapshot m =>
      cases b with
      | integer j => simp only [Seen.First] at h2 h2'; subst h2; exact absurd h2' (by decide)
      | boolean b => cases b <;> simp only [Seen.First] at h2 h2' <;> subst h2 <;> exact absurd h2' (by decide)
      | snapshot n =>
        cases x <;> simp only [ItemKind.seen, reduceCtorEq, Option.some.injEq, Seen.snapshot.injEq] at hx
        cases y <;> simp only [ItemKind.seen, reduceCtorEq, Option.some.injEq, Seen.snapshot.injEq] at hy
        rw [← hx, ← hy, snapshot_text h]
  · rintro rfl
    cases x <;> simp only [ItemKind.seen, reduceCtorEq, Option.some.injEq] at hx <;> subst hx <;>
      cases y <;> simp only [ItemKind.seen, reduceCtorEq, Option.some.injEq, Seen.boolean.injEq, Seen.integer.injEq, Seen.snapshot.injEq] at hy
    · subst hy; rfl
    · exact (C88_integers t rfl rfl).2 hy.symm
    · exact (C88_integers t rfl rfl).2 hy.symm
    · exact (C88_integers t rfl rfl).2 hy.symm
    · exact (C88_integers t rfl rfl).2 hy.symm
    · simp only [ItemKind.display, hy]

/-- That nothing was found is not mistaken for a number, a truth value or a snapshot. -/
theorem C88_not_found {f : FindItem} (h : f.display t = "<item not found>") :
    f = .notFound ∨ ∃ v, f = .found v ∧ v.seen = none := by
  cases f with
  | notFound => exact .inl rfl
  | found v =>
    refine .inr ⟨v, rfl, ?_⟩
    cases hv : v.seen with
    | none => rfl
    | some a =>
      obtain ⟨c, cs, h1, h2⟩ := seen_first t hv
      simp only [FindItem.display] at h
      rw [h] at h1
      have h1 : c = '<' := (List.cons.inj h1).1.symm
      subst h1
      cases a with
      | integer i => exact absurd h2 (by simp only [Seen.First]; decide)
      | boolean b => cases b <;> exact absurd h2 (by simp only [Seen.First]; decide)
      | snapshot n => exact absurd h2 (by simp only [Seen.First]; decide)

/-- Durations: the three cases have different texts, as long as the text of a duration begins with a digit. -/
theorem C88_duration (ht : ∀ d, ∃ c cs, (t.duration d).toList = c :: cs ∧ c.isDigit = true) (f : FindDurationItem) :
    (f.display t = "<item not found>" ↔ f = .notFound) ∧ (f.display t = "<item not a duration>" ↔ f = .notADuration) := by
  cases f with
  | notFound => simp [FindDurationItem.display]
  | notADuration => simp [FindDurationItem.display]
  | duration d =>
    obtain ⟨c, cs, h1, h2⟩ := ht d
    have : ∀ s : String, s.toList.head? = some '<' → t.duration d ≠ s := by
      rintro s hs rfl
      rw [h1] at hs
      simp only [List.head?_cons, Option.some.injEq] at hs
      subst hs
      revert h2; decide
    simp [FindDurationItem.display, this "<item not found>" rfl, this "<item not a duration>" rfl]

/-- Each number in a snapshot, without name clashes on the way to it, can be read from what is printed for its path. -/
theorem C88_path {s : Snapshot} {names : List String} {v : ItemKind} {a : Int} {sep : Char} (h : UniquelyAt s names v)
    (hn : ∀ n ∈ names, n.toList ≠ [] ∧ sep ∉ n.toList) (hv : v.integer = some a) :
    ((s.findWithSeparator (joinPath sep names) sep).display t).toInt? = some a := by
  rw [C42_found h hn]
  exact display_integer t hv

/-! ## Examples -/

def someTexts : Texts := ⟨fun _ => "0.5", fun d => Nat.repr d ++ "ns"⟩

example (d : Nat) : ∃ c cs, (someTexts.duration d).toList = c :: cs ∧ c.isDigit = true := by
  obtain ⟨c, cs, h1, h2⟩ := repr_first d
  exact ⟨c, cs ++ "ns".toList, by simp [someTexts, String.toList_append, h1], h2⟩

def printed : Snapshot := [("a", .snapshot [("b", .int (-42)), ("t", .text "<item not found>")]), ("u", .uint 7)]

example : (printed.find "a/b").display someTexts = "-42" ∧ (printed.find "a").display someTexts = "Snapshot(2 items)" ∧
    (printed.find "u").display someTexts = "7" ∧ (printed.find "x").display someTexts = "<item not found>" := by decide +kernel

example : UniquelyAt printed ["a", "b"] (.int (-42)) :=
  .inside (by decide) (List.mem_cons_self) (.here (by decide) List.mem_cons_self)

/-- A text may look like anything, so the case of texts has to be left out. -/
example : (printed.find "a/t").display someTexts = (printed.find "x").display someTexts := by decide +kernel

end Metrix
