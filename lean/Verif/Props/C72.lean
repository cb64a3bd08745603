import Verif.Spec.Jemalloc
import Verif.Props.C70
import Verif.Props.C71
import Verif.Spec.Safe
import Verif.Proof.Describe

/-! # C72: statistics of the allocator are shown completely or not at all, and do no harm -/

namespace Metrix

theorem Jemalloc.Answers.usize {s : Jemalloc} (hs : s.Answers) {c : Ctl} {n v : Nat} (hc : c ≠ .narenas)
    (h : s.answer c n = some v) : ItemKind.ofInt v .usize = .uint v := by
  have := hs c n v h
  rw [if_neg hc] at this
  rw [ItemKind.ofInt_eq this]; rfl

theorem Jemalloc.Answers.u32 {s : Jemalloc} (hs : s.Answers) {n v : Nat}
    (h : s.answer .narenas n = some v) : ItemKind.ofInt v .u32 = .uint v := by
  have := hs _ n v h
  rw [if_pos rfl] at this
  rw [ItemKind.ofInt_eq this]; rfl

/-- What is put is what was there and what the answers up to the first error amount to. The allocator is asked the
questions in order, none after the first error. -/
theorem C72_contents {s : Jemalloc} (hs : s.Answers) (into : Snapshot) (d : Bool) :
    let answers := answersUntilError s.answer s.asked.length ctlOrder
    s.put into d = ({ s with asked := s.asked ++ ctlOrder.take (answers.length + 1) }, into ++ allocatorItems answers) := by
  have u : ∀ {c : Ctl} {n v : Nat}, c ≠ .narenas → s.answer c n = some v → ItemKind.ofInt v .usize = .uint v :=
    fun h h' => hs.usize h h'
  simp only [Jemalloc.put, Jemalloc.ask, ctlOrder, answersUntilError, List.length_append, List.length_singleton, Nat.add_assoc]
  cases h0 : s.answer .epoch s.asked.length with
  | none => simp [allocatorItems]
  | some v0 =>
  simp only
  cases h1 : s.answer .active (s.asked.length + 1) with
  | none => simp [allocatorItems]
  | some v1 =>
  simp only [Nat.reduceAdd]
  cases h2 : s.answer .allocated (s.asked.length + 2) with
  | none => simp [allocatorItems]
  | some v2 =>
  simp only
  cases h3 : s.answer .mapped (s.asked.length + 3) with
  | none => simp [allocatorItems]
  | some v3 =>
  simp only
  cases h4 : s.answer .metadata (s.asked.length + 4) with
  | none => simp [allocatorItems]
  | some v4 =>
  simp only
  cases h5 : s.answer .resident (s.asked.length + 5) with
  | none => simp [allocatorItems]
  | some v5 =>
  simp only
  cases h6 : s.answer .retained (s.asked.length + 6) with
  | none => simp [allocatorItems]
  | some v6 =>
  simp only [u (by decide) h1, u (by decide) h2, u (by decide) h3, u (by decide) h4, u (by decide) h5, u (by decide) h6]
  cases h7 : s.answer .narenas (s.asked.length + 7) with
  | none => simp [allocatorItems, Snapshot.push]
  | some v7 =>
  simp only [hs.u32 h7]
  cases h8 : s.answer .maxBackgroundThreads (s.asked.length + 8) with
  | none => simp [allocatorItems, Snapshot.push]
  | some v8 => simp [allocatorItems, Snapshot.push, u (by decide) h8]

/-- If there is no error then everything is shown. -/
theorem C72_complete {s : Jemalloc} (hs : s.Answers) {value : Ctl → Nat → Nat} (h : ∀ c n, s.answer c n = some (value c n))
    (into : Snapshot) (d : Bool) :
    let n := s.asked.length
    (s.put into d).2 = into ++ [
      ("stats", .snapshot [("active", .uint (value .active (n + 1))), ("allocated", .uint (value .allocated (n + 2))),
        ("mapped", .uint (value .mapped (n + 3))), ("metadata", .uint (value .metadata (n + 4))),
        ("resident", .uint (value .resident (n + 5))), ("retained", .uint (value .retained (n + 6)))]),
      ("arenas", .snapshot [("narenas", .uint (value .narenas (n + 7)))]),
      ("max_background_threads", .uint (value .maxBackgroundThreads (n + 8)))] := by
  rw [C72_contents hs]
  simp only [ctlOrder, answersUntilError, h, allocatorItems]

/-- If the allocator does not answer the first question or one of the statistics then nothing is shown. -/
theorem C72_nothing {s : Jemalloc} {c : Ctl} {i : Nat} (hc : ctlOrder[i]? = some c) (hi : i < 7)
    (h : s.answer c (s.asked.length + i) = none) (into : Snapshot) (d : Bool) : (s.put into d).2 = into := by
  simp only [Jemalloc.put, Jemalloc.ask, List.length_append, List.length_singleton, Nat.add_assoc]
  have := hc
  match i, hi with
  | 0, _ => cases hc; simp only [Nat.add_zero] at h; simp only [h]
  | 1, _ => cases hc; simp only [h]; repeat' split <;> try rfl
  | 2, _ => cases hc; simp only [h, Nat.reduceAdd]; repeat' split <;> try rfl
  | 3, _ => cases hc; simp only [h, Nat.reduceAdd]; repeat' split <;> try rfl
  | 4, _ => cases hc; simp only [h, Nat.reduceAdd]; repeat' split <;> try rfl
  | 5, _ => cases hc; simp only [h, Nat.reduceAdd]; repeat' split <;> try rfl
  | 6, _ => cases hc; simp only [h, Nat.reduceAdd]; repeat' split <;> try rfl

theorem Jemalloc.put_items (s : Jemalloc) (d : Bool) :
    ∃ items, (∀ into d', s.put into d' = ((s.put [] d).1, into ++ items)) ∧ Conforms allocatorSlots items := by
  have single : ∀ {x : Slot} {n : String} {v : ItemKind}, x.Admits n v → Conforms [x] [(n, v)] := fun h => .item h .nil
  have maybe : ∀ {a : List Slot} {t : Snapshot}, Conforms a t → Conforms [.maybe a] t := fun {a t} h => by
    simpa using Conforms.left (b := []) h .nil
  have none_ : ∀ {a : List Slot}, Conforms [.maybe a] [] := fun {a} => by
    simpa using Conforms.right (a := a) .nil .nil
  have val : ∀ {n : String} {i : Int} {t : IntType}, t.signed = false → Slot.Admits (.value n [.uint]) n (.ofInt i t) := by
    intro n i t ht
    cases t <;> simp [IntType.signed] at ht <;> exact .value rfl (by simp)
  unfold allocatorSlots
  simp only [Jemalloc.put, Jemalloc.ask, List.length_append, List.length_singleton, Nat.add_assoc, Nat.reduceAdd]
  cases h0 : s.answer .epoch s.asked.length with
  | none => exact ⟨[], fun _ _ => by simp, none_⟩
  | some v0 =>
  simp only
  cases h1 : s.answer .active (s.asked.length + 1) with
  | none => exact ⟨[], fun _ _ => by simp, none_⟩
  | some v1 =>
  simp only
  cases h2 : s.answer .allocated (s.asked.length + 2) with
  | none => exact ⟨[], fun _ _ => by simp, none_⟩
  | some v2 =>
  simp only
  cases h3 : s.answer .mapped (s.asked.length + 3) with
  | none => exact ⟨[], fun _ _ => by simp, none_⟩
  | some v3 =>
  simp only
  cases h4 : s.answer .metadata (s.asked.length + 4) with
  | none => exact ⟨[], fun _ _ => by simp, none_⟩
  | some v4 =>
  simp only
  cases h5 : s.answer .resident (s.asked.length + 5) with
  | none => exact ⟨[], fun _ _ => by simp, none_⟩
  | some v5 =>
  simp only
  cases h6 : s.answer .retained (s.asked.length + 6) with
  | none => exact ⟨[], fun _ _ => by simp, none_⟩
  | some v6 =>
  simp only
  have stats : Slot.Admits (.group "stats"
      (["active", "allocated", "mapped", "metadata", "resident", "retained"].map fun n => Slot.value n [.uint])) "stats"
      (.snapshot [("active", .ofInt v1 .usize), ("allocated", .ofInt v2 .usize), ("mapped", .ofInt v3 .usize),
        ("metadata", .ofInt v4 .usize), ("resident", .ofInt v5 .usize), ("retained", .ofInt v6 .usize)]) :=
    .group (.item (val rfl) (.item (val rfl) (.item (val rfl) (.item (val rfl) (.item (val rfl) (.item (val rfl) .nil))))))
  cases h7 : s.answer .narenas (s.asked.length + 7) with
  | none => exact ⟨[_], fun _ _ => by simp only [Snapshot.push, List.nil_append]; rfl, maybe (.item stats none_)⟩
  | some v7 =>
  simp only
  have arenas : Slot.Admits (.group "arenas" [.value "narenas" [.uint]]) "arenas"
      (.snapshot [("narenas", .ofInt v7 .u32)]) := .group (.item (val rfl) .nil)
  cases h8 : s.answer .maxBackgroundThreads (s.asked.length + 8) with
  | none =>
    exact ⟨[_, _], fun _ _ => by simp only [Snapshot.push, List.nil_append, List.append_assoc, List.cons_append],
      maybe (.item stats (maybe (.item arenas none_)))⟩
  | some v8 =>
    exact ⟨[_, _, _], fun _ _ => by simp only [Snapshot.push, List.nil_append, List.append_assoc, List.cons_append]; rfl,
      maybe (.item stats (maybe (.item arenas (maybe (.item (val rfl) .nil)))))⟩

variable {L : Type}

/-- It does what the theorems about trees, processors and drivers ask of components that are not instruments: it only appends,
keeps to its schema, does not read the clock, never panics and shows the same values in descriptive snapshots. -/
theorem C72_harmless :
    CustomAppends Jemalloc L ∧ CustomFits Jemalloc L (fun _ => allocatorSlots) ∧ CustomForward Jemalloc L ∧
    (∀ e, CustomSafe L e (fun _ : Jemalloc => True)) ∧ CustomDescribes Jemalloc L := by
  have run : ∀ (s : Jemalloc) (into : Snapshot) (d : Bool) (e : Env) (k : Nat),
      Custom.putSnapshot L s into d e k = some (s.put into d, k) := fun _ _ _ _ _ => rfl
  refine ⟨?_, ?_, ⟨fun s u => .pure _, fun s o => .pure _, fun s i d => .pure _⟩,
    fun e => ⟨fun s u k _ => ⟨s, 0, k, rfl, trivial⟩, fun s o k _ => ⟨s, 0, k, rfl, trivial⟩,
      fun s into d k _ => ⟨_, _, _, run s into d e k, trivial⟩⟩, ?_⟩
  · intro s into d e k s' into' k' h
    rw [run] at h
    obtain ⟨items, hi, _⟩ := s.put_items d
    rw [hi] at h
    cases h
    exact List.prefix_append ..
  · intro s into d e k s' into' k' h
    rw [run] at h
    obtain ⟨items, hi, hc⟩ := s.put_items d
    rw [hi] at h
    cases h
    exact ⟨items, rfl, hc⟩
  · intro s into into' u d h e k
    obtain ⟨items, hi, hi'⟩ := s.put_items d
    clear hi'
    rw [run, run, hi into false, hi into' d]
    refine .some ⟨rfl, rfl, ?_⟩
    clear hi
    show Described u d (into ++ items) (into' ++ items)
    induction items generalizing into into' with
    | nil => simpa using h
    | cons x l ih =>
      have := ih (into ++ [x]) (into' ++ [x]) (h.push x.1 x.2)
      simpa using this

/-! ## Examples -/

/-- An allocator that answers, from the hundredth question on not to `mapped`. -/
def exampleAllocator : Jemalloc where
  answer c n := if c = .mapped ∧ 100 ≤ n then none else some (if c = .narenas then 4 else n * 1000)

example : (exampleAllocator.put [("x", .uint 1)] false).2 = [("x", .uint 1),
    ("stats", .snapshot [("active", .uint 1000), ("allocated", .uint 2000), ("mapped", .uint 3000), ("metadata", .uint 4000),
      ("resident", .uint 5000), ("retained", .uint 6000)]),
    ("arenas", .snapshot [("narenas", .uint 4)]), ("max_background_threads", .uint 8000)] := rfl

/-- An allocator that only answers questions it was not asked before. -/
def shyAllocator : Jemalloc where
  answer c n := if n < 9 then some (if c = .narenas then 4 else n) else none

theorem shyAllocator_answers : shyAllocator.Answers := by
  intro c n v h
  simp only [shyAllocator] at h
  split at h
  · cases h
    split <;> simp [IntType.Holds, IntType.signed, IntType.bits]
    omega
  · cases h

/-- A processor that shows it: everything in the first snapshot, nothing in the second. -/
example : ((do
    let p ← Processor.create (some "p") (σ := Jemalloc) (L := Nat) { chan := .fresh (some 10) true [], ahead := [] }
    let p := { p with state := { p.state with snapshooters := [.custom shyAllocator] } }
    let (p, s₁) ← p.putSnapshot [] false
    let (_, s₂) ← p.putSnapshot [] false
    return (s₁, s₂) : M _) ticking 1).map (·.1) = some (
      [("p", .snapshot [("stats", .snapshot [("active", .uint 1), ("allocated", .uint 2), ("mapped", .uint 3),
          ("metadata", .uint 4), ("resident", .uint 5), ("retained", .uint 6)]),
        ("arenas", .snapshot [("narenas", .uint 4)]), ("max_background_threads", .uint 8)])],
      [("p", .snapshot [])]) := rfl

end Metrix
