import Verif.Proof.Reports
import Verif.Props.C18

/-! # C19: `instruments_updated` is the number of instruments that report an update -/

namespace Metrix
variable {σ L : Type} [DecidableEq L] [Custom σ L]

/-- Over the whole tree: the number returned is the sum of what the visited leaves report, the skipped ones count 0. -/
theorem C19_sum {o : Observation L} {c c' : Cockpit σ L} {n : Nat} {e : Env} {k k' : Nat}
    (h : c.handle o e k = some ((c', n), k')) : ∃ ns, Visited e o k c.leaves c'.leaves ns k' ∧ n = ns.sum :=
  (C18_cockpit h).1

theorem C19_sum_panel {o : Observation L} {p p' : Panel σ L} {n : Nat} {e : Env} {k k' : Nat}
    (h : p.handle o e k = some ((p', n), k')) : ∃ ns, Visited e o k p.leaves p'.leaves ns k' ∧ n = ns.sum :=
  (C18_panel h).1

open Classical in
theorem visited_le {o : Observation L} {e : Env} {l l' : List (Placed σ L)} {ns : List Nat} {k k' : Nat}
    (h : Visited e o k l l' ns k') (hb : ∀ x ∈ l, x.2.IsBuiltIn) :
    ns.sum ≤ (l.filter fun x => Reached o.label x ∧ x.2.IsInstrument).length := by
  induction h with
  | nil => simp
  | @reached k k₁ k' path leaf leaf' n rest rest' ns hr hre _ ih =>
    have ih := ih fun x hx => hb x (by simp [hx])
    have hbl := hb (path, leaf) (by simp)
    rw [List.sum_cons]
    cases leaf with
    | instrument a =>
      have : n ≤ 1 := by
        have := M.Post.bind (P := fun r : Leaf σ L × Nat => r.2 ≤ 1) _
          (a.handle_le (fun u => Instrument.update_le (L := L) _ hbl u) o)
          (fun x (h : x.2 ≤ 1) => M.Post.pure (a := ((.instrument x.1 : Leaf σ L), x.2)) h)
        exact this _ _ _ _ hre
      rw [List.filter_cons_of_pos (by simp [hr, Leaf.IsInstrument]), List.length_cons]; omega
    | gauge a =>
      have : n ≤ 1 := by
        have := M.Post.bind (P := fun r : Leaf σ L × Nat => r.2 ≤ 1) _ (a.handle_le o)
          (fun x (h : x.2 ≤ 1) => M.Post.pure (a := ((.gauge x.1 : Leaf σ L), x.2)) h)
        exact this _ _ _ _ hre
      rw [List.filter_cons_of_pos (by simp [hr, Leaf.IsInstrument]), List.length_cons]; omega
    | custom s => exact absurd hbl (by simp [Leaf.IsBuiltIn])
    | lastActivity t =>
      simp only [Leaf.react, M.bind_eq_some, M.run_pure, Option.some.injEq, Prod.mk.injEq] at hre
      obtain ⟨_, _, _, ⟨_, rfl⟩, _⟩ := hre
      rw [List.filter_cons_of_neg (by simp [Leaf.IsInstrument])]; omega
  | @skipped k k' path leaf rest rest' ns hr _ ih =>
    have ih := ih fun x hx => hb x (by simp [hx])
    rw [List.filter_cons_of_neg (by simp [hr])]; simpa using ih

open Classical in
/-- With built-in instruments only it is at most the number of reached instruments. -/
theorem C19_at_most_reached {o : Observation L} {c c' : Cockpit σ L} {n : Nat} {e : Env} {k k' : Nat}
    (h : c.handle o e k = some ((c', n), k')) (hb : ∀ x ∈ c.leaves, x.2.IsBuiltIn) :
    n ≤ (c.leaves.filter fun x => Reached o.label x ∧ x.2.IsInstrument).length := by
  obtain ⟨ns, hv, rfl⟩ := (C18_cockpit h).1
  exact visited_le hv hb

open Classical in
theorem C19_at_most_reached_panel {o : Observation L} {p p' : Panel σ L} {n : Nat} {e : Env} {k k' : Nat}
    (h : p.handle o e k = some ((p', n), k')) (hb : ∀ x ∈ p.leaves, x.2.IsBuiltIn) :
    n ≤ (p.leaves.filter fun x => Reached o.label x ∧ x.2.IsInstrument).length := by
  obtain ⟨ns, hv, rfl⟩ := (C18_panel h).1
  exact visited_le hv hb

/-- The example tree: label 2 reaches both counters, 2 is reported. -/
example (e : Env) (k : Nat) : (exampleTree.handle (.observed 2 1 0) e k).map (·.1.2) = some 2 ∧
    ∀ x ∈ exampleTree.leaves, x.2.IsBuiltIn := by
  refine ⟨rfl, ?_⟩
  intro x hx
  simp [exampleTree, Panel.leaves, leavesOfPanels, leavesOfHandlers, PanelHead.leaves, behind] at hx
  rcases hx with rfl | rfl <;> intro s <;> exact nomatch s

omit [DecidableEq L] in
/-- Without user defined instruments and handlers everything is built in. -/
theorem builtIn_of_empty : (x : Leaf Empty L) → x.IsBuiltIn
  | .instrument _ => fun s => s.elim
  | .gauge _ => trivial
  | .custom s => s.elim
  | .lastActivity _ => trivial

example (e : Env) (k : Nat) := C19_sum (o := .observedOne 2 0)
  (c := { head := { name := none, activity := ⟨0, none, true⟩ }, panels := [exampleTree] }) (e := e) (k := k) rfl
example (e : Env) (k : Nat) := C19_sum_panel (o := .observedOne 2 0) (p := exampleTree) (e := e) (k := k) rfl
example (e : Env) (k : Nat) := C19_at_most_reached (o := .observedOne 2 0)
  (c := { head := { name := none, activity := ⟨0, none, true⟩ }, panels := [exampleTree] }) (e := e) (k := k) rfl
  (fun x _ => builtIn_of_empty x.2)
example (e : Env) (k : Nat) := C19_at_most_reached_panel (o := .observedOne 2 0) (p := exampleTree) (e := e) (k := k) rfl
  (fun x _ => builtIn_of_empty x.2)

end Metrix
