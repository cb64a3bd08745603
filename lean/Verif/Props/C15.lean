import Verif.Model.Tree
import Mathlib.Data.List.Nodup

/-! # C15: named panels are unique in a cockpit -/

namespace Metrix
variable {σ L : Type}

/-- No two panels have the same name. -/
def UniquePanelNames (c : Cockpit σ L) : Prop := (c.panels.filterMap (·.name)).Nodup

/-- What users can do with the panels of a cockpit. -/
inductive PanelOp (σ L : Type)
  | add (p : Panel σ L)
  | remove (name : String)

def PanelOp.apply (c : Cockpit σ L) : PanelOp σ L → Cockpit σ L
  | .add p => c.addPanel p
  | .remove n => c.removePanel n

/-- There is a panel of that name. -/
def HasPanel (c : Cockpit σ L) (n : String) : Prop := ∃ p ∈ c.panels, p.name = some n

theorem hasPanel_any (c : Cockpit σ L) (n : String) :
    (c.panels.any fun q => match q.name with
        | some m => m == n
        | none => false) = true ↔ HasPanel c n := by
  rw [List.any_eq_true]
  unfold HasPanel
  constructor
  · rintro ⟨p, hp, h⟩
    refine ⟨p, hp, ?_⟩
    cases hn : p.name with
    | none => simp [hn] at h
    | some m => simp [hn] at h; rw [h]
  · rintro ⟨p, hp, h⟩; exact ⟨p, hp, by simp [h]⟩

/-- Adding: a panel whose name is taken is ignored, every other panel (all unnamed ones among them) is appended. -/
theorem C15_add (c : Cockpit σ L) (p : Panel σ L) :
    (∀ n, p.name = some n → HasPanel c n → c.addPanel p = c) ∧
    ((∀ n, p.name = some n → ¬ HasPanel c n) → c.addPanel p = { c with panels := c.panels ++ [p] }) := by
  unfold Cockpit.addPanel
  constructor
  · intro n hn h
    simp only [hn]
    exact if_pos ((hasPanel_any c n).mpr h)
  · intro h
    cases hn : p.name with
    | none => rfl
    | some n =>
      simp only
      exact if_neg fun h' => h n hn ((hasPanel_any c n).mp h')

/-- Removing: exactly the panels of that name are removed, the others stay in order; unnamed ones always stay. -/
theorem C15_remove (c : Cockpit σ L) (n : String) :
    (c.removePanel n).panels = c.panels.filter (fun p => decide (p.name ≠ some n)) ∧
    (c.removePanel n).handlers = c.handlers ∧ (c.removePanel n).snapshooters = c.snapshooters ∧
    (c.removePanel n).head = c.head ∧ ¬ HasPanel (c.removePanel n) n := by
  have : (c.removePanel n).panels = c.panels.filter (fun p => decide (p.name ≠ some n)) := by
    simp only [Cockpit.removePanel]
    apply List.filter_congr
    intro p _
    cases p.name with
    | none => simp
    | some m => by_cases h : m = n <;> simp [h]
  refine ⟨this, rfl, rfl, rfl, ?_⟩
  rintro ⟨p, hp, h⟩
  rw [this] at hp
  simp at hp; exact hp.2 h

theorem C15_unique_add {c : Cockpit σ L} (h : UniquePanelNames c) (p : Panel σ L) : UniquePanelNames (c.addPanel p) := by
  by_cases ht : ∃ n, p.name = some n ∧ HasPanel c n
  · obtain ⟨n, hn, hp⟩ := ht
    rw [(C15_add c p).1 n hn hp]; exact h
  · have hno : ∀ n, p.name = some n → ¬ HasPanel c n := fun n hn hp => ht ⟨n, hn, hp⟩
    rw [(C15_add c p).2 hno]
    unfold UniquePanelNames
    rw [List.filterMap_append, List.nodup_append]
    refine ⟨h, ?_, ?_⟩
    · cases hn : p.name <;> simp [List.filterMap_cons, hn]
    · intro a ha b hb
      cases hn : p.name with
      | none => simp [List.filterMap_cons, hn] at hb
      | some n =>
        simp [List.filterMap_cons, hn] at hb
        subst hb
        rintro rfl
        obtain ⟨q, hq, hqn⟩ := List.mem_filterMap.mp ha
        exact hno a hn ⟨q, hq, hqn⟩

theorem C15_unique_remove {c : Cockpit σ L} (h : UniquePanelNames c) (n : String) :
    UniquePanelNames (c.removePanel n) := by
  unfold UniquePanelNames
  rw [(C15_remove c n).1]
  exact h.sublist (List.filter_sublist.filterMap _)

/-- From an empty cockpit, after any sequence of additions and removals, names are unique. -/
theorem C15_unique (c : Cockpit σ L) (h0 : c.panels = []) (ops : List (PanelOp σ L)) :
    UniquePanelNames (ops.foldl PanelOp.apply c) := by
  have : UniquePanelNames c := by unfold UniquePanelNames; rw [h0]; exact List.nodup_nil
  clear h0
  induction ops generalizing c with
  | nil => exact this
  | cons op ops ih =>
    apply ih
    cases op with
    | add p => exact C15_unique_add this p
    | remove n => exact C15_unique_remove this n

/-- New cockpits are empty. -/
theorem C15_new (name : String) (e : Env) (k : Nat) :
    ((Cockpit.new name : M (Cockpit σ L)) e k).map (·.1.panels) = some [] ∧
    ((Cockpit.withoutName : M (Cockpit σ L)) e k).map (·.1.panels) = some [] := ⟨rfl, rfl⟩

/-- `get_panels_mut` (`src/cockpit.rs:134-136`) hands out the panels themselves; renaming one of them breaks it. -/
theorem C15_finding_set_name :
    ∃ (c : Cockpit Empty Nat) (p q : Panel Empty Nat), UniquePanelNames c ∧ c.panels = [p, q] ∧
      ¬ UniquePanelNames { c with panels := [p.setName "x", q] } := by
  let p : Panel Empty Nat := .mk { labelFilter := .acceptAll, activity := ⟨0, none, true⟩ } [] [] []
  let q : Panel Empty Nat := .mk { labelFilter := .acceptAll, name := some "x", activity := ⟨0, none, true⟩ } [] [] []
  refine ⟨{ head := { activity := ⟨0, none, true⟩ }, panels := [p, q] }, p, q, ?_, rfl, ?_⟩
  · unfold UniquePanelNames; decide
  · unfold UniquePanelNames; decide

example : let p : Panel Empty Nat := .mk { labelFilter := .acceptAll, name := some "x", activity := ⟨0, none, true⟩ } [] [] []
    (([PanelOp.add p, .add p, .remove "y", .add (p.setName "y")].foldl PanelOp.apply
      ({ head := { activity := ⟨0, none, true⟩ } } : Cockpit Empty Nat)).panels.map (·.name)) = [some "x", some "y"] := by
  decide

/-- Panels of the same name are added, one is removed. -/
example : UniquePanelNames ((([.add (.mk { name := some "p", labelFilter := .acceptAll, activity := ⟨0, none, true⟩ } [] [] []),
    .add (.mk { name := some "p", labelFilter := .acceptNone, activity := ⟨0, none, true⟩ } [] [] []),
    .remove "q"] : List (PanelOp Empty Nat))).foldl PanelOp.apply { head := { name := none, activity := ⟨0, none, true⟩ } }) :=
  C15_unique _ rfl _
example (p : Panel Empty Nat) : UniquePanelNames (Cockpit.addPanel { head := { name := none, activity := ⟨0, none, true⟩ } } p) :=
  C15_unique_add (by simp [UniquePanelNames]) p
example : UniquePanelNames (Cockpit.removePanel ({ head := { name := none, activity := ⟨0, none, true⟩ } } : Cockpit Empty Nat) "p") :=
  C15_unique_remove (by simp [UniquePanelNames]) "p"

end Metrix
