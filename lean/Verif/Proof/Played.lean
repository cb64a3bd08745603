import Verif.Spec.History
import Verif.Proof.Total

/-! # Computing histories

For the examples beside the theorems: a clock, and the history that given operations make. -/

namespace Metrix

/-- A clock that is read every 0.7 seconds. -/
def ticking : Env where
  profile := .release
  clock k := k * 700000000
  instMin := -10 ^ 20
  instMax := 10 ^ 20
  rnd q := q
  alpha1 := 1 / 10
  alpha5 := 1 / 50
  alpha15 := 1 / 150
  histStats _ _ := ⟨0, 0, .fin 0, .fin 0, 0, 0, 0, 0, 0, 0, 0⟩

theorem ticking_mono : ticking.Mono := by
  intro i j h; simp only [ticking]; omega

variable {C A : Type} [Component C A]

/-- What comes out if a component is used by the given operations, without pauses. -/
def played (e : Env) : Nat → C → List (Op A) → Option (List (Event A) × Nat × C)
  | k, c, [] => some ([], k, c)
  | k, c, op :: ops => do
    let ((c₁, out), k₁) ← step c op e k
    let (log, k', c') ← played e k₁ c₁ ops
    return (⟨k, op, out, k₁⟩ :: log, k', c')

theorem played_history {e : Env} {k k' : Nat} {c c' : C} {ops : List (Op A)} {log : List (Event A)}
    (h : played e k c ops = some (log, k', c')) : History e k c log k' c' := by
  induction ops generalizing k c log with
  | nil => simp only [played, Option.some.injEq, Prod.mk.injEq] at h; obtain ⟨rfl, rfl, rfl⟩ := h; exact .nil (Nat.le_refl _)
  | cons op ops ih =>
    simp only [played, Option.bind_eq_bind, Option.bind_eq_some_iff, Option.pure_def, Option.some.injEq, Prod.mk.injEq] at h
    obtain ⟨⟨⟨c₁, r⟩, k₁⟩, h1, ⟨log', k'', c''⟩, h2, rfl, rfl, rfl⟩ := h
    exact .cons (Nat.le_refl _) h1 (ih h2)

/-- A component that never panics can be used by given operations; then it puts a snapshot. -/
theorem exists_used {e : Env} (htake : ∀ (c : C) a, M.Ok e (Component.take c a))
    (hput : ∀ (c : C) into d, M.Ok e (Component.putSnapshot c into d)) (ops : List (Op A)) (into : Snapshot) (d : Bool) (k : Nat)
    (c : C) : ∃ log k' c', (History e k c log k' c' ∧ log.map (·.op) = ops) ∧
      ∃ c'' s k'', Component.putSnapshot c' into d e k' = some ((c'', s), k'') := by
  induction ops generalizing k c with
  | nil =>
    obtain ⟨⟨c'', s⟩, k'', h⟩ := hput c into d k
    exact ⟨[], k, c, ⟨.nil (Nat.le_refl _), rfl⟩, c'', s, k'', h⟩
  | cons op ops ih =>
    have hstep : ∃ c₁ out k₁, step c op e k = some ((c₁, out), k₁) := by
      cases op with
      | input a =>
        obtain ⟨⟨c₁, n⟩, k₁, h⟩ := htake c a k
        exact ⟨c₁, .updated n, k₁, M.bind_eq_some.mpr ⟨_, _, h, rfl⟩⟩
      | snapshot into d =>
        obtain ⟨⟨c₁, s⟩, k₁, h⟩ := hput c into d k
        exact ⟨c₁, .snapshot s, k₁, M.bind_eq_some.mpr ⟨_, _, h, rfl⟩⟩
    obtain ⟨c₁, out, k₁, h1⟩ := hstep
    obtain ⟨log, k', c', ⟨h2, h3⟩, h4⟩ := ih k₁ c₁
    exact ⟨_, k', c', ⟨.cons (Nat.le_refl _) h1 h2, by simp [h3]⟩, h4⟩

end Metrix
