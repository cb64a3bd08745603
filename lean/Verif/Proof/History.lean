import Verif.Spec.History
import Verif.Proof.Arith

/-! Lemmas about histories. -/

namespace Metrix
variable {C A : Type} [Component C A]

theorem step_input_eq_some {c c' : C} {a : A} {out : Out} {e : Env} {k k' : Nat} :
    step c (.input a) e k = some ((c', out), k') ↔
      ∃ n, out = .updated n ∧ Component.take c a e k = some ((c', n), k') := by
  simp only [step, M.bind_eq_some, M.run_pure, Option.some.injEq, Prod.mk.injEq, Prod.exists]
  constructor
  · rintro ⟨a, b, k₁, h, ⟨rfl, rfl⟩, rfl⟩; exact ⟨_, rfl, h⟩
  · rintro ⟨n, rfl, h⟩; exact ⟨_, _, _, h, ⟨rfl, rfl⟩, rfl⟩

theorem step_snapshot_eq_some {c c' : C} {s : Snapshot} {d : Bool} {out : Out} {e : Env} {k k' : Nat} :
    step c (.snapshot s d) e k = some ((c', out), k') ↔
      ∃ s', out = .snapshot s' ∧ Component.putSnapshot c s d e k = some ((c', s'), k') := by
  simp only [step, M.bind_eq_some, M.run_pure, Option.some.injEq, Prod.mk.injEq, Prod.exists]
  constructor
  · rintro ⟨a, b, k₁, h, ⟨rfl, rfl⟩, rfl⟩; exact ⟨_, rfl, h⟩
  · rintro ⟨n, rfl, h⟩; exact ⟨_, _, _, h, ⟨rfl, rfl⟩, rfl⟩

theorem keeping_eq_some {I : Type} {f : I → Snapshot → Bool → M Snapshot} {i i' : I} {s s' : Snapshot}
    {d : Bool} {e : Env} {k k' : Nat} :
    keeping f i s d e k = some ((i', s'), k') ↔ i' = i ∧ f i s d e k = some (s', k') := by
  simp only [keeping, M.bind_eq_some, M.run_pure, Option.some.injEq, Prod.mk.injEq]
  constructor
  · rintro ⟨a, k₁, h, ⟨rfl, rfl⟩, rfl⟩; exact ⟨rfl, h⟩
  · rintro ⟨rfl, h⟩; exact ⟨_, _, h, ⟨rfl, rfl⟩, rfl⟩

/-- What every operation preserves holds at the end of a history. -/
theorem History.preserves {e : Env} {k k' : Nat} {c c' : C} {log : List (Event A)}
    (P : C → Prop) (hstep : ∀ c op e k c' out k', P c → step c op e k = some ((c', out), k') → P c')
    (h : History e k c log k' c') (hi : P c) : P c' := by
  induction h with
  | nil => exact hi
  | cons _ hs _ ih => exact ih (hstep _ _ _ _ _ _ _ hi hs)

theorem History.append {e : Env} {k k₁ k₂ : Nat} {c c₁ c₂ : C} {l₁ l₂ : List (Event A)}
    (h₁ : History e k c l₁ k₁ c₁) (h₂ : History e k₁ c₁ l₂ k₂ c₂) :
    History e k c (l₁ ++ l₂) k₂ c₂ := by
  induction h₁ with
  | nil hk =>
    cases h₂ with
    | nil hk' => exact .nil (by omega)
    | cons hk' hs hr => exact .cons (by omega) hs hr
  | cons hk hs _ ih => exact .cons hk hs (ih h₂)

theorem inputs_append (l₁ l₂ : List (Event A)) : inputs (l₁ ++ l₂) = inputs l₁ ++ inputs l₂ := by
  induction l₁ with
  | nil => rfl
  | cons ev l ih =>
    obtain ⟨_, op, _, _⟩ := ev
    cases op <;> simp [inputs, ih]

end Metrix
