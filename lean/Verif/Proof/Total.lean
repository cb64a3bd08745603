import Verif.Proof.Arith

/-! Computations that do not panic. -/

namespace Metrix

/-- `x` does not panic, however often the clock was read before. -/
def M.Ok {α : Type} (e : Env) (x : M α) : Prop := ∀ k, ∃ a k', x e k = some (a, k')

namespace M.Ok
variable {α β : Type} {e : Env}

theorem pure (a : α) : M.Ok e (Pure.pure a : M α) := fun k => ⟨a, k, rfl⟩

theorem now : M.Ok e M.now := fun k => ⟨e.clock k, k + 1, rfl⟩

theorem readings : M.Ok e M.readings := fun k => ⟨k, k, rfl⟩

theorem bind {x : M α} {f : α → M β} (hx : M.Ok e x) (hf : ∀ a, M.Ok e (f a)) : M.Ok e (x >>= f) := by
  intro k
  obtain ⟨a, k', h⟩ := hx k
  rw [M.run_bind_some h]
  exact hf a k'

/-- The environment is read. -/
theorem envBind {f : Env → M β} (hf : M.Ok e (f e)) : M.Ok e (M.env >>= f) := by
  intro k
  rw [M.run_bind_some (M.run_env _ _)]
  exact hf k

theorem ite {c : Prop} [Decidable c] {x y : M α} (hx : M.Ok e x) (hy : M.Ok e y) : M.Ok e (if c then x else y) := by
  split <;> assumption

theorem arithI64 (he : e.profile = .release) (x : Int) : M.Ok e (arithI64 x) :=
  fun k => ⟨_, k, arithI64_release he⟩

theorem arithU64 (he : e.profile = .release) (x : Nat) : M.Ok e (arithU64 x) :=
  fun k => ⟨_, k, arithU64_release he⟩

end M.Ok
end Metrix
