import Verif.Proof.Arith

/-! What holds of the result of a computation whenever it does not panic. -/

namespace Metrix

/-- Every result of `x` satisfies `P`. -/
def M.Post {α : Type} (x : M α) (P : α → Prop) : Prop := ∀ e k a k', x e k = some (a, k') → P a

namespace M.Post
variable {α β : Type}

theorem pure {a : α} {P : α → Prop} (h : P a) : M.Post (Pure.pure a : M α) P := by
  intro e k a' k' h'; simp at h'; rw [← h'.1]; exact h

theorem bind {x : M α} {f : α → M β} {P : β → Prop} (Q : α → Prop) (hx : M.Post x Q) (hf : ∀ a, Q a → M.Post (f a) P) :
    M.Post (x >>= f) P := by
  intro e k b k' h
  obtain ⟨a, k₁, h1, h2⟩ := M.bind_eq_some.mp h
  exact hf a (hx _ _ _ _ h1) _ _ _ _ h2

theorem bindAny {x : M α} {f : α → M β} {P : β → Prop} (hf : ∀ a, M.Post (f a) P) : M.Post (x >>= f) P :=
  bind (fun _ => True) (fun _ _ _ _ _ => trivial) fun a _ => hf a

theorem ite {c : Prop} [Decidable c] {x y : M α} {P : α → Prop} (hx : M.Post x P) (hy : M.Post y P) :
    M.Post (if c then x else y) P := by
  split <;> assumption

theorem mono {x : M α} {P Q : α → Prop} (hx : M.Post x P) (h : ∀ a, P a → Q a) : M.Post x Q :=
  fun e k a k' h' => h a (hx e k a k' h')

theorem panic {P : α → Prop} : M.Post (M.panic : M α) P := fun _ _ _ _ h => (nomatch h)

end M.Post
end Metrix
