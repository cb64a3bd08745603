import Verif.Proof.History

/-! Lemmas about the counter. -/

namespace Metrix

theorem Counter.update_eq_some {c c' : Counter} {u : Update} {n : Nat} {e : Env} {k k' : Nat}
    (h : c.update u e k = some ((c', n), k')) :
    k' = k ∧ n = 1 ∧ c' = { c with count := (c.count + u.occurrences) % u64Bound } ∧
      (e.profile = .debug → U64 (c.count + u.occurrences)) := by
  cases u <;>
    simp only [Counter.update, Counter.inc, Counter.incBy, M.bind_eq_some, M.run_pure,
      Option.some.injEq, Prod.mk.injEq] at h <;>
    obtain ⟨_, _, ⟨x, k₁, hx, rfl, rfl⟩, ⟨rfl, rfl⟩, rfl⟩ := h <;>
    obtain ⟨rfl, rfl, hd⟩ := arithU64_eq_some hx <;>
    exact ⟨rfl, rfl, rfl, hd⟩

theorem Counter.update_run {c : Counter} {u : Update} {e : Env} {k : Nat}
    (h : e.profile = .release ∨ U64 (c.count + u.occurrences)) :
    c.update u e k = some (({ c with count := (c.count + u.occurrences) % u64Bound }, 1), k) := by
  have key : arithU64 (c.count + u.occurrences) e k = some ((c.count + u.occurrences) % u64Bound, k) := by
    rcases h with h | h
    · exact arithU64_release h
    · rw [arithU64_inRange h, Nat.mod_eq_of_lt h]
  cases u <;> simp only [Counter.update, Counter.inc, Counter.incBy, Update.occurrences] at key ⊢ <;>
    (rw [M.run_bind_some (k' := k) (a := { c with count := _ })]; rfl; rw [M.run_bind_some key]; rfl)

end Metrix
