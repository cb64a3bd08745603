import Verif.Model.Observation

/-! Lemmas about 64-bit arithmetic. -/

namespace Metrix

theorem wrapI64_of_I64 {x : Int} (h : I64 x) : wrapI64 x = x := by
  unfold I64 i64Min i64Max at h
  unfold wrapI64
  rw [Int.bmod_eq_of_le] <;> omega

theorem I64_wrapI64 (x : Int) : I64 (wrapI64 x) := by
  unfold I64 i64Min i64Max wrapI64
  have h1 := Int.le_bmod (x := x) (m := 2 ^ 64) (by decide)
  have h2 := Int.bmod_lt (x := x) (m := 2 ^ 64) (by decide)
  omega

theorem wrapI64_wrapI64_add (x y : Int) : wrapI64 (wrapI64 x + y) = wrapI64 (x + y) := by
  unfold wrapI64; simp

theorem wrapI64_add_wrapI64 (x y : Int) : wrapI64 (x + wrapI64 y) = wrapI64 (x + y) := by
  unfold wrapI64; simp

theorem wrapI64_mod (x : Nat) : wrapI64 ((x % u64Bound : Nat) : Int) = wrapI64 x := by
  unfold wrapI64 u64Bound; push_cast; exact Int.emod_bmod _ _

theorem wrapU64_natCast {n : Nat} (h : U64 n) : wrapU64 n = n := by
  unfold wrapU64; unfold U64 u64Bound at h; omega

theorem U64_wrapU64 (x : Int) : U64 (wrapU64 x) := by
  unfold wrapU64 U64 u64Bound; omega

theorem arithI64_eq_some {x y : Int} {e : Env} {k k' : Nat} (h : arithI64 x e k = some (y, k')) :
    k' = k ∧ y = wrapI64 x ∧ (e.profile = .debug → I64 x) := by
  unfold arithI64 at h
  split at h
  · rename_i hx; simp at h; obtain ⟨rfl, rfl⟩ := h
    exact ⟨rfl, (wrapI64_of_I64 hx).symm, fun _ => hx⟩
  · split at h
    · cases h
    · rename_i hp; simp at h; obtain ⟨rfl, rfl⟩ := h
      exact ⟨rfl, rfl, fun h => by rw [hp] at h; cases h⟩

theorem arithU64_eq_some {x y : Nat} {e : Env} {k k' : Nat} (h : arithU64 x e k = some (y, k')) :
    k' = k ∧ y = x % u64Bound ∧ (e.profile = .debug → U64 x) := by
  unfold arithU64 at h
  split at h
  · rename_i hx; simp at h; obtain ⟨rfl, rfl⟩ := h
    exact ⟨rfl, (Nat.mod_eq_of_lt hx).symm, fun _ => hx⟩
  · split at h
    · cases h
    · rename_i hp; simp at h; obtain ⟨rfl, rfl⟩ := h
      exact ⟨rfl, rfl, fun h => by rw [hp] at h; cases h⟩

theorem arithI64_release {x : Int} {e : Env} {k : Nat} (h : e.profile = .release) :
    arithI64 x e k = some (wrapI64 x, k) := by
  unfold arithI64; split
  · rename_i hx; rw [wrapI64_of_I64 hx]
  · rw [h]

theorem arithU64_release {x : Nat} {e : Env} {k : Nat} (h : e.profile = .release) :
    arithU64 x e k = some (x % u64Bound, k) := by
  unfold arithU64; split
  · rename_i hx; rw [Nat.mod_eq_of_lt hx]
  · rw [h]

theorem arithI64_inRange {x : Int} {e : Env} {k : Nat} (h : I64 x) :
    arithI64 x e k = some (x, k) := by unfold arithI64; rw [if_pos h]

theorem arithU64_inRange {x : Nat} {e : Env} {k : Nat} (h : U64 x) :
    arithU64 x e k = some (x, k) := by unfold arithU64; rw [if_pos h]

theorem arithI64_debug_none {x : Int} {e : Env} {k : Nat} (h : e.profile = .debug) :
    arithI64 x e k = none ↔ ¬ I64 x := by
  unfold arithI64; split <;> simp_all

theorem arithU64_debug_none {x : Nat} {e : Env} {k : Nat} (h : e.profile = .debug) :
    arithU64 x e k = none ↔ ¬ U64 x := by
  unfold arithU64; split <;> simp_all

end Metrix
