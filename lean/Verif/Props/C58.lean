import Verif.Proof.Fleet

/-!
# C58: drivers mounted in each other answer as long as there is no cycle

Any number `n` of drivers. Actions come in any order: turns of the drivers' threads, calls of `snapshot` from outside, handles of
drivers that are added to drivers or arrive at attached mounts, and threads that end.
-/

namespace Metrix
open Fleet

/-- C58: every thread gets its turn again and again, and the mount relation has no cycle. Then every call of `snapshot` on any
driver gets an answer. -/
theorem C58_answered {n : Nat} {acts : Nat → Act n} (hfair : Fair acts) (hacyclic : Acyclic acts) {k : Nat} {i : Fin n} {id : Nat}
    (hcall : acts k = .call i id) : ∃ m ok, k < m ∧ AnsweredWithin acts k m id ok := by
  by_cases ha : ((state acts k).peer i).alive = true
  · have hmem : .outside id ∈ ((state acts (k + 1)).peer i).callers := by
      rw [state, hcall]
      simp only [Net.act, Net.send, if_pos ha, Net.set_peer, if_true, callers_append]
      simp
    obtain ⟨m, hkm, new, ok, hnew, hin⟩ := answers_of_acyclic hfair hacyclic i (k + 1) _ hmem
    obtain ⟨new', hnew'⟩ := state_answers acts (show k ≤ m by omega)
    exact ⟨m + 1, ok, by omega, new' ++ new, by rw [hnew, hnew', List.append_assoc], List.mem_append_right _ hin⟩
  · refine ⟨k + 1, false, by omega, [(id, false)], ?_, List.mem_singleton_self _⟩
    rw [state, hcall]
    simp only [Net.act, Net.send, if_neg ha, Net.answer]

/-- C58: if moreover no thread ends, the answer is a snapshot. -/
theorem C58_snapshot {n : Nat} {acts : Nat → Act n} (hfair : Fair acts) (hacyclic : Acyclic acts)
    (hstop : ∀ k i, acts k ≠ .stop i) {k : Nat} {i : Fin n} {id : Nat} (hcall : acts k = .call i id) :
    ∃ m, k < m ∧ AnsweredWithin acts k m id true := by
  obtain ⟨m, ok, hkm, new, hnew, hin⟩ := C58_answered hfair hacyclic hcall
  have := (all_ok hstop m).2 (id, ok) (by rw [hnew]; exact List.mem_append_right _ hin)
  simp only at this
  subst this
  exact ⟨m, hkm, new, hnew, hin⟩

/-- C58, why the condition is needed: once every driver of a set waits for a driver of that set, whatever happens, no call on a
driver of the set is answered. -/
theorem C58_cycle {n : Nat} {acts : Nat → Act n} {S : Fin n → Prop} {id k : Nat}
    (hcycle : ∀ i, S i → ∃ j, S j ∧ ((state acts k).peer i).waitingOn = some j)
    (hcalls : ∀ k i, acts k = .call i id → S i) (hnot : ∀ ok, (id, ok) ∉ (state acts k).answers) (m : Nat) (ok : Bool) :
    (id, ok) ∉ (state acts m).answers := by
  rcases Nat.le_total k m with hkm | hkm
  · exact (never_answered hcycle hcalls hnot m hkm).2 ok
  · intro hm
    obtain ⟨new, hnew⟩ := state_answers acts hkm
    exact hnot ok (by rw [hnew]; exact List.mem_append_left _ hm)

/-- C58: a driver that is mounted in itself. A call of `snapshot` on it is not answered, no matter what happens after its thread
has begun with the snapshot. -/
theorem C58_mounted_in_itself {acts : Nat → Act 1} (h0 : acts 0 = .mount 0 [0]) (h1 : acts 1 = .call 0 7)
    (h2 : acts 2 = .turn 0 []) (h3 : acts 3 = .turn 0 [0]) (h4 : acts 4 = .turn 0 []) (m : Nat) (ok : Bool) :
    (7, ok) ∉ (state acts m).answers := by
  refine C58_cycle (S := fun _ => True) (k := 5) ?_ (fun _ _ _ => trivial) ?_ m ok
  · intro i _
    have hi : i = 0 := Subsingleton.elim _ _
    subst hi
    exact ⟨0, trivial, by simp only [state, h0, h1, h2, h3, h4]; rfl⟩
  · intro ok hm
    simp only [state, h0, h1, h2, h3, h4] at hm
    cases hm

/-! ## Examples -/

/-- Two drivers take turns for ever. -/
def turns (k : Nat) : Act 2 := .turn (if k % 2 = 0 then 0 else 1) [0, 1]

/-- Driver 1 is mounted in driver 0, which is then asked. -/
def nested : Nat → Act 2
  | 0 => .mount 0 [1]
  | 1 => .call 0 7
  | k => turns k

theorem nested_fair : Fair nested := by
  intro i k
  refine ⟨2 * k + 2 + i.val, by omega, [0, 1], ?_⟩
  have h : nested (2 * k + 2 + i.val) = turns (2 * k + 2 + i.val) := by
    obtain ⟨x, hx⟩ : ∃ x, 2 * k + 2 + i.val = x + 2 := ⟨2 * k + i.val, by omega⟩
    rw [hx]; rfl
  rw [h, turns]
  congr 1
  obtain ⟨i, hi⟩ := i
  match i, hi with
  | 0, _ => rw [if_pos (by simp only; omega)]; rfl
  | 1, _ => rw [if_neg (by simp only; omega)]; rfl

theorem nested_mounted {i j : Fin 2} (h : MountedIn nested j i) : j = 1 ∧ i = 0 := by
  obtain ⟨k, js, hj, h⟩ := h
  match k with
  | 0 =>
    rcases h with h | h
    · cases h; exact ⟨by simpa using hj, rfl⟩
    · cases h
  | 1 => rcases h with h | h <;> cases h
  | _ + 2 => rcases h with h | h <;> cases h

theorem nested_acyclic : Acyclic nested := by
  have h : ∀ {i j : Fin 2}, Relation.TransGen (MountedIn nested) j i → j = 1 ∧ i = 0 := by
    intro i j hij
    induction hij with
    | single h => exact nested_mounted h
    | tail _ h ih => exact ⟨ih.1, (nested_mounted h).2⟩
  intro i hi
  have := h hi
  exact absurd (this.1.symm.trans this.2) (by decide)

example : ∃ m, 1 < m ∧ AnsweredWithin nested 1 m 7 true := by
  refine C58_snapshot nested_fair nested_acyclic ?_ (i := 0) rfl
  intro k i h
  match k with
  | 0 => cases h
  | 1 => cases h
  | _ + 2 => cases h

/-- The answer comes after the snapshot of driver 1. -/
example : (state nested 10).answers = [] ∧ (state nested 11).answers = [(7, true)] := by decide +kernel

/-- Two drivers that are mounted in each other: both wait. -/
def crossed : Nat → Act 2
  | 0 => .mount 0 [1]
  | 1 => .mount 1 [0]
  | 2 => .call 0 7
  | k => turns k

example (m : Nat) (ok : Bool) : (7, ok) ∉ (state crossed m).answers := by
  refine C58_cycle (S := fun _ => True) (k := 12) ?_ (fun _ _ _ => trivial) ?_ m ok
  · intro i _
    match i with
    | 0 => exact ⟨1, trivial, by decide +kernel⟩
    | 1 => exact ⟨0, trivial, by decide +kernel⟩
  · intro ok hm
    have : (state crossed 12).answers = [] := by decide +kernel
    rw [this] at hm; cases hm

end Metrix
