import Verif.Proof.Counter
import Verif.Proof.Played

/-! # C21: a counter counts every occurrence -/

namespace Metrix

/-- After any history the counter has its initial count plus all occurrences, modulo 2^64. A debug build
gets through the history only if there was no overflow, so there the count is exact. -/
theorem C21_counter_counts {e : Env} {k k' : Nat} {c c' : Counter} {log : List (Event Update)}
    (h : History e k c log k' c') (hc : c.count < 2 ^ 64) :
    c'.count = (c.count + ((inputs log).map Update.occurrences).sum) % 2 ^ 64 ∧
    (e.profile = .debug → c.count + ((inputs log).map Update.occurrences).sum < 2 ^ 64) := by
  induction h with
  | nil => simp only [inputs, List.map_nil, List.sum_nil]; omega
  | @cons k k₁ k₂ k' i i₁ i' op out log _ hs _ ih =>
    cases op with
    | input u =>
      obtain ⟨n, _, hu⟩ := step_input_eq_some.mp hs
      obtain ⟨-, -, rfl, hd⟩ := Counter.update_eq_some hu
      have ih := ih (Nat.mod_lt _ (by decide))
      simp only [inputs, List.map_cons, List.sum_cons] at ih ⊢
      constructor
      · rw [ih.1]; unfold u64Bound; omega
      · intro hp
        have h1 := ih.2 hp
        have h2 := hd hp
        unfold U64 u64Bound at *
        rw [Nat.mod_eq_of_lt h2] at h1; omega
    | snapshot s d =>
      obtain ⟨_, _, hu⟩ := step_snapshot_eq_some.mp hs
      obtain ⟨rfl, _⟩ := keeping_eq_some.mp hu
      exact ih hc

/-- Every update reports 1. -/
theorem C21_reports_one {e : Env} {k k' : Nat} {c c' : Counter} {log : List (Event Update)}
    (h : History e k c log k' c') : reports log = List.replicate (inputs log).length 1 := by
  induction h with
  | nil => rfl
  | @cons k k₁ k₂ k' i i₁ i' op out log _ hs _ ih =>
    cases op with
    | input u =>
      obtain ⟨n, rfl, hu⟩ := step_input_eq_some.mp hs
      obtain ⟨-, rfl, -, -⟩ := Counter.update_eq_some hu
      simp [reports, inputs, ih, List.replicate_succ]
    | snapshot s d =>
      obtain ⟨_, rfl, _⟩ := step_snapshot_eq_some.mp hs
      simp [reports, inputs, ih]

/-- A history of given updates at given moments exists, in a release build always, in a debug build as
long as the total fits into 64 bits: otherwise the history panics. -/
theorem C21_history_exists (e : Env) (k : Nat) (c : Counter) (us : List Update)
    (h : e.profile = .release ∨ c.count + (us.map Update.occurrences).sum < 2 ^ 64) :
    ∃ log k' c', inputs log = us ∧ History e k c log k' c' := by
  induction us generalizing c with
  | nil => exact ⟨[], k, c, rfl, .nil (Nat.le_refl _)⟩
  | cons u us ih =>
    have hu := Counter.update_run (c := c) (u := u) (e := e) (k := k) (by
      rcases h with h | h
      · exact .inl h
      · simp at h; right; unfold U64 u64Bound; omega)
    obtain ⟨log, k', c', hus, hh⟩ := ih { c with count := (c.count + u.occurrences) % u64Bound } (by
      rcases h with h | h
      · exact .inl h
      · simp at h; right
        have : (c.count + u.occurrences) % u64Bound ≤ c.count + u.occurrences := Nat.mod_le _ _
        show (c.count + u.occurrences) % u64Bound + _ < _
        omega)
    refine ⟨⟨k, .input u, .updated 1, k⟩ :: log, k', c', by simp [inputs, hus], ?_⟩
    exact .cons (Nat.le_refl _) (step_input_eq_some.mpr ⟨1, rfl, hu⟩) hh

/-- A snapshot shows the count under the counter's name. -/
theorem C21_shown (c : Counter) (into : Snapshot) :
    c.putSnapshot into false = into ++ [(c.name, .uint c.count)] := rfl

/-- A history with a plain update, an update of many occurrences, a snapshot and a value. -/
example (e : Env) : ∃ log k' c', History (C := Counter) e 0 { name := "c", count := 5 } log k' c' ∧
    inputs log = [.observation 0, .observations 7 0, .withValue (.bool true) 0] ∧ c'.count = 14 := by
  obtain ⟨log, k', c', hus, h⟩ := C21_history_exists e 0 { name := "c", count := 5 }
    [.observation 0, .observations 7 0, .withValue (.bool true) 0] (.inr (by decide))
  refine ⟨log, k', c', h, hus, ?_⟩
  rw [(C21_counter_counts h (by decide)).1, hus]; rfl

/-- Two updates with a snapshot in between. -/
def countedOps : List (Op Update) := [.input (.observation 0), .snapshot [] true, .input (.observations 7 0)]

example := C21_counter_counts (played_history (e := ticking) (k := 0) (c := ({ name := "c", count := 5 } : Counter)) (ops := countedOps) rfl)
  (by decide)
example := C21_reports_one (played_history (e := ticking) (k := 0) (c := ({ name := "c", count := 5 } : Counter)) (ops := countedOps) rfl)

end Metrix
