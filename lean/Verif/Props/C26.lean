import Verif.Props.C25

/-! # C26: writing to a past second -/

namespace Metrix
variable {T : Type} [Inhabited T]

/-- What `get_at_mut(t)` does after any history: it refuses moments after the start of the current second and
moments at least `n` seconds before it; otherwise writing through it changes exactly the content of the second
that starts at `t` or next after `t`, whatever the writes before. This is the second `t` lies in only if
`t` is a whole number of seconds after the creation (full property: for all `t`; see
`C26_finding_wrong_second` and `C26_finding_current_second_refused`). -/
theorem C26_past_second_partial {e : Env} (mono : e.Mono) {n k₀ k₁ k₂ : Nat} (hn : 0 < n)
    {b b' : SecondsBuckets T} {log : List (Write T)} (hnew : SecondsBuckets.new n e k₀ = some (b, k₁))
    (h : RingHistory e (e.clock k₀) k₁ b log k₂ b') (t : Int) :
    ∃ b'' i, b'.getAt t e k₂ = some ((b'', i), k₂ + 1) ∧
      (i ≠ none ↔ nextSecondOf (e.clock k₀) t ≤ secondOf (e.clock k₀) (e.clock k₂) ∧
        secondOf (e.clock k₀) (e.clock k₂) - n < nextSecondOf (e.clock k₀) t) ∧
      ∀ j, i = some j → b''.buckets[j]? = some (contentOf default (nextSecondOf (e.clock k₀) t) log) := by
  obtain ⟨b₁, h₁, r₁⟩ := Rep.new (T := T) hn e k₀
  rw [h₁] at hnew
  simp only [Option.some.injEq, Prod.mk.injEq] at hnew
  obtain ⟨rfl, rfl⟩ := hnew
  obtain ⟨s', r', ht⟩ := h.rep mono r₁ (fun j hj => by
    rw [r₁.time]; simpa using mono _ _ (by omega : k₀ ≤ j))
  obtain ⟨b₂, r₂, hb⟩ := r'.getAt t e k₂
  have hs := tickedTo_eq (t0 := e.clock k₀) (s := s') (t := e.clock k₂)
    (by rw [← r'.time]; exact ht k₂ le_rfl)
  have htime := r₂.time
  rw [hs] at htime
  refine ⟨b₂, _, hb, ?_, ?_⟩
  · unfold nextSecondOf sinceNs nanosPerSec at *
    split
    · simp; omega
    · split
      · simp; omega
      · simp; omega
  · intro j hj
    split at hj
    · cases hj
    split at hj
    · cases hj
    simp only [Option.some.injEq] at hj
    rw [← hj, r₂.entries _ (by omega), hs]
    have : secondOf (e.clock k₀) (e.clock k₂) - (sinceNs b₂.currentTime t / nanosPerSec : Nat) =
        nextSecondOf (e.clock k₀) t := by
      unfold nextSecondOf sinceNs nanosPerSec at *
      omega
    rw [this]

/-- For a whole number of seconds after creation it is the second `t` lies in. -/
theorem C26_whole_seconds (t0 : Int) (m : Int) :
    nextSecondOf t0 (t0 + m * nanosPerSec) = secondOf t0 (t0 + m * nanosPerSec) := by
  unfold nextSecondOf secondOf nanosPerSec; omega

/-- For all other moments it is the second after. -/
theorem C26_other_moments (t0 t : Int) (h : ¬ ∃ m : Int, t = t0 + m * nanosPerSec) :
    nextSecondOf t0 t = secondOf t0 t + 1 := by
  unfold nextSecondOf secondOf nanosPerSec at *
  have : (t - t0) % 1000000000 ≠ 0 := by
    intro h0
    exact h ⟨(t - t0) / 1000000000, by push_cast; omega⟩
  push_cast; omega

/-- Finding: a moment in second 1 (at 1.5 s, asked at 2.1 s) is answered with the bucket of second 2. -/
theorem C26_finding_wrong_second : ∃ b b' b'' : SecondsBuckets Nat, ∃ i,
    SecondsBuckets.new 5 ticking 0 = some (b, 1) ∧
    RingHistory ticking 0 1 b [⟨1, (· + 10)⟩, ⟨2, (· + 100)⟩] 4 b' ∧
    b'.getAt 1500000000 ticking 4 = some ((b'', some i), 5) ∧ secondOf 0 1500000000 = 1 ∧
    b''.buckets[i]? = some 100 :=
  ⟨_, _, _, _, rfl, .write (f := (· + 10)) (k₁ := 2) (by decide) rfl
    (.write (f := (· + 100)) (k₁ := 3) (by decide) rfl (.nil (by decide))), rfl, rfl, rfl⟩

/-- Finding: a moment in the past but in the current second (at 2.05 s, asked at 2.1 s) is refused. -/
theorem C26_finding_current_second_refused : ∃ b b' : SecondsBuckets Nat,
    SecondsBuckets.new 5 ticking 0 = some (b, 1) ∧ b.getAt 2050000000 ticking 3 = some ((b', none), 4) :=
  ⟨_, _, rfl, rfl⟩

example := C26_past_second_partial ticking_mono (n := 3) (k₀ := 0) (T := Nat) (by decide) rfl
  (.write (f := (· + 1)) (k₁ := 1) (by decide) rfl (.read (k₁ := 2) (by decide) rfl
    (.write (f := (· + 100)) (k₁ := 3) (by decide) rfl (.nil (Nat.le_refl _))))) 1000000000
example := C26_other_moments 0 1500000000 (by simp only [nanosPerSec]; omega)

end Metrix
