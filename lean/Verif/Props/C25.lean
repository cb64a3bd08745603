import Verif.Proof.Ring
import Verif.Proof.Played

/-! # C25: the ring of seconds buckets behaves like a sliding list of seconds -/

namespace Metrix
variable {T : Type} [Inhabited T]

/-- A ring that was created for `n` seconds and then used in any way, at monotone times: iterating yields
for the current second and the `n - 1` seconds before, newest first, exactly what was written in that second. -/
theorem C25_sliding_list {e : Env} (mono : e.Mono) {n k₀ k₁ k₂ : Nat} (hn : 0 < n)
    {b b' : SecondsBuckets T} {log : List (Write T)} (hnew : SecondsBuckets.new n e k₀ = some (b, k₁))
    (h : RingHistory e (e.clock k₀) k₁ b log k₂ b') :
    ∃ b'', b'.iter e k₂ = some ((b'',
      (windowSeconds n (secondOf (e.clock k₀) (e.clock k₂))).map fun s => contentOf default s log), k₂ + 1) := by
  obtain ⟨b₁, h₁, r₁⟩ := Rep.new (T := T) hn e k₀
  rw [h₁] at hnew
  simp only [Option.some.injEq, Prod.mk.injEq] at hnew
  obtain ⟨rfl, rfl⟩ := hnew
  obtain ⟨s', r', ht⟩ := h.rep mono r₁ (fun j hj => by
    rw [r₁.time]; simpa using mono _ _ (by omega : k₀ ≤ j))
  obtain ⟨b'', hb, r''⟩ := r'.iter e k₂
  refine ⟨b'', ?_⟩
  rw [hb, tickedTo_eq (by rw [← r'.time]; exact ht k₂ le_rfl)]

/-- The number of buckets never changes. -/
theorem C25_length {e : Env} (mono : e.Mono) {n k₀ k₁ k₂ : Nat} (hn : 0 < n)
    {b b' : SecondsBuckets T} {log : List (Write T)} (hnew : SecondsBuckets.new n e k₀ = some (b, k₁))
    (h : RingHistory e (e.clock k₀) k₁ b log k₂ b') : b'.buckets.length = n := by
  obtain ⟨b₁, h₁, r₁⟩ := Rep.new (T := T) hn e k₀
  rw [h₁] at hnew
  simp only [Option.some.injEq, Prod.mk.injEq] at hnew
  obtain ⟨rfl, rfl⟩ := hnew
  obtain ⟨s', r', ht⟩ := h.rep mono r₁ (fun j hj => by
    rw [r₁.time]; simpa using mono _ _ (by omega : k₀ ≤ j))
  exact r'.length

/-- Nothing a user can do panics: creation for at least one second, and then writing, reading and asking
for a past moment. -/
theorem C25_no_panic {e : Env} (mono : e.Mono) {n k₀ : Nat} (hn : 0 < n) :
    ∃ b : SecondsBuckets T, SecondsBuckets.new n e k₀ = some (b, k₀ + 1) ∧
      ∀ (log : List (Write T)) (k : Nat) (b' : SecondsBuckets T),
        RingHistory e (e.clock k₀) (k₀ + 1) b log k b' →
        (∀ f : T → T, (b'.modifyCurrent fun x => pure (f x)) e k ≠ none) ∧ b'.iter e k ≠ none ∧
        (∀ t, b'.getAt t e k ≠ none) ∧
        (∀ t b'' i k'', b'.getAt t e k = some ((b'', some i), k'') → i < b''.buckets.length) := by
  obtain ⟨b₁, h₁, r₁⟩ := Rep.new (T := T) hn e k₀
  refine ⟨b₁, h₁, ?_⟩
  intro log k b' h
  obtain ⟨s', r', ht⟩ := h.rep mono r₁ (fun j hj => by
    rw [r₁.time]; simpa using mono _ _ (by omega : k₀ ≤ j))
  refine ⟨?_, ?_, ?_, ?_⟩
  · intro f hf
    have := (r'.modifyCurrent (fun x => pure (f x)) e k).1.mp hf
    simp at this
  · obtain ⟨_, hb, _⟩ := r'.iter e k
    rw [hb]; simp
  · intro t
    obtain ⟨_, _, hb⟩ := r'.getAt t e k
    rw [hb]; simp
  · intro t b'' i k'' hget
    obtain ⟨b₂, r₂, hb⟩ := r'.getAt t e k
    rw [hget] at hb
    simp only [Option.some.injEq, Prod.mk.injEq] at hb
    obtain ⟨⟨rfl, hi⟩, _⟩ := hb
    split at hi
    · cases hi
    split at hi
    · cases hi
    simp only [Option.some.injEq] at hi
    rw [hi, r₂.length]
    exact back_lt r₂.idx (by omega)

/-- Creating a ring for no seconds panics. -/
theorem C25_empty_panics (e : Env) (k : Nat) : (SecondsBuckets.new 0 : M (SecondsBuckets T)) e k = none := rfl

/-- Creation at 0 s, writes at 0.7 s, 1.4 s and 2.1 s, read at 3.5 s: of three seconds, the first shown
is empty. -/
example : ∃ b b' : SecondsBuckets Nat, SecondsBuckets.new 3 ticking 0 = some (b, 1) ∧
    RingHistory ticking 0 1 b [⟨0, (· + 1)⟩, ⟨1, (· + 10)⟩, ⟨2, (· + 100)⟩] 5 b' ∧
    ∃ b'', b'.iter ticking 5 = some ((b'', [0, 100, 10]), 6) :=
  ⟨_, _, rfl, .write (f := (· + 1)) (k₁ := 1) (by decide) rfl (.write (f := (· + 10)) (k₁ := 2) (by decide) rfl
    (.write (f := (· + 100)) (k₁ := 3) (by decide) rfl (.nil (by decide)))), _, rfl⟩

example := C25_sliding_list ticking_mono (n := 3) (k₀ := 0) (T := Nat) (by decide) rfl
  (.write (f := (· + 1)) (k₁ := 1) (by decide) rfl (.read (k₁ := 2) (by decide) rfl
    (.write (f := (· + 100)) (k₁ := 3) (by decide) rfl (.nil (Nat.le_refl _)))))
example := C25_length ticking_mono (n := 3) (k₀ := 0) (T := Nat) (by decide) rfl
  (.write (f := (· + 1)) (k₁ := 1) (by decide) rfl (.read (k₁ := 2) (by decide) rfl
    (.write (f := (· + 100)) (k₁ := 3) (by decide) rfl (.nil (Nat.le_refl _)))))
example := C25_no_panic (T := Nat) ticking_mono (n := 3) (k₀ := 0) (by decide)

end Metrix
