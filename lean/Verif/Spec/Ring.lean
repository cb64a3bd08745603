import Verif.Model.Buckets

/-! # A sliding list of seconds -/

namespace Metrix
variable {T : Type} [Inhabited T]

/-- The number of the second `t` lies in; second 0 starts at `t0`. -/
def secondOf (t0 t : Int) : Int := (t - t0) / nanosPerSec

/-- The number of the second that starts at `t` or next after `t`. -/
def nextSecondOf (t0 t : Int) : Int := -((t0 - t) / nanosPerSec)

/-- A write that was made: into the second number `second`. -/
structure Write (T : Type) where
  second : Int
  f : T → T

/-- What is in a second after the given writes (oldest first): only writes into that second count. -/
def contentOf (initial : T) (second : Int) : List (Write T) → T
  | [] => initial
  | w :: ws => contentOf (if w.second = second then w.f initial else initial) second ws

/-- A way to use a ring of buckets created at `t0`: writes at the current time, reads, and failed or
successful writes to a moment in the past through `get_at_mut`. Records the writes. (That
`get_at_mut` reaches `nextSecondOf` and not `secondOf` is a finding, see C26.) -/
inductive RingHistory (e : Env) (t0 : Int) :
    Nat → SecondsBuckets T → List (Write T) → Nat → SecondsBuckets T → Prop
  | nil {k k' : Nat} {b : SecondsBuckets T} : k ≤ k' → RingHistory e t0 k b [] k' b
  | write {k k₁ k₂ k' : Nat} {b b₁ b' : SecondsBuckets T} {f : T → T} {log : List (Write T)} :
      k ≤ k₁ → (b.modifyCurrent fun x => pure (f x)) e k₁ = some (b₁, k₂) →
      RingHistory e t0 k₂ b₁ log k' b' →
      RingHistory e t0 k b (⟨secondOf t0 (e.clock k₁), f⟩ :: log) k' b'
  | read {k k₁ k₂ k' : Nat} {b b₁ b' : SecondsBuckets T} {xs : List T} {log : List (Write T)} :
      k ≤ k₁ → b.iter e k₁ = some ((b₁, xs), k₂) →
      RingHistory e t0 k₂ b₁ log k' b' → RingHistory e t0 k b log k' b'
  | missedPast {k k₁ k₂ k' : Nat} {b b₁ b' : SecondsBuckets T} {t : Int} {log : List (Write T)} :
      k ≤ k₁ → b.getAt t e k₁ = some ((b₁, none), k₂) →
      RingHistory e t0 k₂ b₁ log k' b' → RingHistory e t0 k b log k' b'
  | writePast {k k₁ k₂ k' i : Nat} {b b₁ b' : SecondsBuckets T} {t : Int} {x : T} {f : T → T}
      {log : List (Write T)} :
      k ≤ k₁ → b.getAt t e k₁ = some ((b₁, some i), k₂) → b₁.buckets[i]? = some x →
      RingHistory e t0 k₂ { b₁ with buckets := b₁.buckets.set i (f x) } log k' b' →
      RingHistory e t0 k b (⟨nextSecondOf t0 t, f⟩ :: log) k' b'

/-- The seconds of a window of length `n` that ends with second `last`, newest first. -/
def windowSeconds (n : Nat) (last : Int) : List Int := (List.range n).map fun i : Nat => last - i

end Metrix
