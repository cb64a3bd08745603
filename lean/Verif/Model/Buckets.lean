import Verif.Model.Prelude

/-!
# Ring of buckets, one per second: `src/instruments/fundamentals/buckets.rs`
-/

namespace Metrix

/-- `v[i]`: panics if out of bounds. -/
def index (xs : List T) (i : Nat) : M T :=
  match xs[i]? with
  | some x => pure x
  | none => M.panic

/-- `v[i] = x`: panics if out of bounds. -/
def assignAt (xs : List T) (i : Nat) (x : T) : M (List T) :=
  if i < xs.length then pure (xs.set i x) else M.panic

/-- `src/instruments/fundamentals/buckets.rs:8-13` (`SecondsBuckets`). The clock is always the wall clock. -/
structure SecondsBuckets (T : Type) where
  buckets : List T
  currentTime : Int
  currentIdx : Nat

namespace SecondsBuckets
variable {T : Type} [Inhabited T]

/-- `src/instruments/fundamentals/buckets.rs:35-48` (`initialized_with_clock`). -/
def initialized (buckets : List T) : M (SecondsBuckets T) := do
  if buckets.isEmpty then M.panic
  else
    let currentTime ← M.now
    return { buckets, currentTime, currentIdx := buckets.length - 1 }

/-- `src/instruments/fundamentals/buckets.rs:19-21, 29-32` (`new`, `with_clock`). -/
def new (forSeconds : Nat) : M (SecondsBuckets T) :=
  initialized (List.replicate forSeconds default)

/-- `src/instruments/fundamentals/buckets.rs:122-124` (`idx`). `x % 0` panics. -/
def idx (b : SecondsBuckets T) (offset : Nat) : M Nat :=
  if b.buckets.length = 0 then M.panic else pure (offset % b.buckets.length)

/-- The repeated statements `src/instruments/fundamentals/buckets.rs:95-96` and `102-103`. -/
def advance (b : SecondsBuckets T) : M (SecondsBuckets T) := do
  let i ← b.idx (b.currentIdx + 1)
  let bs ← assignAt b.buckets i default
  return { b with currentIdx := i, buckets := bs }

/-- The loop `src/instruments/fundamentals/buckets.rs:101-104`. -/
def advanceN (b : SecondsBuckets T) : Nat → M (SecondsBuckets T)
  | 0 => pure b
  | n + 1 => do (← b.advance).advanceN n

/-- `src/instruments/fundamentals/buckets.rs:85-115` (`tick`). `current_time + d` seconds is at most `now`,
so the addition of the duration (91) cannot leave the range of `Instant`. -/
def tick (b : SecondsBuckets T) : M (SecondsBuckets T) := do
  let now ← M.now
  let d := sinceNs now b.currentTime / nanosPerSec
  if d = 0 then return b
  else
    let b := { b with currentTime := b.currentTime + (d * nanosPerSec : Nat) }
    if d = 1 then b.advance
    else if d < b.buckets.length then b.advanceN d
    else return { b with currentIdx := 0, buckets := b.buckets.map fun _ => default }

/-- `src/instruments/fundamentals/buckets.rs:50-53` (`current_mut`), with the modification the caller
makes through the returned reference. -/
def modifyCurrent (b : SecondsBuckets T) (f : T → M T) : M (SecondsBuckets T) := do
  let b ← b.tick
  let x ← index b.buckets b.currentIdx
  let y ← f x
  let bs ← assignAt b.buckets b.currentIdx y
  return { b with buckets := bs }

/-- `src/instruments/fundamentals/buckets.rs:55-69` (`get_at_mut`): the index of the bucket referred to,
and the ticked ring. -/
def getAt (b : SecondsBuckets T) (forWhen : Int) : M (SecondsBuckets T × Option Nat) := do
  let b ← b.tick
  if forWhen > b.currentTime then return (b, none)
  else
    let d := sinceNs b.currentTime forWhen / nanosPerSec
    if d ≥ b.buckets.length then return (b, none)
    else
      let i ← b.idx (b.buckets.length + b.currentIdx - d)
      return (b, some i)

/-- `src/instruments/fundamentals/buckets.rs:133-150` (`BucketIterator::next`), called until exhausted. -/
def iterFrom (bs : List T) : (count idx : Nat) → M (List T)
  | 0, _ => pure []
  | n + 1, idx => do
    let x ← index bs idx
    let rest ← iterFrom bs n (if idx = 0 then bs.length - 1 else idx - 1)
    return x :: rest

/-- `src/instruments/fundamentals/buckets.rs:74-83` (`iter`): all elements the iterator yields. -/
def iter (b : SecondsBuckets T) : M (SecondsBuckets T × List T) := do
  let b ← b.tick
  let xs ← iterFrom b.buckets b.buckets.length b.currentIdx
  return (b, xs)

end SecondsBuckets
end Metrix
