import Verif.Model.Convert

/-!
# Statistics of the allocator: `src/instruments/jemalloc.rs`

The allocator is outside the model: what it answers is arbitrary.
-/

namespace Metrix

/-- What is asked of `jemalloc_ctl` (`src/instruments/jemalloc.rs:12, 19, 26, 33, 40, 47, 54, 66, 76`). -/
inductive Ctl
  | epoch
  | active
  | allocated
  | mapped
  | metadata
  | resident
  | retained
  | narenas
  | maxBackgroundThreads
  deriving DecidableEq, Repr

/-- `src/instruments/jemalloc.rs:8` (`JemallocStats`), which has no fields, together with the allocator it asks: what the
allocator answers to a question asked after `n` others (`none` is an error), and what it was asked so far. -/
structure Jemalloc where
  answer : Ctl → Nat → Option Nat
  asked : List Ctl := []

namespace Jemalloc

/-- `match …::read() { Ok(v) => …, Err(err) => { log_error(err); return; } }`: go on with `ok`, or return `failed`. Logging is
not modelled. -/
def ask {β : Type} (s : Jemalloc) (c : Ctl) (failed : Jemalloc → β) (ok : Jemalloc → Nat → β) : β :=
  let s' := { s with asked := s.asked ++ [c] }
  match s.answer c s.asked.length with
  | none => failed s'
  | some v => ok s' v

/-- `src/instruments/jemalloc.rs:11-83` (`put_snapshot`). The statistics are `usize`, `narenas` is `u32`. -/
def put (s : Jemalloc) (into : Snapshot) (_descriptive : Bool) : Jemalloc × Snapshot :=
  s.ask .epoch (fun s => (s, into)) fun s _ =>
  let snapshot : Snapshot := []
  s.ask .active (fun s => (s, into)) fun s bytes =>
  let snapshot := snapshot.push "active" (.ofInt bytes .usize)
  s.ask .allocated (fun s => (s, into)) fun s bytes =>
  let snapshot := snapshot.push "allocated" (.ofInt bytes .usize)
  s.ask .mapped (fun s => (s, into)) fun s bytes =>
  let snapshot := snapshot.push "mapped" (.ofInt bytes .usize)
  s.ask .metadata (fun s => (s, into)) fun s bytes =>
  let snapshot := snapshot.push "metadata" (.ofInt bytes .usize)
  s.ask .resident (fun s => (s, into)) fun s bytes =>
  let snapshot := snapshot.push "resident" (.ofInt bytes .usize)
  s.ask .retained (fun s => (s, into)) fun s bytes =>
  let snapshot := snapshot.push "retained" (.ofInt bytes .usize)
  let into := into.push "stats" (.snapshot snapshot)
  let snapshot : Snapshot := []
  s.ask .narenas (fun s => (s, into)) fun s n =>
  let snapshot := snapshot.push "narenas" (.ofInt n .u32)
  let into := into.push "arenas" (.snapshot snapshot)
  s.ask .maxBackgroundThreads (fun s => (s, into)) fun s n => (s, into.push "max_background_threads" (.ofInt n .usize))

end Jemalloc

/-- It can be a snapshooter in every component. It is neither an instrument nor a handler: the other functions are never
called. -/
instance {L : Type} : Custom Jemalloc L where
  update s _ := pure (s, 0)
  handle s _ := pure (s, 0)
  putSnapshot s into d := pure (s.put into d)

end Metrix
