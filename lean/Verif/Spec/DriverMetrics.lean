import Verif.Spec.Driver

/-! # What the metrics of a driver are to show -/

namespace Metrix

/-- A group that begins with the given count. -/
def ShowsCount (n : Nat) (v : ItemKind) : Prop := ∃ rest, v = .snapshot (("count", .uint n) :: rest)

/-- A group that begins with the current value, or an empty one if there is no value yet. -/
def ShowsCurrent (value : Option Int) (v : ItemKind) : Prop :=
  match value with
  | some x => ∃ rest, v = .snapshot (("current", .int x) :: rest)
  | none => v = .snapshot []

/-- The names in the group `_metrix`. -/
def driverMetricNames : List String :=
  ["collections_per_second", "collection_times_us", "observations_processed_per_second",
    "observations_processed_per_collection", "observations_dropped_per_second", "observations_dropped_per_collection",
    "observations_enqueued", "instruments_updated_per_second", "snapshots_per_second", "snapshots_times_us",
    "dropped_observations_alarm", "inactivity_alarm", "iteration_update_ratio_per_mille",
    "iteration_update_ratio_per_mille_histo"]

/-- The sum of a number over all runs. -/
def totalOf (f : Outcome → Nat) (runs : List Outcome) : Nat := (runs.map f).sum

/-- The number of runs in which a number was not 0. -/
def runsWith (f : Outcome → Nat) (runs : List Outcome) : Nat := (runs.filter fun o => f o != 0).length

/-- The group `c` shows the right numbers after the given runs and a number of snapshots. -/
structure MetricsShow (runs : List Outcome) (snapshots : Nat) (c : Snapshot) : Prop where
  names : c.map (·.1) = driverMetricNames
  collections : ∃ v, ("collections_per_second", v) ∈ c ∧ ShowsCount runs.length v
  times : ∃ v, ("collection_times_us", v) ∈ c ∧ ShowsCount runs.length v
  processed : ∃ v, ("observations_processed_per_second", v) ∈ c ∧ ShowsCount (totalOf (·.processed) runs) v
  processedEach : ∃ v, ("observations_processed_per_collection", v) ∈ c ∧ ShowsCount (runsWith (·.processed) runs) v
  dropped : ∃ v, ("observations_dropped_per_second", v) ∈ c ∧ ShowsCount (totalOf (·.dropped) runs) v
  droppedEach : ∃ v, ("observations_dropped_per_collection", v) ∈ c ∧ ShowsCount (runsWith (·.dropped) runs) v
  enqueued : ∃ v, ("observations_enqueued", v) ∈ c ∧
    ShowsCurrent (runs.getLast?.map fun o => (o.observationsEnqueued : Int)) v
  updated : ∃ v, ("instruments_updated_per_second", v) ∈ c ∧ ShowsCount (totalOf (·.instrumentsUpdated) runs) v
  snapshotCount : ∃ v, ("snapshots_per_second", v) ∈ c ∧ ShowsCount snapshots v
  snapshotTimes : ∃ v, ("snapshots_times_us", v) ∈ c ∧ ShowsCount snapshots v

/-! ## With times -/

/-- An iteration with the number of clock readings at its beginning and at its end. -/
structure TimedIteration (σ L : Type) where
  start : Nat
  what : Iteration σ L
  stop : Nat

variable {σ L : Type} [DecidableEq L] [Custom σ L] [CustomProcessor σ]

/-- As `DriverLife`, with the times of the iterations. -/
inductive DriverTimeline (e : Env) : Nat → DriverThread σ L → List (TimedIteration σ L) → Nat → DriverThread σ L → Prop
  | nil {k k' t} : k ≤ k' → DriverTimeline e k t [] k' t
  | iteration {k k₁ k₂ k' t t₁ t' i tl} : k ≤ k₁ → t.iterate e k₁ = (t₁, some i, k₂) → DriverTimeline e k₂ t₁ tl k' t' →
      DriverTimeline e k t (⟨k₁, i, k₂⟩ :: tl) k' t'
  | over {k k₁ k₂ k' t t₁ t' tl} : k ≤ k₁ → t.iterate e k₁ = (t₁, none, k₂) → DriverTimeline e k₂ t₁ tl k' t' →
      DriverTimeline e k t tl k' t'
  | others {k k' c s tl t'} : DriverTimeline e k (.ended (c.run s)) tl k' t' → DriverTimeline e k (.ended c) tl k' t'

omit [DecidableEq L] [Custom σ L] [CustomProcessor σ] in
/-- The last iteration with a run that satisfies `f`. -/
def lastRunWith (f : Outcome → Bool) (tl : List (TimedIteration σ L)) : Option (TimedIteration σ L) :=
  (tl.filter fun x => x.what.outcome.any f).getLast?

end Metrix
