import Verif.Proof.BusyRun
import Verif.Proof.RunRatio

/-! Drivers that measure themselves do not panic within their limits, in any build. -/

namespace Metrix
variable {σ L : Type} {e : Env} {limit : Nat}

/-! ## The instruments -/

/-- After `n` updates, each with at most `limit`. -/
def driverLoad (limit n : Nat) : Load := ⟨n, n * limit, 0⟩

theorem driverLoad_le {m n : Nat} (h : m ≤ n) : driverLoad limit m ≤ driverLoad limit n :=
  ⟨h, Nat.mul_le_mul_right _ h, Nat.le_refl _⟩

theorem driverLoad_small {n : Nat} (h : n * (limit + n) < 2 ^ 63) : (driverLoad limit n).Small limit := by
  have : n * limit ≤ n * (limit + n) := Nat.mul_le_mul_left _ (Nat.le_add_right _ _)
  exact ⟨by simp only [driverLoad]; omega, by simpa only [driverLoad, Load.reach, Nat.add_zero] using h⟩

theorem driverLoad_costs {n : Nat} {u : Update} (h : (n + 1) * (limit + (n + 1)) < 2 ^ 63) (hu : u.AtMost limit) (hc : u.changing = 0) :
    Costs limit u (driverLoad limit n) (driverLoad limit (n + 1)) :=
  ⟨driverLoad_le (Nat.le_succ n), Nat.le_refl _, by simp only [driverLoad, hc]; omega, hu, driverLoad_small h⟩

/-- What a meter of a driver may have counted. -/
def Meter.Counted (e : Env) (limit n : Nat) (m : Meter) : Prop := m.inner.count.natAbs ≤ n * limit ∧ m.inner.Recent e

theorem Meter.Counted.mono {m : Meter} {a b : Nat} (h : m.Counted e limit a) (hab : a ≤ b) : m.Counted e limit b :=
  ⟨Nat.le_trans h.1 (Nat.mul_le_mul_right _ hab), h.2⟩

theorem Meter.Counted.update {m : Meter} {n : Nat} {u : Update} (h : m.Counted e limit n) (hs : (n + 1) * (limit + (n + 1)) < 2 ^ 63)
    (hu : u.AtMost limit) (hc : u.changing = 0) (ho : u.occurrences ≤ limit) :
    M.Tot e (m.update u) fun r => r.1.Counted e limit (n + 1) :=
  (Meter.tot_update (l := driverLoad limit n) (l' := driverLoad limit (n + 1)) h.1 (driverLoad_costs hs hu hc) (by
    simp only [driverLoad, Nat.succ_mul]; omega)).mono fun _ hr => ⟨hr.1, h.2.of_start hr.2⟩

theorem Meter.Counted.putSnapshot {m : Meter} {n : Nat} (h : m.Counted e limit n) (s : Snapshot) (d : Bool) :
    M.Tot e (m.putSnapshot s d) fun r => r.1.Counted e limit n :=
  (Meter.tot_putSnapshot h.2 s d).mono fun _ hr => ⟨by rw [hr.1]; exact h.1, h.2.of_start hr.2⟩

/-- It is a reading of the clock. -/
def Env.Reads (e : Env) (t : Int) : Prop := ∃ j, t = e.clock j

theorem M.Tot.now : M.Tot e M.now e.Reads := fun k => ⟨_, _, M.run_now e k, k, rfl⟩

theorem Meter.tot_new (he : e.Short) (name : String) : M.Tot e (Meter.new name) (Meter.Counted e limit 0) := by
  refine .okBind .now fun _ => .bind (P := fun s : StdMeter => s.count = 0 ∧ e.Reads s.start) (.okBind .envOnly fun _ => .bind .now fun _ h => .pure ⟨rfl, h⟩) fun s hs => .pure ⟨?_, ?_⟩
  · show s.count.natAbs ≤ _
    rw [hs.1]; simp
  · obtain ⟨-, j, hj⟩ := hs
    intro k
    show e.clock k - s.start < _
    rw [hj]; exact he j k

theorem Env.Short.since (he : e.Short) {a b : Int} (ha : e.Reads a) (hb : e.Reads b) : sinceNs a b < 2 ^ 64 := by
  obtain ⟨i, rfl⟩ := ha
  obtain ⟨j, rfl⟩ := hb
  have := he j i
  unfold sinceNs; omega

theorem tot_ofDuration {d : Nat} (h : d < 2 ^ 64) :
    M.Tot e (ObservedValue.ofDuration d) fun v => ∃ n, v = .duration n .nanoseconds := by
  have h1 : d / 1000000000 * 1000000000 < 2 ^ 64 := Nat.lt_of_le_of_lt (Nat.div_mul_le_self _ _) h
  have h2 : d / 1000000000 * 1000000000 + d % 1000000000 < 2 ^ 64 := by rw [Nat.mul_comm, Nat.div_add_mod]; exact h
  exact .bind (.arithU64 h1) fun s hs => .bind (.arithU64 (by rw [hs]; exact h2)) fun _ _ => .pure ⟨_, rfl⟩

theorem Histogram.ok_resetIfDue (h : Histogram) : M.Ok e h.resetIfDue := by
  unfold Histogram.resetIfDue
  cases h.maxInactivity with
  | none => exact .pure _
  | some d => exact .ite (.bind .now fun _ => .ite (.pure _) (.pure _)) (.pure _)

theorem Histogram.ok_update_nanos (h : Histogram) (n : Nat) (t : Int) : M.Ok e (h.update (.withValue (.duration n .nanoseconds) t)) := by
  refine .bind h.ok_resetIfDue fun h => .bind ?_ fun _ => .bind (.bind .now fun _ => .pure _) fun _ => .pure _
  cases h.displayTimeUnit <;> exact .pure _

theorem Histogram.ok_update_number (h : Histogram) (n : Nat) (t : Int) : M.Ok e (h.update (.withValue (.unsignedInteger n) t)) := by
  refine .bind h.ok_resetIfDue fun h => ?_
  have : ∀ c, M.Ok e (match c with
    | some v => do return (← h.record v, 1)
    | none => return (h, 0) : M (Histogram × Nat)) := by
    intro c
    cases c with
    | none => exact .pure _
    | some v => exact .bind (.bind .now fun _ => .pure _) fun _ => .pure _
  exact this _

/-- How often each of the instruments of a driver may have been updated. -/
structure Marks where
  collections : Nat
  processed : Nat
  enqueued : Nat
  dropped : Nat
  updated : Nat
  snapshots : Nat
  ratios : Nat

/-- The numbers in the instruments of a driver are what they can be at most. -/
structure DriverInstruments.Within (e : Env) (limit : Nat) (n : Marks) (i : DriverInstruments) : Prop where
  collections : i.collectionsPerSecond.Counted e limit n.collections
  processed : i.processedPerSecond.Counted e limit n.processed
  droppedMeter : i.droppedPerSecond.Counted e limit n.dropped
  updated : i.updatedPerSecond.Counted e limit n.updated
  snapshots : i.snapshotsPerSecond.Counted e limit n.snapshots
  enqueued : i.enqueued.Within limit (driverLoad limit n.enqueued)
  ratio : i.ratio.Within limit (driverLoad limit n.ratios)
  dropped : Fits e i.droppedAlarm.switchOffAfter
  inactivity : Fits e i.inactivityAlarm.ifNotHappenedWithin

theorem Gauge.tot_setTracking_within {g : Gauge} (hv : g.value = none) (ht : g.tracking = none) (n : Nat) :
    M.Tot e (g.setTracking n) (Gauge.Within limit (driverLoad limit 0)) := by
  refine .ite (fun h => ?_) fun _ => .pure (.of (fun v h => by rw [hv] at h; cases h) (fun r h => by rw [ht] at h; cases h))
  refine .bind (P := RingWithin limit (driverLoad limit 0)) ?_ fun b hb => .pure (.of (fun v h => by
    simp only [hv] at h; cases h) (fun r h => by cases h; exact hb))
  intro k
  refine ⟨{ buckets := List.replicate n default, currentTime := e.clock k, currentIdx := n - 1 }, k + 1, ?_, ?_⟩
  · simp only [SecondsBuckets.new, SecondsBuckets.initialized]
    rw [if_neg (by simp [h])]
    simp [M.run_bind]
  · refine ⟨by simp; omega, ?_, ?_, ?_⟩
    · simp only [List.map_replicate, List.sum_replicate]
      show n • 0 ≤ _
      simp
    · simp only [List.map_replicate, List.sum_replicate]
      show n • 0 ≤ _
      simp
    · intro b hb
      rw [List.eq_of_mem_replicate hb]
      exact ⟨Nat.zero_le _, Nat.zero_le _⟩

theorem DriverInstruments.within_new (h60 : Fits e (60 * nanosPerSec)) (he : e.Short) :
    M.Tot e DriverInstruments.new (DriverInstruments.Within e limit ⟨0, 0, 0, 0, 0, 0, 0⟩) := by
  unfold DriverInstruments.new
  refine .bind (Meter.tot_new he _) fun _ h1 => .okBind (Histogram.ok_new _) fun _ => .bind (Meter.tot_new he _) fun _ h2 =>
    .okBind (Histogram.ok_new _) fun _ => .bind (Meter.tot_new he _) fun _ h3 => .okBind (Histogram.ok_new _) fun _ =>
    .bind (Gauge.tot_setTracking_within rfl rfl _) fun g hg => .bind (Meter.tot_new he _) fun _ h4 => .bind (Meter.tot_new he _) fun _ h5 =>
    .okBind (Histogram.ok_new _) fun _ =>
    .bind (P := fun x => Fits e x.ifNotHappenedWithin) ?_ fun x hx => .okBind (Histogram.ok_new _) fun _ =>
    .bind (Gauge.tot_setTracking_within rfl rfl _) fun g' hg' => .pure ⟨h1, h2, h3, h4, h5, .of hg.value fun _ hr => hg.ring hr,
      .of hg'.value fun _ hr => hg'.ring hr, h60, hx⟩
  exact .okBind .now fun _ => .pure h60

namespace DriverInstruments
variable {i : DriverInstruments} {n : Marks}

theorem Within.mono {n' : Marks} (hi : i.Within e limit n) (h1 : n.collections ≤ n'.collections) (h2 : n.processed ≤ n'.processed)
    (h3 : n.enqueued ≤ n'.enqueued) (h4 : n.dropped ≤ n'.dropped) (h5 : n.updated ≤ n'.updated) (h6 : n.snapshots ≤ n'.snapshots)
    (h7 : n.ratios ≤ n'.ratios) : i.Within e limit n' :=
  ⟨hi.collections.mono h1, hi.processed.mono h2, hi.droppedMeter.mono h4, hi.updated.mono h5, hi.snapshots.mono h6,
    hi.enqueued.mono (driverLoad_le h3), hi.ratio.mono (driverLoad_le h7), hi.dropped, hi.inactivity⟩

theorem within_notePass (he : e.Short) (hl : 1 ≤ limit) (hi : i.Within e limit n)
    (hs : (n.collections + 1) * (limit + (n.collections + 1)) < 2 ^ 63) {a b : Int} (ha : e.Reads a) (hb : e.Reads b) :
    M.Tot e (i.notePass a b) (Within e limit { n with collections := n.collections + 1 }) :=
  .bind (hi.collections.update hs trivial rfl hl) fun _ h1 => .bind (tot_ofDuration (he.since ha hb)) fun v hv => by
    obtain ⟨d, rfl⟩ := hv
    exact .okBind (Histogram.ok_update_nanos _ _ _) fun _ => .pure ⟨h1, hi.2, hi.3, hi.4, hi.5, hi.6, hi.7, hi.8, hi.9⟩

theorem within_noteProcessed (hi : i.Within e limit n) (hs : (n.processed + 1) * (limit + (n.processed + 1)) < 2 ^ 63) (a : Int) {m : Nat}
    (hm : m ≤ limit) : M.Tot e (i.noteProcessed a m) (Within e limit { n with processed := n.processed + 1 }) :=
  .ite (fun _ => .bind (hi.processed.update hs trivial rfl hm) fun _ h1 => .okBind (Histogram.ok_update_number _ _ _) fun _ =>
    .pure ⟨hi.1, h1, hi.3, hi.4, hi.5, hi.6, hi.7, hi.8, hi.9⟩) fun _ => .pure (hi.mono (by simp) (by simp) (by simp) (by simp) (by simp) (by simp) (by simp))

theorem number_atMost {m : Nat} (hm : m ≤ limit) (a : Int) : (Update.withValue (.unsignedInteger m) a).AtMost limit := by
  intro x hx
  simp only [ObservedValue.convertToI64] at hx
  split at hx
  · cases hx; simpa using hm
  · cases hx

theorem within_noteEnqueued (hi : i.Within e limit n) (hs : (n.enqueued + 1) * (limit + (n.enqueued + 1)) < 2 ^ 63) (a : Int) {m : Nat}
    (hm : m ≤ limit) : M.Tot e (i.noteEnqueued a m) (Within e limit { n with enqueued := n.enqueued + 1 }) :=
  .bind (hi.enqueued.update (driverLoad_costs hs (number_atMost hm a) rfl)) fun _ h1 =>
    .pure ⟨hi.1, hi.2, hi.3, hi.4, hi.5, h1, hi.7, hi.8, hi.9⟩

theorem within_noteDropped (hi : i.Within e limit n) (hs : (n.dropped + 1) * (limit + (n.dropped + 1)) < 2 ^ 63) (a : Int) {m : Nat}
    (hm : m ≤ limit) : M.Tot e (i.noteDropped a m) (Within e limit { n with dropped := n.dropped + 1 }) :=
  .ite (fun _ => .bind (hi.droppedMeter.update hs trivial rfl hm) fun _ h1 => .okBind (Histogram.ok_update_number _ _ _) fun _ =>
    .bind (StaircaseTimer.tot_update hi.dropped _) fun _ hr => .pure ⟨hi.1, hi.2, h1, hi.4, hi.5, hi.6, hi.7, hr, hi.9⟩)
    fun _ => .pure (hi.mono (by simp) (by simp) (by simp) (by simp) (by simp) (by simp) (by simp))

theorem within_noteUpdated (hi : i.Within e limit n) (hs : (n.updated + 1) * (limit + (n.updated + 1)) < 2 ^ 63) (a : Int) {m : Nat}
    (hm : m ≤ limit) : M.Tot e (i.noteUpdated a m) (Within e limit { n with updated := n.updated + 1 }) :=
  .ite (fun _ => .bind (hi.updated.update hs trivial rfl hm) fun _ h1 => .pure ⟨hi.1, hi.2, hi.3, h1, hi.5, hi.6, hi.7, hi.8, hi.9⟩)
    fun _ => .pure (hi.mono (by simp) (by simp) (by simp) (by simp) (by simp) (by simp) (by simp))

theorem within_noteActivity (hi : i.Within e limit n) (a : Int) : M.Tot e (i.noteActivity a) (Within e limit n) := by
  have hu : M.Tot e (i.inactivityAlarm.update (.observation a)) fun r => Fits e r.1.ifNotHappenedWithin :=
    .okBind .now fun _ => .pure hi.inactivity
  exact .bind hu fun _ hr => .pure ⟨hi.1, hi.2, hi.3, hi.4, hi.5, hi.6, hi.7, hi.8, hr⟩

theorem within_updatePostCollection (he : e.Short) (hl : 1 ≤ limit) {s n : Nat} (hi : i.Within e limit ⟨n, n, n, n, n, s, n⟩)
    (hs : (n + 1) * (limit + (n + 1)) < 2 ^ 63) {o : Outcome} (ho : o.AtMost limit) {t : Int} (ht : e.Reads t) :
    M.Tot e (i.updatePostCollection o t) (Within e limit ⟨n + 1, n + 1, n + 1, n + 1, n + 1, s, n⟩) :=
  .bind .now fun _ hnow => .bind (within_notePass he hl hi hs hnow ht) fun _ hi => .bind (within_noteProcessed hi hs _ ho.1) fun _ hi =>
    .bind (within_noteEnqueued hi hs _ ho.2.2.2) fun _ hi => .bind (within_noteDropped hi hs _ ho.2.1) fun _ hi =>
    .bind (within_noteUpdated hi hs _ ho.2.2.1) fun _ hi => within_noteActivity hi _

theorem within_updatePostSnapshot (he : e.Short) (hl : 1 ≤ limit) (hi : i.Within e limit n)
    (hs : (n.snapshots + 1) * (limit + (n.snapshots + 1)) < 2 ^ 63) {t : Int} (ht : e.Reads t) :
    M.Tot e (i.updatePostSnapshot t) (Within e limit { n with snapshots := n.snapshots + 1 }) :=
  .bind .now fun _ hnow => .bind (hi.snapshots.update hs trivial rfl hl) fun _ h1 => .bind (tot_ofDuration (he.since hnow ht)) fun v hv => by
    obtain ⟨d, rfl⟩ := hv
    exact .okBind (Histogram.ok_update_nanos _ _ _) fun _ => .pure ⟨hi.1, hi.2, hi.3, hi.4, h1, hi.6, hi.7, hi.8, hi.9⟩

theorem within_updateRunRatio (hi : i.Within e limit n) (hs : (n.ratios + 1) * (limit + (n.ratios + 1)) < 2 ^ 63) {q : Rat}
    (hq : truncToU64 (e.rnd (q * 1000)) ≤ limit) :
    M.Tot e (i.updateRunRatio q) (Within e limit { n with ratios := n.ratios + 1 }) := by
  have henv : M.Tot e M.env (· = e) := fun k => ⟨_, _, M.run_env e k, rfl⟩
  refine .bind henv fun e' h => ?_
  subst h
  exact .okBind .now fun _ => .okBind (Histogram.ok_update_number _ _ _) fun _ =>
    .bind (hi.ratio.update (driverLoad_costs hs (number_atMost hq _) rfl)) fun _ hr => .pure ⟨hi.1, hi.2, hi.3, hi.4, hi.5, hi.6, hr, hi.8, hi.9⟩

theorem within_putSnapshot (hi : i.Within e limit n) (h1 : n.enqueued * (limit + n.enqueued) < 2 ^ 63)
    (h2 : n.ratios * (limit + n.ratios) < 2 ^ 63) (into : Snapshot) (d : Bool) :
    M.Tot e (i.putSnapshot into d) fun r => r.1.Within e limit n :=
  .bind (hi.collections.putSnapshot _ _) fun _ g1 => .okBind (Histogram.ok_putSnapshot _ _ _) fun _ =>
    .bind (hi.processed.putSnapshot _ _) fun _ g2 => .okBind (Histogram.ok_putSnapshot _ _ _) fun _ =>
    .bind (hi.droppedMeter.putSnapshot _ _) fun _ g3 => .okBind (Histogram.ok_putSnapshot _ _ _) fun _ =>
    .bind (hi.enqueued.putSnapshot (driverLoad_small h1) _ _) fun _ g4 => .bind (hi.updated.putSnapshot _ _) fun _ g5 =>
    .bind (hi.snapshots.putSnapshot _ _) fun _ g6 => .okBind (Histogram.ok_putSnapshot _ _ _) fun _ =>
    .okBind (StaircaseTimer.ok_putSnapshot _ _ _) fun _ => .okBind (NonOccurrenceIndicator.ok_putSnapshot hi.inactivity _ _) fun _ =>
    .bind (hi.ratio.putSnapshot (driverLoad_small h2) _ _) fun _ g7 => .okBind (Histogram.ok_putSnapshot _ _ _) fun _ =>
    .pure ⟨g1, g2, g3, g5, g6, g4, g7, hi.8, hi.9⟩

end DriverInstruments

/-! ## The loop -/

theorem M.Tot.withPost {α : Type} {x : M α} {P Q : α → Prop} (h : M.Tot e x P) (hq : x.Post Q) : M.Tot e x fun a => P a ∧ Q a := by
  intro k
  obtain ⟨a, k', h, ha⟩ := h k
  exact ⟨a, k', h, ha, hq e k a k' h⟩

/-- What is received is not pending any more. -/
theorem subperm_poll {b : Bool} {r r' : Receiver (DriverMsg σ L)} {m : Option (DriverMsg σ L)} (h : pollDriver b r = (r', .go m)) :
    (m.toList ++ r'.chan.pending).Subperm r.chan.pending := by
  unfold pollDriver at h
  simp only at h
  split at h
  · cases h
  · split at h
    · rename_i heq
      cases h
      exact ((Receiver.subperm_tryRecv heq).2 _ rfl).trans r.subperm_wait
    · rename_i heq
      cases h
      exact (Receiver.subperm_tryRecv heq).1.trans r.subperm_wait
    · cases h

/-- The loop of a driver is within its limits. Its instruments were updated at most `n` times, that for snapshots `s` times. -/
structure LoopState.Busy (e : Env) (safe : σ → Prop) (peak limit s n : Nat) (l : LoopState σ L) : Prop where
  metrics : ∀ i, l.metrics = some i → i.Within e limit ⟨n, n, n, n, n, s, n⟩
  processors : NodesWithin e safe peak l.processors
  snapshooters : SnapshootersWithin e safe peak l.snapshooters
  strategy : l.strategy.Safe e

/-- What is assumed about the clock, the floats and user defined components. -/
structure BusyWorld (σ L : Type) [Custom σ L] [CustomProcessor σ] (e : Env) (safe : σ → Prop) (b limit : Nat) : Prop where
  custom : CustomSafe L e safe
  processor : CustomProcessorSafe e safe
  modest : CustomModest σ L b
  processorModest : CustomProcessorModest σ b
  forward : AllForward σ L
  mono : e.Mono
  short : e.Short
  rounding : IsRounding e.rnd
  one : 1 ≤ b
  ratio : 1000 ≤ limit

variable {safe : σ → Prop} {peak b s n : Nat}

theorem LoopState.Busy.mono {s' n' : Nat} {l : LoopState σ L} (h : l.Busy e safe peak limit s n) (hs : s ≤ s') (hn : n ≤ n') :
    l.Busy e safe peak limit s' n' :=
  ⟨fun i hi => (h.metrics i hi).mono hn hn hn hn hn hs hn, h.2, h.3, h.4⟩

section
variable [DecidableEq L] [Custom σ L] [CustomProcessor σ] (w : BusyWorld σ L e safe b limit)
include w

omit [DecidableEq L] in
theorem LoopState.busy_addSnapshotValues {l : LoopState σ L} (hl : l.Busy e safe peak limit s n)
    (hs : (s + 1) * (limit + (s + 1)) < 2 ^ 63) (hn : n * (limit + n) < 2 ^ 63) (into : Snapshot) (d : Bool) {t : Int} (ht : e.Reads t) :
    M.Tot e (l.addSnapshotValues into d t) fun r => r.1.Busy e safe peak limit (s + 1) n ∧
      mostOfNodes b r.1.processors = mostOfNodes b l.processors := by
  refine .bind (M.Tot.withPost (within_putNodes w.custom w.processor d _ _ hl.2) (busy_putNodes (b := b) d _ _)) fun r hr =>
    .bind (within_putSnapshootersEach w.custom d _ _ hl.3) fun r' hr' => ?_
  cases hm : l.metrics with
  | none => exact .pure ⟨⟨fun i hi => (nomatch hi), hr.1, hr', hl.4⟩, hr.2⟩
  | some i =>
    have h1 : 1 ≤ limit := by have := w.ratio; omega
    exact .bind (DriverInstruments.within_updatePostSnapshot w.short h1 (hl.1 i hm) hs ht) fun i hi =>
      .bind (DriverInstruments.within_putSnapshot hi hn hn _ _) fun i hi =>
        .pure ⟨⟨fun j hj => by cases hj; exact hi, hr.1, hr', hl.4⟩, hr.2⟩

omit [DecidableEq L] in
theorem LoopState.busy_makeSnapshot {l : LoopState σ L} (hl : l.Busy e safe peak limit s n)
    (hs : (s + 1) * (limit + (s + 1)) < 2 ^ 63) (hn : n * (limit + n) < 2 ^ 63) (d : Bool) :
    M.Tot e (l.makeSnapshot d) fun r => r.1.Busy e safe peak limit (s + 1) n ∧
      mostOfNodes b r.1.processors = mostOfNodes b l.processors := by
  refine .bind .now fun t ht => ?_
  cases hname : l.name with
  | none => exact LoopState.busy_addSnapshotValues w hl hs hn _ _ ht
  | some _ => exact .bind (LoopState.busy_addSnapshotValues w hl hs hn _ _ ht) fun r hr => .pure hr

omit [DecidableEq L] in
theorem LoopState.busy_handle {l : LoopState σ L} (hl : l.Busy e safe peak limit s n)
    (hs : (s + 1) * (limit + (s + 1)) < 2 ^ 63) (hn : n * (limit + n) < 2 ^ 63) (m : DriverMsg σ L) (hm : m.Within e safe peak) :
    M.Tot e (l.handle m) fun r => r.1.Busy e safe peak limit (s + 1) n ∧ (∀ id d, m = .getSnapshot id d → r.2 ≠ none) ∧
      mostOfNodes b r.1.processors = mostOfNodes b l.processors + m.most b := by
  have hl' := hl.mono (Nat.le_succ s) (Nat.le_refl n)
  cases m with
  | addProcessor n =>
    refine .pure ⟨⟨hl'.1, ?_, hl.3, hl.4⟩, (fun _ _ h => (nomatch h)), ?_⟩
    · have := hl.2
      rw [nodesWithin_iff] at this ⊢
      intro x hx
      rcases List.mem_append.mp hx with hx | hx
      · exact this x hx
      · rw [List.mem_singleton.mp hx]; exact hm
    · simp only [mostOfNodes_append, mostOfNodes, DriverMsg.most, Nat.add_zero]
  | addSnapshooter n =>
    refine .pure ⟨⟨hl'.1, hl.2, ?_, hl.4⟩, (fun _ _ h => (nomatch h)), rfl⟩
    have := hl.3
    intro x hx
    rcases List.mem_append.mp hx with hx | hx
    · exact this x hx
    · rw [List.mem_singleton.mp hx]; exact hm
  | getSnapshot id d =>
    exact .bind (LoopState.busy_makeSnapshot w hl hs hn d) fun r hr => .pure ⟨hr.1, (fun _ _ _ h => (nomatch h)), hr.2⟩
  | setStrategy s => exact .pure ⟨⟨hl'.1, hl.2, hl.3, hm⟩, (fun _ _ h => (nomatch h)), rfl⟩
  | pause => exact .pure ⟨⟨hl'.1, hl.2, hl.3, hl.4⟩, (fun _ _ h => (nomatch h)), rfl⟩
  | resume => exact .pure ⟨⟨hl'.1, hl.2, hl.3, hl.4⟩, (fun _ _ h => (nomatch h)), rfl⟩

omit [DecidableEq L] in
theorem LoopState.busy_begin {l : LoopState σ L} (hl : l.Busy e safe peak limit s n)
    (hs : (s + 1) * (limit + (s + 1)) < 2 ^ 63) (hn : n * (limit + n) < 2 ^ 63) (m : Option (DriverMsg σ L))
    (hm : ∀ x, m = some x → x.Within e safe peak) :
    M.Tot e (l.begin m) fun r => r.1.Busy e safe peak limit (s + 1) n ∧ (∀ id d, m = some (.getSnapshot id d) → r.2.2 ≠ none) ∧
      mostOfNodes b r.1.processors = mostOfNodes b l.processors + mostOfMessages b m.toList := by
  refine .okBind .now fun t => ?_
  cases m with
  | none => exact .pure ⟨hl.mono (Nat.le_succ s) (Nat.le_refl n), (fun _ _ h => (nomatch h)), rfl⟩
  | some m =>
    exact .bind (LoopState.busy_handle w hl hs hn m (hm m rfl)) fun r hr => .pure ⟨hr.1, (fun id d h => hr.2.1 id d (by cases h; rfl)), by
      rw [hr.2.2]; simp [mostOfMessages]⟩

omit w [DecidableEq L] [Custom σ L] [CustomProcessor σ] in
theorem LoopState.busy_logDropped {l : LoopState σ L} (hl : l.Busy e safe peak limit s n) (m : Nat) :
    M.Tot e (l.logDropped m) fun l' => l'.Busy e safe peak limit s n ∧ l'.processors = l.processors :=
  .ite (fun _ => .okBind .now fun _ => .ite (fun _ => .okBind .readings fun _ => .okBind .now fun _ => .pure ⟨⟨hl.1, hl.2, hl.3, hl.4⟩, rfl⟩)
    fun _ => .pure ⟨⟨hl.1, hl.2, hl.3, hl.4⟩, rfl⟩) fun _ => .pure ⟨⟨hl.1, hl.2, hl.3, hl.4⟩, rfl⟩

/-- After the run was noted, before its share is. -/
structure LoopState.Noting (e : Env) (safe : σ → Prop) (peak limit s n : Nat) (l : LoopState σ L) : Prop where
  metrics : ∀ i, l.metrics = some i → i.Within e limit ⟨n + 1, n + 1, n + 1, n + 1, n + 1, s, n⟩
  processors : NodesWithin e safe peak l.processors
  snapshooters : SnapshootersWithin e safe peak l.snapshooters
  strategy : l.strategy.Safe e

omit w [DecidableEq L] [Custom σ L] [CustomProcessor σ] in
theorem LoopState.Noting.busy {l : LoopState σ L} (h : l.Noting e safe peak limit s n) : l.Busy e safe peak limit s (n + 1) :=
  ⟨fun i hi => (h.metrics i hi).mono (Nat.le_refl _) (Nat.le_refl _) (Nat.le_refl _) (Nat.le_refl _) (Nat.le_refl _) (Nat.le_refl _)
    (Nat.le_succ _), h.2, h.3, h.4⟩

omit [DecidableEq L] in
theorem LoopState.busy_noteRun {l : LoopState σ L} (hl : l.Busy e safe peak limit s n) (hn : (n + 1) * (limit + (n + 1)) < 2 ^ 63)
    {o : Outcome} (ho : o.AtMost limit) {t : Int} (ht : e.Reads t) :
    M.Tot e (l.noteRun o t) fun l' => l'.Noting e safe peak limit s n ∧ l'.processors = l.processors := by
  unfold LoopState.noteRun
  cases hm : l.metrics with
  | none => exact .pure ⟨⟨(fun i hi => by rw [hm] at hi; cases hi), hl.2, hl.3, hl.4⟩, rfl⟩
  | some i =>
    have h1 : 1 ≤ limit := by have := w.ratio; omega
    exact .bind (DriverInstruments.within_updatePostCollection w.short h1 (hl.1 i hm) hn ho ht) fun i hi =>
      .pure ⟨⟨fun j hj => by cases hj; exact hi, hl.2, hl.3, hl.4⟩, rfl⟩

omit [DecidableEq L] in
/-- The share is at most 1000 if the run is a part of the iteration. -/
theorem LoopState.busy_reportElapsed {l : LoopState σ L} (hl : l.Noting e safe peak limit s n) (hn : (n + 1) * (limit + (n + 1)) < 2 ^ 63)
    {j run k : Nat} (hrun : (run : Int) ≤ e.clock k - e.clock j) :
    ∃ l' k', l.reportElapsed (e.clock j) run e k = some (l', k') ∧ l'.Busy e safe peak limit s (n + 1) ∧ l'.processors = l.processors := by
  unfold LoopState.reportElapsed
  cases hm : l.metrics with
  | none => exact ⟨l, k, rfl, hl.busy, rfl⟩
  | some i =>
    simp only
    rw [M.run_bind_some (M.run_now e k), M.run_bind_some (asSecsF64_eq _ e _), M.run_bind_some (asSecsF64_eq _ e _)]
    split
    · rw [M.run_bind_some (M.run_env e _)]
      have hwhole : run ≤ sinceNs (e.clock k) (e.clock j) ∧ sinceNs (e.clock k) (e.clock j) < 2 ^ 53 * 10 ^ 9 := by
        have := w.short j k
        unfold sinceNs; omega
      have h1 := Env.perMille_le w.rounding hwhole.1 hwhole.2
      have hq : truncToU64 (e.rnd (e.rnd (e.seconds run / e.seconds (sinceNs (e.clock k) (e.clock j))) * 1000)) ≤ limit := by
        have := w.ratio
        unfold Env.perMille at h1
        unfold truncToU64
        omega
      obtain ⟨i', k', hi, hw⟩ := DriverInstruments.within_updateRunRatio (hl.metrics i hm) hn hq (k + 1)
      rw [M.run_bind_some hi]
      exact ⟨_, _, rfl, ⟨fun j hj => by cases hj; exact hw, hl.2, hl.3, hl.4⟩, rfl⟩
    · exact ⟨_, _, rfl, hl.busy, rfl⟩

/-- The rest of an iteration that began with reading `j`. -/
theorem LoopState.busy_work {l : LoopState σ L} (hl : l.Busy e safe peak limit s n) (hn : (n + 1) * (limit + (n + 1)) < 2 ^ 63)
    (hmost : mostOfNodes b l.processors ≤ limit) {j k : Nat} (hjk : j ≤ k) :
    ∃ r k', l.work (e.clock j) e k = some (r, k') ∧ r.1.Busy e safe peak limit s (n + 1) ∧
      mostOfNodes b r.1.processors ≤ mostOfNodes b l.processors := by
  unfold LoopState.work
  by_cases hp : l.paused = true
  · rw [if_pos hp, M.run_bind_some (M.run_readings e k)]
    exact ⟨_, _, rfl, hl.mono (Nat.le_refl _) (Nat.le_succ _), Nat.le_refl _⟩
  rw [if_neg hp, M.run_bind_some (M.run_now e k)]
  obtain ⟨r, k₁, hr, hw⟩ := within_processNodes w.custom w.processor 1000 hl.4 _ hl.2 (k + 1)
  have hb := busy_processNodes w.one w.modest w.processorModest 1000 l.strategy l.processors e (k + 1) r k₁ hr
  have hk₁ := (fwd_processNodes w.forward.custom w.forward.processor _ _ _).le hr
  rw [M.run_bind_some hr]
  simp only
  rw [M.run_bind_some (M.run_now e k₁)]
  have hl₁ : ({ l with processors := r.1 } : LoopState σ L).Busy e safe peak limit s n := ⟨hl.1, hw, hl.3, hl.4⟩
  obtain ⟨l₂, k₂, h2, hl₂, hp₂⟩ := LoopState.busy_logDropped hl₁ r.2.dropped (k₁ + 1)
  have hk₂ := (logDropped_spec h2).1
  rw [M.run_bind_some h2]
  obtain ⟨l₃, k₃, h3, hl₃, hp₃⟩ := LoopState.busy_noteRun w hl₂ hn (hb.1.mono hmost) ⟨k, rfl⟩ k₂
  have hk₃ : k₂ ≤ k₃ := by
    unfold LoopState.noteRun at h3
    cases hm : l₂.metrics with
    | none => rw [hm] at h3; cases h3; exact Nat.le_refl _
    | some i =>
      rw [hm] at h3
      exact (M.Fwd.bind (DriverInstruments.fwd_updatePostCollection i _ _) fun _ => .pure _).le h3
  rw [M.run_bind_some h3]
  split
  · refine ⟨_, _, rfl, hl₃.busy, ?_⟩
    rw [hp₃, hp₂]; exact hb.2
  · rw [M.run_bind_some (M.run_now e k₃), M.run_bind_some (M.run_readings e _)]
    have hrun : ((sinceNs (e.clock k₁) (e.clock k) : Nat) : Int) ≤ e.clock (k₃ + 1) - e.clock j := by
      have a1 := w.mono _ _ hjk
      have a2 := w.mono _ _ (show k ≤ k₁ by omega)
      have a3 := w.mono _ _ (show k₁ ≤ k₃ + 1 by omega)
      unfold sinceNs
      omega
    obtain ⟨l₄, k₄, h4, hl₄, hp₄⟩ := LoopState.busy_reportElapsed w hl₃ hn hrun
    rw [M.run_bind_some h4]
    refine ⟨_, _, rfl, hl₄, ?_⟩
    rw [hp₄, hp₃, hp₂]; exact hb.2

/-- An iteration of a driver within its limits. -/
theorem busy_iterate {l : Loop σ L} (hl : l.state.Busy e safe peak limit n n) (hp : ∀ m ∈ l.receiver.chan.pending, m.Within e safe peak)
    (hmost : mostOfNodes b l.state.processors + mostOfMessages b l.receiver.chan.pending ≤ limit)
    (hn : (n + 1) * (limit + (n + 1)) < 2 ^ 63) {k k' : Nat} {t : DriverThread σ L} {i : Option (Iteration σ L)}
    (h : (DriverThread.running l).iterate e k = (t, i, k')) :
    (i = none ∧ ∃ c, t = .ended c ∧ c.abandoned = true) ∨
    ∃ l' x, t = .running l' ∧ i = some x ∧ l'.state.Busy e safe peak limit (n + 1) (n + 1) ∧
      (∀ m ∈ l'.receiver.chan.pending, m.Within e safe peak) ∧
      mostOfNodes b l'.state.processors + mostOfMessages b l'.receiver.chan.pending ≤ limit ∧
      (∀ id d, x.message = some (.getSnapshot id d) → x.answer ≠ none) := by
  have hn' : n * (limit + n) < 2 ^ 63 :=
    Nat.lt_of_le_of_lt (Nat.mul_le_mul (Nat.le_succ n) (Nat.add_le_add_left (Nat.le_succ n) _)) hn
  have started : ∀ {r : Receiver (DriverMsg σ L)} {m : Option (DriverMsg σ L)}, pollDriver (l.blind.headD false) l.receiver = (r, .go m) →
      ∃ a j, l.state.begin m e k = some (a, j) ∧ a.1.Busy e safe peak limit (n + 1) n ∧
        (∀ id d, m = some (.getSnapshot id d) → a.2.2 ≠ none) ∧ a.2.1 = e.clock k ∧ k ≤ j ∧
        mostOfNodes b a.1.processors + mostOfMessages b r.chan.pending ≤ limit := by
    intro r m hpoll
    obtain ⟨h1, h2⟩ := pending_poll hpoll
    obtain ⟨a, j, ha, hg, hans, hm⟩ := LoopState.busy_begin w hl hn hn' m (fun x hx => hp x (h2 x hx)) k
    have hsub := sum_map_subperm (subperm_poll hpoll) fun m => m.most b
    rw [List.map_append, List.sum_append] at hsub
    obtain ⟨hst, hk⟩ := begin_spec (l' := a.1) (started := a.2.1) (answer := a.2.2) ha
    refine ⟨a, j, ha, hg, hans, hst, ?_, ?_⟩
    · rcases hk with ⟨-, -, -, rfl⟩ | ⟨m', -, hh⟩
      · omega
      · have := (keeps_handle (R := fun _ _ _ _ _ => True) w.forward.custom w.forward.processor ⟨fun _ => trivial, fun _ _ => trivial, fun _ _ _ => trivial, fun _ => trivial, fun _ => trivial⟩ 0 hh).1
        omega
    · unfold mostOfMessages at *
      omega
  cases iterates h with
  | stop hpoll => exact .inl ⟨rfl, _, rfl, poll_stop hpoll⟩
  | panicEarly hpoll hb =>
    obtain ⟨a, j, ha, -⟩ := started hpoll
    rw [ha] at hb; cases hb
  | panicLate hpoll hb hw =>
    obtain ⟨a, j, ha, hg, -, hst, hle, hm⟩ := started hpoll
    rw [ha] at hb; cases hb
    simp only at hst
    subst hst
    obtain ⟨r, k₂, hr, -⟩ := LoopState.busy_work w hg hn (by omega) hle
    rw [hr] at hw; cases hw
  | @done r m s started' answer k₁ s' outcome rest k₂ hpoll hb hw =>
    obtain ⟨h1, h2⟩ := pending_poll hpoll
    obtain ⟨a, j, ha, hg, hans, hst, hle, hm⟩ := started hpoll
    rw [ha] at hb; cases hb
    simp only at hst
    subst hst
    obtain ⟨r, k₂, hr, hbusy, hmost'⟩ := LoopState.busy_work w hg hn (by omega) hle
    rw [hr] at hw; cases hw
    exact .inr ⟨_, _, rfl, rfl, hbusy, fun m hm => hp m (h1 m hm), by simp only at *; omega, hans⟩

/-- The life of a driver within its limits. -/
theorem DriverLife.staysBusy {k k' : Nat} {t t' : DriverThread σ L} {log : List (Iteration σ L)} (h : DriverLife e k t log k' t')
    {n : Nat} (hlimit : (n + log.length) * (limit + (n + log.length)) < 2 ^ 63)
    (ht : ∀ l, t = .running l → l.state.Busy e safe peak limit n n ∧ (∀ m ∈ l.receiver.chan.pending, m.Within e safe peak) ∧
      mostOfNodes b l.state.processors + mostOfMessages b l.receiver.chan.pending ≤ limit)
    (hended : ∀ c, t = .ended c → c.abandoned = true) :
    (∀ c, t' = .ended c → c.abandoned = true) ∧
    ∀ x ∈ log, ∀ id d, x.message = some (.getSnapshot id d) → x.answer ≠ none := by
  induction h generalizing n with
  | nil hk => exact ⟨hended, fun _ h => (nomatch h)⟩
  | @iteration k k₁ k₂ k' t t₁ t' i log hk hi _ ih =>
    cases t with
    | ended c => have := (iterate_ended hi).2.1; simp at this
    | running l =>
      obtain ⟨h1, h2, h3⟩ := ht l rfl
      have e1 : n + (i :: log).length = n + 1 + log.length := by simp only [List.length_cons]; omega
      rw [e1] at hlimit
      have hn : (n + 1) * (limit + (n + 1)) < 2 ^ 63 := Nat.lt_of_le_of_lt (Nat.mul_le_mul (by omega) (by omega)) hlimit
      rcases busy_iterate w h1 h2 h3 hn hi with ⟨h, _⟩ | ⟨l', x, rfl, hx, g1, g2, g3, g4⟩
      · cases h
      · cases hx
        obtain ⟨a, c⟩ := ih hlimit (by intro l hl; cases hl; exact ⟨g1, g2, g3⟩) (by intro c hc; cases hc)
        exact ⟨a, fun x hx => by
          rcases List.mem_cons.mp hx with rfl | hx
          · exact g4
          · exact c x hx⟩
  | @over k k₁ k₂ k' t t₁ t' log hk hi _ ih =>
    cases t with
    | ended c =>
      obtain ⟨rfl, -, -⟩ := iterate_ended hi
      exact ih hlimit ht hended
    | running l =>
      have : ∃ c, t₁ = .ended c ∧ c.abandoned = true := by
        cases iterates hi with
        | stop hpoll => exact ⟨_, rfl, poll_stop hpoll⟩
      obtain ⟨c, rfl, hc⟩ := this
      exact ih hlimit (by intro l hl; cases hl) (by intro c hc; cases hc; assumption)
  | others _ ih =>
    refine ih hlimit (by intro l hl; cases hl) ?_
    intro c hc
    cases hc
    exact (congrArg Channel.abandoned (Channel.abandoned_run _ _ (hended _ rfl))).trans (hended _ rfl)

end
end Metrix
