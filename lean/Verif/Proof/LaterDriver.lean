import Verif.Proof.LaterTree

/-! # Everything happens alike at another time: drivers -/

namespace Metrix
variable {σ L : Type} {c : Int} {w : σ → σ}

/-! ## The driver's own instruments -/

theorem later_asSecsF64 (c : Int) (d : Nat) : M.Later c id (asSecsF64 d) (asSecsF64 d) :=
  .bindEnv fun _ _ he => .pure (by rw [he]; rfl)

namespace DriverInstruments
variable (i : DriverInstruments)

theorem later_new : M.Later c (DriverInstruments.later c) DriverInstruments.new DriverInstruments.new := by
  unfold new
  refine .bind (Meter.later_new c _) fun _ => .bind (Histogram.later_new c _) fun _ => .bind (Meter.later_new c _) fun _ =>
    .bind (Histogram.later_new c _) fun _ => .bind (Meter.later_new c _) fun _ => .bind (Histogram.later_new c _) fun _ => ?_
  refine .bind (Gauge.later_setTracking c { name := "observations_enqueued" } 60) fun _ => .bind (Meter.later_new c _) fun _ =>
    .bind (Meter.later_new c _) fun _ => .bind (Histogram.later_new c _) fun _ => .bind (NonOccurrenceIndicator.later_new c _) fun _ =>
    .bind (Histogram.later_new c _) fun _ => ?_
  exact .bind (Gauge.later_setTracking c { name := "iteration_update_ratio_per_mille" } 60) fun _ => .pure rfl

theorem later_notePass (now started : Int) :
    M.Later c (DriverInstruments.later c) (i.notePass now started) ((i.later c).notePass (now + c) (started + c)) := by
  unfold notePass
  rw [sinceNs_later]
  exact .bind (i.collectionsPerSecond.later_update c (.observation now)) fun _ => .bind (later_ofDuration c _) fun t =>
    .bind (i.collectionTimes.later_update c (.withValue t now)) fun _ => .pure rfl

theorem later_noteProcessed (now : Int) (n : Nat) :
    M.Later c (DriverInstruments.later c) (i.noteProcessed now n) ((i.later c).noteProcessed (now + c) n) := by
  unfold noteProcessed
  exact .iteSame (.bind (i.processedPerSecond.later_update c (.observations n now)) fun _ =>
    .bind (i.processedPerCollection.later_update c (.withValue (.unsignedInteger n) now)) fun _ => .pure rfl) (.pure rfl)

theorem later_noteEnqueued (now : Int) (n : Nat) :
    M.Later c (DriverInstruments.later c) (i.noteEnqueued now n) ((i.later c).noteEnqueued (now + c) n) := by
  unfold noteEnqueued
  exact .bind (i.enqueued.later_update c (.withValue (.unsignedInteger n) now)) fun _ => .pure rfl

theorem later_noteDropped (now : Int) (n : Nat) :
    M.Later c (DriverInstruments.later c) (i.noteDropped now n) ((i.later c).noteDropped (now + c) n) := by
  unfold noteDropped
  exact .iteSame (.bind (i.droppedPerSecond.later_update c (.observations n now)) fun _ =>
    .bind (i.droppedPerCollection.later_update c (.withValue (.unsignedInteger n) now)) fun _ =>
    .bind (i.droppedAlarm.later_update c (.observation now)) fun _ => .pure rfl) (.pure rfl)

theorem later_noteUpdated (now : Int) (n : Nat) :
    M.Later c (DriverInstruments.later c) (i.noteUpdated now n) ((i.later c).noteUpdated (now + c) n) := by
  unfold noteUpdated
  exact .iteSame (.bind (i.updatedPerSecond.later_update c (.observations n now)) fun _ => .pure rfl) (.pure rfl)

theorem later_noteActivity (now : Int) :
    M.Later c (DriverInstruments.later c) (i.noteActivity now) ((i.later c).noteActivity (now + c)) := by
  unfold noteActivity
  exact .bind (i.inactivityAlarm.later_update c (.observation now)) fun _ => .pure rfl

theorem later_updatePostCollection (o : Outcome) (started : Int) :
    M.Later c (DriverInstruments.later c) (i.updatePostCollection o started) ((i.later c).updatePostCollection o (started + c)) := by
  unfold updatePostCollection
  exact .bind .now fun now => .bind (i.later_notePass now started) fun i => .bind (i.later_noteProcessed now _) fun i =>
    .bind (i.later_noteEnqueued now _) fun i => .bind (i.later_noteDropped now _) fun i => .bind (i.later_noteUpdated now _) fun i =>
    i.later_noteActivity now

theorem later_updatePostSnapshot (started : Int) :
    M.Later c (DriverInstruments.later c) (i.updatePostSnapshot started) ((i.later c).updatePostSnapshot (started + c)) := by
  unfold updatePostSnapshot
  refine .bind .now fun now => ?_
  rw [sinceNs_later]
  exact .bind (i.snapshotsPerSecond.later_update c (.observation now)) fun _ => .bind (later_ofDuration c _) fun t =>
    .bind (i.snapshotTimes.later_update c (.withValue t now)) fun _ => .pure rfl

theorem later_updateRunRatio (ratio : Rat) :
    M.Later c (DriverInstruments.later c) (i.updateRunRatio ratio) ((i.later c).updateRunRatio ratio) := by
  unfold updateRunRatio
  refine .bindEnv fun e e' he => ?_
  rw [show e'.rnd = e.rnd by rw [he]; rfl]
  exact .bind .now fun now =>
    .bind (i.ratioHisto.later_update c (.withValue (.unsignedInteger (truncToU64 (e.rnd (ratio * 1000)))) now)) fun _ =>
    .bind (i.ratio.later_update c (.withValue (.unsignedInteger (truncToU64 (e.rnd (ratio * 1000)))) now)) fun _ => .pure rfl

theorem later_put (into : Snapshot) (d : Bool) :
    M.Later c (laterFst (DriverInstruments.later c)) (i.putSnapshot into d) ((i.later c).putSnapshot into d) := by
  unfold putSnapshot
  refine .bind (i.collectionsPerSecond.later_put c [] d) fun r => .bind (i.collectionTimes.later_put c _ d) fun s => ?_
  refine .bind (i.processedPerSecond.later_put c _ d) fun r => .bind (i.processedPerCollection.later_put c _ d) fun s => ?_
  refine .bind (i.droppedPerSecond.later_put c _ d) fun r => .bind (i.droppedPerCollection.later_put c _ d) fun s => ?_
  refine .bind (i.enqueued.later_put c _ d) fun r => .bind (i.updatedPerSecond.later_put c _ d) fun r => ?_
  refine .bind (i.snapshotsPerSecond.later_put c _ d) fun r => .bind (i.snapshotTimes.later_put c _ d) fun s => ?_
  refine .bind (i.droppedAlarm.later_put c _ d) fun s => .bind (i.inactivityAlarm.later_put c _ d) fun s => ?_
  exact .bind (i.ratio.later_put c _ d) fun r => .bind (i.ratioHisto.later_put c _ d) fun s => .pure rfl

end DriverInstruments

/-! ## The loop -/

theorem LoopState.later_new (name : Option String) (descr : Descr) (strategy : Strategy) (b : Bool) :
    M.Later c (LoopState.later c w) (LoopState.new name descr strategy b : M (LoopState σ L)) (LoopState.new name descr strategy b) := by
  unfold LoopState.new
  cases b with
  | false =>
    exact .bind (S := Option.map (DriverInstruments.later c)) (.pure rfl) fun m =>
      .bind .now fun now => .bind (.subDur now _) fun _ => .pure rfl
  | true =>
    have h : M.Later c (Option.map (DriverInstruments.later c)) (some <$> DriverInstruments.new) (some <$> DriverInstruments.new) :=
      .bind (f := fun i => pure (some i)) (g := fun i => pure (some i)) DriverInstruments.later_new fun _ => .pure rfl
    exact .bind h fun m => .bind .now fun now => .bind (.subDur now _) fun _ => .pure rfl

variable [DecidableEq L] [Custom σ L] [CustomProcessor σ]

theorem later_nodes_process (hc : CustomLater σ L c w) (hp : CustomProcessorLater σ c w) (max : Nat) (s : Strategy) (ns : List (Node σ L)) :
    M.Later c (laterFst (List.map (Node.later c w))) (processNodes max s ns) (processNodes max s (ns.map (·.later c w))) := by
  have h := later_processNodes hc hp max s ns
  rwa [laterNodes_eq, show laterNodes c w = List.map (Node.later (L := L) c w) from funext laterNodes_eq] at h

omit [DecidableEq L] in
theorem later_nodes_put (hc : CustomLater σ L c w) (hp : CustomProcessorLater σ c w) (d : Bool) (ns : List (Node σ L)) (into : Snapshot) :
    M.Later c (laterFst (List.map (Node.later c w))) (putNodes d ns into) (putNodes d (ns.map (·.later c w)) into) := by
  have h := later_putNodes hc hp d ns into
  rwa [laterNodes_eq, show laterNodes c w = List.map (Node.later (L := L) c w) from funext laterNodes_eq] at h

omit [DecidableEq L] in
theorem LoopState.later_addSnapshotValues (hc : CustomLater σ L c w) (hp : CustomProcessorLater σ c w) (l : LoopState σ L)
    (into : Snapshot) (d : Bool) (started : Int) :
    M.Later c (laterFst (LoopState.later c w)) (l.addSnapshotValues into d started)
      ((l.later c w).addSnapshotValues into d (started + c)) := by
  unfold LoopState.addSnapshotValues
  refine .bind (later_nodes_put hc hp d _ _) fun r₁ => .bind (later_snapshooters_put hc d _ _) fun r₂ => ?_
  rw [show (l.later c w).metrics = l.metrics.map (·.later c) from rfl]
  cases l.metrics with
  | none => exact .pure rfl
  | some i => exact .bind (i.later_updatePostSnapshot started) fun i => .bind (i.later_put _ d) fun _ => .pure rfl

omit [DecidableEq L] in
theorem LoopState.later_makeSnapshot (hc : CustomLater σ L c w) (hp : CustomProcessorLater σ c w) (l : LoopState σ L) (d : Bool) :
    M.Later c (laterFst (LoopState.later c w)) (l.makeSnapshot d) ((l.later c w).makeSnapshot d) := by
  unfold LoopState.makeSnapshot
  refine .bind .now fun started => ?_
  rw [show (l.later c w).name = l.name from rfl]
  cases l.name with
  | none => exact l.later_addSnapshotValues hc hp [] d started
  | some n => exact .bind (l.later_addSnapshotValues hc hp [] d started) fun _ => .pure rfl

omit [DecidableEq L] in
theorem LoopState.later_handle (hc : CustomLater σ L c w) (hp : CustomProcessorLater σ c w) (l : LoopState σ L) (m : DriverMsg σ L) :
    M.Later c (laterFst (LoopState.later c w)) (l.handle m) ((l.later c w).handle (m.later c w)) := by
  cases m with
  | addProcessor n => exact .pure (by simp only [laterFst, LoopState.later, List.map_append, List.map_cons, List.map_nil])
  | addSnapshooter s => exact .pure (by simp only [laterFst, LoopState.later, List.map_append, List.map_cons, List.map_nil])
  | getSnapshot id d => exact .bind (l.later_makeSnapshot hc hp d) fun _ => .pure rfl
  | setStrategy s => exact .pure rfl
  | pause => exact .pure rfl
  | resume => exact .pure rfl

/-- What `begin` returns: the time the iteration started is later, too. -/
def laterBegun (c : Int) (w : σ → σ) (r : LoopState σ L × Int × Option Snapshot) : LoopState σ L × Int × Option Snapshot :=
  (r.1.later c w, r.2.1 + c, r.2.2)

omit [DecidableEq L] in
theorem LoopState.later_begin (hc : CustomLater σ L c w) (hp : CustomProcessorLater σ c w) (l : LoopState σ L)
    (m : Option (DriverMsg σ L)) :
    M.Later c (laterBegun c w) (l.begin m) ((l.later c w).begin (m.map (DriverMsg.later c w))) := by
  unfold LoopState.begin
  refine .bind .now fun started => ?_
  cases m with
  | none => exact .pure rfl
  | some m => exact .bind (l.later_handle hc hp m) fun _ => .pure rfl

omit [DecidableEq L] [Custom σ L] [CustomProcessor σ] in
theorem LoopState.later_logDropped (l : LoopState σ L) (n : Nat) :
    M.Later c (LoopState.later c w) (l.logDropped n) ((l.later c w).logDropped n) := by
  unfold LoopState.logDropped
  refine .iteSame (.bind .now fun now => ?_) (.pure rfl)
  simp only [LoopState.later, sinceNs_later]
  exact .iteSame (.bind .readings fun readings => .bind .now fun now => .pure rfl) (.pure rfl)

omit [DecidableEq L] [Custom σ L] [CustomProcessor σ] in
theorem LoopState.later_noteRun (l : LoopState σ L) (o : Outcome) (started : Int) :
    M.Later c (LoopState.later c w) (l.noteRun o started) ((l.later c w).noteRun o (started + c)) := by
  unfold LoopState.noteRun
  rw [show (l.later c w).metrics = l.metrics.map (·.later c) from rfl]
  cases hm : l.metrics with
  | none => exact .pure rfl
  | some i => exact .bind (i.later_updatePostCollection o started) fun _ => .pure rfl

omit [DecidableEq L] [Custom σ L] [CustomProcessor σ] in
theorem LoopState.later_reportElapsed (l : LoopState σ L) (started : Int) (t : Nat) :
    M.Later c (LoopState.later c w) (l.reportElapsed started t) ((l.later c w).reportElapsed (started + c) t) := by
  unfold LoopState.reportElapsed
  rw [show (l.later c w).metrics = l.metrics.map (·.later c) from rfl]
  cases hm : l.metrics with
  | none => exact .pure rfl
  | some i =>
    refine .bind .now fun now => ?_
    rw [sinceNs_later]
    exact .bind (later_asSecsF64 c _) fun _ => .bind (later_asSecsF64 c _) fun _ =>
      .iteSame (.bindEnv fun e e' he => by
        rw [show e'.rnd = e.rnd by rw [he]; rfl]
        exact .bind (i.later_updateRunRatio _) fun _ => .pure rfl) (.pure rfl)

theorem LoopState.later_work (hc : CustomLater σ L c w) (hp : CustomProcessorLater σ c w) (l : LoopState σ L) (started : Int) :
    M.Later c (laterFst (LoopState.later c w)) (l.work started) ((l.later c w).work (started + c)) := by
  unfold LoopState.work
  refine .iteSame (.bind .readings fun r => .pure rfl) (.bind .now fun runStarted => ?_)
  refine .bind (later_nodes_process hc hp 1000 l.strategy _) fun r => .bind .now fun now => ?_
  simp only [sinceNs_later]
  refine .bind (LoopState.later_logDropped { l with processors := r.1 } r.2.dropped) fun l =>
    .bind (l.later_noteRun r.2 runStarted) fun l => .iteSame (.pure rfl) (.bind .now fun finished => .bind .readings fun k => ?_)
  rw [sinceNs_later]
  exact .bind (l.later_reportElapsed started _) fun _ => .pure rfl

omit [DecidableEq L] [Custom σ L] [CustomProcessor σ] in
theorem later_pollDriver (blind : Bool) (r : Receiver (DriverMsg σ L)) :
    pollDriver blind (r.map (DriverMsg.later c w)) =
      ((pollDriver blind r).1.map (DriverMsg.later c w), match (pollDriver blind r).2 with
        | .stop => .stop
        | .go m => .go (m.map (DriverMsg.later c w))) := by
  unfold pollDriver
  rw [Receiver.map_wait]
  have ha : (r.wait.map (DriverMsg.later c w)).chan.abandoned = r.wait.chan.abandoned := Channel.map_abandoned _ _
  simp only [ha]
  split
  · rfl
  · rw [Receiver.map_tryRecv]
    generalize r.wait.tryRecv = x
    obtain ⟨r, x⟩ := x
    cases x <;> rfl

theorem DriverThread.later_iterate (hc : CustomLater σ L c w) (hp : CustomProcessorLater σ c w) (t : DriverThread σ L) (e : Env) (k : Nat) :
    (t.later c w).iterate (e.later c) k =
      ((t.iterate e k).1.later c w, (t.iterate e k).2.1.map (Iteration.later c w), (t.iterate e k).2.2) := by
  cases t with
  | ended x => rfl
  | running l =>
    simp only [DriverThread.later, DriverThread.iterate, later_pollDriver]
    generalize pollDriver (l.blind.headD false) l.receiver = x
    obtain ⟨r, x⟩ := x
    cases x with
    | stop => rfl
    | go m =>
      simp only
      have hb := (l.state.later_begin hc hp m).exact e k
      rw [hb]
      cases l.state.begin m e k with
      | none => rfl
      | some x =>
        obtain ⟨⟨s, started, answer⟩, k₁⟩ := x
        simp only [Option.map_some, laterBegun]
        have hw := (s.later_work hc hp started).exact e k₁
        rw [hw]
        cases s.work started e k₁ with
        | none => rfl
        | some x => rfl

/-- Wherever the limits of `Instant` are, as long as both threads stay in their loops. -/
theorem DriverThread.agree_iterate (hc : CustomLater σ L c w) (hp : CustomProcessorLater σ c w) {t : DriverThread σ L} {e e' : Env}
    (he : e.Shifted c e') {k : Nat} {l l' : Loop σ L} (h : (t.iterate e k).1 = .running l)
    (h' : ((t.later c w).iterate e' k).1 = .running l') :
    (t.later c w).iterate e' k =
      ((t.iterate e k).1.later c w, (t.iterate e k).2.1.map (Iteration.later c w), (t.iterate e k).2.2) := by
  cases t with
  | ended x => cases h
  | running l₀ =>
    simp only [DriverThread.later, DriverThread.iterate, later_pollDriver] at h h' ⊢
    generalize pollDriver (l₀.blind.headD false) l₀.receiver = x at h h' ⊢
    obtain ⟨r, x⟩ := x
    cases x with
    | stop => rfl
    | go m =>
      simp only at h h' ⊢
      have hb := (l₀.state.later_begin hc hp m).agree e e' k
      cases h1 : l₀.state.begin m e k with
      | none => rw [h1] at h; cases h
      | some x =>
        cases h1' : (l₀.state.later c w).begin (m.map (DriverMsg.later c w)) e' k with
        | none => rw [h1'] at h'; cases h'
        | some x' =>
          cases hb x x' he h1 h1'
          obtain ⟨⟨s, started, answer⟩, k₁⟩ := x
          rw [h1] at h
          rw [h1'] at h'
          simp only [laterBegun] at h h' ⊢
          have hw := (s.later_work hc hp started).agree e e' k₁
          cases h2 : s.work started e k₁ with
          | none => rw [h2] at h; cases h
          | some y =>
            cases h2' : (s.later c w).work (started + c) e' k₁ with
            | none => rw [h2'] at h'; cases h'
            | some y' =>
              cases hw y y' he h2 h2'
              rfl

end Metrix
