import Verif.Proof.LaterDriver
import Verif.Model.Made
import Verif.Props.C86

/-!
# C87: only the time that passes matters

A program that was started at another time (`Spec.Later`) reports the same outcomes and shows the same snapshots.
-/

namespace Metrix
variable {σ L : Type} [DecidableEq L] [Custom σ L] [CustomProcessor σ] {c : Int} {w : σ → σ}

/-! ## Instruments -/

omit [DecidableEq L] [CustomProcessor σ] in
/-- What any instrument does with a later update is later by the same time. It counts the same changes. -/
theorem C87_update (hc : CustomLater σ L c w) (i : Instrument σ) (u : Update) :
    M.Later c (fun r => (r.1.later c w, r.2)) (i.update L u) ((i.later c w).update L (u.later c)) :=
  i.later_update hc u

omit [DecidableEq L] [CustomProcessor σ] in
/-- The later instrument shows the same. -/
theorem C87_put (hc : CustomLater σ L c w) (i : Instrument σ) (into : Snapshot) (d : Bool) :
    M.Later c (fun r => (r.1.later c w, r.2)) (i.putSnapshot L into d) ((i.later c w).putSnapshot L into d) :=
  i.later_put hc into d

/-! ## Processors and mounts -/

theorem Node.later_results (hc : CustomLater σ L c w) (hp : CustomProcessorLater σ c w) (n : Node σ L) (cs : List NodeCall) :
    M.Later c id (n.results cs) ((n.later c w).results cs) := by
  induction cs generalizing n with
  | nil => exact .pure rfl
  | cons x cs ih =>
    cases x with
    | process max strategy => exact .bind (Node.later_process hc hp max strategy n) fun r => .bind (ih r.1) fun _ => .pure rfl
    | snapshot into d => exact .bind (Node.later_put hc hp d n into) fun r => .bind (ih r.1) fun _ => .pure rfl

/-- Processors, mounts and attached mounts: whatever is done with them, they return the same outcomes and snapshots at any other time.
If they panic, they do so at any other time. -/
theorem C87_results (hc : CustomLater σ L c w) (hp : CustomProcessorLater σ c w) (n : Node σ L) (cs : List NodeCall) (e : Env) (k : Nat) :
    (n.later c w).results cs (e.later c) k = n.results cs e k := by
  rw [(n.later_results hc hp cs).exact e k]
  cases n.results cs e k <;> rfl

/-- The same, wherever the limits of `Instant` are, if neither program panics. -/
theorem C87_results_limits (hc : CustomLater σ L c w) (hp : CustomProcessorLater σ c w) (n : Node σ L) (cs : List NodeCall)
    {e e' : Env} (he : e.Shifted c e') {k : Nat} {r r' : List Reply × Nat} (h : n.results cs e k = some r)
    (h' : (n.later c w).results cs e' k = some r') : r' = r :=
  (n.later_results hc hp cs).agree e e' k r r' he h h'

/-! ## Drivers -/

omit [DecidableEq L] [Custom σ L] [CustomProcessor σ] in
theorem Iteration.later_report (i : Iteration σ L) : (i.later c w).report = i.report := by
  obtain ⟨m, an, o, r⟩ := i
  cases m with
  | none => rfl
  | some m => cases m <;> cases an <;> rfl

theorem DriverThread.later_iterations (hc : CustomLater σ L c w) (hp : CustomProcessorLater σ c w) (t : DriverThread σ L) (n : Nat) (e : Env)
    (k : Nat) : (t.later c w).iterations n (e.later c) k =
      ((t.iterations n e k).1.map (Iteration.later c w), (t.iterations n e k).2.1, (t.iterations n e k).2.2.later c w) := by
  induction n generalizing t k with
  | zero => rfl
  | succ n ih =>
    simp only [DriverThread.iterations, t.later_iterate hc hp e k, ih]
    cases (t.iterate e k).2.1 <;> simp

theorem reports_later (is : List (Iteration σ L)) : (is.map (Iteration.later c w)).map Iteration.report = is.map Iteration.report := by
  rw [List.map_map]
  exact List.map_congr_left fun i _ => i.later_report

/-- The threads of drivers: the same answers, outcomes and pauses in each iteration, and as many clock readings. If one of the
threads ends, so does the other, and each remains later than the other by the same time. -/
theorem C87_driver (hc : CustomLater σ L c w) (hp : CustomProcessorLater σ c w) (t : DriverThread σ L) (n : Nat) (e : Env) (k : Nat) :
    ((t.later c w).iterations n (e.later c) k).1.map Iteration.report = (t.iterations n e k).1.map Iteration.report ∧
    ((t.later c w).iterations n (e.later c) k).2.1 = (t.iterations n e k).2.1 ∧
    ((t.later c w).iterations n (e.later c) k).2.2 = (t.iterations n e k).2.2.later c w := by
  rw [t.later_iterations hc hp n e k]
  exact ⟨reports_later _, rfl, rfl⟩

theorem iterations_ended (n : Nat) (x : Channel (DriverMsg σ L)) (e : Env) (k : Nat) :
    ((DriverThread.ended x : DriverThread σ L).iterations n e k).2.2 = .ended x := by
  induction n generalizing k with
  | zero => rfl
  | succ n ih => exact ih k

/-- The same, wherever the limits of `Instant` are, if both threads are still in their loops. -/
theorem C87_driver_limits (hc : CustomLater σ L c w) (hp : CustomProcessorLater σ c w) (t : DriverThread σ L) (n : Nat) {e e' : Env}
    (he : e.Shifted c e') {k : Nat} {l l' : Loop σ L} (h : (t.iterations n e k).2.2 = .running l)
    (h' : ((t.later c w).iterations n e' k).2.2 = .running l') :
    ((t.later c w).iterations n e' k).1.map Iteration.report = (t.iterations n e k).1.map Iteration.report ∧
    ((t.later c w).iterations n e' k).2.1 = (t.iterations n e k).2.1 := by
  induction n generalizing t k with
  | zero => exact ⟨rfl, rfl⟩
  | succ n ih =>
    simp only [DriverThread.iterations] at h h' ⊢
    obtain ⟨l₁, h1⟩ : ∃ l₁, (t.iterate e k).1 = .running l₁ := by
      cases h1 : (t.iterate e k).1 with
      | ended x => rw [h1, iterations_ended] at h; cases h
      | running l₁ => exact ⟨l₁, rfl⟩
    obtain ⟨l₁', h1'⟩ : ∃ l₁', ((t.later c w).iterate e' k).1 = .running l₁' := by
      cases h1' : ((t.later c w).iterate e' k).1 with
      | ended x => rw [h1', iterations_ended] at h'; cases h'
      | running l₁' => exact ⟨l₁', rfl⟩
    rw [DriverThread.agree_iterate hc hp he h1 h1'] at h' ⊢
    obtain ⟨i1, i2⟩ := ih (t.iterate e k).1 h h'
    refine ⟨?_, i2⟩
    simp only [List.map_append, i1]
    congr 1
    cases (t.iterate e k).2.1 with
    | none => rfl
    | some i => simp [i.later_report]

/-! ## Calls of transmitters -/

omit [DecidableEq L] [Custom σ L] [CustomProcessor σ] in
/-- The same call at another time sends the same messages, with later times. -/
theorem C87_transmit (x : TransmitCall σ L) :
    M.Later c (List.map (Message.later c w)) x.messages (x.later c w).messages := by
  cases x with
  | observedDuration l d t => exact .bind (later_ofDuration c d) fun _ => .pure rfl
  | observedNow l n => exact .bind .now fun _ => .pure rfl
  | observedOneNow l => exact .bind .now fun _ => .pure rfl
  | observedOneValueNow l v => exact .bind .now fun _ => .pure rfl
  | observedOneDurationNow l d => exact .bind .now fun _ => .bind (later_ofDuration c d) fun _ => .pure rfl
  | measureTime l start =>
    refine .bind .now fun now => .ite (by omega) ?_ (.pure rfl)
    rw [sinceNs_later]
    exact .bind (later_ofDuration c _) fun _ => .pure rfl
  | _ => exact .pure rfl

/-- The same call with later times in its arguments. -/
def ObservationCall.later (c : Int) : ObservationCall L → ObservationCall L
  | .observed l n t => .observed l n (t + c)
  | .observedNow l n => .observedNow l n
  | .observedOne l t => .observedOne l (t + c)
  | .observedOneNow l => .observedOneNow l
  | .observedOneValue l v t => .observedOneValue l v (t + c)
  | .observedOneValueNow l v => .observedOneValueNow l v

omit [DecidableEq L] in
theorem C87_observations (x : ObservationCall L) : M.Later c (Observation.later c) x.make (x.later c).make := by
  cases x with
  | observedNow l n => exact .bind .now fun _ => .pure rfl
  | observedOneNow l => exact .bind .now fun _ => .pure rfl
  | observedOneValueNow l v => exact .bind .now fun _ => .pure rfl
  | _ => exact .pure rfl

/-! ## What is created by the program

What is created at a later time is the later version of what is created otherwise. So the later program does not have to be given:
it is the same program, started later. -/

/-- Instruments that remember the time of their creation. All others are the same at any time. -/
theorem C87_new_instruments (c : Int) (name : String) (n : Nat) (g : Gauge) (i : OccurrenceIndicator) (d : Nat) :
    M.Later c (Meter.later c) (Meter.new name) (Meter.new name) ∧
    M.Later c (ValueMeter.later c) (ValueMeter.new name) (ValueMeter.new name) ∧
    M.Later c (Histogram.later c) (Histogram.new name) (Histogram.new name) ∧
    M.Later c (OccurrenceIndicator.later c) (OccurrenceIndicator.new name) (OccurrenceIndicator.new name) ∧
    M.Later c (OccurrenceIndicator.later c) (i.setIfHappenedWithin d) ((i.later c).setIfHappenedWithin d) ∧
    M.Later c (NonOccurrenceIndicator.later c) (NonOccurrenceIndicator.new name) (NonOccurrenceIndicator.new name) ∧
    M.Later c (Gauge.later c) (g.setTracking n) ((g.later c).setTracking n) :=
  ⟨Meter.later_new c name, ValueMeter.later_new c name, Histogram.later_new c name, OccurrenceIndicator.later_new c name,
    i.later_setIfHappenedWithin c d, NonOccurrenceIndicator.later_new c name, g.later_setTracking c n⟩

omit [DecidableEq L] [Custom σ L] [CustomProcessor σ] in
/-- Panels, cockpits, processors and mounts. -/
theorem C87_new_groups (c : Int) (w : σ → σ) (filter : LabelFilter L) (name : String) (named : Option String)
    (r : Receiver (Message σ L)) :
    M.Later c (Panel.later c w) (Panel.new filter) (Panel.new filter) ∧
    M.Later c (Panel.later c w) (Panel.named filter name) (Panel.named filter name) ∧
    M.Later c (Cockpit.later c w) (Cockpit.withoutName : M (Cockpit σ L)) Cockpit.withoutName ∧
    M.Later c (Cockpit.later c w) (Cockpit.new name : M (Cockpit σ L)) (Cockpit.new name) ∧
    M.Later c (Processor.later c w) (Processor.create named r) (Processor.create named (r.map (Message.later c w))) ∧
    M.Later c (MountHead.later c) MountHead.default MountHead.default ∧
    M.Later c (MountHead.later c) (MountHead.new name) (MountHead.new name) := by
  have hp : M.Later c (Panel.later c w) (Panel.new filter : M (Panel σ L)) (Panel.new filter) := .bind .now fun _ => .pure rfl
  have hk : M.Later c (Cockpit.later c w) (Cockpit.withoutName : M (Cockpit σ L)) Cockpit.withoutName := .bind .now fun _ => .pure rfl
  have hm : M.Later c (MountHead.later c) MountHead.default MountHead.default := .bind .now fun _ => .pure rfl
  exact ⟨hp, .bind hp fun p => by cases p; exact .pure rfl, hk, .bind hk fun _ => .pure rfl, .bind .now fun _ => .pure rfl, hm,
    .bind hm fun _ => .pure rfl⟩

omit [DecidableEq L] [Custom σ L] [CustomProcessor σ] in
/-- Drivers: the thread of a driver that was created later, and whose handles are used in the same way, is the later version. -/
theorem C87_new_driver {e : Env} {k : Nat} {name : Option String} {descr : Descr} {strategy : Strategy} {b : Bool}
    {programs : List (SendThread (DriverMsg σ L))} {t : DriverThread σ L} (h : NewDriver e k name descr strategy b programs t) :
    NewDriver (e.later c) k name descr strategy b (programs.map fun p => { todo := p.todo.map (DriverMsg.later c w), drops := p.drops, holds := p.holds })
      (t.later c w) := by
  obtain ⟨k₀, state, ahead, blind, hs, rfl⟩ := h
  refine ⟨k₀, state.later c w, ahead, blind, ?_, rfl⟩
  rw [(LoopState.later_new name descr strategy b).exact e k₀, hs]
  rfl

/-! ## Modifiers of updates -/

omit [DecidableEq L] [Custom σ L] [CustomProcessor σ] in
/-- A modifier that does not look at times is the same in the later program. -/
theorem C87_modifier {f : L → Update → Update} (h : ∀ l u c, f l (u.later c) = (f l u).later c) (c : Int) :
    UpdateModifier.later c (some f) = some f := by
  refine congrArg some ?_
  funext l u
  show (f l (u.later (-c))).later c = f l u
  rw [← h]
  congr 1
  cases u <;> simp [Update.later]

/-! ## Examples

The driver of C65, started about 32 years later: it still answers with the 9 occurrences. -/

example (c : Int) : CustomLater Empty Nat c id := ⟨(fun s => nomatch s), (fun s => nomatch s), (fun s => nomatch s)⟩

example (c : Int) : CustomProcessorLater Empty c id := ⟨(fun s => nomatch s), (fun s => nomatch s)⟩

example : (answersIn ((deliveryDriver.later (10 ^ 18) id).iterations 6 (ticking.later (10 ^ 18)) 2).1).map
    (fun a => (a.1, uintAt ["d", "m"] "c" a.2)) = [(1, some 9)] := by decide +kernel

/-- The limits of `Instant` may be the same for both. -/
example : ticking.Shifted (10 ^ 18) { ticking with clock := fun k => k * 700000000 + 10 ^ 18 } := rfl

example : (match (deliveryDriver.iterations 6 ticking 2).2.2 with | .running _ => true | .ended _ => false) = true ∧
    (match ((deliveryDriver.later (10 ^ 18) id).iterations 6 { ticking with clock := fun k => k * 700000000 + 10 ^ 18 } 2).2.2 with
      | .running _ => true | .ended _ => false) = true := by decide +kernel

/-- Observations that are too old are dropped. It is their age that matters. -/
example : countOf ((labelled (.two 1 2) 1 2 3).results [.process 3 .default, .snapshot [] false] ticking 0) = some 2 ∧
    countOf (((labelled (.two 1 2) 1 2 3).later (10 ^ 18) id).results [.process 3 .default, .snapshot [] false]
      (ticking.later (10 ^ 18)) 0) = some 2 := by decide +kernel

/-- If the clock is later, but not the times of the observations, then they are dropped. -/
example : countOf ((labelled (.two 1 2) 1 2 3).results [.process 3 .default, .snapshot [] false] (ticking.later (10 ^ 18)) 0) = some 0 := by
  decide +kernel

/-- A user defined instrument that does look at times: it shows how many nanoseconds ago the newest observation was made. -/
structure Newest where
  moment : Int

def Update.moment : Update → Int
  | .observations _ t => t
  | .observation t => t
  | .withValue _ t => t

instance : Custom Newest Nat where
  update s u := return ({ moment := max s.moment u.moment }, 1)
  handle s o := return ({ moment := max s.moment o.timestamp }, 1)
  putSnapshot s into _ := do return (s, into.push "ns_ago" (.uint (sinceNs (← M.now) s.moment)))

example (c : Int) : CustomLater Newest Nat c (fun s => { moment := s.moment + c }) where
  update s u := .pure (by cases u <;> simp only [laterFst, Update.later, Update.moment, Prod.mk.injEq, Newest.mk.injEq, and_true] <;> omega)
  handle s o := .pure (by
    cases o <;> simp only [laterFst, Observation.later, Observation.timestamp, Prod.mk.injEq, Newest.mk.injEq, and_true] <;> omega)
  put s into d := .bind .now fun now => .pure (by simp only [laterFst, sinceNs_later])

/-- One that shows the clock itself is ruled out. -/
structure Absolute where
  moment : Int

instance : Custom Absolute Nat where
  update s _ := return (s, 1)
  handle s _ := return (s, 1)
  putSnapshot s into _ := do return (s, into.push "now" (.int (← M.now)))

example (w : Absolute → Absolute) : ¬ CustomLater Absolute Nat 5 w := by
  intro h
  have := (h.put ⟨0⟩ [] false).exact ticking 0
  simp [Custom.putSnapshot, M.run_bind, M.now, ticking, Env.later, laterFst, Snapshot.push, pure, M.pure] at this

/-- A modifier that does not look at times. -/
example (c : Int) : UpdateModifier.later c (some fun (_ : Nat) u => u) = some fun _ u => u := C87_modifier (fun _ _ _ => rfl) c

end Metrix
