import Verif.Proof.UndisturbedRun
import Verif.Props.C48
import Verif.Props.C50

/-!
# C47 Taking a snapshot does not change what is measured

`Timed e c log c'` says that the updates and snapshots of `log` were made at the moments recorded there, with the results
recorded there. If some of the snapshots are left out, then the same can be done with the remaining updates and
snapshots, at the same moments, and all the results are the same.

An operation happens at one moment: "at the same times" has no meaning for single readings of the clock, because how many
of them an update makes depends on when the meter was ticked. User defined components must have the property
themselves (`CustomStill`). Rings of buckets must point to one of their buckets, which is how they are made
(`SecondsBuckets.new`).
-/

namespace Metrix
variable {σ L : Type} [Custom σ L]

/-- Every instrument. -/
theorem C47_instrument (hc : CustomStill σ L) {e : Env} (mono : e.Mono) {i i' : BoxedInstrument σ L}
    (hr : RingsOk [i.instrument]) {log fewer : List (Nat × Op Update × Out)} (h : Timed e i log i') (ho : InOrder log)
    (hw : WithoutSnapshots fewer log) : ∃ i'', Timed e i fewer i'' :=
  h.without mono (fun t a b => a.instrument.Alike e.rnd t b.instrument) (fun ht h => h.mono ht)
    (fun u h => takes_wrap (w := BoxedInstrument.mk) (h.update (hc.at e _) (e.at_frozen _) u) fun _ _ h => h)
    (fun into d h => puts_wrap (w := BoxedInstrument.mk) (h.put (hc.at e _) (e.at_frozen _) into d) fun _ _ h => h)
    ho hw fun _ _ => .refl hr

variable [DecidableEq L]

/-- Handlers: instruments with label filters, or whole panels or cockpits. -/
theorem C47_handler (hc : CustomStill σ L) {e : Env} (mono : e.Mono) {h h' : Handler σ L} (hr : RingsOk h.instruments)
    {log fewer : List (Nat × Op (Observation L) × Out)} (ht : Timed e h log h') (ho : InOrder log)
    (hw : WithoutSnapshots fewer log) : ∃ h'', Timed e h fewer h'' :=
  ht.without mono (Handler.Alike e.rnd) (fun ht h => h.mono ht) (fun o h => h.handle (hc.at e _) (e.at_frozen _) o)
    (fun into d h => h.put (hc.at e _) (e.at_frozen _) d into) ho hw fun _ _ => Handler.alike_refl _ _ hr

theorem C47_panel (hc : CustomStill σ L) {e : Env} (mono : e.Mono) {p p' : Panel σ L} (hr : RingsOk p.instruments)
    {log fewer : List (Nat × Op (Observation L) × Out)} (h : Timed e p log p') (ho : InOrder log)
    (hw : WithoutSnapshots fewer log) : ∃ p'', Timed e p fewer p'' :=
  h.without mono (Panel.Alike e.rnd) (fun ht h => h.mono ht) (fun o h => h.handle (hc.at e _) (e.at_frozen _) o)
    (fun into d h => h.put (hc.at e _) (e.at_frozen _) d into) ho hw fun _ _ => Panel.alike_refl _ _ hr

theorem C47_cockpit (hc : CustomStill σ L) {e : Env} (mono : e.Mono) {c c' : Cockpit σ L} (hr : RingsOk c.instruments)
    {log fewer : List (Nat × Op (Observation L) × Out)} (h : Timed e c log c') (ho : InOrder log)
    (hw : WithoutSnapshots fewer log) : ∃ c'', Timed e c fewer c'' :=
  h.without mono (Cockpit.Alike e.rnd) (fun ht h => h.mono ht) (fun o h => h.handle (hc.at e _) (e.at_frozen _) o)
    (fun into d h => h.put (hc.at e _) (e.at_frozen _) into d) ho hw fun _ _ => Cockpit.alike_refl _ _ hr

/-- Processors: leave out snapshots, and all runs still have the same outcome and all other snapshots are the same. The
messages are the same ones at the same times. The setters of the processor may be called in between. -/
theorem C47_processor (hc : CustomStill σ L) {e : Env} (mono : e.Mono) {p p' : Processor σ L} (hr : RingsOk p.instruments)
    {log fewer : List (Nat × Call σ L × Reply)} (h : AtMoments Processor.call e p log p')
    (hl : ∀ c ∈ log, RingsOk c.2.1.instruments) (ho : MomentsInOrder log) (hw : Without Call.IsSnapshot fewer log) :
    ∃ p'', AtMoments Processor.call e p fewer p'' := by
  refine AtMoments.without (call := Processor.call) mono (fun c => RingsOk c.instruments) (fun t => Processor.Alike e.rnd t) (fun ht h => h.mono ht)
    (fun o hq h => h.call (hc.at e _) (e.at_frozen _) hq) ?_ h hl ho hw
    fun _ _ => Processor.alike_refl hr
  rintro m x x' _ ⟨into, d, rfl⟩ ha k r hx
  obtain ⟨a, k', h1, h2⟩ := M.bind_eq_some.1 hx
  have := PutsSame.left (ha.put (hc.at e m) (e.at_frozen m) into d) h1
  cases h2
  exact this

/-- Mounts, and everything else that is driven, if there is no driver mounted in it. -/
theorem C47_mount [CustomProcessor σ] (hc : CustomStill σ L) (hp : CustomProcessorStill σ) {e : Env} (mono : e.Mono)
    {n n' : Node σ L} (hr : RingsOk n.instruments) (hd : n.NoDriver) {log fewer : List (Nat × NodeCall × Reply)}
    (h : AtMoments Node.call e n log n') (ho : MomentsInOrder log) (hw : Without NodeCall.IsSnapshot fewer log) :
    ∃ n'', AtMoments Node.call e n fewer n'' := by
  refine AtMoments.without (call := Node.call) mono (fun _ => True) (fun t => Node.Alike e.rnd t) (fun ht h => h.mono ht)
    (fun o _ h => h.call (hc.at e _) (hp.at e _) (e.at_frozen _) o) ?_ h (fun _ _ => trivial) ho hw
    fun _ _ => Node.alike_refl _ _ hr hd
  rintro m x x' _ ⟨into, d, rfl⟩ ha k r hx
  obtain ⟨a, k', h1, h2⟩ := M.bind_eq_some.1 hx
  have := PutsSame.left (Node.Alike.put (hc.at e m) (hp.at e m) (e.at_frozen m) d x ha into) h1
  cases h2
  exact this

omit [DecidableEq L] [Custom σ L] in
/-- The rings of new gauges are fine. -/
theorem C47_new_ring {n : Nat} {e : Env} {k k' : Nat} {r : SecondsBuckets Bucket}
    (h : SecondsBuckets.new n e k = some (r, k')) : r.currentIdx < r.buckets.length := by
  rcases Nat.eq_zero_or_pos n with rfl | hn
  · cases h
  · obtain ⟨b, h1, r'⟩ := Rep.new (T := Bucket) hn e k
    rw [h1] at h
    simp only [Option.some.injEq, Prod.mk.injEq] at h
    obtain ⟨rfl, rfl⟩ := h
    rw [r'.length]; exact r'.idx

/-! ## Example: a gauge that tracks 3 seconds, 0.7 seconds between two moments -/

theorem emptyStill : CustomStill Empty Nat where
  update _ _ s := s.elim
  handle _ _ s := s.elim
  putSnapshot _ _ s := s.elim
  unchanged _ _ s := s.elim

def undisturbedGauge : BoxedInstrument Empty Nat :=
  ⟨.gauge { name := "g", tracking := some ⟨List.replicate 3 default, 0, 2⟩ }⟩

example : RingsOk [undisturbedGauge.instrument] := by
  intro g r hg hr
  simp only [undisturbedGauge, List.mem_singleton, Instrument.gauge.injEq] at hg
  subst hg
  simp only [Option.some.injEq] at hr
  subst hr
  decide

/-- Set to 5, take a snapshot that ticks the ring by two seconds, set to 7 (which ticks it by one more second instead of
clearing all of it at once), take a snapshot. -/
example : ∃ i' log, Timed ticking undisturbedGauge log i' ∧ InOrder log ∧
    log.map (·.1) = [1, 3, 5, 5] ∧ ∃ fewer, WithoutSnapshots fewer log ∧ fewer.map (·.1) = [1, 5, 5] := by
  refine ⟨_, _, .cons (m := 1) (op := .input (.withValue (.signedInteger 5) 0)) rfl
    (.cons (m := 3) (op := .snapshot [] false) rfl (.cons (m := 5) (op := .input (.withValue (.signedInteger 7) 0)) rfl
      (.cons (m := 5) (op := .snapshot [] false) rfl (.nil _)))), ?_, rfl, _,
    .keep _ (.leaveOut _ _ _ _ (.keep _ (.keep _ .nil))), rfl⟩
  simp [InOrder]

/-! ## Example: a mount with several processors -/

theorem emptyProcessorStill : CustomProcessorStill Empty where
  process _ _ s := s.elim
  putSnapshot _ _ s := s.elim
  unchanged _ _ s := s.elim

/-- The calls, made one after the other. -/
def callsAt {X O R : Type} (call : X → O → M (X × R)) (e : Env) : X → List (Nat × O) → Option (X × List (Nat × O × R))
  | x, [] => some (x, [])
  | x, (m, o) :: os => do
    let ((x, r), _) ← call x o (e.at m) 0
    let (x, log) ← callsAt call e x os
    some (x, (m, o, r) :: log)

omit [Custom σ L] [DecidableEq L] in
theorem callsAt_spec {X O R : Type} {call : X → O → M (X × R)} {e : Env} {x : X} {os : List (Nat × O)}
    (h : (callsAt call e x os).isSome) : ∃ x' log, AtMoments call e x log x' ∧ log.map (fun c => (c.1, c.2.1)) = os := by
  induction os generalizing x with
  | nil => exact ⟨x, [], .nil _, rfl⟩
  | cons o os ih =>
    obtain ⟨m, o⟩ := o
    unfold callsAt at h
    cases h1 : call x o (e.at m) 0 with
    | none => simp [h1] at h
    | some r =>
      obtain ⟨⟨x₁, r⟩, k⟩ := r
      cases h2 : callsAt call e x₁ os with
      | none => simp [h1, h2] at h
      | some a =>
        obtain ⟨x', log, h3, h4⟩ := ih (x := x₁) (by rw [h2]; rfl)
        exact ⟨x', _, .cons h1 h3, by rw [List.map_cons, h4]⟩

/-- A gauge that tracks three seconds, in a processor with two observations on their way, in a mount. -/
def watchedMount : Node Empty Nat :=
  .mount { name := some "m", lastActivity := 0 }
    [.processor { state := { activity := ⟨0, none, true⟩,
                             handlers := [.gauge (.deltasOnly .acceptAll
                               { name := "g", value := some 0, tracking := some ⟨List.replicate 3 default, 0, 2⟩ })] }
                  receiver := { chan := .fresh (some 10) true [{ todo := [.observation (.observedOneValue 1 (.changedBy 5) 1), .observation (.observedOneValue 1 (.changedBy (-2)) 2)] }],
                                ahead := [[0, 0], [], [0], [0], [0]] } }] []

example : watchedMount.NoDriver := ⟨trivial, trivial⟩

example : RingsOk watchedMount.instruments := by
  intro g r hg hr
  have : watchedMount.instruments = [.gauge { name := "g", value := some 0, tracking := some ⟨List.replicate 3 default, 0, 2⟩ }] := rfl
  rw [this, List.mem_singleton, Instrument.gauge.injEq] at hg
  subst hg
  cases hr
  decide

/-- A snapshot between two runs, and one after them. -/
example : ∃ n' log, AtMoments Node.call ticking watchedMount log n' ∧ log.map (fun c => (c.1, c.2.1)) =
    [(1, .process 1 .processAll), (3, .snapshot [] false), (5, .process 3 .processAll), (5, .snapshot [] false)] :=
  callsAt_spec (by decide +kernel)

example := C47_new_ring (n := 3) (e := ticking) (k := 1) rfl

end Metrix
