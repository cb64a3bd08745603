import Verif.Proof.Layout
import Verif.Props.C06
import Verif.Props.C28
import Verif.Props.C32
import Verif.Props.C66

/-!
# C68 Every kind of instrument is complete in the snapshots of the driver

Like C65 and C66, for the other instruments: the counts of meters, value meters and histograms and the value of a gauge. A gauge
that is fed by changes of values is complete under every strategy that keeps changes, as the default one does, however late the
driver processes them.
-/

namespace Metrix
variable {σ L : Type} [DecidableEq L] [Custom σ L] [CustomProcessor σ]

/-! ## Items in groups -/

omit [DecidableEq L] [Custom σ L] [CustomProcessor σ] in
theorem Snapshot.Group.snoc {path : List String} {level sub s : Snapshot} {n : String} (h : Snapshot.Group path level s)
    (hn : (n, ItemKind.snapshot sub) ∈ level) : Snapshot.Group (path ++ [n]) sub s := by
  induction path generalizing s with
  | nil => cases h; exact ⟨sub, hn, rfl⟩
  | cons m path ih =>
    obtain ⟨s', hm, h⟩ := h
    exact ⟨s', hm, ih h⟩

omit [DecidableEq L] [Custom σ L] [CustomProcessor σ] in
theorem Snapshot.ShowsAt.item {s items : Snapshot} {path : List String} {n : String} {x : ItemKind} (h : s.ShowsAt path items)
    (hn : (n, x) ∈ items) : s.HasAt path n x := by
  obtain ⟨level, hg, hi⟩ := h
  exact ⟨level, hg, hi.subset hn⟩

omit [DecidableEq L] [Custom σ L] [CustomProcessor σ] in
theorem Snapshot.ShowsAt.inner {s items sub : Snapshot} {path : List String} {n m : String} {x : ItemKind}
    (h : s.ShowsAt path items) (hn : (n, .snapshot sub) ∈ items) (hm : (m, x) ∈ sub) : s.HasAt (path ++ [n]) m x := by
  obtain ⟨level, hg, hi⟩ := h
  exact ⟨sub, hg.snoc (hi.subset hn), hm⟩

omit [DecidableEq L] [Custom σ L] [CustomProcessor σ] in
/-- What is appended to a snapshot after the texts. -/
theorem appended_of_texts {descr : Descr} {name : String} {into own rest : Snapshot} {d : Bool}
    (h : into ++ own = putPostfixedDescriptives descr name into d ++ rest) : ∃ texts, own = texts ++ rest := by
  obtain ⟨texts, ht⟩ := prefix_postfixed descr name into d
  rw [← ht, List.append_assoc, List.append_cancel_left_eq] at h
  exact ⟨texts, h⟩

/-- Where and how the value of a gauge is shown: under its name, or in a group with its name if it groups its values. -/
def Gauge.ShownAs (g : Gauge) (s : Snapshot) (path : List String) (v : Int) : Prop :=
  if g.groupValues then s.HasAt (path ++ [g.name]) "current" (.int v) else s.HasAt path g.name (.int v)

omit [DecidableEq L] [Custom σ L] [CustomProcessor σ] in
theorem Gauge.putValues_item {g g' : Gauge} {into s : Snapshot} {v : Int} {e : Env} {k k' : Nat} (hv : g.value = some v)
    (h : g.putValues into e k = some ((g', s), k')) :
    ∃ own, s = into ++ own ∧ (if g.groupValues then "current" else g.name, ItemKind.int v) ∈ own := by
  unfold Gauge.putValues at h
  simp only [hv] at h
  cases ht : g.tracking <;> simp only [ht] at h
  · simp only [M.run_pure, Option.some.injEq, Prod.mk.injEq] at h
    obtain ⟨⟨_, rfl⟩, _⟩ := h
    cases g.groupValues <;> exact ⟨_, rfl, by simp⟩
  · simp only [M.bind_eq_some, M.run_pure, Option.some.injEq, Prod.mk.injEq] at h
    obtain ⟨_, _, _, ⟨_, rfl⟩, _⟩ := h
    cases g.groupValues <;> simp [BucketsStats.addToSnapshot, Snapshot.push]

omit [DecidableEq L] [Custom σ L] [CustomProcessor σ] in
theorem Gauge.put_shown {g g' : Gauge} {into own : Snapshot} {v : Int} {d : Bool} {e : Env} {k k' : Nat} (hv : g.value = some v)
    (h : g.putSnapshot into d e k = some ((g', into ++ own), k')) {s : Snapshot} {path : List String} (hs : s.ShowsAt path own) :
    g.ShownAs s path v := by
  obtain ⟨texts, ht⟩ := prefix_postfixed g.descr g.name into d
  unfold Gauge.putSnapshot at h
  unfold Gauge.ShownAs
  cases hg : g.groupValues <;> simp only [hg, Bool.false_eq_true, if_false, if_true] at h ⊢
  · obtain ⟨own', ho, hm⟩ := Gauge.putValues_item hv h
    rw [← ht, List.append_assoc, List.append_cancel_left_eq] at ho
    rw [hg] at hm
    exact hs.item (by rw [ho]; exact List.mem_append_right _ hm)
  · simp only [M.bind_eq_some, M.run_pure, Option.some.injEq, Prod.mk.injEq] at h
    obtain ⟨⟨g₁, level⟩, _, h, ⟨rfl, ho⟩, _⟩ := h
    obtain ⟨own', rfl, hm⟩ := Gauge.putValues_item hv h
    rw [hg] at hm
    have hn := (Gauge.putValues_eq_some h).2.name
    rw [← ht, Snapshot.push, List.append_assoc, List.append_cancel_left_eq] at ho
    refine hs.inner (sub := level) ?_ hm
    rw [← ho, hn]
    simp

/-! ## What is at a place, in the snapshots of the driver -/

variable {e : Env} {k k' : Nat} {name : Option String} {descr : Descr} {strategy : Strategy} {withMetrics : Bool}
  {handles : List (SendThread (DriverMsg σ L))} {t : DriverThread σ L} {before after : List (Iteration σ L)} {i : Iteration σ L}
  {l' : Loop σ L} {n : Node σ L} {route : List Step} {p : Processor σ L} {programs : List (SendThread (Message σ L))}

/-- Everything that was sent was taken from the queue, whatever the strategies. What is at a place afterwards is shown by each
snapshot of the driver. -/
theorem C68_seen (hc : CustomProper σ L) (mono : e.Mono)
    (hnew : NewDriver e k name descr strategy withMetrics handles t)
    (h : DriverLife e k t (before ++ i :: after) k' (.running l')) (hi : i.message = some (.addProcessor n))
    (hn : n.reach route = some (.processor p)) (harrived : waits route < (runsOf (i :: after)).length)
    (hcomp : p.Completes programs ((runsOf (i :: after)).length - waits route)) {place : Place} (hstays : place.Stays programs)
    {groups : List String} (hgroups : p.state.groupsAt place = some groups)
    {d : Bool} {k₂ k₃ : Nat} {l'' : LoopState σ L} {s : Snapshot} (hs : l'.state.makeSnapshot d e k₂ = some ((l'', s), k₃))
    (hvis : l'.state.AllVisible (e.clock k₃)) :
    ∃ k₁ calls p' consumed, k ≤ k₁ ∧ Life e k₁ p calls k' p' ∧
      (∀ c ∈ calls, ∀ max st, c.call = .process max st →
        st ∈ strategiesIn (strategyAfter strategy (handled before)) (i :: after)) ∧
      Story e k₁ p.state calls consumed k' p'.state ∧ (consumed.flatten.map (·.1)).Perm (programs.flatMap (·.todo)) ∧
      ∀ path leaf thing, p'.state.leafAt place = some (path, leaf) → leaf.thing = some thing →
        ∃ j j' items, k₂ ≤ j ∧ j' ≤ k₃ ∧ thing.Put d e j items j' ∧
          s.ShowsAt (name.toList ++ n.mountsVia route ++ groups) items := by
  obtain ⟨k₁, calls, n', p', hk, hl, hr, hn', hway⟩ := C66_life hc.forward hc.processorForward hnew h hi hn
  obtain ⟨way, ha, hg⟩ := hway harrived
  have hlen : ((strategiesIn (strategyAfter strategy (handled before)) (i :: after)).drop (waits route)).length =
      (runsOf (i :: after)).length - waits route := by rw [List.length_drop, strategiesIn_length]
  obtain ⟨consumed, hst, hperm⟩ := story_of_runs hl hr (by rw [hlen]; exact hcomp)
  have hset : ∀ c ∈ calls, ∀ s, c.call ≠ .setName s := by
    intro c hcm s hcall
    obtain ⟨into, d, h⟩ := hr.others c hcm (by rw [hcall]; rfl)
    rw [hcall] at h; cases h
  refine ⟨k₁, calls, p', consumed, hk, hl, ?_, hst, hperm, ?_⟩
  · intro c hcm max st hcall
    have : (max, st) ∈ ((strategiesIn (strategyAfter strategy (handled before)) (i :: after)).drop (waits route)).map
        fun s => (1000, s) := by
      rw [← hr.runs]
      exact List.mem_filterMap.mpr ⟨c, hcm, by rw [hcall]; rfl⟩
    obtain ⟨s, hs, heq⟩ := List.mem_map.mp this
    cases heq
    exact List.mem_of_mem_drop hs
  · intro path leaf thing h2 ht
    obtain ⟨j, j', items, h1, h2, h3, h4⟩ :=
      seen_of_story hc mono hst hset hn' ha (hstays.consumed hperm) hgroups hs hvis h2 ht
    rw [h.keepsName hnew, hg] at h4
    exact ⟨j, j', items, h1, h2, h3, h4⟩

/-- The same if nothing is dropped because of its age: everything that was sent was processed. -/
theorem C68_seen_complete (hc : CustomProper σ L) (mono : e.Mono)
    (hnew : NewDriver e k name descr .processAll withMetrics handles t)
    (h : DriverLife e k t (before ++ i :: after) k' (.running l')) (hi : i.message = some (.addProcessor n))
    (hn : n.reach route = some (.processor p)) (harrived : waits route < (runsOf (i :: after)).length)
    (hstrategy : ∀ s, DriverMsg.setStrategy s ∈ handled (before ++ i :: after) → s = .processAll)
    (hcomp : p.Completes programs ((runsOf (i :: after)).length - waits route)) {place : Place} (hstays : place.Stays programs)
    {groups : List String} (hgroups : p.state.groupsAt place = some groups)
    {d : Bool} {k₂ k₃ : Nat} {l'' : LoopState σ L} {s : Snapshot} (hs : l'.state.makeSnapshot d e k₂ = some ((l'', s), k₃))
    (hvis : l'.state.AllVisible (e.clock k₃)) :
    ∃ k₁ calls p', k ≤ k₁ ∧ CompleteRun e k₁ p calls k' p' programs ∧
      ∀ path leaf thing, p'.state.leafAt place = some (path, leaf) → leaf.thing = some thing →
        ∃ j j' items, k₂ ≤ j ∧ j' ≤ k₃ ∧ thing.Put d e j items j' ∧
          s.ShowsAt (name.toList ++ n.mountsVia route ++ groups) items := by
  obtain ⟨k₁, calls, n', p', way, hk, hrun, hset, hn', ha, hg⟩ :=
    C66_complete hc.forward hc.processorForward hnew h hi hn harrived hstrategy hcomp
  refine ⟨k₁, calls, p', hk, hrun, ?_⟩
  intro path leaf thing h2 ht
  obtain ⟨consumed, hst, hperm⟩ := hrun.story
  obtain ⟨j, j', items, h1, h2, h3, h4⟩ :=
    seen_of_story hc mono hst hset hn' ha (hstays.consumed hperm) hgroups hs hvis h2 ht
  rw [h.keepsName hnew, hg] at h4
  exact ⟨j, j', items, h1, h2, h3, h4⟩

/-- A meter: its count is what it started with plus all occurrences that were sent and meant for it (in 64 bits); observations of
more than `i64::MAX` occurrences are not counted. -/
theorem C68_meter (hc : CustomProper σ L) (mono : e.Mono)
    (hnew : NewDriver e k name descr .processAll withMetrics handles t)
    (h : DriverLife e k t (before ++ i :: after) k' (.running l')) (hi : i.message = some (.addProcessor n))
    (hn : n.reach route = some (.processor p)) (harrived : waits route < (runsOf (i :: after)).length)
    (hstrategy : ∀ s, DriverMsg.setStrategy s ∈ handled (before ++ i :: after) → s = .processAll)
    (hcomp : p.Completes programs ((runsOf (i :: after)).length - waits route))
    {place : Place} {path : List (LabelFilter L)} {f : LabelFilter L} {m : Meter}
    (hplace : p.state.leafAt place = some (path, .instrument ⟨f, .meter m, none⟩)) (hstays : place.Stays programs)
    (hcount : I64 m.inner.count) {groups : List String} (hgroups : p.state.groupsAt place = some groups)
    {d : Bool} {k₂ k₃ : Nat} {l'' : LoopState σ L} {s : Snapshot} (hs : l'.state.makeSnapshot d e k₂ = some ((l'', s), k₃))
    (hvis : l'.state.AllVisible (e.clock k₃)) :
    s.HasAt (name.toList ++ n.mountsVia route ++ groups ++ [m.name]) "count"
      (.uint (wrapU64 (m.inner.count + ((observationsFor path f programs).map fun o =>
        if (o.occurrences : Int) ≤ i64Max then (o.occurrences : Int) else 0).sum))) := by
  obtain ⟨k₁, calls, p', -, hrun, hseen⟩ :=
    C68_seen_complete hc mono hnew h hi hn harrived hstrategy hcomp hstays hgroups hs hvis
  obtain ⟨m', h1, h2⟩ := C60_meter hc.forward hrun hplace hstays hcount
  obtain ⟨m₂, log, h3, h4, -⟩ := instrument_arrival hc.forward hrun .meter (fun _ _ => rfl) (fun _ _ _ => rfl) hplace hstays
  rw [h1] at h3; cases h3
  obtain ⟨j, j', items, -, -, ⟨into, x', hput⟩, hshow⟩ := hseen _ _ _ h1 rfl
  unfold Snapshooter.putSnapshot Handler.putSnapshot at hput
  simp only [InstrumentAdapter.putSnapshot, Instrument.putSnapshot, IsInstrument.putSnapshot, M.bind_eq_some, M.run_pure,
    Option.some.injEq, Prod.mk.injEq] at hput
  obtain ⟨_, _, ⟨_, _, ⟨_, _, ⟨⟨m₃, own⟩, _, hput, rfl, rfl⟩, rfl, rfl⟩, rfl, rfl⟩, ⟨_, rfl⟩, _⟩ := hput
  obtain ⟨-, -, r1, r5, r15, ho⟩ := Meter.putSnapshot_count hput
  obtain ⟨texts, rfl⟩ := appended_of_texts ho
  rw [(Meter.history_count h4 hcount).2.name, h2, wrapU64_wrapI64] at hshow
  refine hshow.inner (List.mem_append_right _ (List.mem_cons_self ..)) ?_
  simp [meterItems]

/-- A value meter: its count is what it started with plus all values, in its unit, that were sent and meant for it. -/
theorem C68_value_meter (hc : CustomProper σ L) (mono : e.Mono)
    (hnew : NewDriver e k name descr .processAll withMetrics handles t)
    (h : DriverLife e k t (before ++ i :: after) k' (.running l')) (hi : i.message = some (.addProcessor n))
    (hn : n.reach route = some (.processor p)) (harrived : waits route < (runsOf (i :: after)).length)
    (hstrategy : ∀ s, DriverMsg.setStrategy s ∈ handled (before ++ i :: after) → s = .processAll)
    (hcomp : p.Completes programs ((runsOf (i :: after)).length - waits route))
    {place : Place} {path : List (LabelFilter L)} {f : LabelFilter L} {m : ValueMeter}
    (hplace : p.state.leafAt place = some (path, .instrument ⟨f, .valueMeter m, none⟩)) (hstays : place.Stays programs)
    (hcount : I64 m.meter.inner.count) {groups : List String} (hgroups : p.state.groupsAt place = some groups)
    {d : Bool} {k₂ k₃ : Nat} {l'' : LoopState σ L} {s : Snapshot} (hs : l'.state.makeSnapshot d e k₂ = some ((l'', s), k₃))
    (hvis : l'.state.AllVisible (e.clock k₃)) :
    s.HasAt (name.toList ++ n.mountsVia route ++ groups ++ [m.meter.name]) "count"
      (.uint (wrapU64 (m.meter.inner.count +
        ((observationsFor path f programs).filterMap (Observation.inUnit m.displayTimeUnit)).sum))) := by
  obtain ⟨k₁, calls, p', -, hrun, hseen⟩ :=
    C68_seen_complete hc mono hnew h hi hn harrived hstrategy hcomp hstays hgroups hs hvis
  obtain ⟨m', h1, h2⟩ := C60_value_meter hc.forward hrun hplace hstays hcount
  obtain ⟨m₂, log, h3, h4, -⟩ := instrument_arrival hc.forward hrun .valueMeter (fun _ _ => rfl) (fun _ _ _ => rfl) hplace hstays
  rw [h1] at h3; cases h3
  obtain ⟨j, j', items, -, -, ⟨into, x', hput⟩, hshow⟩ := hseen _ _ _ h1 rfl
  unfold Snapshooter.putSnapshot Handler.putSnapshot at hput
  simp only [InstrumentAdapter.putSnapshot, Instrument.putSnapshot, IsInstrument.putSnapshot, M.bind_eq_some, M.run_pure,
    Option.some.injEq, Prod.mk.injEq] at hput
  obtain ⟨_, _, ⟨_, _, ⟨_, _, ⟨⟨m₃, own⟩, _, hput, rfl, rfl⟩, rfl, rfl⟩, rfl, rfl⟩, ⟨_, rfl⟩, _⟩ := hput
  obtain ⟨meter, hput, -⟩ := ValueMeter.putSnapshot_eq_some.mp hput
  obtain ⟨-, -, r1, r5, r15, ho⟩ := Meter.putSnapshot_count hput
  obtain ⟨texts, rfl⟩ := appended_of_texts ho
  rw [(ValueMeter.history_count h4 hcount).2.name, h2, wrapU64_wrapI64] at hshow
  refine hshow.inner (List.mem_append_right _ (List.mem_cons_self ..)) ?_
  simp [meterItems]

/-- A histogram without a limit of inactivity: its count is how many values it started with plus how many were sent, are meant
for it and can be taken. -/
theorem C68_histogram (hc : CustomProper σ L) (mono : e.Mono)
    (hnew : NewDriver e k name descr .processAll withMetrics handles t)
    (h : DriverLife e k t (before ++ i :: after) k' (.running l')) (hi : i.message = some (.addProcessor n))
    (hn : n.reach route = some (.processor p)) (harrived : waits route < (runsOf (i :: after)).length)
    (hstrategy : ∀ s, DriverMsg.setStrategy s ∈ handled (before ++ i :: after) → s = .processAll)
    (hcomp : p.Completes programs ((runsOf (i :: after)).length - waits route))
    {place : Place} {path : List (LabelFilter L)} {f : LabelFilter L} {m : Histogram}
    (hplace : p.state.leafAt place = some (path, .instrument ⟨f, .histogram m, none⟩)) (hstays : place.Stays programs)
    (hlim : m.maxInactivity = none) {groups : List String} (hgroups : p.state.groupsAt place = some groups)
    {d : Bool} {k₂ k₃ : Nat} {l'' : LoopState σ L} {s : Snapshot} (hs : l'.state.makeSnapshot d e k₂ = some ((l'', s), k₃))
    (hvis : l'.state.AllVisible (e.clock k₃)) :
    s.HasAt (name.toList ++ n.mountsVia route ++ groups ++ [m.name]) "count"
      (.uint (m.inner.length +
        ((observationsFor path f programs).filterMap (Observation.inUnit m.displayTimeUnit)).length)) := by
  obtain ⟨k₁, calls, p', -, hrun, hseen⟩ :=
    C68_seen_complete hc mono hnew h hi hn harrived hstrategy hcomp hstays hgroups hs hvis
  obtain ⟨m', h1, h2⟩ := C60_histogram hc.forward hrun hplace hstays (.inl hlim)
  obtain ⟨m₂, log, h3, h4, -⟩ := instrument_arrival hc.forward hrun .histogram (fun _ _ => rfl) (fun _ _ _ => rfl) hplace hstays
  rw [h1] at h3; cases h3
  obtain ⟨j, j', items, -, -, ⟨into, x', hput⟩, hshow⟩ := hseen _ _ _ h1 rfl
  unfold Snapshooter.putSnapshot Handler.putSnapshot at hput
  simp only [InstrumentAdapter.putSnapshot, Instrument.putSnapshot, IsInstrument.putSnapshot, keeping, M.bind_eq_some, M.run_pure,
    Option.some.injEq, Prod.mk.injEq] at hput
  obtain ⟨_, _, ⟨_, _, ⟨_, _, ⟨⟨m₃, own⟩, _, ⟨own, _, hput, ⟨rfl, rfl⟩, rfl⟩, rfl, rfl⟩, rfl, rfl⟩, rfl, rfl⟩, ⟨_, rfl⟩, _⟩ := hput
  obtain ⟨hcfg, -⟩ := Histogram.history_last h4
  obtain ⟨active, k₄, -, -, hact, ho⟩ := Histogram.putSnapshot_eq_some hput
  obtain ⟨texts, rfl⟩ := appended_of_texts ho
  have ha : active = true := hact.mpr fun l hl => by rw [hcfg.limit, hlim] at hl; cases hl
  rw [hcfg.limit, hlim, hcfg.name, ha] at hshow
  simp only [Option.isSome_none, Bool.false_and, Bool.false_eq_true, if_false, if_true, List.nil_append] at hshow
  refine hshow.inner (List.mem_append_right _ (List.mem_cons_self ..)) ?_
  rw [← List.length_append, ← h2.length_eq]
  unfold histogramItems
  split
  · rename_i h0; simp [h0]
  · simp

omit [CustomProcessor σ] in
theorem gauge_put {a : GaugeAdapter L} {d : Bool} {j j' : Nat} {items s : Snapshot} {g : List String} {v : Int}
    (hv : a.gauge.value = some v) (hput : (Snapshooter.handler (.gauge a) : Snapshooter σ L).Put d e j items j')
    (hshow : s.ShowsAt g items) : a.gauge.ShownAs s g v := by
  obtain ⟨into, x', hput⟩ := hput
  unfold Snapshooter.putSnapshot Handler.putSnapshot at hput
  simp only [GaugeAdapter.putSnapshot, M.bind_eq_some, M.run_pure, Option.some.injEq, Prod.mk.injEq] at hput
  obtain ⟨_, _, ⟨_, _, ⟨⟨g', own⟩, _, hput, rfl, rfl⟩, rfl, rfl⟩, ⟨_, rfl⟩, _⟩ := hput
  exact Gauge.put_shown hv hput hshow

omit [Custom σ L] [CustomProcessor σ] in
theorem GaugeAdapter.history_bare {a a' : GaugeAdapter L} {log : List (Event (Observation L))}
    (h : History e k a log k' a') : a'.bare = a.bare := by
  refine History.preserves (fun x : GaugeAdapter L => x.bare = a.bare) ?_ h rfl
  intro x op e k x' out k' hx hs
  cases op with
  | input u =>
    obtain ⟨n, _, hs⟩ := step_input_eq_some.mp hs
    exact (x.keepsBare_handle u _ _ _ _ hs).trans hx
  | snapshot s d =>
    obtain ⟨n, _, hs⟩ := step_snapshot_eq_some.mp hs
    exact (x.keepsBare_putSnapshot s d _ _ _ _ hs).trans hx

omit [DecidableEq L] [Custom σ L] [CustomProcessor σ] in
theorem Gauge.ShownAs.bare {g g' : Gauge} (h : g'.bare = g.bare) {s : Snapshot} {path : List String} {v : Int}
    (hs : g'.ShownAs s path v) : g.ShownAs s path v := by
  have h1 : g'.bare.name = g.bare.name := by rw [h]
  have h2 : g'.bare.groupValues = g.bare.groupValues := by rw [h]
  unfold Gauge.ShownAs at hs ⊢
  have h1 : g'.name = g.name := h1
  have h2 : g'.groupValues = g.groupValues := h2
  rwa [h1, h2] at hs

/-- A gauge that is incremented and decremented on labels shows what it started with plus the difference of how often each was
sent. -/
theorem C68_gauge_inc_dec (hc : CustomProper σ L) (mono : e.Mono)
    (hnew : NewDriver e k name descr .processAll withMetrics handles t)
    (h : DriverLife e k t (before ++ i :: after) k' (.running l')) (hi : i.message = some (.addProcessor n))
    (hn : n.reach route = some (.processor p)) (harrived : waits route < (runsOf (i :: after)).length)
    (hstrategy : ∀ s, DriverMsg.setStrategy s ∈ handled (before ++ i :: after) → s = .processAll)
    (hcomp : p.Completes programs ((runsOf (i :: after)).length - waits route))
    {place : Place} {path : List (LabelFilter L)} {inc dec : LabelFilter L} {g : Gauge}
    (hplace : p.state.leafAt place = some (path, .gauge (.incDecOn inc dec g))) (hstays : place.Stays programs)
    (hg : ∀ v ∈ g.value, I64 v) (hrange : ∀ o ∈ observationsOf programs, o.InRange)
    (hone : ∀ l, ¬ (inc.accepts l = true ∧ dec.accepts l = true))
    (hsome : observationsFor path inc programs ≠ [] ∨ observationsFor path dec programs ≠ [])
    {groups : List String} (hgroups : p.state.groupsAt place = some groups)
    {d : Bool} {k₂ k₃ : Nat} {l'' : LoopState σ L} {s : Snapshot} (hs : l'.state.makeSnapshot d e k₂ = some ((l'', s), k₃))
    (hvis : l'.state.AllVisible (e.clock k₃)) :
    g.ShownAs s (name.toList ++ n.mountsVia route ++ groups) (wrapI64 (g.value.getD 0 +
      ((observationsFor path inc programs).length - (observationsFor path dec programs).length : Int))) := by
  obtain ⟨k₁, calls, p', -, hrun, hseen⟩ :=
    C68_seen_complete hc mono hnew h hi hn harrived hstrategy hcomp hstays hgroups hs hvis
  obtain ⟨a', h1, h2⟩ := C60_gauge_inc_dec hc.forward hrun hplace hstays hg hrange hone
  obtain ⟨log, x, h3, h4, -⟩ := C60_arrival hc.forward hrun hplace hstays
  rw [h1] at h4; cases h4
  obtain ⟨a₂, log, h5, h6, -⟩ := leaf_gauge h3
  cases h5
  rw [if_neg (by rintro ⟨x, y⟩; rcases hsome with h | h <;> contradiction)] at h2
  obtain ⟨j, j', items, -, -, hput, hshow⟩ := hseen _ _ _ h1 rfl
  exact (gauge_put h2 hput hshow).bare (congrArg GaugeAdapter.gauge (GaugeAdapter.history_bare h6))

/-! ## Changes of values -/

omit [Custom σ L] [CustomProcessor σ] in
theorem deltas_consumed {path : List (LabelFilter L)} {f : LabelFilter L} {consumed : List (List (Message σ L × Verdict))}
    (hperm : (consumed.flatten.map (·.1)).Perm (programs.flatMap (·.todo))) :
    (consumed.flatten.filterMap fun m => m.1.deltaFor path f).Perm
      ((observationsFor path f programs).filterMap Observation.delta) := by
  have h1 : (consumed.flatten.filterMap fun m => m.1.deltaFor path f) =
      (consumed.flatten.map (·.1)).filterMap fun m => m.deltaFor path f := by
    rw [List.filterMap_map]; rfl
  rw [h1]
  refine (hperm.filterMap _).trans (List.Perm.of_eq ?_)
  unfold observationsFor observationsOf
  rw [List.filterMap_filter, List.filterMap_filterMap]
  refine List.filterMap_congr fun m _ => ?_
  cases m with
  | observation o =>
    cases o with
    | observedOneValue l v t =>
      cases v with
      | changedBy d =>
        simp only [Message.deltaFor, Message.observation?, Option.bind_some, Observation.delta, Observation.label,
          List.all_eq_true, Bool.and_eq_true]
      | _ => simp [Message.deltaFor, Message.observation?, Observation.delta]
    | _ => simp [Message.deltaFor, Message.observation?, Observation.delta]
  | _ => simp [Message.deltaFor, Message.observation?]

/-- A gauge that is fed only by changes of values, because it is made to ignore everything else or nothing else that it accepts is
sent. All strategies of the driver keep changes of values, like the default one. Then each snapshot of the driver shows what it
started with plus all changes that were sent and meant for it, however old they were when they were processed. -/
theorem C68_gauge_changes (hc : CustomProper σ L) (mono : e.Mono)
    (hnew : NewDriver e k name descr strategy withMetrics handles t) (hkeep : strategy.KeepsDeltas)
    (h : DriverLife e k t (before ++ i :: after) k' (.running l')) (hi : i.message = some (.addProcessor n))
    (hn : n.reach route = some (.processor p)) (harrived : waits route < (runsOf (i :: after)).length)
    (hstrategy : ∀ s, DriverMsg.setStrategy s ∈ handled (before ++ i :: after) → s.KeepsDeltas)
    (hcomp : p.Completes programs ((runsOf (i :: after)).length - waits route))
    {place : Place} {path : List (LabelFilter L)} {f : LabelFilter L} {a : GaugeAdapter L}
    (hplace : p.state.leafAt place = some (path, .gauge a)) (hstays : place.Stays programs)
    (ha : a.strategy = .deltasOnly f ∨ a.strategy = .filter f ∧ ∀ o ∈ observationsFor path f programs, o.ChangesValue)
    (hm : a.modifyUpdate = none) (hg : ∀ v ∈ a.gauge.value, I64 v) (hrange : ∀ o ∈ observationsOf programs, o.InRange)
    (hsome : (observationsFor path f programs).filterMap Observation.delta ≠ [])
    {groups : List String} (hgroups : p.state.groupsAt place = some groups)
    {d : Bool} {k₂ k₃ : Nat} {l'' : LoopState σ L} {s : Snapshot} (hs : l'.state.makeSnapshot d e k₂ = some ((l'', s), k₃))
    (hvis : l'.state.AllVisible (e.clock k₃)) :
    a.gauge.ShownAs s (name.toList ++ n.mountsVia route ++ groups)
      (wrapI64 (a.gauge.value.getD 0 + ((observationsFor path f programs).filterMap Observation.delta).sum)) := by
  obtain ⟨k₁, calls, p', consumed, -, hl, hst, hstory, hperm, hseen⟩ :=
    C68_seen hc mono hnew h hi hn harrived hcomp hstays hgroups hs hvis
  have hall : KeepDeltas calls := by
    intro c hcm max st hcall
    have hh : handled (before ++ i :: after) = handled before ++ handled (i :: after) := by
      simp [handled, List.filterMap_append]
    rw [hh] at hstrategy
    exact strategiesIn_keeps Strategy.KeepsDeltas
      (strategyAfter_keeps Strategy.KeepsDeltas hkeep fun s hs => hstrategy s (List.mem_append_left _ hs))
      (fun s hs => hstrategy s (List.mem_append_right _ hs)) _ (hst c hcm max st hcall)
  have hsent : ∀ m ∈ consumed.flatten, ∀ o, m.1 = .observation o → o ∈ observationsOf programs := by
    intro m hmm o ho
    have : m.1 ∈ programs.flatMap (·.todo) := hperm.mem_iff.mp (List.mem_map_of_mem hmm)
    exact List.mem_filterMap.mpr ⟨m.1, this, by rw [ho]; rfl⟩
  obtain ⟨a', h1, h2, log', h3⟩ := gauge_story hc.forward hstory hall hplace (ha.imp id (·.1)) hm hg (hstays.consumed hperm)
    (fun m hmm o ho => hrange o (hsent m hmm o ho))
    (fun hf m hmm o ho hp ha' => by
      rcases ha with ha | ⟨-, ha⟩
      · rw [ha] at hf; cases hf
      · refine ha o (List.mem_filter.mpr ⟨hsent m hmm o ho, ?_⟩)
        rw [Bool.and_eq_true, List.all_eq_true]
        exact ⟨hp, ha'⟩)
  have hd := deltas_consumed (path := path) (f := f) hperm
  dsimp only at h2
  rw [if_neg (fun h0 => hsome (List.Perm.eq_nil (hd.symm.trans (List.Perm.of_eq h0)))), hd.sum_eq] at h2
  obtain ⟨j, j', items, -, -, hput, hshow⟩ := hseen _ _ _ h1 rfl
  exact (gauge_put h2 hput hshow).bare (congrArg GaugeAdapter.gauge (GaugeAdapter.history_bare h3))

/-! ## Example

The driver of C65 with the default strategy, which starts so late that everything that was sent is too old. The counter, which
started with 1, gets only the 2 changes of the 8 occurrences for it, but the gauge has both changes. -/

def lateDriver : DriverThread Empty Nat :=
  .running { state := { name := some "d", descr := {}, metrics := none, lastOutcomeLogged := 10000000000, strategy := .default }
             receiver := { chan := .fresh none true deliveryPrograms, ahead := [[0], [0], [0], [], [], [1], [], []] } }

example : NewDriver ticking 101 (some "d") {} .default false deliveryPrograms lateDriver := ⟨100, _, _, _, rfl, rfl⟩

example : Strategy.default.KeepsDeltas := rfl

def lateLog (n : Nat) : List (Iteration Empty Nat) := (lateDriver.iterations n ticking 101).1

example : DriverLife ticking 101 lateDriver (lateLog 5) (lateDriver.iterations 5 ticking 101).2.1
    (lateDriver.iterations 5 ticking 101).2.2 := .ofIterations 5 lateDriver ticking 101

example : (lateLog 5).map (fun i => (addedProcessors i.message.toList).length) = [0, 0, 1, 0, 0] ∧
    (runsOf ((lateLog 5).drop 2)).length = 3 := by decide +kernel

example : deliveredNode.reach [.here 0] = some (.processor deliveredProcessor) ∧ waits [.here 0] = 0 ∧
    deliveredNode.mountsVia [.here 0] = ["m"] := ⟨rfl, rfl, rfl⟩

example : deliveredProcessor.state.leafAt (.handler 0 1) =
    some ([.many [1, 2]], .gauge (.deltasOnly .acceptAll { name := "g" })) := rfl

example : (observationsFor [.many [1, 2]] .acceptAll totalPrograms).filterMap Observation.delta = [-3, 10] := by decide

/-- The number with the given name in a group. -/
def intAt : List String → String → Snapshot → Option Int
  | [], n, s => s.findSome? fun x => match x.2 with
    | .int v => if x.1 = n then some v else none
    | _ => none
  | g :: gs, n, s => s.findSome? fun x => match x.2 with
    | .snapshot sub => if x.1 = g then intAt gs n sub else none
    | _ => none

example : (answersIn (lateLog 6)).map (fun a => (a.1, uintAt ["d", "m"] "c" a.2, intAt ["d", "m"] "g" a.2)) =
    [(1, some 3, some 7)] := by decide +kernel

/-- Without a backlog the histogram has the value 4, and the gauge the same changes. -/
example : (answersIn (deliveryLog 6)).map (fun a => (intAt ["d", "m"] "g" a.2, uintAt ["d", "m", "h"] "count" a.2)) =
    [(some 7, some 1)] := by decide +kernel

end Metrix
