import Verif.Proof.PlayedLife
import Verif.Proof.Totals
import Verif.Props.C06
import Verif.Props.C13
import Verif.Props.C21
import Verif.Props.C28
import Verif.Props.C32

/-!
# C60 Totals do not depend on the schedule

Any number of threads send observations to a processor with a queue that loses nothing, by any schedule, while the owner
processes them in any portions, takes snapshots and configures the processor. After everything was processed, counters, meters,
value meters, histograms and gauges that are fed by changes show totals that depend only on what the threads send.
-/

namespace Metrix
variable {σ L : Type} [DecidableEq L] [Custom σ L]

/-- The owner of a processor with a new channel, which waits for room or has no limit, used it until everything that the threads
send was processed: they poll at least as often as there are messages, and every thread gets the chance to do something before
each poll. Nothing is dropped because of its age. -/
structure CompleteRun (e : Env) (k : Nat) (p : Processor σ L) (log : List (Called σ L)) (k' : Nat) (p' : Processor σ L)
    (programs : List (SendThread (Message σ L))) : Prop where
  life : Life e k p log k' p'
  fresh : ∃ cap useSend, p.receiver.chan = .fresh cap useSend programs ∧ (useSend = true ∨ cap = none) ∧ cap ≠ some 0
  connected : p.isDisconnected = false
  holding : ∀ th ∈ programs, th.holds = true
  fair : p.receiver.Fair (log.map (·.call.uses)).sum
  enough : (programs.map (·.todo.length)).sum ≤ (log.map (·.call.polls)).sum
  processAll : ∀ c ∈ log, ∀ max strategy, c.call = .process max strategy → strategy = .processAll

/-- Nothing that the threads send removes the place. -/
def Place.Stays (place : Place) (programs : List (SendThread (Message σ L))) : Prop :=
  ∀ th ∈ programs, ∀ m ∈ th.todo, ¬ place.RemovedBy m

theorem story_processed {e : Env} {k k' : Nat} {s s' : ProcessorState σ L} {log : List (Called σ L)}
    {consumed : List (List (Message σ L × Verdict))} (h : Story e k s log consumed k' s')
    (hk : ∀ c ∈ log, ∀ max strategy, c.call = .process max strategy → strategy = .processAll) :
    consumed.flatten.filterMap processedObservation = (consumed.flatten.map (·.1)).filterMap Message.observation? := by
  induction h with
  | nil => rfl
  | @run k k₁ k₂ k₃ k₄ k' s s₁ s₂ s' max strategy out ms log consumed _ _ _ _ happ _ _ _ ih =>
    have hst := hk _ (List.mem_cons_self ..) max strategy rfl
    subst hst
    rw [List.flatten_cons, List.filterMap_append, List.map_append, List.filterMap_append,
      ih fun c hc => hk c (List.mem_cons_of_mem _ hc)]
    congr 1
    rw [List.filterMap_map]
    refine List.filterMap_congr fun ⟨m, v⟩ hm => ?_
    have := applies_verdict happ hm
    cases m with
    | observation o =>
      cases v with
      | processed n => rfl
      | dropped =>
        obtain ⟨o', ho, hn⟩ := this.mp rfl
        exact (hn trivial).elim
    | _ => rfl
  | snapshot _ _ _ ih => simpa using ih (fun c hc => hk c (List.mem_cons_of_mem _ hc))
  | set _ _ _ _ ih => simpa using ih (fun c hc => hk c (List.mem_cons_of_mem _ hc))

/-- The messages that were processed are exactly those that the threads send, in some order. -/
theorem Life.story {e : Env} {k k' : Nat} {p p' : Processor σ L} {log : List (Called σ L)}
    {programs : List (SendThread (Message σ L))} (h : Life e k p log k' p')
    (hfresh : ∃ cap useSend, p.receiver.chan = .fresh cap useSend programs ∧ (useSend = true ∨ cap = none) ∧ cap ≠ some 0)
    (hconn : p.isDisconnected = false) (hold : ∀ th ∈ programs, th.holds = true)
    (hfair : p.receiver.Fair (log.map (·.call.uses)).sum)
    (henough : (programs.map (·.todo.length)).sum ≤ (log.map (·.call.polls)).sum) :
    ∃ consumed, Story e k p.state log consumed k' p'.state ∧
      (consumed.flatten.map (·.1)).Perm (programs.flatMap (·.todo)) := by
  obtain ⟨cap, useSend, hnew, hb, hcap⟩ := hfresh
  obtain ⟨_, _, consumed, hst, sources, hsrc, hby⟩ := C13_everything h hnew hconn hb hcap hold hfair henough
  have hlt : ∀ x ∈ sources, x.1 < programs.length := by
    intro x hx
    by_contra hge
    have h1 := hby x.1
    have h2 : programOf programs x.1 = [] := by
      unfold programOf; rw [List.getElem?_eq_none (by omega)]
    rw [h2] at h1
    have h3 : x.2 ∈ byThread x.1 sources := List.mem_map.mpr ⟨x, List.mem_filter.mpr ⟨hx, by simp⟩, rfl⟩
    rw [h1] at h3
    simp at h3
  refine ⟨consumed, hst, ?_⟩
  rw [← hsrc, ← programs_flatMap]
  refine (perm_byThread programs.length sources hlt).trans ?_
  rw [List.flatMap_congr fun t _ => hby t]
  exact List.Perm.refl _

theorem CompleteRun.story {e : Env} {k k' : Nat} {p p' : Processor σ L} {log : List (Called σ L)}
    {programs : List (SendThread (Message σ L))} (h : CompleteRun e k p log k' p' programs) :
    ∃ consumed, Story e k p.state log consumed k' p'.state ∧
      (consumed.flatten.map (·.1)).Perm (programs.flatMap (·.todo)) :=
  h.life.story h.fresh h.connected h.holding h.fair h.enough

/-- Whatever is at a place that stays: it gets exactly the observations of all threads that the filters in front of it accept,
in some order, and nothing else. -/
theorem C60_arrival (hc : CustomForward σ L) {e : Env} {k k' : Nat} {p p' : Processor σ L} {log : List (Called σ L)}
    {programs : List (SendThread (Message σ L))} (h : CompleteRun e k p log k' p' programs) {place : Place}
    {path : List (LabelFilter L)} {leaf : Leaf σ L} (hplace : p.state.leafAt place = some (path, leaf))
    (hstays : place.Stays programs) :
    ∃ log' leaf', History e k leaf log' k' leaf' ∧ p'.state.leafAt place = some (path, leaf') ∧
      (inputs log').Perm ((observationsOf programs).filter fun o => path.all (·.accepts o.label)) := by
  obtain ⟨consumed, hst, hperm⟩ := h.story
  obtain ⟨l₁, x, h1, h2, h3⟩ := Trail.leaf hc hst.trail hplace (by
    intro m hm
    have : m.1 ∈ programs.flatMap (·.todo) := hperm.mem_iff.mp (List.mem_map_of_mem hm)
    obtain ⟨th, hth, hm⟩ := List.mem_flatMap.mp this
    exact hstays th hth _ hm)
  refine ⟨l₁, x, h1, h2, ?_⟩
  rw [h3, story_processed hst h.processAll]
  exact (hperm.filterMap _).filter _

theorem instrument_arrival (hc : CustomForward σ L) {e : Env} {k k' : Nat} {p p' : Processor σ L} {log : List (Called σ L)}
    {programs : List (SendThread (Message σ L))} (h : CompleteRun e k p log k' p' programs) {place : Place}
    {path : List (LabelFilter L)} {I : Type} [IsInstrument I] (wrap : I → Instrument σ)
    (hup : ∀ i u, Instrument.update L (wrap i) u = (do let (i, n) ← IsInstrument.update i u; return (wrap i, n)))
    (hput : ∀ i s d, Instrument.putSnapshot L (wrap i) s d = (do let (i, n) ← IsInstrument.putSnapshot i s d; return (wrap i, n)))
    {f : LabelFilter L} {i : I} (hplace : p.state.leafAt place = some (path, .instrument ⟨f, wrap i, none⟩))
    (hstays : place.Stays programs) :
    ∃ i' log', p'.state.leafAt place = some (path, .instrument ⟨f, wrap i', none⟩) ∧ History e k i log' k' i' ∧
      (inputs log').Perm ((observationsFor path f programs).map Observation.content) := by
  obtain ⟨l₁, x, h1, h2, h3⟩ := C60_arrival hc h hplace hstays
  obtain ⟨i', l₂, rfl, h5, h6⟩ := leaf_instrument wrap hup hput h1
  refine ⟨i', l₂, h2, h5, ?_⟩
  rw [h6]
  refine List.Perm.map _ ?_
  have := h3.filter fun o => f.accepts o.label
  rw [List.filter_filter] at this
  refine this.trans (List.Perm.of_eq ?_)
  unfold observationsFor
  refine List.filter_congr fun o _ => ?_
  rw [Bool.and_comm]

/-- A counter shows what it started with plus all occurrences of all threads that are meant for it (in 64 bits). -/
theorem C60_counter (hc : CustomForward σ L) {e : Env} {k k' : Nat} {p p' : Processor σ L} {log : List (Called σ L)}
    {programs : List (SendThread (Message σ L))} (h : CompleteRun e k p log k' p' programs) {place : Place}
    {path : List (LabelFilter L)} {f : LabelFilter L} {c : Counter}
    (hplace : p.state.leafAt place = some (path, .instrument ⟨f, .counter c, none⟩)) (hstays : place.Stays programs)
    (hcount : c.count < 2 ^ 64) :
    ∃ c', p'.state.leafAt place = some (path, .instrument ⟨f, .counter c', none⟩) ∧
      c'.count = (c.count + ((observationsFor path f programs).map Observation.occurrences).sum) % 2 ^ 64 := by
  obtain ⟨c', l, h1, h3, h4⟩ := instrument_arrival hc h .counter (fun _ _ => rfl) (fun _ _ _ => rfl) hplace hstays
  refine ⟨c', h1, ?_⟩
  rw [(C21_counter_counts h3 hcount).1, (h4.map _).sum_eq, List.map_map]
  congr 3
  refine List.map_congr_left fun o _ => ?_
  cases o <;> rfl

/-- A meter has counted all occurrences of all threads that are meant for it; observations of more than `i64::MAX`
occurrences are not counted. -/
theorem C60_meter (hc : CustomForward σ L) {e : Env} {k k' : Nat} {p p' : Processor σ L} {log : List (Called σ L)}
    {programs : List (SendThread (Message σ L))} (h : CompleteRun e k p log k' p' programs) {place : Place}
    {path : List (LabelFilter L)} {f : LabelFilter L} {m : Meter}
    (hplace : p.state.leafAt place = some (path, .instrument ⟨f, .meter m, none⟩)) (hstays : place.Stays programs)
    (hcount : I64 m.inner.count) :
    ∃ m', p'.state.leafAt place = some (path, .instrument ⟨f, .meter m', none⟩) ∧
      m'.inner.count = wrapI64 (m.inner.count + ((observationsFor path f programs).map fun o =>
        if (o.occurrences : Int) ≤ i64Max then (o.occurrences : Int) else 0).sum) := by
  obtain ⟨m', l, h1, h3, h4⟩ := instrument_arrival hc h .meter (fun _ _ => rfl) (fun _ _ _ => rfl) hplace hstays
  refine ⟨m', h1, ?_⟩
  rw [(Meter.history_count h3 hcount).1, sumOf, (h4.map _).sum_eq, List.map_map]
  congr 3
  refine List.map_congr_left fun o _ => ?_
  have : o.content.occurrences = o.occurrences := by cases o <;> rfl
  simp only [Function.comp, Update.counted, this]
  by_cases h0 : o.occurrences = 0
  · simp [h0]
  · by_cases h1 : i64Max < o.occurrences
    · simp [h0, h1]
    · simp [h0, h1]

/-- A value meter has counted all values. -/
theorem C60_value_meter (hc : CustomForward σ L) {e : Env} {k k' : Nat} {p p' : Processor σ L} {log : List (Called σ L)}
    {programs : List (SendThread (Message σ L))} (h : CompleteRun e k p log k' p' programs) {place : Place}
    {path : List (LabelFilter L)} {f : LabelFilter L} {m : ValueMeter}
    (hplace : p.state.leafAt place = some (path, .instrument ⟨f, .valueMeter m, none⟩)) (hstays : place.Stays programs)
    (hcount : I64 m.meter.inner.count) :
    ∃ m', p'.state.leafAt place = some (path, .instrument ⟨f, .valueMeter m', none⟩) ∧
      m'.meter.inner.count = wrapI64 (m.meter.inner.count +
        ((observationsFor path f programs).filterMap (Observation.inUnit m.displayTimeUnit)).sum) := by
  obtain ⟨m', l, h1, h3, h4⟩ := instrument_arrival hc h .valueMeter (fun _ _ => rfl) (fun _ _ _ => rfl) hplace hstays
  refine ⟨m', h1, ?_⟩
  rw [(ValueMeter.history_count h3 hcount).1, sumOf, (h4.map _).sum_eq, List.map_map]
  congr 2
  induction observationsFor path f programs with
  | nil => rfl
  | cons o os ih =>
    have : o.content.metered m.displayTimeUnit = o.inUnit m.displayTimeUnit := by
      cases o with
      | observedOneValue l v t => cases v <;> rfl
      | _ => rfl
    rw [List.map_cons, List.sum_cons, ih, List.filterMap_cons]
    simp only [Function.comp, this]
    cases o.inUnit m.displayTimeUnit <;> simp

/-- A histogram that is not reset contains all values, in some order. -/
theorem C60_histogram (hc : CustomForward σ L) {e : Env} {k k' : Nat} {p p' : Processor σ L} {log : List (Called σ L)}
    {programs : List (SendThread (Message σ L))} (h : CompleteRun e k p log k' p' programs) {place : Place}
    {path : List (LabelFilter L)} {f : LabelFilter L} {i : Histogram}
    (hplace : p.state.leafAt place = some (path, .instrument ⟨f, .histogram i, none⟩)) (hstays : place.Stays programs)
    (hlim : i.maxInactivity = none ∨ i.resetAfterInactivity = false) :
    ∃ i', p'.state.leafAt place = some (path, .instrument ⟨f, .histogram i', none⟩) ∧
      i'.inner.Perm (i.inner ++
        (observationsFor path f programs).filterMap (Observation.inUnit i.displayTimeUnit)) := by
  obtain ⟨i', l, h1, h3, h4⟩ := instrument_arrival hc h .histogram (fun _ _ => rfl) (fun _ _ _ => rfl) hplace hstays
  refine ⟨i', h1, ?_⟩
  rw [C32_no_limit h3 hlim]
  refine List.Perm.append_left _ ((h4.filterMap _).trans (List.Perm.of_eq ?_))
  rw [List.filterMap_map]
  refine List.filterMap_congr fun o _ => ?_
  cases o with
  | observedOneValue l v t => cases v <;> rfl
  | _ => rfl

/-- A gauge that reacts to changes only shows the sum of all changes that are meant for it. -/
theorem C60_gauge_deltas (hc : CustomForward σ L) {e : Env} {k k' : Nat} {p p' : Processor σ L} {log : List (Called σ L)}
    {programs : List (SendThread (Message σ L))} (h : CompleteRun e k p log k' p' programs) {place : Place}
    {path : List (LabelFilter L)} {f : LabelFilter L} {g : Gauge}
    (hplace : p.state.leafAt place = some (path, .gauge (.deltasOnly f g))) (hstays : place.Stays programs)
    (hg : ∀ v ∈ g.value, I64 v) (hrange : ∀ o ∈ observationsOf programs, o.InRange) :
    ∃ a', p'.state.leafAt place = some (path, .gauge a') ∧
      a'.gauge.value =
        let deltas := (observationsFor path f programs).filterMap Observation.delta
        if deltas = [] then g.value else some (wrapI64 (g.value.getD 0 + deltas.sum)) := by
  obtain ⟨l₁, x, h1, h2, h3⟩ := C60_arrival hc h hplace hstays
  obtain ⟨a', l₂, rfl, h4, h5⟩ := leaf_gauge h1
  refine ⟨a', h2, ?_⟩
  have hin : ∀ o ∈ inputs l₂, o.InRange := by
    intro o ho
    rw [h5] at ho
    exact hrange o (List.mem_filter.mp (h3.mem_iff.mp ho)).1
  have hcur : g.value.map wrapI64 = g.value := by
    cases hv : g.value with
    | none => rfl
    | some c => simp [wrapI64_of_I64 (hg c hv)]
  have hval := adapter_history (.deltasOnly f) (deltasOnlyChange f) Observation.InRange
    (fun a a' o n e k k' => handle_deltasOnly f a a' o n e k k') h4 rfl rfl hg hin
  rw [foldl_deltas (σ := σ)] at hval
  have hperm : ((inputs l₂).filterMap fun o => (Message.observation o : Message σ L).deltaFor [] f).Perm
      ((observationsFor path f programs).filterMap Observation.delta) := by
    rw [h5]
    refine (h3.filterMap _).trans (List.Perm.of_eq ?_)
    unfold observationsFor
    rw [List.filterMap_filter, List.filterMap_filter]
    refine List.filterMap_congr fun o _ => ?_
    cases o with
    | observedOneValue l v t =>
      cases v with
      | changedBy d =>
        simp only [Message.deltaFor, Observation.delta, Observation.label, List.not_mem_nil, false_implies, implies_true, true_and]
        by_cases h1 : (path.all (·.accepts l)) = true <;> by_cases h2 : f.accepts l = true <;> simp [h1, h2]
      | _ => simp [Message.deltaFor, Observation.delta]
    | _ => simp [Message.deltaFor, Observation.delta]
  rw [hval]
  have hnil : ((inputs l₂).filterMap fun o => (Message.observation o : Message σ L).deltaFor [] f) = [] ↔
      (observationsFor path f programs).filterMap Observation.delta = [] :=
    ⟨fun h => List.Perm.eq_nil (hperm.symm.trans (List.Perm.of_eq h)), fun h => List.Perm.eq_nil (hperm.trans (List.Perm.of_eq h))⟩
  dsimp only
  by_cases hn : (observationsFor path f programs).filterMap Observation.delta = []
  · rw [if_pos (hnil.mpr hn), if_pos hn]; exact hcur
  · rw [if_neg (fun h => hn (hnil.mp h)), if_neg hn, hperm.sum_eq]; rfl

/-- A gauge that is incremented and decremented on labels shows the difference of how often each was observed. -/
theorem C60_gauge_inc_dec (hc : CustomForward σ L) {e : Env} {k k' : Nat} {p p' : Processor σ L} {log : List (Called σ L)}
    {programs : List (SendThread (Message σ L))} (h : CompleteRun e k p log k' p' programs) {place : Place}
    {path : List (LabelFilter L)} {inc dec : LabelFilter L} {g : Gauge}
    (hplace : p.state.leafAt place = some (path, .gauge (.incDecOn inc dec g))) (hstays : place.Stays programs)
    (hg : ∀ v ∈ g.value, I64 v) (hrange : ∀ o ∈ observationsOf programs, o.InRange)
    (hone : ∀ l, ¬ (inc.accepts l = true ∧ dec.accepts l = true)) :
    ∃ a', p'.state.leafAt place = some (path, .gauge a') ∧
      a'.gauge.value =
        if observationsFor path inc programs = [] ∧ observationsFor path dec programs = [] then g.value
        else some (wrapI64 (g.value.getD 0 +
          ((observationsFor path inc programs).length - (observationsFor path dec programs).length : Int))) := by
  obtain ⟨l₁, x, h1, h2, h3⟩ := C60_arrival hc h hplace hstays
  obtain ⟨a', l₂, rfl, h4, h5⟩ := leaf_gauge h1
  refine ⟨a', h2, ?_⟩
  have hin : ∀ o ∈ inputs l₂, o.InRange := by
    intro o ho
    rw [h5] at ho
    exact hrange o (List.mem_filter.mp (h3.mem_iff.mp ho)).1
  rw [C23_inc_dec h4 rfl hg hin]
  have key : ∀ (f : LabelFilter L) (q : Observation L → Bool), (∀ o, q o = f.accepts o.label) →
      ((inputs l₂).filter q).Perm (observationsFor path f programs) := by
    intro f q hq
    rw [h5]
    refine (h3.filter q).trans (List.Perm.of_eq ?_)
    unfold observationsFor
    rw [List.filter_filter]
    refine List.filter_congr fun o _ => ?_
    rw [hq, Bool.and_comm]
  have k1 := key inc (fun o => inc.accepts o.label) fun _ => rfl
  have k2 := key dec (fun o => !inc.accepts o.label && dec.accepts o.label) fun o => by
    have := hone o.label
    cases h1 : inc.accepts o.label <;> cases h2 : dec.accepts o.label <;> simp_all
  have hcond : (∀ o ∈ inputs l₂, inc.accepts o.label = false ∧ dec.accepts o.label = false) ↔
      observationsFor path inc programs = [] ∧ observationsFor path dec programs = [] := by
    have k2' := key dec (fun o => dec.accepts o.label) fun _ => rfl
    constructor
    · intro hall
      refine ⟨List.Perm.eq_nil (k1.symm.trans (List.Perm.of_eq ?_)), List.Perm.eq_nil (k2'.symm.trans (List.Perm.of_eq ?_))⟩
      · exact List.filter_eq_nil_iff.mpr fun o ho => by simp [(hall o ho).1]
      · exact List.filter_eq_nil_iff.mpr fun o ho => by simp [(hall o ho).2]
    · rintro ⟨e1, e2⟩ o ho
      rw [e1] at k1; rw [e2] at k2'
      have f1 := List.filter_eq_nil_iff.mp (List.Perm.eq_nil k1) o ho
      have f2 := List.filter_eq_nil_iff.mp (List.Perm.eq_nil k2') o ho
      exact ⟨by simpa using f1, by simpa using f2⟩
  simp only [hcond]
  unfold count
  rw [k1.length_eq, k2.length_eq]
  rfl

/-- So two processors that start in the same state and get the same messages from the same threads end with the same count,
whatever the schedules, the clocks, the capacities and the portions. -/
theorem C60_same (hc : CustomForward σ L) {e₁ e₂ : Env} {k₁ k₂ k₁' k₂' : Nat} {p₁ p₂ p₁' p₂' : Processor σ L}
    {log₁ log₂ : List (Called σ L)} {programs : List (SendThread (Message σ L))}
    (h₁ : CompleteRun e₁ k₁ p₁ log₁ k₁' p₁' programs) (h₂ : CompleteRun e₂ k₂ p₂ log₂ k₂' p₂' programs)
    (hstate : p₁.state = p₂.state) {place : Place} {path : List (LabelFilter L)} {f : LabelFilter L} {c : Counter}
    (hplace : p₁.state.leafAt place = some (path, .instrument ⟨f, .counter c, none⟩)) (hstays : place.Stays programs)
    (hcount : c.count < 2 ^ 64) :
    ∃ c₁ c₂, p₁'.state.leafAt place = some (path, .instrument ⟨f, .counter c₁, none⟩) ∧
      p₂'.state.leafAt place = some (path, .instrument ⟨f, .counter c₂, none⟩) ∧ c₁.count = c₂.count := by
  obtain ⟨c₁, x1, x3⟩ := C60_counter hc h₁ hplace hstays hcount
  obtain ⟨c₂, y1, y3⟩ := C60_counter hc h₂ (hstate ▸ hplace) hstays hcount
  exact ⟨c₁, c₂, x1, y1, x3.trans y3.symm⟩

/-! Two threads, five messages, room for one; a counter, a gauge for changes and a histogram for the labels 1 and 2. -/

def totalPrograms : List (SendThread (Message Empty Nat)) :=
  [{ todo := [.observation (.observed 1 5 0), .observation (.observedOneValue 2 (.changedBy (-3)) 0),
     .observation (.observedOneValue 2 (.signedInteger 4) 0)] },
   { todo := [.observation (.observedOne 3 0), .observation (.observedOneValue 1 (.changedBy 10) 0)] }]

def totalPanel : Panel Empty Nat :=
  .mk { labelFilter := .many [1, 2], activity := ⟨0, none, true⟩, counter := some (.new { name := "c", count := 1 }),
        gauge := some (.deltasOnly .acceptAll { name := "g" }),
        histogram := some (.new { name := "h", lastUpdate := 0, resetAfterInactivity := false }) } [] [] []

def totalProcessor (ahead : List (List Nat)) : Processor Empty Nat where
  state := { activity := ⟨0, none, true⟩, handlers := [.panel totalPanel] }
  receiver := { chan := .fresh (some 1) true totalPrograms, ahead := ahead }

def firstSchedule : List (List Nat) := List.replicate 7 [0, 1]
def secondSchedule : List (List Nat) := [[1, 0], [1, 1, 0], [0, 1], [1, 0, 0], [1, 0], [0, 1], [1, 0]]

def totalLog (o₁ o₂ : Outcome) (k₁ : Nat) : List (Called Empty Nat) :=
  [⟨1, .process 4 .processAll, .outcome o₁⟩, ⟨k₁, .process 1 .processAll, .outcome o₂⟩]

theorem total_fair {schedule : List (List Nat)} (hlen : 7 ≤ schedule.length)
    (h : (schedule.all fun s => decide (0 ∈ s) && decide (1 ∈ s)) = true) : (totalProcessor schedule).receiver.Fair 7 := by
  refine ⟨hlen, fun s hs t ht => ?_⟩
  have := List.all_eq_true.mp h s (hs)
  simp only [Bool.and_eq_true, decide_eq_true_eq] at this
  have ht : t = 0 ∨ t = 1 := by
    have : t < 2 := ht
    omega
  rcases ht with rfl | rfl
  exacts [this.1, this.2]

theorem total_first : ∃ o₁ o₂ k₁ k' p',
    CompleteRun ticking 1 (totalProcessor firstSchedule) (totalLog o₁ o₂ k₁) k' p' totalPrograms ∧
    p'.receiver.chan.taken.map (·.1) = [0, 0, 0, 1, 1] ∧
    p'.state.handlers.flatMap (fun h => h.leaves.map fun x => match x.2 with
      | .instrument ⟨_, .counter c, _⟩ => (c.count : Int)
      | .gauge g => g.gauge.value.getD 0
      | .instrument ⟨_, .histogram h, _⟩ => h.inner.sum
      | _ => 0) = [9, 7, 4] := by
  refine ⟨_, _, _, _, _, ⟨.cons (Nat.le_refl _) rfl (.cons (Nat.le_refl _) rfl (.nil (Nat.le_refl _))),
    ⟨some 1, true, rfl, .inl rfl, by simp⟩, rfl, by decide,
    total_fair (schedule := firstSchedule) (by decide) (by decide), by decide, ?_⟩, ?_, ?_⟩
  · intro c hc max strategy h
    simp [totalLog] at hc
    rcases hc with rfl | rfl <;> simp at h <;> exact h.2.symm
  · decide +kernel
  · decide +kernel

theorem total_second : ∃ o₁ o₂ k₁ k' p',
    CompleteRun ticking 1 (totalProcessor secondSchedule) (totalLog o₁ o₂ k₁) k' p' totalPrograms ∧
    p'.receiver.chan.taken.map (·.1) = [1, 1, 0, 0, 0] := by
  refine ⟨_, _, _, _, _, ⟨.cons (Nat.le_refl _) rfl (.cons (Nat.le_refl _) rfl (.nil (Nat.le_refl _))),
    ⟨some 1, true, rfl, .inl rfl, by simp⟩, rfl, by decide,
    total_fair (schedule := secondSchedule) (by decide) (by decide), by decide, ?_⟩, ?_⟩
  · intro c hc max strategy h
    simp [totalLog] at hc
    rcases hc with rfl | rfl <;> simp at h <;> exact h.2.symm
  · decide +kernel

example : ((observationsFor [.many [1, 2]] .acceptAll totalPrograms).map Observation.occurrences).sum = 8 ∧
    (observationsFor [.many [1, 2]] .acceptAll totalPrograms).filterMap Observation.delta = [-3, 10] := by decide

example : (Place.handler 0 0).Stays totalPrograms := fun _ _ _ _ h => h

theorem total_range : ∀ o ∈ observationsOf totalPrograms, o.InRange := by
  intro o ho
  simp [observationsOf, totalPrograms, Message.observation?] at ho
  rcases ho with rfl | rfl | rfl | rfl | rfl <;> simp [Observation.InRange, Observation.content, Update.InRange, ObservedValue.InRange, I64, U64, u64Bound, i64Min, i64Max]

/-- The theorems speak about these runs: here are the totals. -/
example : ∃ o₁ o₂ k₁ k' p', CompleteRun ticking 1 (totalProcessor firstSchedule) (totalLog o₁ o₂ k₁) k' p' totalPrograms ∧
    (∃ c, p'.state.leafAt (.handler 0 0) = some ([.many [1, 2]], .instrument ⟨.acceptAll, .counter c, none⟩) ∧ c.count = 9) ∧
    (∃ g, p'.state.leafAt (.handler 0 1) = some ([.many [1, 2]], .gauge g) ∧ g.gauge.value = some 7) ∧
    ∃ h, p'.state.leafAt (.handler 0 2) = some ([.many [1, 2]], .instrument ⟨.acceptAll, .histogram h, none⟩) ∧ h.inner.Perm [4] := by
  obtain ⟨o₁, o₂, k₁, k', p', h, -⟩ := total_first
  refine ⟨o₁, o₂, k₁, k', p', h, ?_, ?_, ?_⟩
  · obtain ⟨c, h1, h2⟩ := C60_counter emptyForward h (place := .handler 0 0) rfl (fun _ _ _ _ h => h) (by decide)
    exact ⟨c, h1, h2⟩
  · obtain ⟨g, h1, h2⟩ := C60_gauge_deltas emptyForward h (place := .handler 0 1) rfl (fun _ _ _ _ h => h)
      (by intro v hv; cases hv) total_range
    exact ⟨g, h1, h2⟩
  · obtain ⟨i, h1, h2⟩ := C60_histogram emptyForward h (place := .handler 0 2) rfl (fun _ _ _ _ h => h) (.inr rfl)
    exact ⟨i, h1, h2⟩

/-- Both schedules end with the same count. -/
example : ∃ (p₁ p₂ : Processor Empty Nat) (c₁ c₂ : Counter), p₁.state.leafAt (.handler 0 0) = some ([.many [1, 2]], .instrument ⟨.acceptAll, .counter c₁, none⟩) ∧
    p₂.state.leafAt (.handler 0 0) = some ([.many [1, 2]], .instrument ⟨.acceptAll, .counter c₂, none⟩) ∧ c₁.count = c₂.count ∧
    p₁.receiver.chan.taken.map (·.1) = [0, 0, 0, 1, 1] ∧ p₂.receiver.chan.taken.map (·.1) = [1, 1, 0, 0, 0] := by
  obtain ⟨o₁, o₂, k₁, k₁', p₁, h₁, t₁, -⟩ := total_first
  obtain ⟨o₃, o₄, k₂, k₂', p₂, h₂, t₂⟩ := total_second
  obtain ⟨c₁, c₂, x, y, z⟩ := C60_same emptyForward h₁ h₂ rfl (place := .handler 0 0) rfl (fun _ _ _ _ h => h) (by decide)
  exact ⟨p₁, p₂, c₁, c₂, x, y, z, t₁, t₂⟩

/-- The same with a meter, a value meter and a gauge that goes up on 1 and 2 and down on 3. -/
def meteredProcessor : Processor Empty Nat where
  state := {
    activity := ⟨0, none, true⟩
    handlers := [
      .panel (.mk { labelFilter := .many [1, 2], activity := ⟨0, none, true⟩, meter := some (.new newMeter) } [] [] []),
      .instrument (.new (.valueMeter newValueMeter)),
      .panel (.mk { labelFilter := .acceptAll, activity := ⟨0, none, true⟩,
                    gauge := some (.incDecOn (.many [1, 2]) (.one 3) { name := "g" }) } [] [] [])] }
  receiver := { chan := .fresh (some 1) true totalPrograms, ahead := firstSchedule }

theorem ticking_custom : CustomSafe Nat ticking (fun _ : Empty => False) := ⟨fun s => s.elim, fun s => s.elim, fun s => s.elim⟩

theorem metered_run : ∃ log k' p', CompleteRun ticking 1 meteredProcessor log k' p' totalPrograms := by
  obtain ⟨log, k', p', h, hm⟩ := exists_life (e := ticking) (safe := fun _ => False) rfl ticking_custom (p := meteredProcessor) (by
      simp only [Processor.allSafe, ProcessorState.allSafe, meteredProcessor, instrumentsOfHandlers, instrumentsOfCockpits,
        instrumentsOfSnapshooters, instrumentsOfPanels, Handler.instruments, Panel.instruments, PanelHead.allSafe,
        AllSafe.append, AllSafe.nil, AllSafe.single, InstrumentAdapter.new, Instrument.Safe, and_true, true_and]
      refine ⟨⟨fun a ha => (nomatch ha), fun a ha => ?_⟩, fun m hm => ?_⟩
      · cases ha; intro r hr; cases hr
      · simp [Channel.pending, Channel.fresh, totalPrograms] at hm
        rcases hm with rfl | rfl | rfl | rfl | rfl <;> exact AllSafe.nil)
    [.process 6 .processAll] (by simp [Call.Safe, Strategy.Safe]) 1
  refine ⟨log, k', p', h, ⟨some 1, true, rfl, .inl rfl, by simp⟩, rfl, by decide, ?_, ?_, ?_⟩
  · have : log.map (·.call.uses) = [7] := by
      have := congrArg (List.map Call.uses) hm
      simpa [Call.uses] using this
    rw [this]
    exact total_fair (schedule := firstSchedule) (by decide) (by decide)
  · have : log.map (·.call.polls) = [6] := by
      have := congrArg (List.map Call.polls) hm
      simpa [Call.polls] using this
    rw [this]
    decide
  · intro c hc max strategy hcall
    have : c.call ∈ log.map (·.call) := List.mem_map_of_mem hc
    rw [hm, hcall] at this
    simp at this
    exact this.2

example : ∃ log k' p', CompleteRun ticking 1 meteredProcessor log k' p' totalPrograms ∧
    (∃ m, p'.state.leafAt (.handler 0 0) = some ([.many [1, 2]], .instrument ⟨.acceptAll, .meter m, none⟩) ∧ m.inner.count = 8) ∧
    (∃ m, p'.state.leafAt (.handler 1 0) = some ([], .instrument ⟨.acceptAll, .valueMeter m, none⟩) ∧ m.meter.inner.count = 4) ∧
    ∃ g, p'.state.leafAt (.handler 2 0) = some ([.acceptAll], .gauge g) ∧ g.gauge.value = some 3 := by
  obtain ⟨log, k', p', h⟩ := metered_run
  refine ⟨log, k', p', h, ?_, ?_, ?_⟩
  · obtain ⟨m, h1, h2⟩ := C60_meter emptyForward h (place := .handler 0 0) rfl (fun _ _ _ _ h => h) (by decide)
    exact ⟨m, h1, h2⟩
  · obtain ⟨m, h1, h2⟩ := C60_value_meter emptyForward h (place := .handler 1 0) rfl (fun _ _ _ _ h => h) (by decide)
    exact ⟨m, h1, h2⟩
  · obtain ⟨g, h1, h2⟩ := C60_gauge_inc_dec emptyForward h (place := .handler 2 0) rfl (fun _ _ _ _ h => h)
      (by intro v hv; cases hv) total_range (by intro l; simp [LabelFilter.accepts]; rintro (rfl | rfl) <;> simp)
    exact ⟨g, h1, h2⟩

end Metrix
