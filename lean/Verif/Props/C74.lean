import Verif.Proof.Latency
import Verif.Props.C08
import Verif.Props.C11
import Verif.Props.C61
import Verif.Props.C65
import Verif.Proof.Arrivals

/-!
# C74 What was accepted is shown after the runs that its backlog needs

A message in the queue of a processor is consumed by the run that reaches it, no matter what other threads do meanwhile: what is
sent later cannot overtake it. A driver takes up to 1000 messages of each processor in each run.
-/

namespace Metrix
variable {σ L : Type} [DecidableEq L] [Custom σ L]

omit [DecidableEq L] [Custom σ L] in
/-- What is in the queue of a processor. -/
def Processor.waiting (p : Processor σ L) : List (Message σ L) := p.receiver.chan.queue.map (·.2)

omit [DecidableEq L] [Custom σ L] in
/-- All messages that the queue of a processor has ever accepted. -/
def Processor.accepted (p : Processor σ L) : List (Message σ L) := p.receiver.chan.accepted.map (·.2)

/-- A processor that started connected, in any use (`log₀`). Then its owner makes the calls `log`. The messages that they consume
begin with those that were waiting, as far as the runs get. -/
theorem C74_processor {e : Env} {k₀ k k' : Nat} {p₀ p p' : Processor σ L} {log₀ log : List (Called σ L)}
    (h₀ : Life e k₀ p₀ log₀ k p) (hconn : p₀.isDisconnected = false) (h : Life e k p log k' p') :
    ∃ consumed, Story e k p.state log consumed k' p'.state ∧
      p.waiting.take (log.map (·.call.polls)).sum <+: consumed.flatten.map (·.1) := by
  obtain ⟨consumed, hst, htook⟩ := life_story h
  refine ⟨consumed, hst, htook.front ?_⟩
  have := life_takes h fun hd => (life_disconnected h₀ (by simp [hconn]) hd).1
  have := htook.length
  omega

/-- A new processor, used in two parts. What it had accepted in the first part was all consumed in the end, if the runs of the
second part could reach it. Nothing else than what was accepted is ever consumed. -/
theorem C74_accepted {e : Env} {k k₁ k' : Nat} {p p₁ p' : Processor σ L} {log₁ log₂ : List (Called σ L)}
    {cap : Option Nat} {useSend : Bool} {programs : List (SendThread (Message σ L))}
    (hnew : p.receiver.chan = .fresh cap useSend programs) (hconn : p.isDisconnected = false)
    (h₁ : Life e k p log₁ k₁ p₁) (h₂ : Life e k₁ p₁ log₂ k' p')
    (henough : p₁.waiting.length ≤ (log₂.map (·.call.polls)).sum) :
    ∃ consumed, Story e k p.state (log₁ ++ log₂) consumed k' p'.state ∧
      p₁.accepted <+: consumed.flatten.map (·.1) ∧ consumed.flatten.map (·.1) <+: p'.accepted := by
  obtain ⟨_, _, ⟨⟨as₁, hno₁, hacts₁⟩, -⟩⟩ := life_story h₁
  obtain ⟨consumed, hst, htook⟩ := life_story (h₁.trans h₂)
  have hlen := htook.length
  obtain ⟨⟨as, hno, hacts⟩, l, hl, htaken⟩ := htook
  have kept : ∀ {c : Channel (Message σ L)} {as}, NoDrop as → c = p.receiver.chan.acts as → c.Kept := by
    intro c as hno hacts
    have halive := life_alive hno hacts (by rw [hnew]; rfl)
    rw [hacts] at halive ⊢
    refine Channel.acts_induction_alive (fun c a => Channel.kept_act c a) _ as halive ?_
    rw [hnew]; rfl
  have hempty : p.receiver.chan.taken = [] := by rw [hnew]; rfl
  have k1 := kept hno₁ hacts₁
  have k2 := kept hno hacts
  unfold Channel.Kept at k1 k2
  rw [hempty, List.nil_append] at htaken
  have hcons : consumed.flatten.map (·.1) <+: p'.accepted := by
    unfold Processor.accepted
    rw [← k2, htaken, List.map_append, hl]
    exact List.prefix_append ..
  refine ⟨consumed, hst, List.prefix_of_prefix_length_le ((C08_accepted_grows h₂).map Prod.snd) hcons ?_, hcons⟩
  have h3 := life_takes h₂ fun hd => (life_disconnected h₁ (by simp [hconn]) hd).1
  simp only [Processor.waiting, List.length_map] at henough
  rw [Processor.accepted, List.length_map, ← k1, List.length_append]
  rw [hempty, List.length_nil] at hlen
  omega

omit [DecidableEq L] [Custom σ L] in
theorem strategyAfter_append (s : Strategy) (a b : List (DriverMsg σ L)) :
    strategyAfter s (a ++ b) = strategyAfter (strategyAfter s a) b := by
  unfold strategyAfter
  rw [List.filterMap_append, List.getLast?_append]
  cases (b.filterMap _).getLast? <;> simp

omit [DecidableEq L] [Custom σ L] in
theorem strategiesIn_append (s : Strategy) (a b : List (Iteration σ L)) :
    strategiesIn s (a ++ b) = strategiesIn s a ++ strategiesIn (strategyAfter s (handled a)) b := by
  induction a generalizing s with
  | nil => rfl
  | cons i a ih =>
    have : handled (i :: a) = i.message.toList ++ handled a := by
      unfold handled
      rw [List.filterMap_cons]
      cases i.message <;> rfl
    simp only [List.cons_append, strategiesIn, ih, this, strategyAfter_append, List.append_assoc]

/-- The occurrences in the observations among some messages that pass the given filters. -/
def occurrencesIn (path : List (LabelFilter L)) (f : LabelFilter L) (ms : List (Message σ L)) : Nat :=
  (((ms.filterMap Message.observation?).filter fun o => meantFor path f o.label).map Observation.occurrences).sum

omit [Custom σ L] in
theorem occurrencesIn_prefix {path : List (LabelFilter L)} {f : LabelFilter L} {a b : List (Message σ L)} (h : a <+: b) :
    occurrencesIn path f a ≤ occurrencesIn path f b := by
  obtain ⟨c, rfl⟩ := h
  simp [occurrencesIn, List.filterMap_append]

variable [CustomProcessor σ] {e : Env} {k k₁ k' : Nat} {name : Option String} {descr : Descr} {strategy : Strategy}
  {withMetrics : Bool} {handles : List (SendThread (DriverMsg σ L))} {t : DriverThread σ L}
  {before mid after : List (Iteration σ L)} {i : Iteration σ L} {l₁ l' : Loop σ L} {n : Node σ L} {way : List Nat}
  {p p₁ p' : Processor σ L} {cap : Option Nat} {useSend : Bool} {programs : List (SendThread (Message σ L))}

theorem driver_backlog (hc : CustomForward σ L) (hp : CustomProcessorForward σ)
    (hnew : NewDriver e k name descr strategy withMetrics handles t)
    (h₁ : DriverLife e k t (before ++ i :: mid) k₁ (.running l₁)) (hi : i.message = some (.addProcessor n))
    (hn : n.at way = some (.processor p)) (hfresh : p.receiver.chan = .fresh cap useSend programs)
    (hconn : p.isDisconnected = false)
    (hp₁ : l₁.state.at (addedProcessors (handled before)).length way = some (.processor p₁))
    (h₂ : DriverLife e k₁ (.running l₁) after k' (.running l'))
    (henough : p₁.waiting.length ≤ 1000 * (runsOf after).length) :
    ∃ k₀ calls consumed n' p', (l'.state.processors[(addedProcessors (handled before)).length]? = some n' ∧
        n'.at way = some (.processor p') ∧ n'.mountsTo way = n.mountsTo way) ∧
      RunsOnly calls ((strategiesIn (strategyAfter strategy (handled before)) (i :: mid ++ after)).map fun s => (1000, s)) ∧
      Story e k₀ p.state calls consumed k' p'.state ∧
      p₁.accepted <+: consumed.flatten.map (·.1) ∧ consumed.flatten.map (·.1) <+: p'.accepted := by
  obtain ⟨k₀, calls₁, n₁, q₁, hk, hl₁, hr₁, hn₁, ha₁, hg₁⟩ := C65_life hc hp hnew h₁ hi hn
  unfold LoopState.at at hp₁
  rw [hn₁, Option.bind_some, ha₁] at hp₁
  cases hp₁
  obtain ⟨n', hn', hkeep⟩ := DriverLife.keeps hc hp (Node.Keeps.stepWise hc hp e way) _ h₂ n₁ hn₁
  obtain ⟨calls₂, p', hl₂, hr₂, ha', hg₂⟩ := hkeep _ ha₁
  obtain ⟨s1, s2⟩ := hr₂.amounts
  obtain ⟨consumed, c1, c2, c3⟩ := C74_accepted hfresh hconn hl₁ hl₂ (by rw [s1, strategiesIn_length]; exact henough)
  refine ⟨k₀, _, consumed, n', p', ⟨hn', ha', hg₂.trans hg₁⟩, ?_, c1, c2, c3⟩
  obtain ⟨l₀, rfl, -, h0⟩ := hnew.fromMessages
  have hfrom := h₁.fromMessages (fun l hl => by cases hl; exact h0) l₁ rfl
  have hs : l₁.state.strategy = strategyAfter (strategyAfter strategy (handled before)) (handled (i :: mid)) := by
    rw [hfrom.strategy, List.nil_append, show handled (before ++ i :: mid) = handled before ++ handled (i :: mid) by
      simp [handled, List.filterMap_append], strategyAfter_append]
  rw [hs] at hr₂
  rw [strategiesIn_append, List.map_append]
  exact hr₁.append hr₂

/-- A processor that was added to a driver, on its own or within mounts. At some moment (`l₁`) messages wait in its queue. After
so many runs of the driver that 1000 messages per run are enough for them, they were all consumed, together with all that was
accepted before them, whatever else was sent meanwhile. -/
theorem C74_driver (hc : CustomForward σ L) (hp : CustomProcessorForward σ)
    (hnew : NewDriver e k name descr strategy withMetrics handles t)
    (h₁ : DriverLife e k t (before ++ i :: mid) k₁ (.running l₁)) (hi : i.message = some (.addProcessor n))
    (hn : n.at way = some (.processor p)) (hfresh : p.receiver.chan = .fresh cap useSend programs)
    (hconn : p.isDisconnected = false)
    (hp₁ : l₁.state.at (addedProcessors (handled before)).length way = some (.processor p₁))
    (h₂ : DriverLife e k₁ (.running l₁) after k' (.running l'))
    (henough : p₁.waiting.length ≤ 1000 * (runsOf after).length) :
    ∃ k₀ calls consumed p', l'.state.at (addedProcessors (handled before)).length way = some (.processor p') ∧
      RunsOnly calls ((strategiesIn (strategyAfter strategy (handled before)) (i :: mid ++ after)).map fun s => (1000, s)) ∧
      Story e k₀ p.state calls consumed k' p'.state ∧
      p₁.accepted <+: consumed.flatten.map (·.1) ∧ consumed.flatten.map (·.1) <+: p'.accepted := by
  obtain ⟨k₀, calls, consumed, n', p', ⟨hn', ha', -⟩, h⟩ := driver_backlog hc hp hnew h₁ hi hn hfresh hconn hp₁ h₂ henough
  exact ⟨k₀, calls, consumed, p', by rw [LoopState.at, hn', Option.bind_some, ha'], h⟩

/-- A counter: if nothing is dropped because of its age, then each snapshot of the driver shows at least what it started with and
the occurrences in everything that had been accepted at the earlier moment, and at most those in everything that was accepted. -/
theorem C74_counter (hc : CustomProper σ L) (mono : e.Mono)
    (hnew : NewDriver e k name descr .processAll withMetrics handles t)
    (h₁ : DriverLife e k t (before ++ i :: mid) k₁ (.running l₁)) (hi : i.message = some (.addProcessor n))
    (hn : n.at way = some (.processor p)) (hfresh : p.receiver.chan = .fresh cap useSend programs)
    (hconn : p.isDisconnected = false)
    (hp₁ : l₁.state.at (addedProcessors (handled before)).length way = some (.processor p₁))
    (h₂ : DriverLife e k₁ (.running l₁) after k' (.running l'))
    (hp' : l'.state.at (addedProcessors (handled before)).length way = some (.processor p'))
    (henough : p₁.waiting.length ≤ 1000 * (runsOf after).length)
    (hstrategy : ∀ s, DriverMsg.setStrategy s ∈ handled (before ++ (i :: mid ++ after)) → s = .processAll)
    {place : Place} {path : List (LabelFilter L)} {f : LabelFilter L} {c : Counter}
    (hplace : p.state.leafAt place = some (path, .instrument ⟨f, .counter c, none⟩))
    (hstays : ∀ m ∈ p'.accepted, ¬ place.RemovedBy m) (hcount : c.count + occurrencesIn path f p'.accepted < 2 ^ 64)
    {groups : List String} (hgroups : p.state.groupsAt place = some groups)
    {d : Bool} {k₂ k₃ : Nat} {l'' : LoopState σ L} {s : Snapshot} (hs : l'.state.makeSnapshot d e k₂ = some ((l'', s), k₃))
    (hvis : l'.state.AllVisible (e.clock k₃)) :
    ∃ v, s.HasAt (name.toList ++ n.mountsTo way ++ groups) c.name (.uint v) ∧
      c.count + occurrencesIn path f p₁.accepted ≤ v ∧ v ≤ c.count + occurrencesIn path f p'.accepted := by
  obtain ⟨k₀, calls, consumed, n', q, ⟨hn', ha', hg⟩, hr, hst, b1, b2⟩ :=
    driver_backlog hc.forward hc.processorForward hnew h₁ hi hn hfresh hconn hp₁ h₂ henough
  rw [LoopState.at, hn', Option.bind_some, ha'] at hp'
  cases hp'
  have hall : ∀ x ∈ strategiesIn (strategyAfter .processAll (handled before)) (i :: mid ++ after), x = .processAll := by
    have hh : handled (before ++ (i :: mid ++ after)) = handled before ++ handled (i :: mid ++ after) := by
      simp [handled, List.filterMap_append]
    rw [hh] at hstrategy
    exact strategiesIn_keeps (· = .processAll)
      (strategyAfter_keeps (· = .processAll) rfl fun s hs => hstrategy s (List.mem_append_left _ hs))
      fun s hs => hstrategy s (List.mem_append_right _ hs)
  have hruns : ∀ c ∈ calls, ∀ max st, c.call = .process max st → st = .processAll := by
    intro c hcm max st hcall
    have : (max, st) ∈ (strategiesIn (strategyAfter .processAll (handled before)) (i :: mid ++ after)).map fun s => (1000, s) := by
      rw [← hr.runs]
      exact List.mem_filterMap.mpr ⟨c, hcm, by rw [hcall]; rfl⟩
    obtain ⟨s, hs, heq⟩ := List.mem_map.mp this
    cases heq
    exact hall _ hs
  have hset : ∀ c ∈ calls, ∀ s, c.call ≠ .setName s := by
    intro c hcm s hcall
    obtain ⟨into, d, h⟩ := hr.others c hcm (by rw [hcall]; rfl)
    rw [hcall] at h; cases h
  have hrem : ∀ m ∈ consumed.flatten, ¬ place.RemovedBy m.1 := fun m hm =>
    hstays _ (b2.subset (List.mem_map_of_mem hm))
  obtain ⟨lg, leaf', x1, x2, x3⟩ := Trail.leaf hc.forward hst.trail hplace hrem
  obtain ⟨c', l₂, rfl, y1, y2⟩ := leaf_instrument .counter (fun _ _ => rfl) (fun _ _ _ => rfl) x1
  have hsum : ((inputs l₂).map Update.occurrences).sum = occurrencesIn path f (consumed.flatten.map (·.1)) := by
    rw [y2, x3, story_processed hst hruns, occurrences_content, occurrencesIn, List.filter_filter]
    exact congrArg (fun l : List (Observation L) => (l.map Observation.occurrences).sum)
      (List.filter_congr fun o _ => by unfold meantFor; exact Bool.and_comm ..)
  have hlo := occurrencesIn_prefix (path := path) (f := f) b1
  have hhi := occurrencesIn_prefix (path := path) (f := f) b2
  have hcount' := (C21_counter_counts y1 (by omega)).1
  rw [hsum, Nat.mod_eq_of_lt (by omega)] at hcount'
  obtain ⟨j, j', items, _, _, hput, hshow⟩ := seen_of_story hc mono hst hset hn' ha' hrem hgroups hs hvis x2 rfl
  obtain ⟨level, hgl, hitems⟩ := hshow
  have hname : c'.name = c.name := by
    refine History.preserves (fun x : Counter => x.name = c.name) ?_ y1 rfl
    intro x op e k x' out k' hx hs
    cases op with
    | input u =>
      obtain ⟨n, _, hs⟩ := step_input_eq_some.mp hs
      obtain ⟨-, -, rfl, -⟩ := Counter.update_eq_some hs
      exact hx
    | snapshot s d =>
      obtain ⟨n, _, hs⟩ := step_snapshot_eq_some.mp hs
      exact (keeping_eq_some.mp hs).1 ▸ hx
  have := Counter.put_item rfl hput
  rw [hname] at this
  have hnm : l'.state.name = name := by
    obtain ⟨l₀, rfl, -, h0⟩ := hnew.fromMessages
    have f1 := h₁.fromMessages (fun l hl => by cases hl; exact h0) l₁ rfl
    exact (h₂.fromMessages (fun l hl => by cases hl; exact f1) l' rfl).name
  rw [hnm, hg] at hgl
  exact ⟨c'.count, ⟨level, hgl, hitems.subset this⟩, by omega, by omega⟩

/-! ## Example

A processor with a counter. A thread sends an observation at the end of the first run, when the queue was already polled for the
last time. Two snapshots are requested. -/

def backlogProcessor : Processor Empty Nat where
  state := { name := some "p", activity := ⟨0, none, true⟩, handlers := [.instrument ⟨.acceptAll, .counter { name := "c" }, none⟩] }
  receiver := { chan := .fresh (some 10) true [{ todo := [.observation (.observedOne 1 0)] }],
                ahead := List.replicate 1000 [] ++ [[0]] }

def backlogPrograms : List (SendThread (DriverMsg Empty Nat)) :=
  [{ todo := [.addProcessor (.processor backlogProcessor), .getSnapshot 1 false, .getSnapshot 2 false] }]

def backlogDriver : DriverThread Empty Nat :=
  .running { state := { name := some "d", descr := {}, metrics := none, lastOutcomeLogged := -59300000000, strategy := .processAll }
             receiver := { chan := .fresh none true backlogPrograms, ahead := [[0], [0], [0]] } }

example : NewDriver ticking 2 (some "d") {} .processAll false backlogPrograms backlogDriver := ⟨1, _, _, _, rfl, rfl⟩

/-- After the first iteration the message waits. -/
example : (match (backlogDriver.iterations 1 ticking 2).2.2 with
    | .running l => match l.state.at 0 [] with
      | some (.processor p) => (p.waiting.length, p.accepted.length)
      | _ => (0, 0)
    | .ended _ => (0, 0)) = (1, 1) := by decide +kernel

example : backlogProcessor.state.leafAt (.handler 0 0) = some ([], .instrument ⟨.acceptAll, .counter { name := "c" }, none⟩) ∧
    backlogProcessor.state.groupsAt (.handler 0 0) = some ["p"] := ⟨rfl, rfl⟩

/-- **Finding.** The runs are needed: a driver answers a request for a snapshot before it runs its processors, so the snapshot
may lack what had been accepted before the request was received. The next one has it. -/
theorem C74_finding_not_at_once :
    (match (backlogDriver.iterations 1 ticking 2).2.2 with
    | .running l => (l.state.at 0 []).map fun n => match n with
      | .processor p => p.accepted.length
      | _ => 0
    | .ended _ => none) = some 1 ∧
    ((backlogDriver.iterations 3 ticking 2).1.map fun i => i.answered.toList.map fun a => (a.1, uintAt ["d", "p"] "c" a.2)) =
      [[], [(1, some 0)], [(2, some 1)]] := by decide +kernel

end Metrix
