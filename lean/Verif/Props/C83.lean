import Verif.Model.Shutdown
import Verif.Props.C54
import Verif.Props.C66
import Verif.Props.C75

/-!
# C83 Nobody waits for a driver that has ended

When the thread of a driver ends, every processor that was given to the driver is dropped: those it had, those it was just
getting, those in its queue, those that were attached to one of its attached mounts and those that are given to it later.
From then on no thread that sends to one of them waits, also if the queue was full and blocks, and everything sent is lost.
Until then no processor of the driver is dropped.
-/

namespace Metrix

section
variable {μ : Type}

/-- Without a receiver nothing gets into the queue. -/
theorem Channel.run_log (c : Channel μ) (h : c.receiver = false) (s : List Nat) :
    ∃ lost, (c.run s).log = c.log ++ lost ∧ ∀ x ∈ lost, x.accepted = false := by
  induction s generalizing c with
  | nil => exact ⟨[], by simp [Channel.run], by simp⟩
  | cons t s ih =>
    have hr : (c.step t).receiver = false := by rw [Channel.step_receiver]; exact h
    obtain ⟨lost, h1, h2⟩ := ih _ hr
    have hs : ∃ l, (c.step t).log = c.log ++ l ∧ ∀ x ∈ l, x.accepted = false := by
      have hs := Channel.step_spec c t
      generalize c.step t = c' at hs
      cases hs with
      | nothing => exact ⟨[], by simp⟩
      | drop => exact ⟨[], by simp⟩
      | accept _ _ _ _ _ _ h' => rw [h] at h'; cases h'
      | lose => exact ⟨[_], rfl, by simp⟩
    obtain ⟨l, h3, h4⟩ := hs
    refine ⟨l ++ lost, by rw [← List.append_assoc, ← h3]; exact h1, fun x hx => ?_⟩
    rcases List.mem_append.mp hx with hx | hx
    · exact h4 x hx
    · exact h2 x hx

/-- Whoever sends to a processor that was dropped does not wait: each thread has completed one call of `send` for each step
it could take, until it had nothing more to send. Everything sent is lost, and there is nothing in the queue. -/
theorem C83_never_waits (c : Channel μ) (hheld : c.Held) (schedule : List Nat) :
    (∀ t, (c.dropReceiver.run schedule).todo t = (c.todo t).drop (schedule.count t)) ∧
    (c.dropReceiver.run schedule).queue = [] ∧
    ∃ lost, (c.dropReceiver.run schedule).log = c.log ++ lost ∧ ∀ s ∈ lost, s.accepted = false := by
  have key : ∀ (s : List Nat) (c : Channel μ), c.Held → c.receiver = false → c.queue = [] →
      (∀ t, (c.run s).todo t = (c.todo t).drop (s.count t)) ∧ (c.run s).queue = [] := by
    intro s
    induction s with
    | nil => intro c _ _ hq; exact ⟨fun t => by simp [Channel.run], hq⟩
    | cons x s ih =>
      intro c hheld hr hq
      have hr' : (c.step x).receiver = false := by rw [Channel.step_receiver]; exact hr
      have hq' : (c.step x).queue = [] := by
        have hs := Channel.step_spec c x
        generalize c.step x = c' at hs
        cases hs with
        | nothing => exact hq
        | drop => exact hq
        | accept _ _ _ _ _ _ h' => rw [hr] at h'; cases h'
        | lose => exact hq
      obtain ⟨h1, h2⟩ := ih _ (Channel.held_step hheld x) hr' hq'
      refine ⟨fun t => ?_, h2⟩
      show ((c.step x).run s).todo t = _
      rw [h1 t]
      by_cases heq : x = t
      · subst heq
        rw [List.count_cons_self]
        by_cases htd : c.todo x = []
        · have : (c.step x).todo x = [] := by
            have hs := c.step_spec x
            generalize c.step x = c' at hs
            cases hs with
            | nothing => exact htd
            | drop th hth hh htd' =>
              have hlt : x < c.threads.length := (List.getElem?_eq_some_iff.mp hth).1
              simp [Channel.todo, hlt, htd']
            | accept th m rest hth hh htd' => simp [Channel.todo, hth, htd'] at htd
            | lose th m rest hth hh htd' => simp [Channel.todo, hth, htd'] at htd
          simp [this, htd]
        · rw [C75_step c x (hheld x htd), if_neg (by rw [hr]; simp), ← List.drop_one, List.drop_drop, Nat.add_comm]
      · rw [List.count_cons_of_ne heq, c.step_other heq]
  obtain ⟨h1, h2⟩ := key schedule c.dropReceiver hheld rfl rfl
  exact ⟨h1, h2, Channel.run_log c.dropReceiver rfl schedule⟩

end

variable {σ L : Type}

theorem mem_discardsOfNodes {c : Channel (Message σ L)} {n : Node σ L} {ns : List (Node σ L)} (h : n ∈ ns) (hc : c ∈ n.discards) :
    c ∈ discardsOfNodes ns := by
  induction ns with
  | nil => cases h
  | cons x ns ih =>
    rw [discardsOfNodes, List.mem_append]
    rcases List.mem_cons.mp h with rfl | h
    · exact .inl hc
    · exact .inr (ih h)

theorem mem_discardsOfInbox {c : Channel (Message σ L)} {a : Arrivals (Node σ L) (Snapshooter σ L)}
    {inbox : List (Arrivals (Node σ L) (Snapshooter σ L))} (h : a ∈ inbox) (hc : c ∈ discardsOfNodes a.processors) :
    c ∈ discardsOfInbox inbox := by
  induction inbox with
  | nil => cases h
  | cons x inbox ih =>
    obtain ⟨ps, ss, closed⟩ := x
    rw [discardsOfInbox, List.mem_append]
    rcases List.mem_cons.mp h with rfl | h
    · exact .inl hc
    · exact .inr (ih h)

theorem Node.discards_next {c : Channel (Message σ L)} {s : Step} {n m : Node σ L} (h : n.next s = some m) (hc : c ∈ m.discards) :
    c ∈ n.discards := by
  cases s with
  | here i =>
    have hm : m ∈ n.children := List.mem_of_getElem? h
    cases n with
    | processor p => simp [Node.children] at hm
    | mount hd ns ss => exact mem_discardsOfNodes hm hc
    | attached hd ns ss inbox => rw [Node.discards]; exact List.mem_append_left _ (mem_discardsOfNodes hm hc)
    | driver as => simp [Node.children] at hm
    | custom s => simp [Node.children] at hm
  | arriving run i =>
    cases n with
    | attached hd ns ss inbox =>
      simp only [Node.next] at h
      split at h
      · obtain ⟨a, ha, hm⟩ := Option.bind_eq_some_iff.mp h
        rw [Node.discards]
        exact List.mem_append_right _ (mem_discardsOfInbox (List.mem_of_getElem? ha) (mem_discardsOfNodes (List.mem_of_getElem? hm) hc))
      · cases h
    | processor _ => simp [Node.next] at h
    | mount _ _ _ => simp [Node.next] at h
    | driver _ => simp [Node.next] at h
    | custom _ => simp [Node.next] at h

/-- With a component all processors in it, and all that were going to arrive in it, are dropped. -/
theorem Node.discards_reach {route : List Step} {n : Node σ L} {p : Processor σ L} (h : n.reach route = some (.processor p)) :
    p.receiver.chan.dropReceiver ∈ n.discards := by
  induction route generalizing n with
  | nil => cases h; simp [Node.discards]
  | cons s route ih =>
    obtain ⟨m, hm, hr⟩ := Option.bind_eq_some_iff.mp h
    exact Node.discards_next hm (ih hr)

variable [DecidableEq L] [Custom σ L] [CustomProcessor σ]
variable {e : Env} {k k₁ k₂ k₃ : Nat} {name : Option String} {descr : Descr} {strategy : Strategy} {withMetrics : Bool}
  {handles : List (SendThread (DriverMsg σ L))} {t : DriverThread σ L} {log : List (Iteration σ L)} {l : Loop σ L}
  {n : Node σ L} {route : List Step} {p : Processor σ L}

/-- What becomes of a processor in a driver that runs: it is still in it, or will be, and its channel was used by the threads that
send and by the processor only. -/
theorem driven_channel (hc : CustomForward σ L) (hp : CustomProcessorForward σ)
    (hnew : NewDriver e k name descr strategy withMetrics handles t) (h : DriverLife e k t log k₁ (.running l))
    (hadd : .addProcessor n ∈ handled log) (hn : n.reach route = some (.processor p)) :
    ∃ n' ∈ l.state.processors, ∃ route' p', n'.reach route' = some (.processor p') ∧
      ∃ as, NoDrop as ∧ p'.receiver.chan = p.receiver.chan.acts as := by
  obtain ⟨i, hi, hm⟩ := List.mem_filterMap.mp hadd
  obtain ⟨before, after, rfl⟩ := List.append_of_mem hi
  obtain ⟨k₂, n', hk, hlead, hn'⟩ := h.added hc hp (Node.LeadsAll.stepWise hc hp e) hnew hm
  obtain ⟨calls, p', route', hl, -, hr, -⟩ := hlead route p hn
  obtain ⟨consumed, -, htook⟩ := life_story hl
  exact ⟨n', List.mem_of_getElem? hn', route', p', hr, htook.acts⟩

/-- As long as the driver runs, no processor that was added to it is dropped, on its own or within mounts or as something that was
attached later. -/
theorem C83_kept (hc : CustomForward σ L) (hp : CustomProcessorForward σ)
    (hnew : NewDriver e k name descr strategy withMetrics handles t) (h : DriverLife e k t log k₁ (.running l))
    (hadd : .addProcessor n ∈ handled log) (hn : n.reach route = some (.processor p)) (halive : p.receiver.chan.receiver = true) :
    ∃ n' ∈ l.state.processors, ∃ route' p', n'.reach route' = some (.processor p') ∧ p'.receiver.chan.receiver = true ∧
      ∃ as, NoDrop as ∧ p'.receiver.chan = p.receiver.chan.acts as := by
  obtain ⟨n', hn', route', p', hr, as, hno, has⟩ := driven_channel hc hp hnew h hadd hn
  exact ⟨n', hn', route', p', hr, by rw [has]; exact noDrop_alive hno halive, as, hno, has⟩

/-- While it runs on, nothing is dropped. -/
theorem C83_running {l' : Loop σ L} {i : Option (Iteration σ L)} (h : (DriverThread.running l).iterate e k = (.running l', i, k₁)) :
    (DriverThread.running l).discards e k = [] := by
  simp only [DriverThread.discards, h]

/-- The thread of a driver ends in the iteration that begins at `k₂`, in whatever way, and afterwards the handles are still used
(`schedule`). Every processor that was given to the driver is dropped by the end of the thread, or by its handle. This includes
those within mounts and those that are attached to attached mounts. Until then the channel was used by the threads that send and
by the processor only. -/
theorem C83_dropped (hc : CustomForward σ L) (hp : CustomProcessorForward σ)
    (hnew : NewDriver e k name descr strategy withMetrics handles t) (h : DriverLife e k t log k₁ (.running l))
    {c : Channel (DriverMsg σ L)} {i : Option (Iteration σ L)}
    (hend : (DriverThread.running l).iterate e k₂ = (.ended c, i, k₃)) (schedule : List Nat) {u : Nat} {accepted : Bool}
    (hsent : ⟨u, .addProcessor n, accepted⟩ ∈ (c.run schedule).log) (hn : n.reach route = some (.processor p)) :
    ∃ as, NoDrop as ∧ (p.receiver.chan.acts as).dropReceiver ∈
      (DriverThread.running l).discards e k₂ ++ (c.run schedule).log.flatMap Sent.discards := by
  cases accepted with
  | false =>
    refine ⟨[], by simp [NoDrop], List.mem_append_right _ (List.mem_flatMap.mpr ⟨_, hsent, ?_⟩)⟩
    simpa [Sent.discards, DriverMsg.discards, Channel.acts] using Node.discards_reach hn
  | true =>
    obtain ⟨sources, hsrc, -, -, hrunning⟩ := C52_order hnew h
    obtain ⟨l₀, rfl, hchan, -⟩ := hnew.fromMessages
    obtain ⟨as, taken, h1, h2, h3, h4⟩ := h.channel
    have hc0 : (DriverThread.running l₀).channel = .fresh none true handles := hchan
    rw [hc0] at h1 h4
    -- what the last iteration finds
    have hpoll : ∃ (r : Receiver (DriverMsg σ L)) (message : Option (DriverMsg σ L)),
        c = r.chan.dropReceiver ∧ Took l.receiver.chan r.chan message.toList ∧
        (∀ x : Channel (Message σ L), (x ∈ discardsOfNodes l.state.processors ∨ (∃ m ∈ message, x ∈ m.discards) ∨
          ∃ y ∈ r.chan.queue, x ∈ y.2.discards) → x ∈ (DriverThread.running l).discards e k₂) := by
      cases iterates hend with
      | stop hpl =>
        refine ⟨_, none, rfl, (pollDriver_stop hpl).1, fun x hx => ?_⟩
        simp only [DriverThread.discards, hend, hpl, List.mem_append, List.mem_flatMap]
        rcases hx with hx | ⟨m, hm, hx⟩ | hx
        · exact .inl hx
        · cases hm
        · exact .inr hx
      | @panicEarly r m hpl hb =>
        refine ⟨r, m, rfl, pollDriver_go hpl, fun x hx => ?_⟩
        simp only [DriverThread.discards, hend, hpl, List.mem_append, List.mem_flatMap, Option.mem_toList]
        rcases hx with hx | hx | hx
        · exact .inl (.inl hx)
        · exact .inl (.inr hx)
        · exact .inr hx
      | @panicLate r m _ _ _ _ hpl hb hw =>
        refine ⟨r, m, rfl, pollDriver_go hpl, fun x hx => ?_⟩
        simp only [DriverThread.discards, hend, hpl, List.mem_append, List.mem_flatMap, Option.mem_toList]
        rcases hx with hx | hx | hx
        · exact .inl (.inl hx)
        · exact .inl (.inr hx)
        · exact .inr hx
    obtain ⟨r, message, rfl, ⟨⟨as', hno, hacts⟩, new, hnew', htaken⟩, hdis⟩ := hpoll
    obtain ⟨lost, hlog, hlost⟩ := Channel.run_log r.chan.dropReceiver rfl schedule
    rw [hlog] at hsent
    have hin : (u, DriverMsg.addProcessor n) ∈ r.chan.accepted := by
      rcases List.mem_append.mp hsent with hs | hs
      · exact List.mem_map.mpr ⟨_, List.mem_filter.mpr ⟨hs, rfl⟩, rfl⟩
      · exact absurd (hlost _ hs) (by simp)
    have hrchan : r.chan = (Channel.fresh none true handles).acts (as ++ as') := by
      rw [Channel.acts_append, ← h1]; exact hacts
    have hkept : r.chan.Prefix := by
      rw [hrchan]
      exact Channel.acts_induction (fun c a => Channel.prefix_act c a) _ _ ⟨fun _ => rfl, fun h => (nomatch h)⟩
    have halive : r.chan.receiver = true := by
      rw [hrchan]
      refine noDrop_alive (fun a ha => ?_) rfl
      rcases List.mem_append.mp ha with ha | ha
      · exact h2 ⟨l, rfl⟩ a ha
      · exact hno a ha
    have hacc := hkept.1 halive
    unfold Channel.Kept at hacc
    rw [← hacc, htaken] at hin
    have h4' : l.receiver.chan.taken = taken := by
      have : (DriverThread.running l).channel = l.receiver.chan := rfl
      rw [← this, h4]; rfl
    rw [h4'] at hin
    rcases List.mem_append.mp hin with hin | hin
    · rcases List.mem_append.mp hin with hin | hin
      · -- it was handled
        have hadd : DriverMsg.addProcessor n ∈ handled log := by
          rw [← h3]; exact List.mem_map.mpr ⟨_, hin, rfl⟩
        obtain ⟨n', hn', route', p', hr, as'', hno'', has⟩ := driven_channel hc hp hnew h hadd hn
        refine ⟨as'', hno'', List.mem_append_left _ (hdis _ (.inl ?_))⟩
        rw [← has]
        exact mem_discardsOfNodes hn' (Node.discards_reach hr)
      · -- it is being handled
        have hm : DriverMsg.addProcessor n ∈ message.toList := by
          rw [← hnew']; exact List.mem_map.mpr ⟨_, hin, rfl⟩
        refine ⟨[], by simp [NoDrop], List.mem_append_left _ (hdis _ (.inr (.inl ⟨_, Option.mem_toList.mp hm, ?_⟩)))⟩
        exact Node.discards_reach hn
    · -- it is in the queue
      refine ⟨[], by simp [NoDrop], List.mem_append_left _ (hdis _ (.inr (.inr ⟨_, hin, ?_⟩)))⟩
      exact Node.discards_reach hn

/-- So whoever sends to one of these processors waits no more. What each thread still has to send is sent in as many steps, and
lost. -/
theorem C83_nobody_waits (hc : CustomForward σ L) (hp : CustomProcessorForward σ)
    (hnew : NewDriver e k name descr strategy withMetrics handles t) (h : DriverLife e k t log k₁ (.running l))
    {c : Channel (DriverMsg σ L)} {i : Option (Iteration σ L)}
    (hend : (DriverThread.running l).iterate e k₂ = (.ended c, i, k₃)) (schedule : List Nat) {u : Nat} {accepted : Bool}
    (hsent : ⟨u, .addProcessor n, accepted⟩ ∈ (c.run schedule).log) (hn : n.reach route = some (.processor p))
    (hheld : p.receiver.chan.Held) :
    ∃ c' ∈ (DriverThread.running l).discards e k₂ ++ (c.run schedule).log.flatMap Sent.discards,
      (∃ as, NoDrop as ∧ c' = (p.receiver.chan.acts as).dropReceiver) ∧
      ∀ s : List Nat, (∀ t, (c'.run s).todo t = (c'.todo t).drop (s.count t)) ∧ (c'.run s).queue = [] ∧
        ∃ lost, (c'.run s).log = c'.log ++ lost ∧ ∀ x ∈ lost, x.accepted = false := by
  obtain ⟨as, hno, hmem⟩ := C83_dropped hc hp hnew h hend schedule hsent hn
  refine ⟨_, hmem, ⟨as, hno, rfl⟩, fun s => ?_⟩
  have hheld' : (p.receiver.chan.acts as).Held :=
    Channel.acts_induction (P := Channel.Held) (fun c a h => Channel.held_act h a) _ as hheld
  exact C83_never_waits _ hheld' s

/-! ## Examples -/

/-- One handle adds a processor with a blocking queue that is full, and is dropped. A thread waits to send to the processor. -/
def endingPrograms : List (SendThread (DriverMsg Empty Nat)) :=
  [{ todo := [.pause, .addProcessor (.mount { name := some "m", lastActivity := 0 } [.processor fullProcessor] [])] }]

def endingDriver (ahead : List (List Nat)) : DriverThread Empty Nat :=
  .running { state := { name := some "d", descr := {}, metrics := none, lastOutcomeLogged := -59300000000, strategy := .processAll }
             receiver := { chan := .fresh none true endingPrograms, ahead } }

example (ahead : List (List Nat)) : NewDriver ticking 2 (some "d") {} .processAll false endingPrograms (endingDriver ahead) :=
  ⟨1, _, _, _, rfl, rfl⟩

example : (Node.mount { name := some "m", lastActivity := 0 } [.processor fullProcessor] []).reach [.here 0] =
    some (.processor fullProcessor) := rfl

example : fullProcessor.receiver.chan.Held := by
  intro t ht
  match t with
  | 0 => exact ⟨_, rfl, rfl, ht⟩
  | t + 1 => simp [fullProcessor, Channel.todo, Channel.acts, Channel.act, Channel.step, Channel.fresh, Channel.send, Channel.isFull] at ht

/-- What a thread with number 0 has to send to the dropped processors before and after one step. -/
def leftToSend (cs : List (Channel (Message Empty Nat))) : List (Nat × Nat) :=
  cs.map fun c => ((c.todo 0).length, ((c.run [0]).todo 0).length)

/-- The processor has been added when the driver stops. -/
example : (match (endingDriver [[0], [], [0], [], [0]]).iterations 2 ticking 2 with
    | (log, k, t) => ((addedProcessors (handled log)).length, leftToSend (t.discards ticking k))) = (1, [(1, 0)]) := by
  decide +kernel

/-- It is in the queue of the driver when the driver stops. -/
example : leftToSend ((endingDriver [[0, 0, 0]]).discards ticking 2) = [(1, 0)] := by decide +kernel

/-- While the thread runs nothing is dropped. -/
example : leftToSend ((endingDriver [[0], [], [0], [], [0]]).discards ticking 2) = [] := by decide +kernel

end Metrix
