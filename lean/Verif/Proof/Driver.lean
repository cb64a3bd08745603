import Verif.Spec.Driver
import Verif.Proof.Mount
import Verif.Proof.Channel

/-! # Proofs about the driver -/

namespace Metrix
variable {σ L : Type}

/-! ## The channel -/

theorem Took.noMessage {μ : Type} {c c₁ c' : Channel μ} {ms : List μ} (h : Took c c₁ []) (h' : Took c₁ c' ms) : Took c c' ms := by
  simpa using h.trans h'

theorem pollDriver_stop {b : Bool} {r r' : Receiver (DriverMsg σ L)} (h : pollDriver b r = (r', .stop)) :
    Took r.chan r'.chan [] ∧ r'.chan.abandoned = true := by
  unfold pollDriver at h
  simp only at h
  have hw : Took r.chan r.wait.chan [] := .threads r.wait_acts
  split at h
  · rename_i ha
    simp only [Prod.mk.injEq, and_true] at h
    simp only [Bool.and_eq_true] at ha
    subst h; exact ⟨hw, ha.1⟩
  · split at h
    · simp at h
    · simp at h
    · rename_i r₁ hr
      simp only [Prod.mk.injEq, and_true] at h
      subst h
      obtain ⟨h1, _, h3⟩ := Receiver.tryRecv_disconnected hr
      exact ⟨hw.noMessage (.threads h1), h3⟩

theorem pollDriver_go {b : Bool} {r r' : Receiver (DriverMsg σ L)} {m : Option (DriverMsg σ L)} (h : pollDriver b r = (r', .go m)) :
    Took r.chan r'.chan m.toList := by
  unfold pollDriver at h
  simp only at h
  have hw : Took r.chan r.wait.chan [] := .threads r.wait_acts
  split at h
  · simp at h
  · split at h
    · rename_i r₁ m₁ hr
      simp only [Prod.mk.injEq, Polled.go.injEq] at h
      obtain ⟨rfl, rfl⟩ := h
      obtain ⟨s, t, h1, h2⟩ := Receiver.tryRecv_ok hr
      refine hw.noMessage ⟨⟨_, ?_, h1⟩, ⟨_, rfl, h2⟩⟩
      intro a ha
      rcases List.mem_append.mp ha with ha | ha
      · exact Receiver.noDrop_threads s a ha
      · simp at ha; subst ha; simp
    · rename_i r₁ hr
      simp only [Prod.mk.injEq, Polled.go.injEq] at h
      obtain ⟨rfl, rfl⟩ := h
      exact hw.noMessage (.threads (Receiver.tryRecv_empty hr).1)
    · simp at h

/-- The queue only grows at its end while threads take steps. -/
theorem queue_acts {μ : Type} (c : Channel μ) (s : List Nat) :
    ∃ q, (c.acts (s.map .thread)).queue = c.queue ++ q := by
  induction s generalizing c with
  | nil => exact ⟨[], by simp [Channel.acts]⟩
  | cons t s ih =>
    obtain ⟨q, hq⟩ := ih (c.step t)
    have hs : ∃ q, (c.step t).queue = c.queue ++ q := by
      have hs := Channel.step_spec c t
      generalize c.step t = c' at hs
      cases hs with
      | nothing => exact ⟨[], by simp⟩
      | drop => exact ⟨[], by simp⟩
      | accept => exact ⟨_, rfl⟩
      | lose => exact ⟨[], by simp⟩
    obtain ⟨q', hq'⟩ := hs
    exact ⟨q' ++ q, by rw [← List.append_assoc, ← hq']; exact hq⟩

theorem queue_wait {μ : Type} (r : Receiver μ) : ∃ q, r.wait.chan.queue = r.chan.queue ++ q := by
  obtain ⟨s, hs⟩ := r.wait_acts
  rw [hs]; exact queue_acts _ s

/-- What is first in the queue is received. -/
theorem pollDriver_queue {b : Bool} {r r' : Receiver (DriverMsg σ L)} {x : Nat × DriverMsg σ L} {q : List (Nat × DriverMsg σ L)}
    {m : Option (DriverMsg σ L)} (hq : r.chan.queue = x :: q) (h : pollDriver b r = (r', .go m)) :
    m = some x.2 ∧ ∃ q', r'.chan.queue = q ++ q' := by
  unfold pollDriver at h
  simp only at h
  obtain ⟨q₁, h1⟩ := queue_wait r
  obtain ⟨q₂, h2⟩ := queue_wait r.wait
  have hqq : r.wait.wait.chan.queue = x :: (q ++ (q₁ ++ q₂)) := by rw [h2, h1, hq]; simp
  split at h
  · simp at h
  · unfold Receiver.tryRecv at h
    simp only [hqq, Prod.mk.injEq, Polled.go.injEq] at h
    obtain ⟨rfl, rfl⟩ := h
    exact ⟨rfl, q₁ ++ q₂, by simp [Channel.take, hqq]⟩

theorem pollDriver_abandoned {r : Receiver (DriverMsg σ L)} (h : r.chan.abandoned = true) :
    ∃ r', pollDriver false r = (r', .stop) ∧ r'.chan = r.chan := by
  have hw : r.wait.chan = r.chan := by
    unfold Receiver.wait
    split
    · rfl
    · exact Channel.abandoned_run _ _ h
  refine ⟨r.wait, ?_, hw⟩
  unfold pollDriver
  simp [hw, h]

/-- Without handles: what is in the queue may still be received, nothing else. -/
theorem pollDriver_abandoned_go {b : Bool} {r r' : Receiver (DriverMsg σ L)} {m : Option (DriverMsg σ L)}
    (h : r.chan.abandoned = true) (hp : pollDriver b r = (r', .go m)) :
    b = true ∧ ∃ x q, r.chan.queue = x :: q ∧ m = some x.2 ∧ r'.chan.queue = q ∧ r'.chan.abandoned = true := by
  have hw : ∀ r : Receiver (DriverMsg σ L), r.chan.abandoned = true → r.wait.chan = r.chan := by
    intro r h
    unfold Receiver.wait
    split
    · rfl
    · exact Channel.abandoned_run _ _ h
  have h1 := hw r h
  have h2 := hw r.wait (by rw [h1]; exact h)
  cases b with
  | false => obtain ⟨r₁, hr₁, -⟩ := pollDriver_abandoned h; rw [hr₁] at hp; cases hp
  | true =>
    refine ⟨rfl, ?_⟩
    unfold pollDriver Receiver.tryRecv at hp
    simp only [Bool.not_true, Bool.and_false, Bool.false_eq_true, if_false, h2, h1, h, if_true] at hp
    cases hq : r.chan.queue with
    | nil => simp [hq] at hp
    | cons x q =>
      simp only [hq, Prod.mk.injEq, Polled.go.injEq] at hp
      obtain ⟨rfl, rfl⟩ := hp
      refine ⟨x, q, rfl, rfl, ?_, ?_⟩
      · simp [Channel.take, hq]
      · simp only [Channel.take, hq]; exact h

/-! ## One iteration -/

variable [DecidableEq L] [Custom σ L] [CustomProcessor σ]

/-- The cases of an iteration. -/
inductive Iterates (e : Env) (k : Nat) (l : Loop σ L) : DriverThread σ L → Option (Iteration σ L) → Nat → Prop
  | stop {r} : pollDriver (l.blind.headD false) l.receiver = (r, .stop) → Iterates e k l (.ended r.chan.dropReceiver) none k
  | panicEarly {r m} : pollDriver (l.blind.headD false) l.receiver = (r, .go m) → l.state.begin m e k = none →
      Iterates e k l (.ended r.chan.dropReceiver) (some { message := m }) k
  | panicLate {r m s started answer k₁} : pollDriver (l.blind.headD false) l.receiver = (r, .go m) →
      l.state.begin m e k = some ((s, started, answer), k₁) → s.work started e k₁ = none →
      Iterates e k l (.ended r.chan.dropReceiver) (some { message := m, answer }) k₁
  | done {r m s started answer k₁ s' outcome rest k₂} : pollDriver (l.blind.headD false) l.receiver = (r, .go m) →
      l.state.begin m e k = some ((s, started, answer), k₁) → s.work started e k₁ = some ((s', outcome, rest), k₂) →
      Iterates e k l (.running ⟨s', r, l.blind.tail⟩) (some { message := m, answer, outcome, rest }) k₂

theorem iterates {e : Env} {k k' : Nat} {l : Loop σ L} {t : DriverThread σ L} {i : Option (Iteration σ L)}
    (h : (DriverThread.running l).iterate e k = (t, i, k')) : Iterates e k l t i k' := by
  unfold DriverThread.iterate at h
  simp only at h
  rcases hp : pollDriver (l.blind.headD false) l.receiver with ⟨r, p⟩
  cases p with
  | stop =>
    simp only [hp, Prod.mk.injEq] at h
    obtain ⟨rfl, rfl, rfl⟩ := h
    exact .stop hp
  | go m =>
    simp only [hp] at h
    cases hb : l.state.begin m e k with
    | none =>
      simp only [hb, Prod.mk.injEq] at h
      obtain ⟨rfl, rfl, rfl⟩ := h
      exact .panicEarly hp hb
    | some x =>
      obtain ⟨⟨s, started, answer⟩, k₁⟩ := x
      simp only [hb] at h
      cases hw : s.work started e k₁ with
      | none =>
        simp only [hw, Prod.mk.injEq] at h
        obtain ⟨rfl, rfl, rfl⟩ := h
        exact .panicLate hp hb hw
      | some y =>
        obtain ⟨⟨s', outcome, rest⟩, k₂⟩ := y
        simp only [hw, Prod.mk.injEq] at h
        obtain ⟨rfl, rfl, rfl⟩ := h
        exact .done hp hb hw

theorem iterate_ended {e : Env} {k k' : Nat} {c : Channel (DriverMsg σ L)} {t : DriverThread σ L}
    {i : Option (Iteration σ L)} (h : (DriverThread.ended c).iterate e k = (t, i, k')) : t = .ended c ∧ i = none ∧ k' = k := by
  simp only [DriverThread.iterate, Prod.mk.injEq] at h
  exact ⟨h.1.symm, h.2.1.symm, h.2.2.symm⟩

theorem DriverLife.ofIterations (n : Nat) (t : DriverThread σ L) (e : Env) (k : Nat) :
    DriverLife e k t (t.iterations n e k).1 (t.iterations n e k).2.1 (t.iterations n e k).2.2 := by
  induction n generalizing t k with
  | zero => exact .nil (Nat.le_refl _)
  | succ n ih =>
    rcases hi : t.iterate e k with ⟨t₁, i, k₁⟩
    simp only [DriverThread.iterations, hi]
    cases i with
    | none => exact .over (Nat.le_refl _) hi (ih _ _)
    | some i => exact .iteration (Nat.le_refl _) hi (ih _ _)

/-- After its end the thread does nothing. -/
theorem DriverLife.ended {e : Env} {k k' : Nat} {t t' : DriverThread σ L} {log : List (Iteration σ L)}
    (h : DriverLife e k t log k' t') {c : Channel (DriverMsg σ L)} (ht : t = .ended c) :
    log = [] ∧ ∃ s, t' = .ended (c.run s) := by
  induction h generalizing c with
  | nil => exact ⟨rfl, [], ht⟩
  | iteration _ hi _ ih => subst ht; have := (iterate_ended hi).2.1; simp at this
  | over _ hi _ ih => subst ht; exact ih (iterate_ended hi).1
  | @others k k' c' s log t' h ih =>
    cases ht
    obtain ⟨h1, s', h2⟩ := ih rfl
    exact ⟨h1, s ++ s', by rw [h2]; simp [Channel.run]⟩

/-- What happens to the channel. -/
theorem DriverLife.channel {e : Env} {k k' : Nat} {t t' : DriverThread σ L} {log : List (Iteration σ L)}
    (h : DriverLife e k t log k' t') :
    ∃ as l, t'.channel = t.channel.acts as ∧ (t'.Runs → NoDrop as) ∧ l.map (·.2) = handled log ∧
      t'.channel.taken = t.channel.taken ++ l := by
  induction h with
  | nil => exact ⟨[], [], rfl, fun _ => by simp [NoDrop], rfl, by simp⟩
  | @iteration k k₁ k₂ k' t t₁ t' i log _ hi hl ih =>
    cases t with
    | ended c => have := (iterate_ended hi).2.1; simp at this
    | running l =>
      have key : ∃ r : Receiver (DriverMsg σ L), Took l.receiver.chan r.chan i.message.toList ∧
          (t₁.channel = r.chan ∨ (t₁ = .ended r.chan.dropReceiver)) := by
        cases iterates hi with
        | panicEarly hp hb => exact ⟨_, pollDriver_go hp, .inr rfl⟩
        | panicLate hp hb hw => exact ⟨_, pollDriver_go hp, .inr rfl⟩
        | done hp hb hw => exact ⟨_, pollDriver_go hp, .inl rfl⟩
      obtain ⟨r, ⟨⟨as₁, hno, hacts⟩, l₁, hl₁, htaken⟩, hr⟩ := key
      obtain ⟨as₂, l₂, h1, h2, h3, h4⟩ := ih
      have hh : handled (i :: log) = i.message.toList ++ handled log := by
        cases hm : i.message <;> simp [handled, hm]
      rcases hr with hr | rfl
      · refine ⟨as₁ ++ as₂, l₁ ++ l₂, ?_, fun hrun a ha => ?_, ?_, ?_⟩
        · rw [h1, hr, hacts, ← Channel.acts_append]; rfl
        · rcases List.mem_append.mp ha with ha | ha
          · exact hno a ha
          · exact h2 hrun a ha
        · rw [List.map_append, hl₁, h3, hh]
        · rw [h4, hr, htaken]; simp [DriverThread.channel]
      · refine ⟨as₁ ++ .dropReceiver :: as₂, l₁ ++ l₂, ?_, fun hrun => ?_, ?_, ?_⟩
        · rw [h1, Channel.acts_append]
          show _ = ((l.receiver.chan.acts as₁).act .dropReceiver).acts as₂
          rw [← hacts]; rfl
        · obtain ⟨_, s, hs⟩ := hl.ended rfl
          obtain ⟨l', hl'⟩ := hrun
          rw [hs] at hl'; cases hl'
        · rw [List.map_append, hl₁, h3, hh]
        · rw [h4]
          show r.chan.dropReceiver.taken ++ l₂ = _
          simp only [Channel.dropReceiver]
          rw [htaken]; simp [DriverThread.channel]
  | @over k k₁ k₂ k' t t₁ t' log _ hi hl ih =>
    cases t with
    | ended c => obtain ⟨rfl, _, _⟩ := iterate_ended hi; exact ih
    | running l =>
      obtain ⟨as₂, l₂, h1, h2, h3, h4⟩ := ih
      cases iterates hi with
      | stop hp =>
        rename_i r
        obtain ⟨⟨⟨as₁, hno, hacts⟩, l₁, hl₁, htaken⟩, _⟩ := pollDriver_stop hp
        refine ⟨as₁ ++ .dropReceiver :: as₂, l₂, ?_, fun hrun => ?_, h3, ?_⟩
        · rw [h1, Channel.acts_append]
          show _ = ((l.receiver.chan.acts as₁).act .dropReceiver).acts as₂
          rw [← hacts]; rfl
        · obtain ⟨_, s, hs⟩ := hl.ended rfl
          obtain ⟨l', hl'⟩ := hrun
          rw [hs] at hl'; cases hl'
        · rw [h4]
          show r.chan.dropReceiver.taken ++ l₂ = _
          simp only [Channel.dropReceiver]
          have : l₁ = [] := by simpa using hl₁
          rw [htaken, this]; simp [DriverThread.channel]
  | @others k k' c s log t' hl ih =>
    obtain ⟨as, l, h1, h2, h3, h4⟩ := ih
    refine ⟨s.map .thread ++ as, l, ?_, fun hrun => ?_, h3, ?_⟩
    · rw [h1, Channel.acts_append]; simp [DriverThread.channel, Channel.run_eq_acts]
    · obtain ⟨_, s', hs⟩ := hl.ended rfl
      obtain ⟨l', hl'⟩ := hrun
      rw [hs] at hl'; cases hl'
    · rw [h4]; simp only [DriverThread.channel]; rw [Channel.run_eq_acts, Receiver.taken_threads]

/-! ## The state of the loop -/

omit [DecidableEq L] in
theorem putNodes_inTurn {e : Env} {d : Bool} {ns ns' : List (Node σ L)} {into into' : Snapshot} {k k' : Nat}
    (h : putNodes d ns into e k = some ((ns', into'), k')) : PutInTurn (Node.putSnapshot d) e k ns into ns' into' k' := by
  induction ns generalizing ns' into k with
  | nil =>
    simp only [putNodes, M.run_pure, Option.some.injEq, Prod.mk.injEq] at h
    obtain ⟨⟨rfl, rfl⟩, rfl⟩ := h; exact .nil
  | cons s ss ih =>
    simp only [putNodes, M.bind_eq_some, M.run_pure, Option.some.injEq, Prod.mk.injEq] at h
    obtain ⟨⟨s₁, i₁⟩, k₁, h1, ⟨ss₁, i₂⟩, k₂, h2, ⟨rfl, rfl⟩, rfl⟩ := h
    exact .cons h1 (ih h2)

omit [DecidableEq L] [CustomProcessor σ] in
theorem putSnapshooters_inTurn {e : Env} {d : Bool} {ss ss' : List (Snapshooter σ L)} {into into' : Snapshot} {k k' : Nat}
    (h : putSnapshooters d ss into e k = some ((ss', into'), k')) :
    PutInTurn (Snapshooter.putSnapshot d) e k ss into ss' into' k' := by
  induction ss generalizing ss' into k with
  | nil =>
    simp only [putSnapshooters, M.run_pure, Option.some.injEq, Prod.mk.injEq] at h
    obtain ⟨⟨rfl, rfl⟩, rfl⟩ := h; exact .nil
  | cons s ss ih =>
    simp only [putSnapshooters, M.bind_eq_some, M.run_pure, Option.some.injEq, Prod.mk.injEq] at h
    obtain ⟨⟨s₁, i₁⟩, k₁, h1, ⟨ss₁, i₂⟩, k₂, h2, ⟨rfl, rfl⟩, rfl⟩ := h
    exact .cons h1 (ih h2)

theorem driverTexts_eq (descr : Descr) (d : Bool) : putDefaultDescriptives descr [] d = driverTexts descr d := by
  obtain ⟨t, ds⟩ := descr
  cases d <;> cases t <;> cases ds <;>
    simp [putDefaultDescriptives, driverTexts, putDescriptives, putText, Snapshot.hasName, Snapshot.push]

omit [DecidableEq L] in
/-- What a snapshot consists of. -/
theorem addSnapshotValues_spec {l l' : LoopState σ L} {d : Bool} {started : Int} {into s : Snapshot} {e : Env} {k k' : Nat}
    (h : l.addSnapshotValues into d started e k = some ((l', s), k')) :
    ∃ ps ss items₁ items₂ k₁ k₂ metrics entry,
      PutInTurn (Node.putSnapshot d) e k l.processors (putDefaultDescriptives l.descr into d) ps items₁ k₁ ∧
      PutInTurn (Snapshooter.putSnapshot d) e k₁ l.snapshooters items₁ ss items₂ k₂ ∧
      s = items₂ ++ entry ∧ MetricsEntry l.metrics.isSome entry ∧ metrics.isSome = l.metrics.isSome ∧
      l' = { l with processors := ps, snapshooters := ss, metrics } ∧
      (match (generalizing := false) l.metrics with
        | none => metrics = none ∧ k' = k₂
        | some i => ∃ i₁ i₂ k₃, i.updatePostSnapshot started e k₂ = some (i₁, k₃) ∧
            i₁.putSnapshot items₂ d e k₃ = some ((i₂, s), k') ∧ metrics = some i₂) := by
  unfold LoopState.addSnapshotValues at h
  simp only [M.bind_eq_some] at h
  obtain ⟨⟨ps, items₁⟩, k₁, h1, ⟨ss, items₂⟩, k₂, h2, h3⟩ := h
  refine ⟨ps, ss, items₁, items₂, k₁, k₂, ?_⟩
  cases hm : l.metrics with
  | none =>
    simp only [hm, M.run_pure, Option.some.injEq, Prod.mk.injEq] at h3
    obtain ⟨⟨rfl, rfl⟩, rfl⟩ := h3
    exact ⟨none, [], putNodes_inTurn h1, putSnapshooters_inTurn h2, by simp, by simp [MetricsEntry], rfl,
      by rw [← hm], rfl, rfl⟩
  | some i =>
    simp only [hm, M.bind_eq_some, M.run_pure, Option.some.injEq, Prod.mk.injEq] at h3
    obtain ⟨i₁, k₃, h3, ⟨i₂, s'⟩, k₄, h4, ⟨rfl, rfl⟩, rfl⟩ := h3
    have h4' := h4
    unfold DriverInstruments.putSnapshot at h4
    simp only [M.bind_eq_some, M.run_pure, Option.some.injEq, Prod.mk.injEq] at h4
    have : ∃ c, s' = items₂ ++ [("_metrix", .snapshot c)] := by
      obtain ⟨_, _, _, _, _, _, _, _, _, _, _, _, _, _, _, _, _, _, _, _, _, _, _, _, _, _, _, _, _, _, _, _, _, _, _, _, _, _, _, _, _, _, ⟨_, hs⟩, _⟩ := h4
      exact ⟨_, hs.symm⟩
    obtain ⟨c, rfl⟩ := this
    exact ⟨some i₂, _, putNodes_inTurn h1, putSnapshooters_inTurn h2, rfl, ⟨c, rfl⟩, rfl, rfl, i₁, i₂, k₃, h3, h4', rfl⟩

omit [DecidableEq L] in
theorem makeSnapshot_spec {l l' : LoopState σ L} {d : Bool} {s : Snapshot} {e : Env} {k k' : Nat}
    (h : l.makeSnapshot d e k = some ((l', s), k')) :
    ∃ level, l.addSnapshotValues [] d (e.clock k) e (k + 1) = some ((l', level), k') ∧ s = grouped l.name level := by
  unfold LoopState.makeSnapshot at h
  simp only [M.bind_eq_some, M.run_now, Option.some.injEq, Prod.mk.injEq] at h
  obtain ⟨_, _, ⟨rfl, rfl⟩, h⟩ := h
  cases hn : l.name with
  | none => simp only [hn] at h; exact ⟨s, h, rfl⟩
  | some n =>
    simp only [hn, M.bind_eq_some, M.run_pure, Option.some.injEq, Prod.mk.injEq] at h
    obtain ⟨⟨l₁, level⟩, k₁, h, ⟨rfl, rfl⟩, rfl⟩ := h
    exact ⟨level, h, rfl⟩

/-- How the variables of the loop come from the messages handled so far. -/
structure FromMessages (e : Env) (name : Option String) (descr : Descr) (strategy : Strategy) (withMetrics : Bool)
    (ms : List (DriverMsg σ L)) (l : LoopState σ L) : Prop where
  name : l.name = name
  descr : l.descr = descr
  processors : List.Forall₂ (Node.Became e) (addedProcessors ms) l.processors
  snapshooters : List.Forall₂ (Snapshooter.Became e) (addedSnapshooters ms) l.snapshooters
  strategy : l.strategy = strategyAfter strategy ms
  paused : l.paused = pausedAfter ms
  metrics : l.metrics.isSome = withMetrics

theorem PutInTurn.each {X : Type} {put : X → Snapshot → M (X × Snapshot)} {e : Env} {k k' : Nat} {xs xs' : List X}
    {into into' : Snapshot} (h : PutInTurn put e k xs into xs' into' k') :
    List.Forall₂ (fun x x' => ∃ i i' j j', put x i e j = some ((x', i'), j')) xs xs' := by
  induction h with
  | nil => exact .nil
  | cons hp _ ih => exact .cons ⟨_, _, _, _, hp⟩ ih

theorem PutInTurn.became {e : Env} {d : Bool} {k k' : Nat} {ns ns' : List (Node σ L)} {into into' : Snapshot}
    (h : PutInTurn (Node.putSnapshot d) e k ns into ns' into' k') : List.Forall₂ (Node.Became e) ns ns' :=
  h.each.imp fun _ _ ⟨_, _, _, _, h⟩ => .snapshot .refl h

omit [DecidableEq L] [CustomProcessor σ] in
theorem PutInTurn.becameS {e : Env} {d : Bool} {k k' : Nat} {ns ns' : List (Snapshooter σ L)} {into into' : Snapshot}
    (h : PutInTurn (Snapshooter.putSnapshot d) e k ns into ns' into' k') : List.Forall₂ (Snapshooter.Became e) ns ns' :=
  h.each.imp fun _ _ ⟨_, _, _, _, h⟩ => .snapshot .refl h

theorem became_trans {e : Env} {a b c : List (Node σ L)} (h : List.Forall₂ (Node.Became e) a b)
    (h' : List.Forall₂ (Node.Became e) b c) : List.Forall₂ (Node.Became e) a c :=
  forall₂_comp (R := Node.Became e) (S := Node.Became e) (fun _ _ _ => Node.Became.trans) h h'

omit [DecidableEq L] [CustomProcessor σ] in
theorem becameS_trans {e : Env} {a b c : List (Snapshooter σ L)} (h : List.Forall₂ (Snapshooter.Became e) a b)
    (h' : List.Forall₂ (Snapshooter.Became e) b c) : List.Forall₂ (Snapshooter.Became e) a c :=
  forall₂_comp (R := Snapshooter.Became e) (S := Snapshooter.Became e) (fun _ _ _ => Snapshooter.Became.trans) h h'

theorem handle_fromMessages {e : Env} {name : Option String} {descr : Descr} {strategy : Strategy} {wm : Bool}
    {ms : List (DriverMsg σ L)} {l l' : LoopState σ L} {m : DriverMsg σ L} {answer : Option Snapshot} {k k' : Nat}
    (hl : FromMessages e name descr strategy wm ms l) (h : l.handle m e k = some ((l', answer), k')) :
    FromMessages e name descr strategy wm (ms ++ [m]) l' := by
  obtain ⟨h1, h2, h3, h4, h5, h6, h7⟩ := hl
  cases m with
  | getSnapshot id d =>
    simp only [LoopState.handle, M.bind_eq_some, M.run_pure, Option.some.injEq, Prod.mk.injEq] at h
    obtain ⟨⟨l₁, s⟩, k₁, h, ⟨rfl, rfl⟩, rfl⟩ := h
    obtain ⟨level, hv, rfl⟩ := makeSnapshot_spec h
    obtain ⟨ps, ss, items₁, items₂, k₁, k₂, metrics, entry, hp, hs, -, -, hm, rfl, -⟩ := addSnapshotValues_spec hv
    refine ⟨h1, h2, ?_, ?_, by simpa [strategyAfter] using h5, by simpa [pausedAfter] using h6, hm.trans h7⟩
    · simpa [addedProcessors] using became_trans h3 hp.became
    · simpa [addedSnapshooters] using becameS_trans h4 hs.becameS
  | addProcessor n =>
    simp only [LoopState.handle, M.run_pure, Option.some.injEq, Prod.mk.injEq] at h
    obtain ⟨⟨rfl, rfl⟩, rfl⟩ := h
    refine ⟨h1, h2, ?_, by simpa [addedSnapshooters] using h4, by simpa [strategyAfter] using h5,
      by simpa [pausedAfter] using h6, h7⟩
    simpa [addedProcessors] using List.rel_append h3 (List.Forall₂.cons (Node.Became.refl (e := e)) .nil)
  | addSnapshooter n =>
    simp only [LoopState.handle, M.run_pure, Option.some.injEq, Prod.mk.injEq] at h
    obtain ⟨⟨rfl, rfl⟩, rfl⟩ := h
    refine ⟨h1, h2, by simpa [addedProcessors] using h3, ?_, by simpa [strategyAfter] using h5,
      by simpa [pausedAfter] using h6, h7⟩
    simpa [addedSnapshooters] using List.rel_append h4 (List.Forall₂.cons (Snapshooter.Became.refl (e := e)) .nil)
  | setStrategy s =>
    simp only [LoopState.handle, M.run_pure, Option.some.injEq, Prod.mk.injEq] at h
    obtain ⟨⟨rfl, rfl⟩, rfl⟩ := h
    exact ⟨h1, h2, by simpa [addedProcessors] using h3, by simpa [addedSnapshooters] using h4, by simp [strategyAfter],
      by simpa [pausedAfter] using h6, h7⟩
  | pause =>
    simp only [LoopState.handle, M.run_pure, Option.some.injEq, Prod.mk.injEq] at h
    obtain ⟨⟨rfl, rfl⟩, rfl⟩ := h
    exact ⟨h1, h2, by simpa [addedProcessors] using h3, by simpa [addedSnapshooters] using h4,
      by simpa [strategyAfter] using h5, by simp [pausedAfter], h7⟩
  | resume =>
    simp only [LoopState.handle, M.run_pure, Option.some.injEq, Prod.mk.injEq] at h
    obtain ⟨⟨rfl, rfl⟩, rfl⟩ := h
    exact ⟨h1, h2, by simpa [addedProcessors] using h3, by simpa [addedSnapshooters] using h4,
      by simpa [strategyAfter] using h5, by simp [pausedAfter], h7⟩

omit [DecidableEq L] in
theorem begin_spec {l l' : LoopState σ L} {m : Option (DriverMsg σ L)} {started : Int} {answer : Option Snapshot} {e : Env}
    {k k' : Nat} (h : l.begin m e k = some ((l', started, answer), k')) :
    started = e.clock k ∧ ((m = none ∧ l' = l ∧ answer = none ∧ k' = k + 1) ∨
      ∃ m', m = some m' ∧ l.handle m' e (k + 1) = some ((l', answer), k')) := by
  unfold LoopState.begin at h
  simp only [M.bind_eq_some, M.run_now, Option.some.injEq, Prod.mk.injEq] at h
  obtain ⟨_, _, ⟨rfl, rfl⟩, h⟩ := h
  cases m with
  | none =>
    simp only [M.run_pure, Option.some.injEq, Prod.mk.injEq] at h
    obtain ⟨⟨rfl, rfl, rfl⟩, rfl⟩ := h
    exact ⟨rfl, .inl ⟨rfl, rfl, rfl, rfl⟩⟩
  | some m =>
    simp only [M.bind_eq_some, M.run_pure, Option.some.injEq, Prod.mk.injEq] at h
    obtain ⟨⟨l₁, a⟩, k₁, h, ⟨rfl, rfl, rfl⟩, rfl⟩ := h
    exact ⟨rfl, .inr ⟨m, rfl, h⟩⟩

theorem begin_fromMessages {e : Env} {name : Option String} {descr : Descr} {strategy : Strategy} {wm : Bool}
    {ms : List (DriverMsg σ L)} {l l' : LoopState σ L} {m : Option (DriverMsg σ L)} {started : Int}
    {answer : Option Snapshot} {k k' : Nat} (hl : FromMessages e name descr strategy wm ms l)
    (h : l.begin m e k = some ((l', started, answer), k')) : FromMessages e name descr strategy wm (ms ++ m.toList) l' := by
  rcases (begin_spec h).2 with ⟨rfl, rfl, _, _⟩ | ⟨m', rfl, hh⟩
  · simpa using hl
  · exact handle_fromMessages hl hh

omit [DecidableEq L] [Custom σ L] [CustomProcessor σ] in
theorem logDropped_spec {l l' : LoopState σ L} {n : Nat} {e : Env} {k k' : Nat} (h : l.logDropped n e k = some (l', k')) :
    k ≤ k' ∧ ∃ t c w, l' = { l with lastOutcomeLogged := t, droppedSinceLastLogged := c, warned := w } := by
  unfold LoopState.logDropped at h
  simp only at h
  split at h
  · simp only [M.bind_eq_some, M.run_now, Option.some.injEq, Prod.mk.injEq] at h
    obtain ⟨_, _, ⟨rfl, rfl⟩, h⟩ := h
    split at h
    · simp only [M.bind_eq_some, M.run_now, M.run_readings, M.run_pure, Option.some.injEq, Prod.mk.injEq] at h
      obtain ⟨_, _, ⟨rfl, rfl⟩, _, _, ⟨rfl, rfl⟩, rfl, rfl⟩ := h
      exact ⟨by omega, _, _, _, rfl⟩
    · simp only [M.run_pure, Option.some.injEq, Prod.mk.injEq] at h
      obtain ⟨rfl, rfl⟩ := h
      exact ⟨by omega, _, _, _, rfl⟩
  · simp only [M.run_pure, Option.some.injEq, Prod.mk.injEq] at h
    obtain ⟨rfl, rfl⟩ := h
    exact ⟨by omega, _, _, _, rfl⟩

omit [DecidableEq L] [Custom σ L] [CustomProcessor σ] in
theorem noteRun_spec {l l' : LoopState σ L} {o : Outcome} {started : Int} {e : Env} {k k' : Nat}
    (h : l.noteRun o started e k = some (l', k')) :
    ∃ metrics, l' = { l with metrics } ∧ metrics.isSome = l.metrics.isSome ∧
      (match (generalizing := false) l.metrics with
        | none => metrics = none ∧ k' = k
        | some i => ∃ i', i.updatePostCollection o started e k = some (i', k') ∧ metrics = some i') := by
  unfold LoopState.noteRun at h
  cases hm : l.metrics with
  | none =>
    simp only [hm, M.run_pure, Option.some.injEq, Prod.mk.injEq] at h
    obtain ⟨rfl, rfl⟩ := h
    exact ⟨none, by rw [← hm], rfl, rfl, rfl⟩
  | some i =>
    simp only [hm, M.bind_eq_some, M.run_pure, Option.some.injEq, Prod.mk.injEq] at h
    obtain ⟨i', _, h, rfl, rfl⟩ := h
    exact ⟨some i', rfl, rfl, i', h, rfl⟩

omit [DecidableEq L] [Custom σ L] [CustomProcessor σ] in
theorem reportElapsed_spec {l l' : LoopState σ L} {started : Int} {runTime : Nat} {e : Env} {k k' : Nat}
    (h : l.reportElapsed started runTime e k = some (l', k')) :
    ∃ metrics, l' = { l with metrics } ∧ metrics.isSome = l.metrics.isSome ∧
      (match (generalizing := false) l.metrics with
        | none => metrics = none ∧ k' = k
        | some i => (metrics = some i ∧ k' = k + 1) ∨
            ∃ i' ratio, i.updateRunRatio ratio e (k + 1) = some (i', k') ∧ metrics = some i') := by
  unfold LoopState.reportElapsed at h
  cases hm : l.metrics with
  | none =>
    simp only [hm, M.run_pure, Option.some.injEq, Prod.mk.injEq] at h
    obtain ⟨rfl, rfl⟩ := h
    exact ⟨none, by rw [← hm], rfl, rfl, rfl⟩
  | some i =>
    simp only [hm, asSecsF64, M.bind_eq_some, M.run_now, M.run_env, M.run_pure, Option.some.injEq, Prod.mk.injEq] at h
    obtain ⟨_, _, ⟨rfl, rfl⟩, _, _, ⟨_, _, ⟨rfl, rfl⟩, rfl, rfl⟩, _, _, ⟨_, _, ⟨rfl, rfl⟩, rfl, rfl⟩, h⟩ := h
    split at h
    · simp only [M.bind_eq_some, M.run_env, M.run_pure, Option.some.injEq, Prod.mk.injEq] at h
      obtain ⟨_, _, ⟨rfl, rfl⟩, i', _, h, rfl, rfl⟩ := h
      exact ⟨some i', rfl, rfl, .inr ⟨i', _, h, rfl⟩⟩
    · simp only [M.run_pure, Option.some.injEq, Prod.mk.injEq] at h
      obtain ⟨rfl, rfl⟩ := h
      exact ⟨some i, by rw [← hm], rfl, .inl ⟨rfl, rfl⟩⟩

/-- What the second part of an iteration does. -/
theorem work_spec {l l' : LoopState σ L} {started : Int} {outcome : Option Outcome} {rest : Option Nap} {e : Env} {k k' : Nat}
    (h : l.work started e k = some ((l', outcome, rest), k')) :
    (l.paused = true ∧ outcome = none ∧ l' = l ∧ k' = k) ∨
    (l.paused = false ∧ ∃ o ps k₁ t c w l₁ k₂ k₃, outcome = some o ∧
      processNodes 1000 l.strategy l.processors e (k + 1) = some ((ps, o), k₁) ∧
      l₁ = { l with processors := ps, lastOutcomeLogged := t, droppedSinceLastLogged := c, warned := w } ∧ k₁ + 1 ≤ k₂ ∧
      ∃ l₂, l₁.noteRun o (e.clock k) e k₂ = some (l₂, k₃) ∧
        ((l' = l₂ ∧ k' = k₃) ∨ ∃ runTime, l₂.reportElapsed started runTime e (k₃ + 1) = some (l', k'))) := by
  unfold LoopState.work at h
  cases hp : l.paused with
  | true =>
    simp only [hp, if_true, M.run_bind_some (M.run_readings e k), M.run_pure, Option.some.injEq, Prod.mk.injEq] at h
    obtain ⟨⟨rfl, rfl, -⟩, rfl⟩ := h
    exact .inl ⟨rfl, rfl, rfl, rfl⟩
  | false =>
    refine .inr ⟨rfl, ?_⟩
    simp only [hp, Bool.false_eq_true, if_false, M.bind_eq_some, M.run_now, Option.some.injEq, Prod.mk.injEq] at h
    obtain ⟨_, _, ⟨rfl, rfl⟩, ⟨ps, o⟩, k₁, h1, _, _, ⟨rfl, rfl⟩, l₁, k₂, h2, l₂, k₃, h3, h⟩ := h
    obtain ⟨hk, t, c, w, rfl⟩ := logDropped_spec h2
    refine ⟨o, ps, k₁, t, c, w, _, k₂, k₃, ?_, h1, rfl, hk, l₂, h3, ?_⟩
    · split at h
      · simp only [M.run_pure, Option.some.injEq, Prod.mk.injEq] at h
        exact h.1.2.1.symm
      · simp only [M.bind_eq_some, M.run_now, M.run_readings, M.run_pure, Option.some.injEq, Prod.mk.injEq] at h
        obtain ⟨_, _, _, _, _, _, _, _, _, ⟨_, rfl, _⟩, _⟩ := h
        rfl
    · split at h
      · simp only [M.run_pure, Option.some.injEq, Prod.mk.injEq] at h
        exact .inl ⟨h.1.1.symm, h.2.symm⟩
      · simp only [M.bind_eq_some, M.run_now, M.run_readings, M.run_pure, Option.some.injEq, Prod.mk.injEq] at h
        obtain ⟨_, _, ⟨rfl, rfl⟩, _, _, ⟨rfl, rfl⟩, _, _, h, ⟨rfl, rfl, rfl⟩, rfl⟩ := h
        exact .inr ⟨_, h⟩

/-- Only the metrics and the times are different. -/
theorem work_state {l l' : LoopState σ L} {started : Int} {outcome : Option Outcome} {rest : Option Nap} {e : Env} {k k' : Nat}
    (h : l.work started e k = some ((l', outcome, rest), k')) :
    (l.paused = true ∧ outcome = none ∧ l' = l) ∨
    (l.paused = false ∧ ∃ o k₁, outcome = some o ∧
      processNodes 1000 l.strategy l.processors e (k + 1) = some ((l'.processors, o), k₁) ∧
      l'.name = l.name ∧ l'.descr = l.descr ∧ l'.snapshooters = l.snapshooters ∧ l'.strategy = l.strategy ∧
      l'.paused = l.paused ∧ l'.metrics.isSome = l.metrics.isSome) := by
  rcases work_spec h with ⟨h1, h2, h3, _⟩ | ⟨h1, o, ps, k₁, t, c, w, l₁, k₂, k₃, h2, h3, h4, _, l₂, h5, h6⟩
  · exact .inl ⟨h1, h2, h3⟩
  · refine .inr ⟨h1, o, k₁, h2, ?_⟩
    obtain ⟨m₂, rfl, hm₂, _⟩ := noteRun_spec h5
    rcases h6 with ⟨rfl, _⟩ | ⟨runTime, h6⟩
    · subst h4
      exact ⟨h3, rfl, rfl, rfl, rfl, rfl, hm₂⟩
    · obtain ⟨m₃, rfl, hm₃, _⟩ := reportElapsed_spec h6
      subst h4
      exact ⟨h3, rfl, rfl, rfl, rfl, rfl, hm₃.trans hm₂⟩

theorem work_fromMessages {e : Env} {name : Option String} {descr : Descr} {strategy : Strategy} {wm : Bool}
    {ms : List (DriverMsg σ L)} {l l' : LoopState σ L} {started : Int} {outcome : Option Outcome} {rest : Option Nap} {k k' : Nat}
    (hl : FromMessages e name descr strategy wm ms l) (h : l.work started e k = some ((l', outcome, rest), k')) :
    FromMessages e name descr strategy wm ms l' := by
  rcases work_state h with ⟨_, _, rfl⟩ | ⟨_, o, k₁, _, h1, h2, h3, h4, h5, h6, h7⟩
  · exact hl
  · obtain ⟨os, hin, _⟩ := processNodes_inTurn h1
    refine ⟨h2.trans hl.name, h3.trans hl.descr, became_trans hl.processors hin.became, ?_, h5.trans hl.strategy,
      h6.trans hl.paused, h7.trans hl.metrics⟩
    rw [h4]; exact hl.snapshooters

/-- What a new driver knows. -/
theorem NewDriver.fromMessages {e : Env} {k : Nat} {name : Option String} {descr : Descr} {strategy : Strategy} {wm : Bool}
    {programs : List (SendThread (DriverMsg σ L))} {t : DriverThread σ L} (h : NewDriver e k name descr strategy wm programs t) :
    ∃ l, t = .running l ∧ l.receiver.chan = .fresh none true programs ∧
      FromMessages e name descr strategy wm [] l.state := by
  obtain ⟨k₀, state, ahead, blind, hn, rfl⟩ := h.created
  refine ⟨_, rfl, rfl, ?_⟩
  unfold LoopState.new at hn
  cases wm with
  | true =>
    simp only [if_true, M.bind_eq_some, M.map_eq_some, M.run_now, M.run_pure, Option.some.injEq, Prod.mk.injEq] at hn
    obtain ⟨_, _, ⟨i, _, rfl⟩, _, _, _, _, _, _, rfl, _⟩ := hn
    exact ⟨rfl, rfl, .nil, .nil, rfl, rfl, rfl⟩
  | false =>
    simp only [Bool.false_eq_true, if_false, M.bind_eq_some, M.run_now, M.run_pure, Option.some.injEq, Prod.mk.injEq] at hn
    obtain ⟨_, _, ⟨rfl, rfl⟩, _, _, _, _, _, _, rfl, _⟩ := hn
    exact ⟨rfl, rfl, .nil, .nil, rfl, rfl, rfl⟩

/-- An iteration at any moment of the life of a driver: the state at its beginning, and the rest of its life. -/
theorem DriverLife.at {e : Env} {name : Option String} {descr : Descr} {strategy : Strategy} {wm : Bool}
    {k k' : Nat} {t t' : DriverThread σ L} {log before after : List (Iteration σ L)} {i : Iteration σ L}
    (h : DriverLife e k t log k' t') {ms : List (DriverMsg σ L)}
    (ht : ∀ l, t = .running l → FromMessages e name descr strategy wm ms l.state) (hlog : log = before ++ i :: after) :
    ∃ (l : Loop σ L) (k₁ k₂ : Nat) (t₁ : DriverThread σ L), (DriverThread.running l).iterate e k₁ = (t₁, some i, k₂) ∧
      FromMessages e name descr strategy wm (ms ++ handled before) l.state ∧ DriverLife e k₂ t₁ after k' t' := by
  induction h generalizing ms before with
  | nil => simp at hlog
  | @iteration k k₁ k₂ k' t t₁ t' j log hk hi hl ih =>
    cases t with
    | ended c => have := (iterate_ended hi).2.1; simp at this
    | running l =>
      have hl0 := ht l rfl
      cases before with
      | nil =>
        simp only [List.nil_append, List.cons.injEq] at hlog
        obtain ⟨rfl, rfl⟩ := hlog
        exact ⟨l, k₁, k₂, t₁, hi, by simpa [handled] using hl0, hl⟩
      | cons b before =>
        simp only [List.cons_append, List.cons.injEq] at hlog
        obtain ⟨rfl, rfl⟩ := hlog
        have hh : ms ++ handled (j :: before) = (ms ++ j.message.toList) ++ handled before := by
          cases hm : j.message <;> simp [handled, hm]
        rw [hh]
        refine ih ?_ rfl
        intro l' hl'
        cases iterates hi with
        | panicEarly hp hb => cases hl'
        | panicLate hp hb hw => cases hl'
        | done hp hb hw =>
          cases hl'
          exact work_fromMessages (begin_fromMessages hl0 hb) hw
  | @over k k₁ k₂ k' t t₁ t' log hk hi hl ih =>
    cases t with
    | ended c =>
      obtain ⟨rfl, -, rfl⟩ := iterate_ended hi
      obtain ⟨h1, _⟩ := hl.ended rfl
      rw [h1] at hlog; simp at hlog
    | running l =>
      cases iterates hi with
      | stop hp =>
        obtain ⟨h1, _⟩ := hl.ended rfl
        rw [h1] at hlog; simp at hlog
  | others hl ih =>
    obtain ⟨h1, _⟩ := hl.ended rfl
    rw [h1] at hlog; simp at hlog

section
variable {e : Env} {k k' : Nat}

omit [DecidableEq L] in
theorem handle_answer {l l' : LoopState σ L} {m : DriverMsg σ L} {answer : Option Snapshot}
    (h : l.handle m e k = some ((l', answer), k')) : answer.isSome = true ↔ ∃ id d, m = .getSnapshot id d := by
  cases m with
  | getSnapshot id d =>
    simp only [LoopState.handle, M.bind_eq_some, M.run_pure, Option.some.injEq, Prod.mk.injEq] at h
    obtain ⟨_, _, _, ⟨_, rfl⟩, _⟩ := h
    simp
  | addProcessor n =>
    simp only [LoopState.handle, M.run_pure, Option.some.injEq, Prod.mk.injEq] at h
    simp [← h.1.2]
  | addSnapshooter n =>
    simp only [LoopState.handle, M.run_pure, Option.some.injEq, Prod.mk.injEq] at h
    simp [← h.1.2]
  | setStrategy s =>
    simp only [LoopState.handle, M.run_pure, Option.some.injEq, Prod.mk.injEq] at h
    simp [← h.1.2]
  | pause =>
    simp only [LoopState.handle, M.run_pure, Option.some.injEq, Prod.mk.injEq] at h
    simp [← h.1.2]
  | resume =>
    simp only [LoopState.handle, M.run_pure, Option.some.injEq, Prod.mk.injEq] at h
    simp [← h.1.2]

omit [DecidableEq L] in
/-- An iteration that got through its first part has answered its request, if it had one. -/
theorem begin_answered {l l' : LoopState σ L} {m : Option (DriverMsg σ L)} {started : Int} {answer : Option Snapshot}
    {o : Option Outcome} {rest : Option Nap} (h : l.begin m e k = some ((l', started, answer), k')) :
    (answersIn [({ message := m, answer, outcome := o, rest } : Iteration σ L)]).map (·.1) = requests m.toList := by
  rcases (begin_spec h).2 with ⟨rfl, rfl, rfl, _⟩ | ⟨m', rfl, hh⟩
  · rfl
  · have := handle_answer hh
    cases m' with
    | getSnapshot id d =>
      obtain ⟨s, rfl⟩ := Option.isSome_iff_exists.mp (this.mpr ⟨id, d, rfl⟩)
      rfl
    | _ => cases answer <;> simp_all [answersIn, Iteration.answered, requests]

omit [DecidableEq L] [Custom σ L] [CustomProcessor σ] in
theorem handled_cons (i : Iteration σ L) (log : List (Iteration σ L)) :
    handled (i :: log) = i.message.toList ++ handled log := by
  cases hm : i.message <;> simp [handled, hm]

omit [DecidableEq L] [Custom σ L] [CustomProcessor σ] in
theorem requests_append (a b : List (DriverMsg σ L)) : requests (a ++ b) = requests a ++ requests b := by simp [requests]

omit [DecidableEq L] [Custom σ L] [CustomProcessor σ] in
theorem answersIn_cons (i : Iteration σ L) (log : List (Iteration σ L)) :
    answersIn (i :: log) = answersIn [i] ++ answersIn log := by
  cases hm : i.answered <;> simp [answersIn, hm]

end

end Metrix
