import Verif.Spec.Processing
import Verif.Proof.Dispatch
import Verif.Proof.Channel

/-! # Every use of a processor is told by a story -/

namespace Metrix
variable {σ L : Type} [DecidableEq L] [Custom σ L]

/-! ## The staleness rule -/

omit [DecidableEq L] [Custom σ L] in
theorem isDelta_iff (o : Observation L) : o.isDelta = true ↔ o.ChangesValue := by
  cases o with
  | observed l n t => simp [Observation.isDelta, Observation.ChangesValue]
  | observedOne l t => simp [Observation.isDelta, Observation.ChangesValue]
  | observedOneValue l v t =>
    cases v <;> simp [Observation.isDelta, ObservedValue.isDelta, Observation.ChangesValue]

omit [DecidableEq L] [Custom σ L] in
/-- The decision made with the deadline is the staleness rule. -/
theorem decider_spec {s : Strategy} {d : Decider} {e : Env} {k k' : Nat} (h : s.decider e k = some (d, k')) :
    k ≤ k' ∧ ∀ o : Observation L, d.shouldBeProcessed o = true ↔ s.Keeps (e.clock k) o := by
  cases s with
  | processAll =>
    simp [Strategy.decider] at h; obtain ⟨rfl, rfl⟩ := h
    exact ⟨Nat.le_refl _, fun o => by simp [Decider.shouldBeProcessed, Strategy.Keeps]⟩
  | dropAll =>
    simp [Strategy.decider] at h; obtain ⟨rfl, rfl⟩ := h
    exact ⟨Nat.le_refl _, fun o => by simp [Decider.shouldBeProcessed, Strategy.Keeps]⟩
  | dropOlderThan maxAge dropDeltas =>
    simp only [Strategy.decider, M.bind_eq_some, M.run_pure, Option.some.injEq, Prod.mk.injEq, M.run_now] at h
    obtain ⟨now, k₁, ⟨rfl, rfl⟩, dl, k₂, hd, rfl, rfl⟩ := h
    simp only [subDur] at hd
    split at hd
    · simp at hd; obtain ⟨rfl, rfl⟩ := hd
      refine ⟨by omega, fun o => ?_⟩
      simp only [Decider.shouldBeProcessed, Strategy.Keeps, ← isDelta_iff, o.timestamp_eq]
      by_cases ht : o.madeAt ≥ e.clock k - maxAge
      · simp [ht]; left; omega
      · have : ¬ e.clock k - o.madeAt ≤ maxAge := by omega
        rw [if_neg ht]
        cases dropDeltas <;> simp [this]
    · cases hd

/-! ## Single messages -/

theorem cockpits_dispatch (o : Observation L) (cs : List (Cockpit σ L)) :
    dispatch o (leavesOfCockpits cs) = (do let a ← handleCockpits o cs; return (leavesOfCockpits a.1, a.2)) := by
  induction cs with
  | nil => simp [leavesOfCockpits, handleCockpits, dispatch]
  | cons c cs ih =>
    simp only [leavesOfCockpits, handleCockpits]
    rw [dispatch_append, Cockpit.dispatch o c, ih]
    simp [both, leavesOfCockpits]

theorem cockpits_shape {o : Observation L} {cs cs' : List (Cockpit σ L)} {n : Nat} {e : Env} {k k' : Nat}
    (h : handleCockpits o cs e k = some ((cs', n), k')) : cs'.map (·.shape) = cs.map (·.shape) := by
  induction cs generalizing cs' n k k' with
  | nil => simp [handleCockpits] at h; rw [h.1.1]
  | cons c cs ih =>
    simp only [handleCockpits, M.bind_eq_some, M.run_pure, Option.some.injEq, Prod.mk.injEq] at h
    obtain ⟨⟨c', _⟩, _, h1, ⟨cs', _⟩, _, h2, ⟨rfl, _⟩, _⟩ := h
    simp only [List.map_cons, Cockpit.handle_shape h1, ih h2]

omit [DecidableEq L] [Custom σ L] in
theorem modifyFirst_eq (name : String) (f : Cockpit σ L → Cockpit σ L) (cs : List (Cockpit σ L)) :
    ProcessorState.modifyFirst name f cs =
      match cs.findIdx? (·.name = some name) with
      | some i => cs.modify i f
      | none => cs := by
  induction cs with
  | nil => rfl
  | cons c cs ih =>
    simp only [ProcessorState.modifyFirst, List.findIdx?_cons]
    by_cases hc : c.name = some name
    · simp [hc]
    · simp only [hc, beq_iff_eq, if_false, decide_false]
      rw [ih]
      cases cs.findIdx? (fun x => decide (x.name = some name)) <;> simp

omit [DecidableEq L] [Custom σ L] in
theorem addCockpit_eq (s : ProcessorState σ L) (c : Cockpit σ L) :
    s.addCockpit c = s.configured (.addCockpit c) := by
  simp only [ProcessorState.addCockpit, ProcessorState.configured]
  cases hc : c.name with
  | none => simp
  | some name =>
    have : (s.cockpits.any fun d => match d.name with
        | some n => n == name
        | none => false) = true ↔ some name ∈ s.cockpits.map (·.name) := by
      simp only [List.any_eq_true, List.mem_map]
      constructor
      · rintro ⟨d, hd, hn⟩
        refine ⟨d, hd, ?_⟩
        cases hdn : d.name with
        | none => simp [hdn] at hn
        | some n => simp [hdn] at hn; rw [hn]
      · rintro ⟨d, hd, hn⟩
        exact ⟨d, hd, by simp [hn]⟩
    exact if_congr (this.trans (by simp)) rfl rfl

omit [DecidableEq L] [Custom σ L] in
theorem removeCockpit_eq (s : ProcessorState σ L) (name : String) :
    s.removeCockpit name = s.configured (.removeCockpit name) := by
  simp only [ProcessorState.removeCockpit, ProcessorState.configured]
  congr 1
  apply List.filter_congr
  intro c _
  cases hc : c.name with
  | none => simp
  | some n => by_cases h : n = name <;> simp [h]

theorem cockpits_handles {o : Observation L} {cs cs' : List (Cockpit σ L)} {n : Nat} {e : Env} {k k' : Nat}
    (h : handleCockpits o cs e k = some ((cs', n), k')) : ∃ ns, Handles e o k cs ns k' cs' ∧ n = ns.sum := by
  induction cs generalizing cs' n k k' with
  | nil => simp [handleCockpits] at h; obtain ⟨⟨rfl, rfl⟩, rfl⟩ := h; exact ⟨[], .nil, rfl⟩
  | cons c cs ih =>
    simp only [handleCockpits, M.bind_eq_some, M.run_pure, Option.some.injEq, Prod.mk.injEq] at h
    obtain ⟨⟨c', _⟩, _, h1, ⟨cs', _⟩, _, h2, ⟨rfl, rfl⟩, rfl⟩ := h
    obtain ⟨ns, hns, rfl⟩ := ih h2
    exact ⟨_, .cons h1 hns, rfl⟩

theorem handlers_handles {o : Observation L} {hs hs' : List (Handler σ L)} {n : Nat} {e : Env} {k k' : Nat}
    (h : handleHandlers o hs e k = some ((hs', n), k')) : ∃ ns, Handles e o k hs ns k' hs' ∧ n = ns.sum := by
  induction hs generalizing hs' n k k' with
  | nil => unfold handleHandlers at h; simp at h; obtain ⟨⟨rfl, rfl⟩, rfl⟩ := h; exact ⟨[], .nil, rfl⟩
  | cons c cs ih =>
    unfold handleHandlers at h
    simp only [M.bind_eq_some, M.run_pure, Option.some.injEq, Prod.mk.injEq] at h
    obtain ⟨⟨c', _⟩, _, h1, ⟨cs', _⟩, _, h2, ⟨rfl, rfl⟩, rfl⟩ := h
    obtain ⟨ns, hns, rfl⟩ := ih h2
    exact ⟨_, .cons h1 hns, rfl⟩

/-- What `Handles` says, computed. -/
theorem handles_cockpits {o : Observation L} {cs cs' : List (Cockpit σ L)} {ns : List Nat} {e : Env} {k k' : Nat}
    (h : Handles e o k cs ns k' cs') : handleCockpits o cs e k = some ((cs', ns.sum), k') := by
  induction h with
  | nil => rfl
  | cons h1 _ ih => simp only [handleCockpits]; exact (M.run_bind_some h1).trans (M.run_bind_some ih)

theorem handles_handlers {o : Observation L} {hs hs' : List (Handler σ L)} {ns : List Nat} {e : Env} {k k' : Nat}
    (h : Handles e o k hs ns k' hs') : handleHandlers o hs e k = some ((hs', ns.sum), k') := by
  induction h with
  | nil => unfold handleHandlers; rfl
  | cons h1 _ ih => unfold handleHandlers; exact (M.run_bind_some h1).trans (M.run_bind_some ih)

/-- A processed observation is dispatched to the leaves, and changes nothing else. -/
theorem Applied.visited {keeps : Observation L → Prop} {s s' : ProcessorState σ L} {o : Observation L} {n : Nat}
    {e : Env} {k k' : Nat} (h : Applied e keeps k s (.observation o) (.processed n) k' s') :
    ∃ ns, Visited e o k s.leaves s'.leaves ns k' ∧ n = ns.sum ∧ s'.frame = s.frame := by
  cases h with
  | config h => exact h.elim
  | processed hk h1 h2 =>
    rename_i ns ms cs hs
    have h1 := handles_cockpits h1
    have h2 := handles_handlers h2
    have hdis : dispatch o s.leaves e k =
        some ((leavesOfCockpits cs ++ leavesOfHandlers hs, ns.sum + ms.sum), k') := by
      simp only [ProcessorState.leaves]
      rw [dispatch_append, cockpits_dispatch, handlers_dispatch]
      simp only [bind_assoc, pure_bind]
      rw [M.run_bind_some h1]
      rw [M.run_bind_some h2]
      rfl
    obtain ⟨l, hv, hsum⟩ := visited_of_dispatch hdis
    exact ⟨l, hv, hsum, by simp only [ProcessorState.frame, cockpits_shape h1, handlers_shape h2]⟩

/-- A received message is applied. -/
theorem receive_spec {keeps : Observation L → Prop} {d : Decider} {s s' : ProcessorState σ L} {t t' : Tally}
    {msg : Message σ L} {e : Env} {k k' : Nat} (hd : ∀ o : Observation L, d.shouldBeProcessed o = true ↔ keeps o)
    (h : s.receive d t msg e k = some ((s', t'), k')) :
    ∃ v, Applied e keeps k s msg v k' s' ∧ t' =
      { processed := t.processed + (if v.isDropped then 0 else 1),
        dropped := t.dropped + (if v.isDropped then 1 else 0),
        updated := t.updated + v.updated } := by
  cases msg with
  | observation o =>
    simp only [ProcessorState.receive] at h
    by_cases ho : d.shouldBeProcessed o = true
    · rw [if_pos ho] at h
      simp only [M.bind_eq_some, M.run_pure, Option.some.injEq, Prod.mk.injEq] at h
      obtain ⟨⟨cs, n⟩, k₁, h1, ⟨hs, m⟩, k₂, h2, ⟨rfl, rfl⟩, rfl⟩ := h
      obtain ⟨ns, hns, rfl⟩ := cockpits_handles h1
      obtain ⟨ms, hms, rfl⟩ := handlers_handles h2
      exact ⟨_, .processed ((hd o).mp ho) hns hms, by simp [Verdict.isDropped, Verdict.updated]; omega⟩
    · rw [if_neg ho] at h
      simp at h; obtain ⟨⟨rfl, rfl⟩, rfl⟩ := h
      exact ⟨.dropped, .dropped (fun hk => ho ((hd o).mpr hk)), by simp [Verdict.isDropped, Verdict.updated]⟩
  | addCockpit c =>
    simp [ProcessorState.receive] at h; obtain ⟨⟨rfl, rfl⟩, rfl⟩ := h
    exact ⟨.processed 0, by rw [addCockpit_eq]; exact .config trivial, rfl⟩
  | removeCockpit name =>
    simp [ProcessorState.receive] at h; obtain ⟨⟨rfl, rfl⟩, rfl⟩ := h
    exact ⟨.processed 0, by rw [removeCockpit_eq]; exact .config trivial, rfl⟩
  | addHandler x =>
    simp [ProcessorState.receive] at h; obtain ⟨⟨rfl, rfl⟩, rfl⟩ := h
    exact ⟨.processed 0, .config (msg := .addHandler x) trivial, rfl⟩
  | addPanelToCockpit name p =>
    simp [ProcessorState.receive] at h; obtain ⟨⟨rfl, rfl⟩, rfl⟩ := h
    refine ⟨.processed 0, ?_, rfl⟩
    have := Applied.config (e := e) (keeps := keeps) (k := k) (s := s) (msg := .addPanelToCockpit name p) trivial
    rw [modifyFirst_eq]
    simp only [ProcessorState.configured] at this
    cases hi : s.cockpits.findIdx? (fun x => decide (x.name = some name)) <;> simp only [hi] at this ⊢ <;> exact this
  | removePanelFromCockpit name panel =>
    simp [ProcessorState.receive] at h; obtain ⟨⟨rfl, rfl⟩, rfl⟩ := h
    refine ⟨.processed 0, ?_, rfl⟩
    have := Applied.config (e := e) (keeps := keeps) (k := k) (s := s)
      (msg := .removePanelFromCockpit name panel) trivial
    rw [modifyFirst_eq]
    simp only [ProcessorState.configured] at this
    cases hi : s.cockpits.findIdx? (fun x => decide (x.name = some name)) <;> simp only [hi] at this ⊢ <;> exact this

/-- Which messages are dropped. -/
theorem applies_verdict {e : Env} {keeps : Observation L → Prop} {k k' : Nat} {s s' : ProcessorState σ L}
    {ms : List (Message σ L × Verdict)} (h : Applies e keeps k s ms k' s') {m : Message σ L} {v : Verdict}
    (hm : (m, v) ∈ ms) : v.isDropped = true ↔ ∃ o, m = .observation o ∧ ¬ keeps o := by
  induction h with
  | nil => simp at hm
  | cons h1 _ ih =>
    rcases List.mem_cons.mp hm with hm | hm
    · simp only [Prod.mk.injEq] at hm
      obtain ⟨rfl, rfl⟩ := hm
      cases h1 with
      | processed hk _ _ => simp [Verdict.isDropped, hk]
      | dropped hk => simp [Verdict.isDropped, hk]
      | config hc =>
        simp only [Verdict.isDropped, Bool.false_eq_true, false_iff, not_exists, not_and]
        rintro o rfl; exact hc.elim
    · exact ih hm

/-! ## Receiving -/

namespace Receiver
variable {μ : Type}

/-- What the receiver's operations do to the channel. -/
theorem wait_acts (r : Receiver μ) : ∃ s : List Nat, r.wait.chan = r.chan.acts (s.map .thread) := by
  unfold wait
  split
  · exact ⟨[], rfl⟩
  · rename_i s ahead _; exact ⟨s, Channel.run_eq_acts _ s⟩

theorem noDrop_threads (s : List Nat) : NoDrop (s.map .thread) := by simp [NoDrop]

/-- Only threads take steps. -/
theorem taken_threads (c : Channel μ) (s : List Nat) : (c.acts (s.map .thread)).taken = c.taken := by
  induction s generalizing c with
  | nil => rfl
  | cons t s ih => exact (ih _).trans (Channel.step_taken c t)

theorem tryRecv_ok {r r' : Receiver μ} {m : μ} (h : r.tryRecv = (r', .ok m)) :
    ∃ (s : List Nat) (t : Nat), r'.chan = r.chan.acts (s.map .thread ++ [.receive]) ∧
      r'.chan.taken = r.chan.taken ++ [(t, m)] := by
  obtain ⟨s, hs⟩ := r.wait_acts
  unfold tryRecv at h
  simp only at h
  cases hq : r.wait.chan.queue with
  | nil => simp only [hq] at h; split at h <;> simp at h
  | cons x q =>
    obtain ⟨t, m'⟩ := x
    simp only [hq, Prod.mk.injEq, TryRecv.ok.injEq] at h
    obtain ⟨rfl, rfl⟩ := h
    refine ⟨s, t, ?_, ?_⟩
    · rw [Channel.acts_append, ← hs]; rfl
    · simp only [Channel.take, hq]
      rw [hs, taken_threads]

theorem tryRecv_empty {r r' : Receiver μ} (h : r.tryRecv = (r', .empty)) :
    (∃ s : List Nat, r'.chan = r.chan.acts (s.map .thread)) ∧ r'.chan.queue = [] ∧ r'.chan.abandoned = false := by
  unfold tryRecv at h
  simp only at h
  cases hq : r.wait.chan.queue with
  | cons x q => simp [hq] at h
  | nil =>
    simp only [hq] at h
    by_cases ha : r.wait.chan.abandoned = true
    · rw [if_pos ha] at h; simp at h
    · rw [if_neg ha] at h; simp only [Prod.mk.injEq, and_true] at h
      subst h
      exact ⟨r.wait_acts, hq, by simpa using ha⟩

theorem tryRecv_disconnected {r r' : Receiver μ} (h : r.tryRecv = (r', .disconnected)) :
    (∃ s : List Nat, r'.chan = r.chan.acts (s.map .thread)) ∧ r'.chan.queue = [] ∧ r'.chan.abandoned = true := by
  unfold tryRecv at h
  simp only at h
  cases hq : r.wait.chan.queue with
  | cons x q => simp [hq] at h
  | nil =>
    simp only [hq] at h
    by_cases ha : r.wait.chan.abandoned = true
    · rw [if_pos ha] at h; simp only [Prod.mk.injEq, and_true] at h
      subst h
      exact ⟨r.wait_acts, hq, ha⟩
    · rw [if_neg ha] at h; simp at h

end Receiver

open Receiver

theorem Took.refl {μ : Type} (c : Channel μ) : Took c c [] := ⟨⟨[], by simp [NoDrop], rfl⟩, ⟨[], rfl, by simp⟩⟩

theorem Took.trans {μ : Type} {c c₁ c' : Channel μ} {ms ms' : List μ} (h : Took c c₁ ms)
    (h' : Took c₁ c' ms') : Took c c' (ms ++ ms') := by
  obtain ⟨⟨as, ha, rfl⟩, ⟨l, rfl, hl⟩⟩ := h
  obtain ⟨⟨as', ha', rfl⟩, ⟨l', rfl, hl'⟩⟩ := h'
  refine ⟨⟨as ++ as', ?_, by rw [Channel.acts_append]⟩, ⟨l ++ l', by simp, by rw [hl', hl]; simp⟩⟩
  intro a h
  rcases List.mem_append.mp h with h | h
  · exact ha a h
  · exact ha' a h

theorem Took.threads {μ : Type} {c c' : Channel μ} (h : ∃ s : List Nat, c' = c.acts (s.map .thread)) : Took c c' [] := by
  obtain ⟨s, rfl⟩ := h
  exact ⟨⟨_, noDrop_threads s, rfl⟩, ⟨[], rfl, by rw [taken_threads]; simp⟩⟩

/-- The loop consumes some messages and applies them. -/
theorem receiveLoop_spec {keeps : Observation L → Prop} {d : Decider} {e : Env}
    (hd : ∀ o : Observation L, d.shouldBeProcessed o = true ↔ keeps o) {n : Nat} {p p' : Processor σ L}
    {t t' : Tally} {k k' : Nat} (h : p.receiveLoop d n t e k = some ((p', t'), k')) :
    ∃ ms, ms.length ≤ n ∧ Applies e keeps k p.state ms k' p'.state ∧
      Took p.receiver.chan p'.receiver.chan (ms.map (·.1)) ∧
      t' = { processed := t.processed + (ms.filter fun m => !m.2.isDropped).length,
             dropped := t.dropped + (ms.filter fun m => m.2.isDropped).length,
             updated := t.updated + (ms.map fun m => m.2.updated).sum } ∧
      (p.isDisconnected = false → p'.isDisconnected = true →
        p'.receiver.chan.queue = [] ∧ p'.receiver.chan.abandoned = true) ∧
      (p.isDisconnected = true → p'.isDisconnected = true) := by
  induction n generalizing p t k with
  | zero =>
    simp [Processor.receiveLoop] at h; obtain ⟨⟨rfl, rfl⟩, rfl⟩ := h
    exact ⟨[], by simp, .nil, Took.refl _, by simp, fun h h' => absurd h' (by simp [h]), id⟩
  | succ n ih =>
    simp only [Processor.receiveLoop] at h
    cases htr : p.receiver.tryRecv with
    | mk r' res =>
      cases res with
      | ok msg =>
        simp only [htr, M.bind_eq_some] at h
        obtain ⟨⟨s₁, t₁⟩, k₁, h1, h2⟩ := h
        obtain ⟨v, hv, rfl⟩ := receive_spec hd h1
        obtain ⟨ms, hlen, happ, htook, ht, hdis, hdis'⟩ := ih h2
        obtain ⟨s, u, hs, hu⟩ := tryRecv_ok htr
        refine ⟨(msg, v) :: ms, by simp; omega, .cons hv happ, ?_, ?_, hdis, hdis'⟩
        · have : Took p.receiver.chan r'.chan [msg] := by
            refine ⟨⟨_, ?_, hs⟩, ⟨[(u, msg)], rfl, hu⟩⟩
            intro a ha
            rcases List.mem_append.mp ha with ha | ha
            · exact noDrop_threads s a ha
            · simp at ha; subst ha; simp
          exact this.trans htook
        · rw [ht]
          cases v <;> simp [Verdict.isDropped, Verdict.updated] <;> omega
      | empty =>
        simp only [htr] at h
        obtain ⟨ms, hlen, happ, htook, ht, hdis, hdis'⟩ := ih h
        exact ⟨ms, by omega, happ, (Took.threads (tryRecv_empty htr).1).trans htook, ht, hdis, hdis'⟩
      | disconnected =>
        simp only [htr] at h
        simp at h; obtain ⟨⟨rfl, rfl⟩, rfl⟩ := h
        obtain ⟨h1, h2, h3⟩ := tryRecv_disconnected htr
        exact ⟨[], by simp, .nil, Took.threads h1, by simp, fun _ _ => ⟨h2, h3⟩, fun _ => rfl⟩

/-- What a processing run does. -/
theorem process_spec {p p' : Processor σ L} {max : Nat} {strategy : Strategy} {out : Outcome} {e : Env} {k k' : Nat}
    (h : p.process max strategy e k = some ((p', out), k')) :
    ∃ ms k₂ k₃ s₁, k ≤ k₂ ∧ k₃ ≤ k' ∧ ms.length ≤ max ∧
      Applies e (strategy.Keeps (e.clock k)) k₂ p.state ms k₃ s₁ ∧ out.Accounts ms ∧
      p'.state = (if ms = [] then s₁ else s₁.activeAt (e.clock k₃)) ∧
      Took p.receiver.chan p'.receiver.chan (ms.map (·.1)) ∧
      (p.isDisconnected = false → out.observationsEnqueued = p'.receiver.chan.queue.length) ∧
      (p.isDisconnected = false → p'.isDisconnected = true →
        p'.receiver.chan.queue = [] ∧ p'.receiver.chan.abandoned = true) ∧
      (p.isDisconnected = true → p' = p ∧ out = {} ∧ k' = k) := by
  unfold Processor.process at h
  by_cases hdc : p.isDisconnected = true
  · rw [if_pos hdc] at h
    simp at h; obtain ⟨⟨rfl, rfl⟩, rfl⟩ := h
    exact ⟨[], k, k, p.state, Nat.le_refl _, Nat.le_refl _, by simp, .nil, ⟨rfl, rfl, rfl⟩, by simp, Took.refl _,
      fun h => absurd hdc (by simp [h]), fun h => absurd hdc (by simp [h]), fun _ => ⟨rfl, rfl, rfl⟩⟩
  · rw [if_neg hdc] at h
    have hdc' : p.isDisconnected = false := by simpa using hdc
    simp only [M.bind_eq_some] at h
    obtain ⟨d, k₂, hd, ⟨p₁, t⟩, k₃, hl, h⟩ := h
    obtain ⟨hk, hd⟩ := decider_spec (L := L) hd
    obtain ⟨ms, hlen, happ, htook, ht, hdis, hdis'⟩ := receiveLoop_spec hd hl
    simp at ht
    have hw := p₁.receiver.wait_acts
    have hlen' : p₁.receiver.len = (p₁.receiver.wait, p₁.receiver.wait.chan.queue.length) := rfl
    simp only [hlen'] at h
    have hacc : ∀ q, Outcome.Accounts ⟨t.processed, t.dropped, t.updated, q⟩ ms := fun q => by
      subst ht; exact ⟨rfl, rfl, rfl⟩
    have hdd : p₁.isDisconnected = true → p₁.receiver.wait.chan = p₁.receiver.chan := by
      intro hh
      have := (hdis hdc' hh).2
      unfold Receiver.wait
      split
      · rfl
      · exact Channel.abandoned_run _ _ this
    have hsome : Outcome.somethingHappened ⟨t.processed, t.dropped, t.updated, p₁.receiver.wait.chan.queue.length⟩ = true ↔
        ms ≠ [] := by
      subst ht
      cases ms with
      | nil => simp [Outcome.somethingHappened]
      | cons m ms =>
        cases hm : m.2.isDropped <;> simp [Outcome.somethingHappened, hm]
    by_cases hsh : Outcome.somethingHappened
        ⟨t.processed, t.dropped, t.updated, p₁.receiver.wait.chan.queue.length⟩ = true
    · rw [if_pos hsh] at h
      simp only [M.bind_eq_some, M.run_pure, Option.some.injEq, Prod.mk.injEq, M.run_now] at h
      obtain ⟨now, k₄, ⟨rfl, rfl⟩, ⟨rfl, rfl⟩, rfl⟩ := h
      refine ⟨ms, k₂, k₃, p₁.state, hk, by omega, hlen, happ, hacc _, ?_, ?_, fun _ => rfl, ?_, ?_⟩
      · rw [if_neg (hsome.mp hsh)]; rfl
      · have := htook.trans (Took.threads hw); simpa using this
      · intro _ hh
        have := hdis hdc' hh
        simp only
        rw [hdd hh]; exact this
      · intro h; exact absurd h hdc
    · rw [if_neg hsh] at h
      simp only [M.run_pure, Option.some.injEq, Prod.mk.injEq] at h
      obtain ⟨⟨rfl, rfl⟩, rfl⟩ := h
      refine ⟨ms, k₂, k₃, p₁.state, hk, by omega, hlen, happ, hacc _, ?_, ?_, fun _ => rfl, ?_, ?_⟩
      · have : ms = [] := by by_contra hc; exact hsh (hsome.mpr hc)
        rw [if_pos this]
      · have := htook.trans (Took.threads hw); simpa using this
      · intro _ hh
        have := hdis hdc' hh
        simp only
        rw [hdd hh]; exact this
      · intro h; exact absurd h hdc

/-! ## Lives and stories -/

theorem call_set {p p' : Processor σ L} {c : Call σ L} {r : Reply} {e : Env} {k k' : Nat}
    (hp : ∀ m x, c ≠ .process m x) (hs : ∀ i d, c ≠ .snapshot i d) :
    p.call c e k = some ((p', r), k') ↔ p' = { p with state := p.state.set c } ∧ r = .nothing ∧ k' = k := by
  cases c with
  | process m x => exact absurd rfl (hp m x)
  | snapshot i d => exact absurd rfl (hs i d)
  | _ => simp [Processor.call, eq_comm, and_assoc]

theorem call_snapshot {p p' : Processor σ L} {i : Snapshot} {d : Bool} {r : Reply} {e : Env} {k k' : Nat} :
    p.call (.snapshot i d) e k = some ((p', r), k') ↔
      ∃ s i', p.state.putSnapshot i d e k = some ((s, i'), k') ∧ p' = { p with state := s } ∧ r = .snapshot i' := by
  simp only [Processor.call, Processor.putSnapshot, M.bind_eq_some, M.run_pure, Option.some.injEq, Prod.mk.injEq,
    Prod.exists]
  constructor
  · rintro ⟨_, _, _, ⟨s, i', _, h, ⟨rfl, rfl⟩, rfl⟩, ⟨rfl, rfl⟩, rfl⟩; exact ⟨s, i', h, rfl, rfl⟩
  · rintro ⟨s, i', h, rfl, rfl⟩; exact ⟨_, _, _, ⟨s, i', _, h, ⟨rfl, rfl⟩, rfl⟩, ⟨rfl, rfl⟩, rfl⟩

theorem call_process {p p' : Processor σ L} {max : Nat} {strategy : Strategy} {r : Reply} {e : Env} {k k' : Nat} :
    p.call (.process max strategy) e k = some ((p', r), k') ↔
      ∃ out, p.process max strategy e k = some ((p', out), k') ∧ r = .outcome out := by
  simp only [Processor.call, M.bind_eq_some, M.run_pure, Option.some.injEq, Prod.mk.injEq, Prod.exists]
  constructor
  · rintro ⟨_, out, _, h, ⟨rfl, rfl⟩, rfl⟩; exact ⟨out, h, rfl⟩
  · rintro ⟨out, h, rfl⟩; exact ⟨_, out, _, h, ⟨rfl, rfl⟩, rfl⟩

/-- Every life of a processor has a story, and the consumed messages are those taken from the queue, in that order. -/
theorem life_story {e : Env} {k k' : Nat} {p p' : Processor σ L} {log : List (Called σ L)}
    (h : Life e k p log k' p') :
    ∃ consumed, Story e k p.state log consumed k' p'.state ∧
      Took p.receiver.chan p'.receiver.chan (consumed.flatten.map (·.1)) := by
  induction h with
  | nil hk => exact ⟨[], .nil hk, Took.refl _⟩
  | @cons k k₁ k₂ k' p p₁ p' c r log hk hc _ ih =>
    obtain ⟨consumed, hst, htook⟩ := ih
    by_cases hp : ∃ m x, c = .process m x
    · obtain ⟨m, x, rfl⟩ := hp
      obtain ⟨out, hpr, rfl⟩ := call_process.mp hc
      obtain ⟨ms, l₂, l₃, s₁, hl₂, hl₃, hlen, happ, hacc, hs, ht, _⟩ := process_spec hpr
      refine ⟨ms :: consumed, .run hk hl₂ hl₃ hlen happ hacc hs hst, ?_⟩
      simpa using ht.trans htook
    · by_cases hs : ∃ i d, c = .snapshot i d
      · obtain ⟨i, d, rfl⟩ := hs
        obtain ⟨s, i', hput, rfl, rfl⟩ := call_snapshot.mp hc
        exact ⟨[] :: consumed, .snapshot hk hput hst, by simpa using htook⟩
      · have hp' : ∀ m x, c ≠ .process m x := fun m x h => hp ⟨m, x, h⟩
        have hs' : ∀ i d, c ≠ .snapshot i d := fun i d h => hs ⟨i, d, h⟩
        obtain ⟨rfl, rfl, rfl⟩ := (call_set hp' hs').mp hc
        exact ⟨[] :: consumed, .set hk hp' hs' hst, by simpa using htook⟩

/-! ## Trails -/

theorem Trail.weaken {e : Env} {k₀ k k' : Nat} {s s' : ProcessorState σ L} {ms : List (Message σ L × Verdict)}
    (h : Trail e k s ms k' s') (hk : k₀ ≤ k) : Trail e k₀ s ms k' s' := by
  induction h with
  | nil h => exact .nil (Nat.le_trans hk h)
  | message h1 h2 h3 _ => exact .message (Nat.le_trans hk h1) h2 h3
  | active _ ih => exact .active (ih hk)
  | snapshot h1 h2 h3 _ => exact .snapshot (Nat.le_trans hk h1) h2 h3
  | set _ ih => exact .set (ih hk)

theorem Trail.append {e : Env} {k k₁ k' : Nat} {s s₁ s' : ProcessorState σ L} {ms ms' : List (Message σ L × Verdict)}
    (h : Trail e k s ms k₁ s₁) (h' : Trail e k₁ s₁ ms' k' s') : Trail e k s (ms ++ ms') k' s' := by
  induction h with
  | nil h => exact h'.weaken h
  | message h1 h2 _ ih => exact .message h1 h2 (ih h')
  | active _ ih => exact .active (ih h')
  | snapshot h1 h2 _ ih => exact .snapshot h1 h2 (ih h')
  | set _ ih => exact .set (ih h')

/-- Look at one message. -/
theorem Trail.split {e : Env} {k k' : Nat} {s s' : ProcessorState σ L} {pre post : List (Message σ L × Verdict)}
    {m : Message σ L} {v : Verdict} (h : Trail e k s (pre ++ (m, v) :: post) k' s') :
    ∃ k₁ s₁ k₂ s₂ strategy start, Trail e k s pre k₁ s₁ ∧ Applied e (Strategy.Keeps strategy start) k₁ s₁ m v k₂ s₂ ∧
      Trail e k₂ s₂ post k' s' := by
  generalize hms : pre ++ (m, v) :: post = ms at h
  induction h generalizing pre with
  | nil h => simp at hms
  | @message k k₁ k₂ k' s s₁ s' m' v' ms start strategy h1 h2 h3 ih =>
    cases pre with
    | nil =>
      simp at hms; obtain ⟨⟨rfl, rfl⟩, rfl⟩ := hms
      exact ⟨k₁, s, k₂, s₁, strategy, start, .nil h1, h2, h3⟩
    | cons x pre =>
      simp at hms; obtain ⟨rfl, rfl⟩ := hms
      obtain ⟨j₁, t₁, j₂, t₂, st, start', a, b, c⟩ := ih rfl
      exact ⟨j₁, t₁, j₂, t₂, st, start', .message h1 h2 a, b, c⟩
  | active _ ih =>
    obtain ⟨j₁, t₁, j₂, t₂, st, start', a, b, c⟩ := ih hms
    exact ⟨j₁, t₁, j₂, t₂, st, start', .active a, b, c⟩
  | snapshot h1 h2 _ ih =>
    obtain ⟨j₁, t₁, j₂, t₂, st, start', a, b, c⟩ := ih hms
    exact ⟨j₁, t₁, j₂, t₂, st, start', .snapshot h1 h2 a, b, c⟩
  | set _ ih =>
    obtain ⟨j₁, t₁, j₂, t₂, st, start', a, b, c⟩ := ih hms
    exact ⟨j₁, t₁, j₂, t₂, st, start', .set a, b, c⟩

theorem Applies.trail {e : Env} {strategy : Strategy} {start : Int} {k k' : Nat} {s s' : ProcessorState σ L}
    {ms : List (Message σ L × Verdict)} (h : Applies e (strategy.Keeps start) k s ms k' s') : Trail e k s ms k' s' := by
  induction h with
  | nil => exact .nil (Nat.le_refl _)
  | cons h1 _ ih => exact .message (Nat.le_refl _) h1 ih

/-- A story, told without the runs. -/
theorem Story.trail {e : Env} {k k' : Nat} {s s' : ProcessorState σ L} {log : List (Called σ L)}
    {consumed : List (List (Message σ L × Verdict))} (h : Story e k s log consumed k' s') :
    Trail e k s consumed.flatten k' s' := by
  induction h with
  | nil hk => exact .nil hk
  | run hk hk1 hk3 hlen happ hacc hs₂ hst ih =>
    rw [hs₂] at ih
    refine (happ.trail.weaken (by omega)).append (ms' := List.flatten _) ?_
    split at ih
    · exact ih.weaken hk3
    · exact (Trail.active ih).weaken hk3
  | snapshot hk hput _ ih => exact .snapshot hk hput (by simpa using ih)
  | set hk _ _ _ ih => exact .set (by simpa using ih.weaken hk)

end Metrix
