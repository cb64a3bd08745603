import Verif.Proof.Processing

/-! # Progress: a processor that keeps polling consumes everything -/

namespace Metrix
variable {μ : Type}

namespace Channel

/-- How many messages are still to be sent or received. -/
def remaining (c : Channel μ) : Nat := (c.threads.map (·.todo.length)).sum + c.queue.length

/-- What is needed for progress. -/
structure Ready (c : Channel μ) : Prop where
  alive : c.receiver = true
  blocking : c.useSend = true ∨ c.cap = none
  room : c.cap ≠ some 0
  orderly : c.Orderly

theorem Ready.step {c : Channel μ} (h : c.Ready) (t : Nat) : (c.step t).Ready :=
  ⟨by rw [step_receiver]; exact h.alive, by rw [step_useSend, step_cap]; exact h.blocking,
    by rw [step_cap]; exact h.room, orderly_act c (.thread t) h.orderly⟩

theorem Ready.run {c : Channel μ} (h : c.Ready) (s : List Nat) : (c.run s).Ready := by
  induction s generalizing c with
  | nil => exact h
  | cons t s ih => exact ih (h.step t)

theorem Ready.take {c : Channel μ} (h : c.Ready) : c.take.Ready := by
  refine ⟨?_, ?_, ?_, orderly_act c .receive h.orderly⟩
  · unfold Channel.take; split <;> exact h.alive
  · unfold Channel.take; split <;> exact h.blocking
  · unfold Channel.take; split <;> exact h.room

theorem sum_set {l : List (SendThread μ)} {t : Nat} {th th' : SendThread μ} (h : l[t]? = some th) :
    ((l.set t th').map (·.todo.length)).sum + th.todo.length = (l.map (·.todo.length)).sum + th'.todo.length := by
  induction l generalizing t with
  | nil => simp at h
  | cons x l ih =>
    cases t with
    | zero => simp at h; subst h; simp; omega
    | succ t => simp at h; have := ih h; simp only [List.set_cons_succ, List.map_cons, List.sum_cons]; omega

/-- Steps of threads move messages into the queue; none gets lost. -/
theorem remaining_step {c : Channel μ} (h : c.Ready) (t : Nat) : (c.step t).remaining = c.remaining := by
  have hs := step_spec c t
  generalize c.step t = c' at hs
  cases hs with
  | nothing => rfl
  | drop th hth hh htd hd => have := sum_set (th' := { th with holds := false }) hth; simp only at this; simp only [remaining]; omega
  | accept th m rest hth hh htd hr hf =>
    have := sum_set (th' := { th with todo := rest }) hth
    rw [htd] at this; simp only [List.length_cons] at this
    simp only [remaining, List.length_append, List.length_cons, List.length_nil]; omega
  | lose th m rest _ _ _ hr =>
    rcases hr with hr | ⟨hf, hu⟩
    · rw [h.alive] at hr; cases hr
    · rcases h.blocking with hb | hb
      · rw [hu] at hb; cases hb
      · simp [isFull, hb] at hf

theorem remaining_run {c : Channel μ} (h : c.Ready) (s : List Nat) : (c.run s).remaining = c.remaining := by
  induction s generalizing c with
  | nil => rfl
  | cons t s ih => exact (ih (h.step t)).trans (remaining_step h t)

theorem queue_step {c : Channel μ} (h : c.queue ≠ []) (t : Nat) : (c.step t).queue ≠ [] := by
  have hs := step_spec c t
  generalize c.step t = c' at hs
  cases hs <;> simp [h]

theorem queue_run {c : Channel μ} (h : c.queue ≠ []) (s : List Nat) : (c.run s).queue ≠ [] := by
  induction s generalizing c with
  | nil => exact h
  | cons t s ih => exact ih (queue_step h t)

/-- A thread that has something to send fills an empty queue when it gets the chance. -/
theorem queue_fills {c : Channel μ} (h : c.Ready) {u : Nat} (hu : c.todo u ≠ []) {s : List Nat} (hs : u ∈ s) :
    (c.run s).queue ≠ [] := by
  induction s generalizing c with
  | nil => simp at hs
  | cons t s ih =>
    by_cases hq : (c.step t).queue = []
    · have hkeep : (c.step t).todo u = c.todo u ∧ u ≠ t := by
        have hq0 : c.queue = [] := by
          by_contra hn; exact queue_step hn t hq
        constructor
        · have hst := step_spec c t
          generalize c.step t = c' at hst hq
          cases hst with
          | nothing => rfl
          | drop th hth hh htd hd =>
            have hlt : t < c.threads.length := (List.getElem?_eq_some_iff.mp hth).1
            have := todo_set c t u { th with holds := false } c.log c.queue hlt
            simp only at this
            rw [this]
            by_cases hut : u = t
            · subst hut; simp [todo, hth]
            · rw [if_neg hut]
          | accept => simp at hq
          | lose th m rest _ _ _ hr =>
            rcases hr with hr | ⟨hf, hus⟩
            · rw [h.alive] at hr; cases hr
            · rcases h.blocking with hb | hb
              · rw [hus] at hb; cases hb
              · simp [isFull, hb] at hf
        · rintro rfl
          have hcase : ∃ th, c.threads[u]? = some th ∧ th.todo ≠ [] := by
            unfold todo at hu
            cases hth : c.threads[u]? with
            | none => simp [hth] at hu
            | some th => exact ⟨th, rfl, by simpa [hth] using hu⟩
          obtain ⟨th, hth, htd⟩ := hcase
          have hh : th.holds = true := by
            cases hh : th.holds with
            | true => rfl
            | false => exact absurd (h.orderly th (List.mem_of_getElem? hth) hh) htd
          obtain ⟨m, rest, htd⟩ := List.exists_cons_of_ne_nil htd
          have hf : c.isFull = false := by
            unfold isFull
            cases hc : c.cap with
            | none => rfl
            | some n =>
              have : n ≠ 0 := by rintro rfl; exact h.room hc
              simp [hq0]; omega
          unfold step at hq
          simp [hth, hh, htd, send, h.alive, hf] at hq
      have hs' : u ∈ s := by
        rcases List.mem_cons.mp hs with rfl | h
        · exact absurd rfl hkeep.2
        · exact h
      exact ih (h.step t) (by rw [hkeep.1]; exact hu) hs'
    · exact queue_run hq s

/-- If every thread gets a chance, the queue is empty only if there is nothing more to come. -/
theorem queue_fair {c : Channel μ} (h : c.Ready) {s : List Nat} (hs : ∀ t < c.threads.length, t ∈ s)
    (hq : (c.run s).queue = []) : c.remaining = 0 := by
  have hq0 : c.queue = [] := by by_contra hn; exact queue_run hn s hq
  have : ∀ th ∈ c.threads, th.todo = [] := by
    intro th hth
    obtain ⟨t, ht, rfl⟩ := List.mem_iff_getElem.mp hth
    by_contra hn
    refine queue_fills h (u := t) ?_ (hs t ht) hq
    simp [todo, List.getElem?_eq_getElem ht, hn]
  simp only [remaining, hq0, List.length_nil, Nat.add_zero]
  revert this
  generalize c.threads = l
  intro this
  induction l with
  | nil => rfl
  | cons x l ih => simp [this x (by simp)]; exact ih fun th hth => this th (List.mem_cons_of_mem _ hth)

theorem run_threads_length (c : Channel μ) (s : List Nat) : (c.run s).threads.length = c.threads.length := by
  rw [run_eq_acts, acts_threads_length]

theorem take_threads (c : Channel μ) : c.take.threads = c.threads := by unfold Channel.take; split <;> rfl

end Channel

theorem Receiver.Fair.le {r : Receiver μ} {n m : Nat} (h : r.Fair n) (hm : m ≤ n) : r.Fair m := ⟨by have := h.long; omega, h.fair⟩

theorem Receiver.wait_fair {r : Receiver μ} {n : Nat} (h : r.chan.Ready) (hf : r.Fair (n + 1)) :
    r.wait.chan.Ready ∧ r.wait.Fair n ∧ r.wait.chan.remaining = r.chan.remaining ∧
      (r.wait.chan.queue = [] → r.chan.remaining = 0) := by
  obtain ⟨c, ahead⟩ := r
  cases ahead with
  | nil => exact absurd hf.long (by simp)
  | cons s ahead =>
    refine ⟨h.run s, ⟨?_, ?_⟩, Channel.remaining_run h s, fun hq => ?_⟩
    · have := hf.long; simp [Receiver.wait] at this ⊢; omega
    · intro s' hs' t ht
      simp only [Receiver.wait, Channel.run_threads_length] at ht hs'
      exact hf.fair s' (by simp [hs']) t ht
    · exact Channel.queue_fair h (fun t ht => hf.fair s (by simp) t ht) hq

/-- A poll takes a message if any is left. -/
theorem Receiver.tryRecv_fair {r : Receiver μ} {n : Nat} (h : r.chan.Ready) (hf : r.Fair (n + 1)) :
    r.tryRecv.1.chan.Ready ∧ r.tryRecv.1.Fair n ∧ r.tryRecv.1.chan.remaining = r.chan.remaining - 1 ∧
      (r.tryRecv.2 = .disconnected → r.chan.remaining = 0) := by
  obtain ⟨h1, h2, h3, h4⟩ := Receiver.wait_fair h hf
  unfold Receiver.tryRecv
  simp only
  cases hq : r.wait.chan.queue with
  | nil =>
    have := h4 hq
    exact ⟨h1, h2, by simp only; omega, fun _ => this⟩
  | cons x q =>
    refine ⟨h1.take, ⟨h2.long, ?_⟩, ?_, fun h => (nomatch h)⟩
    · intro s hs t ht
      simp only [Channel.take_threads] at ht
      exact h2.fair s hs t ht
    · simp only
      rw [← h3]
      simp [Channel.remaining, Channel.take, hq]

variable {σ L : Type} [DecidableEq L] [Custom σ L]

/-- The next operations of the receiver are fair, and if the processor is disconnected nothing is left. -/
structure Processor.Ready (p : Processor σ L) (n : Nat) : Prop where
  ready : p.receiver.chan.Ready
  fair : p.receiver.Fair n
  drained : p.isDisconnected = true → p.receiver.chan.remaining = 0

theorem receiveLoop_fair {d : Decider} {e : Env} {n m : Nat} {p p' : Processor σ L} {t t' : Tally} {k k' : Nat}
    (h : p.receiveLoop d n t e k = some ((p', t'), k')) (hp : p.Ready (n + m)) :
    p'.Ready m ∧ p'.receiver.chan.remaining ≤ p.receiver.chan.remaining - n := by
  induction n generalizing p t k with
  | zero =>
    simp [Processor.receiveLoop] at h; obtain ⟨⟨rfl, rfl⟩, rfl⟩ := h
    exact ⟨⟨hp.ready, hp.fair.le (by omega), hp.drained⟩, by omega⟩
  | succ n ih =>
    obtain ⟨h1, h2, h3, h4⟩ := Receiver.tryRecv_fair (n := n + m) hp.ready (hp.fair.le (by omega))
    simp only [Processor.receiveLoop] at h
    cases htr : p.receiver.tryRecv with
    | mk r' res =>
      rw [htr] at h1 h2 h3 h4
      simp only at h1 h2 h3 h4
      have hdr : p.isDisconnected = true → r'.chan.remaining = 0 := fun hd => by rw [h3, hp.drained hd]
      cases res with
      | ok msg =>
        simp only [htr, M.bind_eq_some] at h
        obtain ⟨⟨s₁, t₁⟩, k₁, _, h⟩ := h
        obtain ⟨ha, hb⟩ := ih h ⟨h1, h2, hdr⟩
        exact ⟨ha, by simp only at hb; omega⟩
      | empty =>
        simp only [htr] at h
        obtain ⟨ha, hb⟩ := ih h ⟨h1, h2, hdr⟩
        exact ⟨ha, by simp only at hb; omega⟩
      | disconnected =>
        simp only [htr] at h
        simp at h; obtain ⟨⟨rfl, rfl⟩, rfl⟩ := h
        have := h4 rfl
        exact ⟨⟨h1, h2.le (by omega), fun _ => by simp only; omega⟩, by simp only; omega⟩

theorem process_fair {p p' : Processor σ L} {max m : Nat} {strategy : Strategy} {out : Outcome} {e : Env} {k k' : Nat}
    (h : p.process max strategy e k = some ((p', out), k')) (hp : p.Ready (max + (m + 1))) :
    p'.Ready m ∧ p'.receiver.chan.remaining ≤ p.receiver.chan.remaining - max := by
  unfold Processor.process at h
  by_cases hdc : p.isDisconnected = true
  · rw [if_pos hdc] at h
    simp at h; obtain ⟨⟨rfl, rfl⟩, rfl⟩ := h
    have := hp.drained hdc
    exact ⟨⟨hp.ready, hp.fair.le (by omega), hp.drained⟩, by omega⟩
  · rw [if_neg hdc] at h
    simp only [M.bind_eq_some] at h
    obtain ⟨d, k₂, hd, ⟨p₁, t⟩, k₃, hl, h⟩ := h
    obtain ⟨ha, hb⟩ := receiveLoop_fair hl hp
    obtain ⟨h1, h2, h3, _⟩ := Receiver.wait_fair ha.ready ha.fair
    have hlen' : p₁.receiver.len = (p₁.receiver.wait, p₁.receiver.wait.chan.queue.length) := rfl
    simp only [hlen'] at h
    have hdr : p₁.isDisconnected = true → p₁.receiver.wait.chan.remaining = 0 := fun hd => by rw [h3, ha.drained hd]
    split at h
    · simp only [M.bind_eq_some, M.run_pure, Option.some.injEq, Prod.mk.injEq, M.run_now] at h
      obtain ⟨now, k₄, ⟨rfl, rfl⟩, ⟨rfl, rfl⟩, rfl⟩ := h
      exact ⟨⟨h1, h2, hdr⟩, by simp only; omega⟩
    · simp only [M.run_pure, Option.some.injEq, Prod.mk.injEq] at h
      obtain ⟨⟨rfl, rfl⟩, rfl⟩ := h
      exact ⟨⟨h1, h2, hdr⟩, by simp only; omega⟩

theorem life_fair {e : Env} {k k' : Nat} {p p' : Processor σ L} {log : List (Called σ L)} (h : Life e k p log k' p')
    {m : Nat} (hp : p.Ready ((log.map (·.call.uses)).sum + m)) :
    p'.Ready m ∧ p'.receiver.chan.remaining ≤ p.receiver.chan.remaining - (log.map (·.call.polls)).sum := by
  induction h with
  | nil hk => exact ⟨⟨hp.ready, hp.fair.le (by omega), hp.drained⟩, by simp⟩
  | @cons k k₁ k₂ k' p p₁ p' c r log hk hc _ ih =>
    by_cases hpr : ∃ m x, c = .process m x
    · obtain ⟨max, x, rfl⟩ := hpr
      obtain ⟨out, hpr, rfl⟩ := call_process.mp hc
      simp only [List.map_cons, List.sum_cons, Call.uses] at hp
      obtain ⟨ha, hb⟩ := process_fair (m := (log.map (·.call.uses)).sum + m) hpr
        (by rw [show max + ((log.map (·.call.uses)).sum + m + 1) = max + 1 + (log.map (·.call.uses)).sum + m by omega]; exact hp)
      obtain ⟨hc, hd⟩ := ih ha
      refine ⟨hc, ?_⟩
      simp only [List.map_cons, List.sum_cons]
      rw [show (Call.process max x : Call σ L).polls = max from rfl]; omega
    · have hsame : p₁.receiver = p.receiver ∧ p₁.isDisconnected = p.isDisconnected := by
        by_cases hs : ∃ i d, c = .snapshot i d
        · obtain ⟨i, d, rfl⟩ := hs
          obtain ⟨s, i', hput, rfl, rfl⟩ := call_snapshot.mp hc
          exact ⟨rfl, rfl⟩
        · have hp' : ∀ m x, c ≠ .process m x := fun m x h => hpr ⟨m, x, h⟩
          have hs' : ∀ i d, c ≠ .snapshot i d := fun i d h => hs ⟨i, d, h⟩
          obtain ⟨rfl, rfl, rfl⟩ := (call_set hp' hs').mp hc
          exact ⟨rfl, rfl⟩
      have hu : c.uses = 0 ∧ c.polls = 0 := by
        cases c <;> first | exact ⟨rfl, rfl⟩ | exact absurd ⟨_, _, rfl⟩ hpr
      simp only [List.map_cons, List.sum_cons, hu.1, Nat.zero_add] at hp
      obtain ⟨ha, hb⟩ := ih ⟨by rw [hsame.1]; exact hp.ready, by rw [hsame.1]; exact hp.fair, by rw [hsame.1, hsame.2]; exact hp.drained⟩
      refine ⟨ha, ?_⟩
      rw [hsame.1] at hb
      simpa [hu.2] using hb

end Metrix
