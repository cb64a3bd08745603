import Verif.Proof.Processing

/-! How many messages are taken at least. -/

namespace Metrix

namespace Channel
variable {μ : Type}

/-- First in, first out. -/
theorem flow_act (c : Channel μ) {a : Action} (ha : a ≠ .dropReceiver) :
    c.taken ++ c.queue <+: (c.act a).taken ++ (c.act a).queue := by
  cases a with
  | thread t =>
    simp only [act]
    have hs := step_spec c t
    generalize c.step t = c' at hs
    cases hs with
    | nothing => exact List.prefix_refl _
    | drop => exact List.prefix_refl _
    | accept th m rest => exact ⟨[(t, m)], by simp⟩
    | lose th m rest => exact List.prefix_refl _
  | receive =>
    simp only [act, take]
    split
    · rename_i t m q hq
      rw [hq]; simp
    · exact List.prefix_refl _
  | dropReceiver => exact absurd rfl ha

theorem flow_acts {as : List Action} (h : NoDrop as) (c : Channel μ) :
    c.taken ++ c.queue <+: (c.acts as).taken ++ (c.acts as).queue := by
  induction as generalizing c with
  | nil => exact List.prefix_refl _
  | cons a as ih =>
    exact (c.flow_act (h a (List.mem_cons_self ..))).trans (ih (fun b hb => h b (List.mem_cons_of_mem _ hb)) _)

end Channel

theorem Took.flow {μ : Type} {c c' : Channel μ} {ms : List μ} (h : Took c c' ms) :
    c.taken ++ c.queue <+: c'.taken ++ c'.queue := by
  obtain ⟨⟨as, hno, rfl⟩, -⟩ := h
  exact Channel.flow_acts hno c

theorem Took.length {μ : Type} {c c' : Channel μ} {ms : List μ} (h : Took c c' ms) :
    c'.taken.length = c.taken.length + ms.length ∧ c.queue.length ≤ ms.length + c'.queue.length := by
  have hf := h.flow.length_le
  obtain ⟨-, l, rfl, hl⟩ := h
  simp only [hl, List.length_append, List.length_map] at hf ⊢
  exact ⟨trivial, by omega⟩

/-- What is taken comes from the front of the queue. -/
theorem Took.front {μ : Type} {c c' : Channel μ} {ms : List μ} (h : Took c c' ms) {n : Nat}
    (hn : min n c.queue.length ≤ ms.length) : (c.queue.map (·.2)).take n <+: ms := by
  have hf := h.flow
  obtain ⟨-, l, rfl, hl⟩ := h
  rw [hl, List.append_assoc, List.prefix_append_right_inj] at hf
  have h1 := hf.map Prod.snd
  rw [List.map_append] at h1
  refine List.prefix_of_prefix_length_le ((List.take_prefix ..).trans h1) (List.prefix_append ..) ?_
  simpa using hn

variable {σ L : Type} [DecidableEq L] [Custom σ L]

theorem receiveLoop_takes {d : Decider} {e : Env} {n : Nat} {p p' : Processor σ L}
    {t t' : Tally} {k k' : Nat} (h : p.receiveLoop d n t e k = some ((p', t'), k')) :
    p.receiver.chan.taken.length + min n p.receiver.chan.queue.length ≤ p'.receiver.chan.taken.length := by
  induction n generalizing p t k with
  | zero =>
    simp [Processor.receiveLoop] at h; obtain ⟨⟨rfl, rfl⟩, rfl⟩ := h
    simp
  | succ n ih =>
    unfold Processor.receiveLoop at h
    rcases hr : p.receiver.tryRecv with ⟨r, x⟩
    simp only [hr] at h
    cases x with
    | ok m =>
      obtain ⟨s, th, h1, h2⟩ := Receiver.tryRecv_ok hr
      have hf := (Channel.flow_acts (as := s.map .thread ++ [.receive])
        (by intro a ha; rcases List.mem_append.mp ha with ha | ha
            · exact Receiver.noDrop_threads s a ha
            · rw [List.mem_singleton.mp ha]; simp) p.receiver.chan).length_le
      rw [← h1] at hf
      simp only [h2, List.length_append, List.length_singleton] at hf
      simp only [M.bind_eq_some] at h
      obtain ⟨_, _, _, h⟩ := h
      have := ih h
      simp only [h2, List.length_append, List.length_singleton] at this
      omega
    | empty =>
      obtain ⟨⟨s, h1⟩, h2, _⟩ := Receiver.tryRecv_empty hr
      have hf := (Took.threads ⟨s, h1⟩).length
      have := ih h
      simp only [h2, List.length_nil] at hf this
      omega
    | disconnected =>
      obtain ⟨⟨s, h1⟩, h2, _⟩ := Receiver.tryRecv_disconnected hr
      have hf := (Took.threads ⟨s, h1⟩).length
      simp only [M.run_pure, Option.some.injEq, Prod.mk.injEq] at h
      obtain ⟨⟨rfl, rfl⟩, rfl⟩ := h
      simp only [h2, List.length_nil] at hf ⊢
      omega

theorem process_takes {p p' : Processor σ L} {max : Nat} {strategy : Strategy} {out : Outcome} {e : Env} {k k' : Nat}
    (h : p.process max strategy e k = some ((p', out), k')) (hd : p.isDisconnected = true → p.receiver.chan.queue = []) :
    p.receiver.chan.taken.length + min max p.receiver.chan.queue.length ≤ p'.receiver.chan.taken.length := by
  unfold Processor.process at h
  by_cases hdc : p.isDisconnected = true
  · rw [if_pos hdc] at h
    simp at h; obtain ⟨⟨rfl, rfl⟩, rfl⟩ := h
    simp [hd hdc]
  · rw [if_neg hdc] at h
    simp only [M.bind_eq_some] at h
    obtain ⟨dec, k₁, _, ⟨q, ta⟩, k₂, h1, h⟩ := h
    have h2 := receiveLoop_takes h1
    obtain ⟨s, hw⟩ := q.receiver.wait_acts
    have h3 : q.receiver.len.1.chan.taken = q.receiver.chan.taken := by
      show q.receiver.wait.chan.taken = _
      rw [hw, Receiver.taken_threads]
    have : p'.receiver.chan.taken = q.receiver.chan.taken := by
      simp only at h
      split at h
      · simp only [M.bind_eq_some, M.run_pure, Option.some.injEq, Prod.mk.injEq] at h
        obtain ⟨_, _, _, ⟨rfl, _⟩, _⟩ := h
        exact h3
      · simp only [M.run_pure, Option.some.injEq, Prod.mk.injEq] at h
        obtain ⟨⟨rfl, _⟩, _⟩ := h
        exact h3
    rw [this]; exact h2

omit [DecidableEq L] in
theorem call_receiver [DecidableEq L] {p p' : Processor σ L} {c : Call σ L} {e : Env} {k k' : Nat} {r : Reply}
    (h : p.call c e k = some ((p', r), k')) (hc : ∀ m x, c ≠ .process m x) :
    p'.receiver = p.receiver ∧ p'.isDisconnected = p.isDisconnected := by
  cases c with
  | process m x => exact absurd rfl (hc m x)
  | snapshot into d =>
    simp only [Processor.call, Processor.putSnapshot, M.bind_eq_some, M.run_pure, Option.some.injEq, Prod.mk.injEq] at h
    obtain ⟨_, _, ⟨_, _, _, rfl, rfl⟩, ⟨rfl, _⟩, _⟩ := h
    exact ⟨rfl, rfl⟩
  | _ =>
    simp only [Processor.call, M.run_pure, Option.some.injEq, Prod.mk.injEq] at h
    obtain ⟨⟨rfl, _⟩, _⟩ := h
    exact ⟨rfl, rfl⟩

theorem life_takes {e : Env} {k k' : Nat} {p p' : Processor σ L} {log : List (Called σ L)} (h : Life e k p log k' p')
    (hd : p.isDisconnected = true → p.receiver.chan.queue = []) :
    p.receiver.chan.taken.length + min (log.map (·.call.polls)).sum p.receiver.chan.queue.length ≤
      p'.receiver.chan.taken.length := by
  induction h with
  | nil => simp
  | @cons k k₁ k₂ k' p p₁ p' c r log hk hc _ ih =>
    by_cases hp : ∃ m x, c = .process m x
    · obtain ⟨m, x, rfl⟩ := hp
      simp only [Processor.call, M.bind_eq_some, M.run_pure, Option.some.injEq, Prod.mk.injEq] at hc
      obtain ⟨⟨q, o⟩, _, h1, ⟨rfl, _⟩, rfl⟩ := hc
      obtain ⟨ms, _, _, _, _, _, _, _, _, _, htook, _, hdis, hfin⟩ := process_spec h1
      have hl := htook.length
      have ht := process_takes h1 hd
      have := ih fun hq => by
        cases hdc : p.isDisconnected with
        | true => rw [(hfin hdc).1]; exact hd hdc
        | false => exact (hdis hdc hq).1
      simp only [List.map_cons, List.sum_cons, Call.polls] at this ⊢
      omega
    · obtain ⟨h1, h2⟩ := call_receiver hc fun m x h => hp ⟨m, x, h⟩
      have := ih (by rw [h1, h2]; exact hd)
      rw [h1] at this
      have h0 : c.polls = 0 := by cases c <;> first | rfl | exact absurd ⟨_, _, rfl⟩ hp
      simpa [h0] using this

end Metrix
