import Verif.Spec.Channel

/-! # Invariants of channels -/

namespace Metrix
variable {μ : Type}
namespace Channel

/-- The possible effects of a step of a thread. -/
inductive Step (c : Channel μ) (t : Nat) : Channel μ → Prop
  | nothing : Step c t c
  | drop (th : SendThread μ) : c.threads[t]? = some th → th.holds = true → th.todo = [] → th.drops = true →
      Step c t { c with threads := c.threads.set t { th with holds := false } }
  | accept (th : SendThread μ) (m : μ) (rest : List μ) : c.threads[t]? = some th → th.holds = true →
      th.todo = m :: rest → c.receiver = true → c.isFull = false →
      Step c t { c with queue := c.queue ++ [(t, m)], log := c.log ++ [⟨t, m, true⟩],
                        threads := c.threads.set t { th with todo := rest } }
  | lose (th : SendThread μ) (m : μ) (rest : List μ) : c.threads[t]? = some th → th.holds = true →
      th.todo = m :: rest → (c.receiver = false ∨ (c.isFull = true ∧ c.useSend = false)) →
      Step c t { c with log := c.log ++ [⟨t, m, false⟩], threads := c.threads.set t { th with todo := rest } }

theorem step_spec (c : Channel μ) (t : Nat) : Step c t (c.step t) := by
  unfold step
  cases hth : c.threads[t]? with
  | none => exact .nothing
  | some th =>
    simp only
    by_cases hh : th.holds = true
    · rw [if_pos hh]
      cases htd : th.todo with
      | nil =>
        simp only
        by_cases hd : th.drops = true
        · rw [if_pos hd]
          have := Step.drop (c := c) th hth hh htd hd
          rw [htd] at this; exact this
        · rw [if_neg hd]; exact .nothing
      | cons m rest =>
        simp only [send]
        by_cases hr : c.receiver = true
        · by_cases hf : c.isFull = true
          · by_cases hs : c.useSend = true
            · simp [hr, hf, hs]; exact .nothing
            · simp [hr, hf, hs]
              have := Step.lose (c := c) th m rest hth hh htd (.inr ⟨hf, by simpa using hs⟩)
              simpa [hr, hf, hs] using this
          · simp [hr, hf]
            have := Step.accept (c := c) th m rest hth hh htd hr (by simpa using hf)
            simpa [hr, hf] using this
        · simp [hr]
          have := Step.lose (c := c) th m rest hth hh htd (.inl (by simpa using hr))
          simpa [hr] using this
    · rw [if_neg hh]; exact .nothing

theorem length_threads_step (c : Channel μ) (t : Nat) : (c.step t).threads.length = c.threads.length := by
  have h := step_spec c t
  generalize c.step t = c' at h
  cases h <;> simp

theorem step_cap (c : Channel μ) (t : Nat) : (c.step t).cap = c.cap := by
  have h := step_spec c t
  generalize c.step t = c' at h
  cases h <;> rfl

theorem step_useSend (c : Channel μ) (t : Nat) : (c.step t).useSend = c.useSend := by
  have h := step_spec c t
  generalize c.step t = c' at h
  cases h <;> rfl

theorem step_receiver (c : Channel μ) (t : Nat) : (c.step t).receiver = c.receiver := by
  have h := step_spec c t
  generalize c.step t = c' at h
  cases h <;> rfl

theorem step_taken (c : Channel μ) (t : Nat) : (c.step t).taken = c.taken := by
  have h := step_spec c t
  generalize c.step t = c' at h
  cases h <;> rfl

theorem act_cap (c : Channel μ) (a : Action) : (c.act a).cap = c.cap := by
  cases a with
  | thread t => exact step_cap c t
  | receive => simp only [act, take]; split <;> rfl
  | dropReceiver => rfl

theorem act_useSend (c : Channel μ) (a : Action) : (c.act a).useSend = c.useSend := by
  cases a with
  | thread t => exact step_useSend c t
  | receive => simp only [act, take]; split <;> rfl
  | dropReceiver => rfl

theorem act_threads_length (c : Channel μ) (a : Action) : (c.act a).threads.length = c.threads.length := by
  cases a with
  | thread t => exact length_threads_step c t
  | receive => simp only [act, take]; split <;> rfl
  | dropReceiver => rfl

theorem acts_append (c : Channel μ) (as bs : List Action) : c.acts (as ++ bs) = (c.acts as).acts bs := by
  simp [acts]

/-- A receiver that is gone does not come back. -/
theorem act_receiver (c : Channel μ) (a : Action) (h : (c.act a).receiver = true) : c.receiver = true := by
  cases a with
  | thread t => rw [act, step_receiver] at h; exact h
  | receive => simp only [act, take] at h; split at h <;> exact h
  | dropReceiver => simp [act, dropReceiver] at h

theorem acts_receiver (c : Channel μ) (as : List Action) (h : (c.acts as).receiver = true) : c.receiver = true := by
  induction as generalizing c with
  | nil => exact h
  | cons a as ih => exact act_receiver c a (ih _ h)

theorem acts_cap (c : Channel μ) (as : List Action) : (c.acts as).cap = c.cap := by
  induction as generalizing c with
  | nil => rfl
  | cons a as ih => exact (ih _).trans (act_cap c a)

theorem acts_useSend (c : Channel μ) (as : List Action) : (c.acts as).useSend = c.useSend := by
  induction as generalizing c with
  | nil => rfl
  | cons a as ih => exact (ih _).trans (act_useSend c a)

theorem acts_threads_length (c : Channel μ) (as : List Action) : (c.acts as).threads.length = c.threads.length := by
  induction as generalizing c with
  | nil => rfl
  | cons a as ih => exact (ih _).trans (act_threads_length c a)

/-- Any property kept by every action holds after any actions. -/
theorem acts_induction {P : Channel μ → Prop} (hP : ∀ c a, P c → P (c.act a)) (c : Channel μ) (as : List Action)
    (h : P c) : P (c.acts as) := by
  induction as generalizing c with
  | nil => exact h
  | cons a as ih => exact ih _ (hP c a h)

/-- Same for a property that need hold only while the receiver lives. -/
theorem acts_induction_alive {P : Channel μ → Prop} (hP : ∀ c a, (c.act a).receiver = true → P c → P (c.act a))
    (c : Channel μ) (as : List Action) (ha : (c.acts as).receiver = true) (h : P c) : P (c.acts as) := by
  induction as generalizing c with
  | nil => exact h
  | cons a as ih => exact ih _ ha (hP c a (acts_receiver _ as ha) h)

theorem run_eq_acts (c : Channel μ) (s : List Nat) : c.run s = c.acts (s.map .thread) := by
  induction s generalizing c with
  | nil => rfl
  | cons t s ih => exact ih (c.step t)

/-- While the receiver lives: everything accepted was taken or is queued. -/
def Kept (c : Channel μ) : Prop := c.taken ++ c.queue = c.accepted

theorem kept_act (c : Channel μ) (a : Action) (ha : (c.act a).receiver = true) (h : c.Kept) : (c.act a).Kept := by
  cases a with
  | thread t =>
    simp only [act]
    have hs := step_spec c t
    generalize c.step t = c' at hs
    cases hs with
    | nothing => exact h
    | drop => exact h
    | accept th m rest =>
      simp only [Kept, accepted] at h ⊢
      simp [← h]
    | lose th m rest =>
      simp only [Kept, accepted] at h ⊢
      simp [← h]
  | receive =>
    simp only [act, take]
    split
    · rename_i t m q hq
      simp only [Kept, accepted] at h ⊢
      rw [← h, hq]; simp
    · exact h
  | dropReceiver => simp [act, dropReceiver] at ha

/-- With or without a receiver: what was taken is a beginning of what was accepted. -/
def Prefix (c : Channel μ) : Prop :=
  (c.receiver = true → c.Kept) ∧ (c.receiver = false → c.queue = [] ∧ c.taken <+: c.accepted)

theorem prefix_act (c : Channel μ) (a : Action) (h : c.Prefix) : (c.act a).Prefix := by
  refine ⟨fun hr => kept_act c a hr (h.1 (act_receiver c a hr)), fun hr => ?_⟩
  cases a with
  | thread t =>
    simp only [act] at hr ⊢
    rw [step_receiver] at hr
    obtain ⟨hq, ht⟩ := h.2 hr
    have hs := step_spec c t
    generalize c.step t = c' at hs
    cases hs with
    | nothing => exact ⟨hq, ht⟩
    | drop => exact ⟨hq, ht⟩
    | accept th m rest _ _ _ hr' => rw [hr] at hr'; cases hr'
    | lose th m rest =>
      refine ⟨hq, ?_⟩
      simp only [accepted] at ht ⊢
      simpa using ht
  | receive =>
    simp only [act, take] at hr ⊢
    cases hq : c.queue with
    | nil =>
      simp only [hq] at hr ⊢
      exact ⟨trivial, (h.2 hr).2⟩
    | cons x q =>
      simp only [hq] at hr
      have := (h.2 hr).1
      rw [hq] at this; cases this
  | dropReceiver =>
    simp only [act, dropReceiver]
    refine ⟨trivial, ?_⟩
    cases hr : c.receiver with
    | true =>
      have := h.1 hr
      simp only [Kept] at this
      exact ⟨c.queue, this⟩
    | false => exact (h.2 hr).2

/-- The queue is within its bounds. -/
def Bounded (c : Channel μ) : Prop := ∀ n, c.cap = some n → c.queue.length ≤ n

theorem bounded_act (c : Channel μ) (a : Action) (h : c.Bounded) : (c.act a).Bounded := by
  intro n hn
  rw [act_cap] at hn
  have hb := h n hn
  cases a with
  | thread t =>
    simp only [act]
    have hs := step_spec c t
    generalize c.step t = c' at hs
    cases hs with
    | nothing => exact hb
    | drop => exact hb
    | accept th m rest _ _ _ _ hf =>
      simp only [isFull, hn, decide_eq_false_iff_not] at hf
      simp; omega
    | lose => exact hb
  | receive =>
    simp only [act, take]
    split
    · rename_i hq; rw [hq] at hb; simp at hb ⊢; omega
    · exact hb
  | dropReceiver => simp [act, dropReceiver]

theorem todo_set (c : Channel μ) (t u : Nat) (th : SendThread μ) (l : List (Sent μ)) (q : List (Nat × μ))
    (ht : t < c.threads.length) :
    todo { c with queue := q, log := l, threads := c.threads.set t th } u = if u = t then th.todo else c.todo u := by
  simp only [todo, List.getElem?_set]
  by_cases hu : u = t
  · subst hu; simp [ht]
  · rw [if_neg (Ne.symm hu), if_neg hu]

theorem sentBy_append (c : Channel μ) (t u : Nat) (m : μ) (b : Bool) :
    (((c.log ++ [Sent.mk t m b]).filter (·.thread == u)).map (·.message)) =
      c.sentBy u ++ if u = t then [m] else [] := by
  by_cases hu : u = t
  · subst hu; simp [sentBy]
  · have : (t == u) = false := by simpa using Ne.symm hu
    simp [sentBy, hu, this]

/-- What a thread has sent, followed by what it has still to send, is its program. -/
theorem program_act (c : Channel μ) (a : Action) (u : Nat) :
    (c.act a).sentBy u ++ (c.act a).todo u = c.sentBy u ++ c.todo u := by
  cases a with
  | thread t =>
    simp only [act]
    have hs := step_spec c t
    generalize c.step t = c' at hs
    cases hs with
    | nothing => rfl
    | drop th hth hh htd hd =>
      have hlt : t < c.threads.length := (List.getElem?_eq_some_iff.mp hth).1
      have := todo_set c t u { th with holds := false } c.log c.queue hlt
      simp only at this
      rw [this]
      have hc : c.todo t = th.todo := by simp [todo, hth]
      by_cases hu : u = t
      · subst hu; simp [hc, sentBy]
      · simp [hu, sentBy]
    | accept th m rest hth hh htd hr hf =>
      have hlt : t < c.threads.length := (List.getElem?_eq_some_iff.mp hth).1
      have := todo_set c t u { th with todo := rest } (c.log ++ [⟨t, m, true⟩]) (c.queue ++ [(t, m)]) hlt
      simp only at this
      rw [this]
      have hc : c.todo t = m :: rest := by simp [todo, hth, htd]
      simp only [sentBy]
      rw [sentBy_append]
      by_cases hu : u = t
      · subst hu; simp [hc, sentBy]
      · simp [hu, sentBy]
    | lose th m rest hth hh htd hr =>
      have hlt : t < c.threads.length := (List.getElem?_eq_some_iff.mp hth).1
      have := todo_set c t u { th with todo := rest } (c.log ++ [⟨t, m, false⟩]) c.queue hlt
      simp only at this
      rw [this]
      have hc : c.todo t = m :: rest := by simp [todo, hth, htd]
      simp only [sentBy]
      rw [sentBy_append]
      by_cases hu : u = t
      · subst hu; simp [hc, sentBy]
      · simp [hu, sentBy]
  | receive => simp only [act, take]; split <;> rfl
  | dropReceiver => rfl

theorem program_acts (c : Channel μ) (as : List Action) (u : Nat) :
    (c.acts as).sentBy u ++ (c.acts as).todo u = c.sentBy u ++ c.todo u := by
  induction as generalizing c with
  | nil => rfl
  | cons a as ih => exact (ih _).trans (program_act c a u)

/-- Nothing was lost. -/
def Lossless (c : Channel μ) : Prop := ∀ s ∈ c.log, s.accepted = true

theorem lossless_act (c : Channel μ) (a : Action) (hc : c.useSend = true ∨ c.cap = none)
    (ha : (c.act a).receiver = true) (h : c.Lossless) : (c.act a).Lossless := by
  cases a with
  | thread t =>
    simp only [act] at ha ⊢
    rw [step_receiver] at ha
    have hs := step_spec c t
    generalize c.step t = c' at hs
    cases hs with
    | nothing => exact h
    | drop => exact h
    | accept th m rest =>
      intro s hs
      rcases List.mem_append.mp hs with hs | hs
      · exact h s hs
      · simp at hs; subst hs; rfl
    | lose th m rest _ _ _ hr =>
      rcases hr with hr | ⟨hf, hu⟩
      · rw [ha] at hr; cases hr
      · rcases hc with hc | hc
        · rw [hu] at hc; cases hc
        · simp [isFull, hc] at hf
  | receive => simp only [act, take]; split <;> exact h
  | dropReceiver => exact h

/-- Threads drop their transmitters only after they have sent everything. -/
def Orderly (c : Channel μ) : Prop := ∀ th ∈ c.threads, th.holds = false → th.todo = []

theorem orderly_act (c : Channel μ) (a : Action) (h : c.Orderly) : (c.act a).Orderly := by
  cases a with
  | thread t =>
    simp only [act]
    have hs := step_spec c t
    generalize c.step t = c' at hs
    cases hs with
    | nothing => exact h
    | drop th hth hh htd hd =>
      intro x hx hx'
      rcases List.mem_or_eq_of_mem_set hx with hx | hx
      · exact h x hx hx'
      · subst hx; exact htd
    | accept th m rest hth hh htd hr hf =>
      intro x hx hx'
      rcases List.mem_or_eq_of_mem_set hx with hx | hx
      · exact h x hx hx'
      · subst hx; simp [hh] at hx'
    | lose th m rest hth hh htd hr =>
      intro x hx hx'
      rcases List.mem_or_eq_of_mem_set hx with hx | hx
      · exact h x hx hx'
      · subst hx; simp [hh] at hx'
  | receive => simp only [act, take]; split <;> exact h
  | dropReceiver => exact h

/-- Of a thread's messages the accepted ones are some of those it sent, in the same order. -/
theorem accepted_sublist (c : Channel μ) (t : Nat) : (byThread t c.accepted).Sublist (c.sentBy t) := by
  simp only [byThread, accepted, sentBy, List.filter_map, List.map_map]
  rw [List.filter_filter]
  have : ((fun x : Nat × μ => x.2) ∘ fun s : Sent μ => (s.thread, s.message)) = (·.message) := rfl
  rw [this]
  refine List.Sublist.map _ ?_
  rw [show (fun a : Sent μ => ((fun x : Nat × μ => x.1 == t) ∘ fun s : Sent μ => (s.thread, s.message)) a && a.accepted) =
    fun a => a.accepted && (a.thread == t) from by funext a; simp [Bool.and_comm]]
  rw [← List.filter_filter]
  exact List.filter_sublist

theorem accepted_eq_sentBy (c : Channel μ) (h : c.Lossless) (t : Nat) : byThread t c.accepted = c.sentBy t := by
  simp only [byThread, accepted, sentBy]
  rw [List.filter_eq_self.mpr (fun s hs => h s hs)]
  simp [List.filter_map, Function.comp_def]

theorem byThread_append (t : Nat) (a b : List (Nat × μ)) : byThread t (a ++ b) = byThread t a ++ byThread t b := by
  simp [byThread]

/-- When all transmitters are gone, no thread can do anything. -/
theorem abandoned_step (c : Channel μ) (t : Nat) (h : c.abandoned = true) : c.step t = c := by
  unfold step
  cases hth : c.threads[t]? with
  | none => rfl
  | some th =>
    have := List.all_eq_true.mp h th (List.mem_of_getElem? hth)
    simp at this
    simp [this]

theorem abandoned_run (c : Channel μ) (s : List Nat) (h : c.abandoned = true) : c.run s = c := by
  induction s generalizing c with
  | nil => rfl
  | cons t s ih => simp only [run, List.foldl_cons] at ih ⊢; rw [abandoned_step c t h]; exact ih c h

end Channel
end Metrix
