import Verif.Props.C05

/-! # C08: messages are consumed exactly once and in order -/

namespace Metrix
variable {σ L : Type} [DecidableEq L] [Custom σ L]

/-- A processor made with a new channel, used in any way while any number of threads send by any schedule. What was
consumed, followed by what is still queued, is what the queue accepted, in the order of acceptance. -/
theorem C08_consumed {e : Env} {k k' : Nat} {p p' : Processor σ L} {log : List (Called σ L)} (h : Life e k p log k' p')
    {cap : Option Nat} {useSend : Bool} {programs : List (SendThread (Message σ L))}
    (hnew : p.receiver.chan = .fresh cap useSend programs) :
    ∃ consumed, Story e k p.state log consumed k' p'.state ∧
      consumed.flatten.map (·.1) ++ p'.receiver.chan.queue.map (·.2) = p'.receiver.chan.accepted.map (·.2) := by
  obtain ⟨consumed, hst, ⟨as, hno, hacts⟩, l, hl, htaken⟩ := life_story h
  refine ⟨consumed, hst, ?_⟩
  have halive : p'.receiver.chan.receiver = true := by
    rw [hacts, hnew]
    clear hacts htaken
    have : ∀ (c : Channel (Message σ L)), c.receiver = true → (c.acts as).receiver = true := by
      induction as with
      | nil => intro c hc; exact hc
      | cons a as ih =>
        intro c hc
        refine ih (fun a ha => hno a (List.mem_cons_of_mem _ ha)) _ ?_
        cases a with
        | thread t => simp only [Channel.act]; rw [Channel.step_receiver]; exact hc
        | receive => simp only [Channel.act, Channel.take]; split <;> exact hc
        | dropReceiver => exact absurd rfl (hno _ (by simp))
    exact this _ rfl
  have hkept : p'.receiver.chan.Kept := by
    rw [hacts] at halive ⊢
    refine Channel.acts_induction_alive (fun c a => Channel.kept_act c a) _ as halive ?_
    rw [hnew]; rfl
  have hempty : p.receiver.chan.taken = [] := by rw [hnew]; rfl
  unfold Channel.Kept at hkept
  rw [← hkept, htaken, hempty, ← hl]
  simp

/-- What was accepted stays accepted: later acceptances come after it. -/
theorem C08_accepted_grows {e : Env} {k k' : Nat} {p p' : Processor σ L} {log : List (Called σ L)}
    (h : Life e k p log k' p') : p.receiver.chan.accepted <+: p'.receiver.chan.accepted := by
  obtain ⟨_, _, ⟨as, hno, hacts⟩, _⟩ := life_story h
  rw [hacts]
  clear hacts hno
  generalize p.receiver.chan = c
  induction as generalizing c with
  | nil => exact List.prefix_refl _
  | cons a as ih =>
    refine List.IsPrefix.trans ?_ (ih (c.act a))
    cases a with
    | thread t =>
      simp only [Channel.act]
      have hs := Channel.step_spec c t
      generalize c.step t = c' at hs
      cases hs <;> simp [Channel.accepted]
    | receive => simp only [Channel.act, Channel.take]; split <;> exact List.prefix_refl _
    | dropReceiver => exact List.prefix_refl _

/-- Two runs of the example: the first one consumes three messages, the second one the last. -/
example : ∃ p₁ p₂ o₁ o₂ k₁ k₂, Life ticking 1 exampleProcessor
      [⟨1, .process 3 .default, .outcome o₁⟩, ⟨k₁, .process 5 .default, .outcome o₂⟩] k₂ p₂ ∧
    exampleProcessor.process 3 .default ticking 1 = some ((p₁, o₁), k₁) ∧ o₁ = ⟨2, 1, 4, 1⟩ ∧ o₂ = ⟨0, 1, 0, 0⟩ :=
  ⟨_, _, _, _, _, _, .cons (Nat.le_refl _) rfl (.cons (Nat.le_refl _) rfl (.nil (Nat.le_refl _))), rfl, rfl, rfl⟩

example := C08_consumed (lived_life (e := ticking) (k := 1) (p := exampleProcessor) (cs := exampleCalls) rfl) rfl
example := C08_accepted_grows (lived_life (e := ticking) (k := 1) (p := exampleProcessor) (cs := exampleCalls) rfl)

end Metrix
