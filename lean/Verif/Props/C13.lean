import Verif.Proof.Liveness
import Verif.Props.C08
import Verif.Props.C12

/-! # C13: order per transmitter, and progress -/

namespace Metrix
variable {σ L : Type} [DecidableEq L] [Custom σ L]

/-- What thread `t` is going to send. -/
def programOf {μ : Type} (programs : List (SendThread μ)) (t : Nat) : List μ :=
  match programs[t]? with
  | some th => th.todo
  | none => []

theorem life_alive {c c' : Channel (Message σ L)} {as : List Action} (hno : NoDrop as) (h : c' = c.acts as)
    (hc : c.receiver = true) : c'.receiver = true := by
  subst h
  induction as generalizing c with
  | nil => exact hc
  | cons a as ih =>
    refine ih (fun a ha => hno a (List.mem_cons_of_mem _ ha)) ?_
    cases a with
    | thread t => simp only [Channel.act]; rw [Channel.step_receiver]; exact hc
    | receive => simp only [Channel.act, Channel.take]; split <;> exact hc
    | dropReceiver => exact absurd rfl (hno _ (by simp))

/-- A processor with a new channel is used in any way, while any number of threads send by any schedule. The messages of
a thread are consumed in the order in which that thread sent them: those consumed are some of its program, in order. If
no message is lost because of a full queue, those consumed are a beginning of its program. -/
theorem C13_order {e : Env} {k k' : Nat} {p p' : Processor σ L} {log : List (Called σ L)} (h : Life e k p log k' p')
    {cap : Option Nat} {useSend : Bool} {programs : List (SendThread (Message σ L))}
    (hnew : p.receiver.chan = .fresh cap useSend programs) :
    ∃ consumed, Story e k p.state log consumed k' p'.state ∧
      ∃ sources : List (Nat × Message σ L), sources.map (·.2) = consumed.flatten.map (·.1) ∧
        (∀ t, (byThread t sources).Sublist (programOf programs t)) ∧
        (useSend = true ∨ cap = none → ∀ t, byThread t sources <+: programOf programs t) := by
  obtain ⟨consumed, hst, ⟨as, hno, hacts⟩, l, hl, htaken⟩ := life_story h
  have halive := life_alive hno hacts (by rw [hnew]; rfl)
  have hkept : p'.receiver.chan.Kept := by
    rw [hacts] at halive ⊢
    refine Channel.acts_induction_alive (fun c a => Channel.kept_act c a) _ as halive ?_
    rw [hnew]; rfl
  have hempty : p.receiver.chan.taken = [] := by rw [hnew]; rfl
  have hsrc : p'.receiver.chan.taken = l := by rw [htaken, hempty]; simp
  have hprog : ∀ t, p'.receiver.chan.sentBy t ++ p'.receiver.chan.todo t = programOf programs t := by
    intro t
    rw [hacts, Channel.program_acts, hnew]
    simp [Channel.fresh, Channel.sentBy, Channel.todo, programOf]
    cases programs[t]? <;> rfl
  have hsplit : ∀ t, byThread t l ++ byThread t p'.receiver.chan.queue = byThread t p'.receiver.chan.accepted := by
    intro t
    unfold Channel.Kept at hkept
    rw [← hkept, Channel.byThread_append, hsrc]
  refine ⟨consumed, hst, l, hl, fun t => ?_, fun hb t => ?_⟩
  · refine List.Sublist.trans ?_ ((Channel.accepted_sublist p'.receiver.chan t).trans ?_)
    · rw [← hsplit t]; exact List.sublist_append_left _ _
    · rw [← hprog t]; exact List.sublist_append_left _ _
  · have hless : p'.receiver.chan.Lossless := by
      have := C12_lossless cap useSend programs as hb (by rw [← hnew, ← hacts]; exact halive)
      rw [← hnew, ← hacts] at this; exact this
    refine List.IsPrefix.trans ⟨_, hsplit t⟩ ?_
    rw [Channel.accepted_eq_sentBy _ hless]
    exact ⟨_, hprog t⟩

/-- Blocking transmitters, or no capacity. The owner polls at least as often as there are messages, and every thread gets
the chance to do something before each poll. In the end every thread has sent all of its program, and all of that was
consumed. -/
theorem C13_everything {e : Env} {k k' : Nat} {p p' : Processor σ L} {log : List (Called σ L)} (h : Life e k p log k' p')
    {cap : Option Nat} {useSend : Bool} {programs : List (SendThread (Message σ L))}
    (hnew : p.receiver.chan = .fresh cap useSend programs) (hconn : p.isDisconnected = false)
    (hb : useSend = true ∨ cap = none) (hcap : cap ≠ some 0) (hold : ∀ th ∈ programs, th.holds = true)
    (hfair : p.receiver.Fair (log.map (·.call.uses)).sum)
    (hpolls : (programs.map (·.todo.length)).sum ≤ (log.map (·.call.polls)).sum) :
    p'.receiver.chan.queue = [] ∧ (∀ t, p'.receiver.chan.todo t = []) ∧
    ∃ consumed, Story e k p.state log consumed k' p'.state ∧
      ∃ sources : List (Nat × Message σ L), sources.map (·.2) = consumed.flatten.map (·.1) ∧
        ∀ t, byThread t sources = programOf programs t := by
  have hready : p.Ready ((log.map (·.call.uses)).sum + 0) := by
    refine ⟨⟨by rw [hnew]; rfl, by rw [hnew]; exact hb, by rw [hnew]; exact hcap, ?_⟩, hfair, by simp [hconn]⟩
    intro th hth hh
    rw [hnew] at hth
    rw [hold th hth] at hh; cases hh
  obtain ⟨_, hrem⟩ := life_fair h hready
  have hzero : p'.receiver.chan.remaining = 0 := by
    have : p.receiver.chan.remaining = (programs.map (·.todo.length)).sum := by
      rw [hnew]; simp [Channel.remaining, Channel.fresh]
    omega
  have hq : p'.receiver.chan.queue = [] := by
    simp only [Channel.remaining] at hzero
    exact List.eq_nil_of_length_eq_zero (by omega)
  have htodo : ∀ t, p'.receiver.chan.todo t = [] := by
    intro t
    unfold Channel.todo
    cases hth : p'.receiver.chan.threads[t]? with
    | none => rfl
    | some th =>
      simp only [Channel.remaining] at hzero
      have hmem := List.mem_map_of_mem (f := fun th : SendThread (Message σ L) => th.todo.length) (List.mem_of_getElem? hth)
      have hle : ∀ (l : List Nat) x, x ∈ l → x ≤ l.sum := by
        intro l x hx
        induction l with
        | nil => simp at hx
        | cons y l ih =>
          rcases List.mem_cons.mp hx with rfl | hx
          · simp
          · have := ih hx; simp; omega
      have := hle _ _ hmem
      exact List.eq_nil_of_length_eq_zero (by simp only; omega)
  refine ⟨hq, htodo, ?_⟩
  obtain ⟨consumed, hst, ⟨as, hno, hacts⟩, l, hl, htaken⟩ := life_story h
  have halive := life_alive hno hacts (by rw [hnew]; rfl)
  have hkept : p'.receiver.chan.Kept := by
    rw [hacts] at halive ⊢
    refine Channel.acts_induction_alive (fun c a => Channel.kept_act c a) _ as halive ?_
    rw [hnew]; rfl
  have hempty : p.receiver.chan.taken = [] := by rw [hnew]; rfl
  have hsrc : p'.receiver.chan.taken = l := by rw [htaken, hempty]; simp
  have hless : p'.receiver.chan.Lossless := by
    have := C12_lossless cap useSend programs as hb (by rw [← hnew, ← hacts]; exact halive)
    rw [← hnew, ← hacts] at this; exact this
  refine ⟨consumed, hst, l, hl, fun t => ?_⟩
  unfold Channel.Kept at hkept
  rw [hq, List.append_nil, hsrc] at hkept
  rw [hkept, Channel.accepted_eq_sentBy _ hless]
  have : p'.receiver.chan.sentBy t ++ p'.receiver.chan.todo t = programOf programs t := by
    rw [hacts, Channel.program_acts, hnew]
    simp [Channel.fresh, Channel.sentBy, Channel.todo, programOf]
    cases programs[t]? <;> rfl
  rw [htodo t, List.append_nil] at this
  exact this

/-! ## Example: two threads, a queue for one message -/

def twoThreads : List (SendThread (Message Empty Nat)) :=
  [{ todo := [.observation (.observedOne 1 0), .observation (.observedOne 2 0)] }, { todo := [.observation (.observedOne 3 0)] }]

def smallProcessor : Processor Empty Nat where
  state := { activity := ⟨0, none, true⟩, handlers := [.panel exampleTree] }
  receiver := { chan := .fresh (some 1) true twoThreads, ahead := [[1, 0], [0, 1], [1, 0], [0, 1], [0, 1]] }

example : ∃ p₁ p' o₁ o₂ k₁ k', smallProcessor.process 2 .processAll ticking 1 = some ((p₁, o₁), k₁) ∧
    Life ticking 1 smallProcessor
      [⟨1, .process 2 .processAll, .outcome o₁⟩, ⟨k₁, .process 1 .processAll, .outcome o₂⟩] k' p' ∧
    smallProcessor.receiver.Fair 5 ∧ (twoThreads.map (·.todo.length)).sum ≤ 3 ∧
    p'.receiver.chan.taken.map (·.1) = [1, 0, 0] := by
  refine ⟨_, _, _, _, _, _, rfl, .cons (Nat.le_refl _) rfl (.cons (Nat.le_refl _) rfl (.nil (Nat.le_refl _))),
    ⟨by decide, ?_⟩, by decide, rfl⟩
  intro s hs t ht
  simp [smallProcessor] at hs
  have : t = 0 ∨ t = 1 := by
    have : t < 2 := ht
    omega
  rcases this with rfl | rfl <;> rcases hs with rfl | rfl | rfl | rfl | rfl <;> simp

example := C13_order (lived_life (e := ticking) (k := 1) (p := exampleProcessor) (cs := exampleCalls) rfl) rfl

end Metrix
