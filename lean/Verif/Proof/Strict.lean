import Verif.Spec.Strict
import Verif.Proof.Arrivals
import Verif.Proof.Happening

/-! # Two uses of a processor, one of them with stricter strategies -/

namespace Metrix
variable {σ L : Type}

theorem Strategy.AsStrictAs.keeps {a b : Strategy} (h : a.AsStrictAs b) {t t' : Int} (ht : t' ≤ t) {o : Observation L}
    (hk : a.Keeps t o) : b.Keeps t' o := by
  cases a with
  | dropAll => exact hk.elim
  | processAll =>
    cases b with
    | processAll => exact True.intro
    | dropAll => exact (h : False).elim
    | dropOlderThan => exact (h : False).elim
  | dropOlderThan age deltas =>
    cases b with
    | processAll => exact True.intro
    | dropAll => exact (h : False).elim
    | dropOlderThan age' deltas' =>
      obtain ⟨h1, h2⟩ : age ≤ age' ∧ (deltas = false → deltas' = false) := h
      rcases (hk : _ ∨ _) with hk | ⟨hc, hd⟩
      · exact .inl (by omega)
      · exact .inr ⟨hc, h2 hd⟩

section
variable [DecidableEq L] [Custom σ L]

/-- What the loop does to the queue does not depend on what it does with the messages. -/
theorem receiveLoop_alike (d₁ d₂ : Decider) (e₁ e₂ : Env) : ∀ (n : Nat) {p p' q q' : Processor σ L} {t t' u u' : Tally} {k k' j j' : Nat},
    p.receiveLoop d₁ n t e₁ k = some ((p', t'), k') → q.receiveLoop d₂ n u e₂ j = some ((q', u'), j') →
    p.receiver = q.receiver → p.isDisconnected = q.isDisconnected →
    p'.receiver = q'.receiver ∧ p'.isDisconnected = q'.isDisconnected
  | 0, p, p', q, q', t, t', u, u', k, k', j, j', h₁, h₂, hr, hd => by
    cases h₁; cases h₂; exact ⟨hr, hd⟩
  | n + 1, p, p', q, q', t, t', u, u', k, k', j, j', h₁, h₂, hr, hd => by
    unfold Processor.receiveLoop at h₁ h₂
    rw [← hr] at h₂
    rcases hx : p.receiver.tryRecv with ⟨r, x⟩
    simp only [hx] at h₁ h₂
    cases x with
    | ok m =>
      obtain ⟨⟨s, u⟩, k₁, _, h₁⟩ := M.bind_eq_some.1 h₁
      obtain ⟨⟨s', u'⟩, k₂, _, h₂⟩ := M.bind_eq_some.1 h₂
      exact receiveLoop_alike d₁ d₂ e₁ e₂ n h₁ h₂ rfl hd
    | empty => exact receiveLoop_alike d₁ d₂ e₁ e₂ n h₁ h₂ rfl hd
    | disconnected =>
      cases h₁; cases h₂; exact ⟨rfl, rfl⟩

theorem process_same {p p' q q' : Processor σ L} {max : Nat} {a b : Strategy} {o₁ o₂ : Outcome} {e₁ e₂ : Env} {k k' j j' : Nat}
    (h₁ : p.process max a e₁ k = some ((p', o₁), k')) (h₂ : q.process max b e₂ j = some ((q', o₂), j'))
    (hr : p.receiver = q.receiver) (hd : p.isDisconnected = q.isDisconnected) :
    p'.receiver = q'.receiver ∧ p'.isDisconnected = q'.isDisconnected ∧ o₁.observationsEnqueued = o₂.observationsEnqueued := by
  unfold Processor.process at h₁ h₂
  rw [← hd] at h₂
  split at h₁
  · rename_i hx
    rw [if_pos hx] at h₂
    cases h₁; cases h₂; exact ⟨hr, hd, rfl⟩
  · rename_i hx
    rw [if_neg hx] at h₂
    obtain ⟨d₁, k₁, _, h₁⟩ := M.bind_eq_some.1 h₁
    obtain ⟨⟨p₁, t₁⟩, k₂, h3, h₁⟩ := M.bind_eq_some.1 h₁
    obtain ⟨d₂, j₁, _, h₂⟩ := M.bind_eq_some.1 h₂
    obtain ⟨⟨q₁, t₂⟩, j₂, h4, h₂⟩ := M.bind_eq_some.1 h₂
    obtain ⟨h5, h6⟩ := receiveLoop_alike d₁ d₂ e₁ e₂ max h3 h4 hr hd
    dsimp only at h₁ h₂
    have e1 : p'.receiver = p₁.receiver.len.1 ∧ p'.isDisconnected = p₁.isDisconnected ∧ o₁.observationsEnqueued = p₁.receiver.len.2 := by
      split at h₁
      · obtain ⟨_, _, _, h₁⟩ := M.bind_eq_some.1 h₁
        cases h₁; exact ⟨rfl, rfl, rfl⟩
      · cases h₁; exact ⟨rfl, rfl, rfl⟩
    have e2 : q'.receiver = q₁.receiver.len.1 ∧ q'.isDisconnected = q₁.isDisconnected ∧ o₂.observationsEnqueued = q₁.receiver.len.2 := by
      split at h₂
      · obtain ⟨_, _, _, h₂⟩ := M.bind_eq_some.1 h₂
        cases h₂; exact ⟨rfl, rfl, rfl⟩
      · cases h₂; exact ⟨rfl, rfl, rfl⟩
    rw [e1.1, e1.2.1, e1.2.2, e2.1, e2.2.1, e2.2.2, h5, h6]
    exact ⟨rfl, rfl, rfl⟩

/-- The same message. Where it was dropped the second time, it was dropped the first time too. -/
def DroppedMore (x y : Message σ L × Verdict) : Prop := x.1 = y.1 ∧ (y.2.isDropped = true → x.2.isDropped = true)

theorem applies_more {e₁ e₂ : Env} {K₁ K₂ : Observation L → Prop} (hK : ∀ o, K₁ o → K₂ o) {k k' j j' : Nat}
    {s s' u u' : ProcessorState σ L} {ms ms' : List (Message σ L × Verdict)} (h₁ : Applies e₁ K₁ k s ms k' s')
    (h₂ : Applies e₂ K₂ j u ms' j' u') (hm : ms.map (·.1) = ms'.map (·.1)) : List.Forall₂ DroppedMore ms ms' := by
  induction h₁ generalizing ms' j u with
  | nil =>
    cases ms' with
    | nil => exact .nil
    | cons => cases hm
  | @cons k k₁ k' s s₁ s' msg v ms h3 h4 ih =>
    cases h₂ with
    | nil => cases hm
    | @cons _ j₁ _ _ u₁ _ msg' v' ms' h5 h6 =>
      rw [List.map_cons, List.map_cons] at hm
      obtain ⟨hmsg, hrest⟩ := List.cons.inj hm
      dsimp only at hmsg
      subst hmsg
      refine .cons ⟨rfl, fun hv => ?_⟩ (ih h6 hrest)
      dsimp only at hv ⊢
      cases h5 with
      | processed _ _ _ => cases hv
      | config _ => cases hv
      | dropped hk =>
        cases h3 with
        | processed hk' _ _ => exact absurd (hK _ hk') hk
        | config hk' => exact (hk' : False).elim
        | dropped _ => rfl

omit [DecidableEq L] [Custom σ L] in
theorem accounts_more {o₁ o₂ : Outcome} {ms ms' : List (Message σ L × Verdict)} (h₁ : o₁.Accounts ms) (h₂ : o₂.Accounts ms')
    (h : List.Forall₂ DroppedMore ms ms') (hq : o₁.observationsEnqueued = o₂.observationsEnqueued) : o₁.AsStrictAs o₂ := by
  have key : (ms.filter fun m => !m.2.isDropped).length ≤ (ms'.filter fun m => !m.2.isDropped).length ∧
      (ms'.filter fun m => m.2.isDropped).length ≤ (ms.filter fun m => m.2.isDropped).length ∧
      (ms.filter fun m => !m.2.isDropped).length + (ms.filter fun m => m.2.isDropped).length =
        (ms'.filter fun m => !m.2.isDropped).length + (ms'.filter fun m => m.2.isDropped).length := by
    clear h₁ h₂
    induction h with
    | nil => simp
    | @cons x y ms ms' hxy _ ih =>
      have := hxy.2
      simp only [List.filter_cons]
      cases hx : x.2.isDropped <;> cases hy : y.2.isDropped <;> simp [hx, hy] at this ⊢ <;> omega
  refine ⟨?_, ?_, ?_, hq⟩
  · rw [h₁.processed, h₂.processed]; exact key.1
  · rw [h₁.dropped, h₂.dropped]; exact key.2.1
  · rw [h₁.processed, h₂.processed, h₁.dropped, h₂.dropped]; exact key.2.2

/-- Two runs. -/
theorem process_more {p p' q q' : Processor σ L} {max : Nat} {a b : Strategy} {o₁ o₂ : Outcome} {e₁ e₂ : Env} {k k' j j' : Nat}
    (h₁ : p.process max a e₁ k = some ((p', o₁), k')) (h₂ : q.process max b e₂ j = some ((q', o₂), j'))
    (hr : p.receiver = q.receiver) (hd : p.isDisconnected = q.isDisconnected) (hab : a.AsStrictAs b) (hclock : e₂.clock j ≤ e₁.clock k) :
    o₁.AsStrictAs o₂ := by
  obtain ⟨e1, e2, e3⟩ := process_same h₁ h₂ hr hd
  obtain ⟨ms, k₂, k₃, s₁, _, _, _, ha, hacc, _, htook, _⟩ := process_spec h₁
  obtain ⟨ms', j₂, j₃, u₁, _, _, _, ha', hacc', _, htook', _⟩ := process_spec h₂
  rw [hr, e1] at htook
  exact accounts_more hacc hacc' (applies_more (fun o => hab.keeps hclock) ha ha' (htook.unique htook')) e3

/-- Two uses of the same processor. -/
theorem lives_more {e₁ e₂ : Env} {log₁ log₂ : List (Called σ L)} (hlog : List.Forall₂ (Called.AsStrictAs e₁ e₂) log₁ log₂)
    {k k' j j' : Nat} {p p' q q' : Processor σ L} (h₁ : Life e₁ k p log₁ k' p') (h₂ : Life e₂ j q log₂ j' q')
    (hr : p.receiver = q.receiver) (hd : p.isDisconnected = q.isDisconnected) :
    p'.receiver = q'.receiver ∧ p'.isDisconnected = q'.isDisconnected ∧
    ∃ consumed₁ consumed₂, Story e₁ k p.state log₁ consumed₁ k' p'.state ∧ Story e₂ j q.state log₂ consumed₂ j' q'.state ∧
      Took p.receiver.chan p'.receiver.chan (consumed₁.flatten.map (·.1)) ∧
      List.Forall₂ DroppedMore consumed₁.flatten consumed₂.flatten := by
  induction hlog generalizing k j p q with
  | nil =>
    cases h₁ with
    | nil hk =>
      cases h₂ with
      | nil hj => exact ⟨hr, hd, [], [], .nil hk, .nil hj, Took.refl _, .nil⟩
  | @cons c₁ c₂ log₁ log₂ hc _ ih =>
    cases hc with
    | run k₁ j₁ max a b r₁ r₂ hab hclock =>
      cases h₁ with
      | @cons _ _ k₂ _ _ p₁ _ _ _ _ hk hc₁ h₁ =>
        cases h₂ with
        | @cons _ _ j₂ _ _ q₁ _ _ _ _ hj hc₂ h₂ =>
          obtain ⟨o₁, hp₁, rfl⟩ := call_process.mp hc₁
          obtain ⟨o₂, hp₂, rfl⟩ := call_process.mp hc₂
          obtain ⟨e1, e2, e3⟩ := process_same hp₁ hp₂ hr hd
          obtain ⟨f1, f2, consumed₁, consumed₂, hs₁, hs₂, ht, hm⟩ := ih h₁ h₂ e1 e2
          obtain ⟨ms, l₂, l₃, s₁, x1, x2, x3, ha, hacc, hs, htook, _⟩ := process_spec hp₁
          obtain ⟨ms', n₂, n₃, u₁, y1, y2, y3, ha', hacc', hs', htook', _⟩ := process_spec hp₂
          have hsame : ms.map (·.1) = ms'.map (·.1) := by
            refine Took.unique (c := p.receiver.chan) (c' := p₁.receiver.chan) htook ?_
            rw [hr, e1]; exact htook'
          refine ⟨f1, f2, ms :: consumed₁, ms' :: consumed₂, .run hk x1 x2 x3 ha hacc hs hs₁, .run hj y1 y2 y3 ha' hacc' hs' hs₂, ?_, ?_⟩
          · simpa using htook.trans ht
          · rw [List.flatten_cons, List.flatten_cons]
            exact List.rel_append (applies_more (fun o => hab.keeps hclock) ha ha' hsame) hm
    | other k₁ j₁ c r₁ r₂ hno =>
      cases h₁ with
      | @cons _ _ k₂ _ _ p₁ _ _ _ _ hk hc₁ h₁ =>
        cases h₂ with
        | @cons _ _ j₂ _ _ q₁ _ _ _ _ hj hc₂ h₂ =>
          by_cases hsn : ∃ i d, c = .snapshot i d
          · obtain ⟨i, d, rfl⟩ := hsn
            obtain ⟨s, i₁, hput, rfl, rfl⟩ := call_snapshot.mp hc₁
            obtain ⟨u, i₂, hput', rfl, rfl⟩ := call_snapshot.mp hc₂
            obtain ⟨f1, f2, consumed₁, consumed₂, hs₁, hs₂, ht, hm⟩ := ih h₁ h₂ hr hd
            exact ⟨f1, f2, [] :: consumed₁, [] :: consumed₂, .snapshot hk hput hs₁, .snapshot hj hput' hs₂, by simpa using ht,
              by simpa using hm⟩
          · have hs' : ∀ i d, c ≠ .snapshot i d := fun i d h => hsn ⟨i, d, h⟩
            obtain ⟨rfl, rfl, rfl⟩ := (call_set hno hs').mp hc₁
            obtain ⟨rfl, rfl, rfl⟩ := (call_set hno hs').mp hc₂
            obtain ⟨f1, f2, consumed₁, consumed₂, hs₁, hs₂, ht, hm⟩ := ih h₁ h₂ hr hd
            exact ⟨f1, f2, [] :: consumed₁, [] :: consumed₂, .set hk hno hs' hs₁, .set hj hno hs' hs₂, by simpa using ht,
              by simpa using hm⟩

omit [DecidableEq L] [Custom σ L] in
theorem DroppedMore.messages {ms ms' : List (Message σ L × Verdict)} (h : List.Forall₂ DroppedMore ms ms') :
    ms.map (·.1) = ms'.map (·.1) := by
  induction h with
  | nil => rfl
  | cons hxy _ ih => rw [List.map_cons, List.map_cons, ih, hxy.1]

omit [DecidableEq L] [Custom σ L] in
theorem DroppedMore.processed {ms ms' : List (Message σ L × Verdict)} (h : List.Forall₂ DroppedMore ms ms') :
    (ms.filterMap processedObservation).Sublist (ms'.filterMap processedObservation) := by
  induction h with
  | nil => exact List.Sublist.slnil
  | @cons x y ms ms' hxy _ ih =>
    obtain ⟨m, v⟩ := x
    obtain ⟨m', v'⟩ := y
    obtain ⟨hm, hv⟩ := hxy
    dsimp only at hm hv
    subst hm
    rw [List.filterMap_cons, List.filterMap_cons]
    cases m with
    | observation o =>
      cases v with
      | processed n =>
        cases v' with
        | processed n' => exact ih.cons_cons _
        | dropped => cases hv rfl
      | dropped =>
        cases v' with
        | processed n' => exact ih.cons _
        | dropped => exact ih
    | _ => exact ih

end
end Metrix
