import Verif.Proof.History
import Verif.Spec.Switches

/-! Instruments that remember only their last update. -/

namespace Metrix

theorem arrivals_time_le {β : Type} {C : Type} [Component C Update] {e : Env} (mono : e.Mono) {sel : Update → Option β}
    (hk : ∀ (c : C) op k c' out k', step c op e k = some ((c', out), k') → k ≤ k')
    {k k' : Nat} {c c' : C} {log : List (Event Update)} (h : History e k c log k' c') :
    ∀ t b, (t, b) ∈ arrivals e.clock sel log → t ≤ e.clock k' := by
  have hmono : ∀ {k k' : Nat} {c c' : C} {log : List (Event Update)}, History e k c log k' c' → k ≤ k' := by
    intro k k' c c' log h
    induction h with
    | nil h => exact h
    | cons h1 hs _ ih => have := hk _ _ _ _ _ _ hs; omega
  induction h with
  | nil => intro t b h; simp [arrivals] at h
  | @cons k k₁ k₂ k' c c₁ c' op out log h1 hs hr ih =>
    intro t b h
    have := hmono hr
    cases op with
    | snapshot s d => exact ih t b h
    | input u =>
      simp only [arrivals] at h
      cases hsel : sel u with
      | none => simp only [hsel] at h; exact ih t b h
      | some b' =>
        simp only [hsel, List.mem_cons, Prod.mk.injEq] at h
        rcases h with ⟨rfl, rfl⟩ | h
        · exact mono _ _ (by omega)
        · exact ih t b h

/-- If each selected update overwrites what the previous one did, then only the last one matters. -/
theorem History.lastWriter {β C : Type} [Component C Update] {e : Env} {sel : Update → Option β}
    (put : Int → β → C → C) (hput : ∀ t b t' b' c, put t b (put t' b' c) = put t b c)
    (hupd : ∀ (c : C) u k c' n k', Component.take c u e k = some ((c', n), k') →
      c' = match sel u with
        | some b => put (e.clock (k' - 1)) b c
        | none => c)
    (hsnap : ∀ (c : C) s d k c' s' k', Component.putSnapshot c s d e k = some ((c', s'), k') → c' = c)
    {k k' : Nat} {c c' : C} {log : List (Event Update)} (h : History e k c log k' c') :
    c' = match lastArrival e.clock sel log with
      | some (t, b) => put t b c
      | none => c := by
  unfold lastArrival
  induction h with
  | nil => rfl
  | @cons k k₁ k₂ k' c c₁ c' op out log h1 hs hr ih =>
    cases op with
    | snapshot s d =>
      obtain ⟨_, _, hu⟩ := step_snapshot_eq_some.mp hs
      obtain rfl := hsnap _ _ _ _ _ _ _ hu
      exact ih
    | input u =>
      obtain ⟨n, _, hu⟩ := step_input_eq_some.mp hs
      have hc := hupd _ _ _ _ _ _ hu
      cases hsel : sel u with
      | none =>
        simp only [hsel] at hc; subst hc
        simp only [arrivals, hsel]; exact ih
      | some b =>
        simp only [hsel] at hc; subst hc
        simp only [arrivals, hsel, List.getLast?_cons]
        rw [ih]
        cases (arrivals e.clock sel log).getLast? with
        | none => rfl
        | some p => simp [hput]

theorem putTimedSwitch_eq_some {name : String} {descr : Descr} {si : Option NameAlternation} {state : M Bool}
    {into s : Snapshot} {d : Bool} {e : Env} {k k' : Nat}
    (h : putTimedSwitch name descr si state into d e k = some (s, k')) :
    ∃ b k₁, state e k = some (b, k₁) ∧
      match (generalizing := false) si with
      | none => k' = k₁ ∧ s = putPostfixedDescriptives descr name into d ++ [(name, .boolean b)]
      | some alt => ∃ b', state e k₁ = some (b', k') ∧
        s = putPostfixedDescriptives descr name into d ++ [(name, .boolean b), (alt.adjustName name, .boolean !b')] := by
  simp only [putTimedSwitch, M.bind_eq_some] at h
  obtain ⟨b, k₁, hb, h⟩ := h
  refine ⟨b, k₁, hb, ?_⟩
  cases si with
  | none => simp [Snapshot.push] at h; exact ⟨h.2.symm, h.1.symm⟩
  | some alt =>
    simp only [M.bind_eq_some, M.run_pure, Option.some.injEq, Prod.mk.injEq] at h
    obtain ⟨b', k₂, hb', rfl, rfl⟩ := h
    exact ⟨b', hb', by simp [Snapshot.push]⟩

theorem addDur_eq_some {t r : Int} {d : Nat} {e : Env} {k k' : Nat} (h : addDur t d e k = some (r, k')) :
    r = t + d ∧ k' = k ∧ t + d ≤ e.instMax := by
  unfold addDur at h
  split at h
  · simp at h; exact ⟨h.1.symm, h.2.symm, by assumption⟩
  · cases h

theorem subDur_eq_some {t r : Int} {d : Nat} {e : Env} {k k' : Nat} (h : subDur t d e k = some (r, k')) :
    r = t - d ∧ k' = k ∧ e.instMin ≤ t - d := by
  unfold subDur at h
  split at h
  · simp at h; exact ⟨h.1.symm, h.2.symm, by assumption⟩
  · cases h

theorem StaircaseTimer.history {e : Env} {k k' : Nat} {t t' : StaircaseTimer} {log : List (Event Update)}
    (h : History e k t log k' t') :
    t' = match lastTap e.clock log with
      | some tap => { t with stayOnUntil := some (tap + t.switchOffAfter) }
      | none => t := by
  have := History.lastWriter (sel := fun _ => some ())
    (fun tap (_ : Unit) t => { t with stayOnUntil := some (tap + t.switchOffAfter) })
    (fun _ _ _ _ _ => rfl) (fun c u k c' n k' h => by
      change StaircaseTimer.update c u e k = _ at h
      simp only [StaircaseTimer.update, M.bind_eq_some, M.run_now, M.run_pure, Option.some.injEq, Prod.mk.injEq] at h
      obtain ⟨_, _, ⟨rfl, rfl⟩, r, _, h, ⟨rfl, rfl⟩, rfl⟩ := h
      obtain ⟨rfl, rfl, _⟩ := addDur_eq_some h
      simp)
    (fun c s d k c' s' k' h => (keeping_eq_some.mp h).1) h
  rw [this]
  unfold lastTap
  cases lastArrival e.clock (fun _ => some ()) log <;> rfl

theorem StaircaseTimer.state_eq_some {t : StaircaseTimer} {b : Bool} {e : Env} {k k' : Nat}
    (h : t.state e k = some (b, k')) :
    b = ((match t.stayOnUntil with
      | some u => decide (e.clock k ≤ u)
      | none => false) ^^ t.invert) ∧ k ≤ k' ∧ k' ≤ k + 1 := by
  unfold StaircaseTimer.state at h
  cases hs : t.stayOnUntil with
  | none =>
    simp only [hs] at h
    simp at h
    obtain ⟨rfl, rfl⟩ := h
    exact ⟨by cases t.invert <;> rfl, le_rfl, by omega⟩
  | some u =>
    simp only [hs, M.bind_eq_some, M.run_now, M.run_pure, Option.some.injEq, Prod.mk.injEq] at h
    obtain ⟨_, _, ⟨rfl, rfl⟩, rfl, rfl⟩ := h
    exact ⟨by cases t.invert <;> simp, by omega, le_rfl⟩

theorem OccurrenceIndicator.history {e : Env} {k k' : Nat} {i i' : OccurrenceIndicator} {log : List (Event Update)}
    (h : History e k i log k' i') :
    i' = { i with happenedLast := (lastTap e.clock log).getD i.happenedLast } := by
  have := History.lastWriter (sel := fun _ => some ()) (fun tap (_ : Unit) i => { i with happenedLast := tap })
    (fun _ _ _ _ _ => rfl) (fun c u k c' n k' h => by
      change OccurrenceIndicator.update c u e k = _ at h
      simp only [OccurrenceIndicator.update, M.bind_eq_some, M.run_now, M.run_pure, Option.some.injEq,
        Prod.mk.injEq] at h
      obtain ⟨_, _, ⟨rfl, rfl⟩, ⟨rfl, rfl⟩, rfl⟩ := h
      simp)
    (fun c s d k c' s' k' h => (keeping_eq_some.mp h).1) h
  rw [this]
  unfold lastTap
  cases lastArrival e.clock (fun _ => some ()) log <;> rfl

theorem OccurrenceIndicator.state_eq_some {i : OccurrenceIndicator} {b : Bool} {e : Env} {k k' : Nat}
    (h : i.state e k = some (b, k')) :
    b = (decide (e.clock k < i.happenedLast + i.ifHappenedWithin) ^^ i.invert) ∧ k' = k + 1 := by
  simp only [OccurrenceIndicator.state, M.bind_eq_some, M.run_now, M.run_pure, Option.some.injEq, Prod.mk.injEq] at h
  obtain ⟨_, _, ⟨rfl, rfl⟩, r, _, h, rfl, rfl⟩ := h
  obtain ⟨rfl, rfl, _⟩ := subDur_eq_some h
  have : (i.happenedLast > e.clock k - i.ifHappenedWithin) = (e.clock k < i.happenedLast + i.ifHappenedWithin) := by
    apply propext; constructor <;> intro h <;> omega
  exact ⟨by simp only [this]; cases i.invert <;> simp, rfl⟩

theorem NonOccurrenceIndicator.history {e : Env} {k k' : Nat} {i i' : NonOccurrenceIndicator}
    {log : List (Event Update)} (h : History e k i log k' i') :
    i' = { i with happenedLast := (lastTap e.clock log).getD i.happenedLast } := by
  have := History.lastWriter (sel := fun _ => some ()) (fun tap (_ : Unit) i => { i with happenedLast := tap })
    (fun _ _ _ _ _ => rfl) (fun c u k c' n k' h => by
      change NonOccurrenceIndicator.update c u e k = _ at h
      simp only [NonOccurrenceIndicator.update, M.bind_eq_some, M.run_now, M.run_pure, Option.some.injEq,
        Prod.mk.injEq] at h
      obtain ⟨_, _, ⟨rfl, rfl⟩, ⟨rfl, rfl⟩, rfl⟩ := h
      simp)
    (fun c s d k c' s' k' h => (keeping_eq_some.mp h).1) h
  rw [this]
  unfold lastTap
  cases lastArrival e.clock (fun _ => some ()) log <;> rfl

theorem NonOccurrenceIndicator.state_eq_some {i : NonOccurrenceIndicator} {b : Bool} {e : Env} {k k' : Nat}
    (h : i.state e k = some (b, k')) :
    b = (decide (i.happenedLast + i.ifNotHappenedWithin ≤ e.clock k) ^^ i.invert) ∧ k' = k + 1 := by
  simp only [NonOccurrenceIndicator.state, M.bind_eq_some, M.run_now, M.run_pure, Option.some.injEq,
    Prod.mk.injEq] at h
  obtain ⟨_, _, ⟨rfl, rfl⟩, r, _, h, rfl, rfl⟩ := h
  obtain ⟨rfl, rfl, _⟩ := subDur_eq_some h
  have : (i.happenedLast ≤ e.clock k - i.ifNotHappenedWithin) =
      (i.happenedLast + i.ifNotHappenedWithin ≤ e.clock k) := by
    apply propext; constructor <;> intro h <;> omega
  exact ⟨by simp only [this]; cases i.invert <;> simp, rfl⟩

end Metrix
