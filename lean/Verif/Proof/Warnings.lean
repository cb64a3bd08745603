import Verif.Spec.Warnings
import Verif.Proof.Driver
import Verif.Props.C65

/-! # What a driver writes to the log -/

namespace Metrix
variable {σ L : Type}

theorem droppedIn_append (a b : List (Iteration σ L)) : droppedIn (a ++ b) = droppedIn a + droppedIn b := by
  simp [droppedIn, runsOf]

theorem droppedIn_none {i : Iteration σ L} (h : i.outcome = none) : droppedIn [i] = 0 := by
  simp [droppedIn, runsOf, h]

theorem droppedIn_some {i : Iteration σ L} {o : Outcome} (h : i.outcome = some o) : droppedIn [i] = o.dropped := by
  simp [droppedIn, runsOf, h]

theorem WarnedFor.total {log rest : List (Iteration σ L)} {ws : List Warning} (h : WarnedFor log ws rest) :
    droppedIn log = warnedOf ws + droppedIn rest := by
  obtain ⟨ss, rfl, h⟩ := h
  rw [droppedIn_append]
  congr 1
  induction h with
  | nil => rfl
  | cons h _ ih => rw [List.flatten_cons, droppedIn_append, ih, ← h.1]; rfl

theorem WarnedFor.none {log rest : List (Iteration σ L)} {ws : List Warning} (h : WarnedFor log ws rest) (more : List (Iteration σ L)) :
    WarnedFor (log ++ more) ws (rest ++ more) := by
  obtain ⟨ss, rfl, h⟩ := h
  exact ⟨ss, by simp, h⟩

theorem WarnedFor.one {log rest : List (Iteration σ L)} {ws : List Warning} (h : WarnedFor log ws rest) {w : Warning}
    (hw : w.dropped = droppedIn rest) (hpos : 0 < w.dropped) : WarnedFor log (ws ++ [w]) [] := by
  obtain ⟨ss, rfl, h⟩ := h
  exact ⟨ss ++ [rest], by simp, List.rel_append h (.cons ⟨hw, hpos⟩ .nil)⟩

theorem WarnsApart.one {e : Env} {ws : List Warning} (h : WarnsApart e ws) {w : Warning}
    (hw : ∀ a, ws.getLast? = some a → e.clock w.readings - e.clock a.readings > 5 * 10 ^ 9) : WarnsApart e (ws ++ [w]) := by
  intro before after a b heq
  rcases List.eq_nil_or_concat after with rfl | ⟨after, c, rfl⟩
  · have : ws = before ++ [a] ∧ w = b := by
      have h2 : ws ++ [w] = (before ++ [a]) ++ [b] := by simpa using heq
      have := List.append_inj' h2 rfl
      simpa using this
    obtain ⟨rfl, rfl⟩ := this
    exact hw a (by simp)
  · have h2 : ws ++ [w] = (before ++ a :: b :: after) ++ [c] := by simpa using heq
    exact h before after a b (List.append_inj' h2 rfl).1

/-- What the loop knows about its warnings. -/
structure LoopState.Warns (e : Env) (k₀ : Nat) (log : List (Iteration σ L)) (l : LoopState σ L) : Prop where
  told : ∃ rest, WarnedFor log l.warned rest ∧ l.droppedSinceLastLogged = droppedIn rest
  last : (l.warned = [] ∧ l.lastOutcomeLogged = e.clock k₀ - 60 * 10 ^ 9) ∨
    ∃ w, l.warned.getLast? = some w ∧ l.lastOutcomeLogged = e.clock w.readings
  apart : e.Mono → WarnsApart e l.warned

theorem LoopState.new_warns {name : Option String} {descr : Descr} {strategy : Strategy} {wm : Bool} {e : Env} {k k' : Nat}
    {l : LoopState σ L} (h : LoopState.new name descr strategy wm e k = some (l, k')) :
    ∃ k₀, k₀ < k' ∧ l.Warns e k₀ [] := by
  have main : ∃ (m : Option DriverInstruments) (t : Int) (k₁ : Nat), l = { name, descr, metrics := m, lastOutcomeLogged := t, strategy } ∧
      subDur (e.clock k₁) (60 * nanosPerSec) e (k₁ + 1) = some (t, k') := by
    unfold LoopState.new at h
    cases wm with
    | true =>
      simp only [if_true, M.bind_eq_some, M.run_now, M.run_pure, Option.some.injEq, Prod.mk.injEq] at h
      obtain ⟨m, k₁, _, _, _, ⟨rfl, rfl⟩, t, k₂, hs, rfl, rfl⟩ := h
      exact ⟨_, _, _, rfl, hs⟩
    | false =>
      simp only [Bool.false_eq_true, if_false, M.bind_eq_some, M.run_now, M.run_pure, Option.some.injEq, Prod.mk.injEq] at h
      obtain ⟨m, k₁, _, _, _, ⟨rfl, rfl⟩, t, k₂, hs, rfl, rfl⟩ := h
      exact ⟨_, _, _, rfl, hs⟩
  obtain ⟨m, t, k₁, rfl, hs⟩ := main
  unfold subDur at hs
  split at hs
  · simp only [Option.some.injEq, Prod.mk.injEq] at hs
    obtain ⟨rfl, rfl⟩ := hs
    refine ⟨k₁, by omega, ⟨[], ⟨[], rfl, .nil⟩, rfl⟩, .inl ⟨rfl, ?_⟩, ?_⟩
    · simp [nanosPerSec]
    · intro _ before after a b h
      simp at h
  · cases hs

theorem LoopState.logDropped_warns {l l' : LoopState σ L} {n : Nat} {e : Env} {k₀ k k' : Nat} (h : l.logDropped n e k = some (l', k'))
    {log : List (Iteration σ L)} {i : Iteration σ L} (hl : l.Warns e k₀ log) (hi : droppedIn [i] = n) :
    l'.Warns e k₀ (log ++ [i]) ∧
      ((l'.warned = l.warned ∧ (0 < l'.droppedSinceLastLogged → sinceNs (e.clock k) l.lastOutcomeLogged ≤ 5 * 10 ^ 9)) ∨
        ∃ w, l'.warned = l.warned ++ [w] ∧ l'.droppedSinceLastLogged = 0 ∧ w.readings = k + 1 ∧ k' = k + 2 ∧ 0 < w.dropped) := by
  obtain ⟨⟨rest, h1, h2⟩, h3, h4⟩ := hl
  have hrest : l.droppedSinceLastLogged + n = droppedIn (rest ++ [i]) := by rw [droppedIn_append, hi, h2]
  unfold LoopState.logDropped at h
  simp only at h
  split at h
  · rename_i hpos
    simp only [M.bind_eq_some, M.run_now, Option.some.injEq, Prod.mk.injEq] at h
    obtain ⟨_, _, ⟨rfl, rfl⟩, h⟩ := h
    split at h
    · rename_i hlong
      simp only [M.bind_eq_some, M.run_now, M.run_readings, M.run_pure, Option.some.injEq, Prod.mk.injEq] at h
      obtain ⟨_, _, ⟨rfl, rfl⟩, _, _, ⟨rfl, rfl⟩, rfl, rfl⟩ := h
      refine ⟨⟨⟨[], (h1.none [i]).one hrest hpos, rfl⟩, .inr ⟨_, List.getLast?_concat .., rfl⟩, fun hm => (h4 hm).one ?_⟩,
        .inr ⟨_, rfl, rfl, rfl, rfl, hpos⟩⟩
      intro a ha
      rcases h3 with ⟨h3, _⟩ | ⟨w, h3, h5⟩
      · rw [h3] at ha; cases ha
      · rw [h3] at ha
        cases ha
        rw [h5] at hlong
        have := hm k (k + 1) (by omega)
        simp only [sinceNs, nanosPerSec] at hlong
        show e.clock (k + 1) - _ > _
        omega
    · rename_i hshort
      simp only [M.run_pure, Option.some.injEq, Prod.mk.injEq] at h
      obtain ⟨rfl, rfl⟩ := h
      refine ⟨⟨⟨_, h1.none [i], hrest⟩, h3, h4⟩, .inl ⟨rfl, fun _ => ?_⟩⟩
      simp only [nanosPerSec] at hshort
      omega
  · rename_i hpos
    simp only [M.run_pure, Option.some.injEq, Prod.mk.injEq] at h
    obtain ⟨rfl, rfl⟩ := h
    exact ⟨⟨⟨_, h1.none [i], hrest⟩, h3, h4⟩, .inl ⟨rfl, fun h => absurd h hpos⟩⟩

variable [DecidableEq L] [Custom σ L] [CustomProcessor σ]

omit [DecidableEq L] in
theorem LoopState.begin_warns {l l' : LoopState σ L} {m : Option (DriverMsg σ L)} {started : Int} {answer : Option Snapshot} {e : Env}
    {k k' : Nat} (h : l.begin m e k = some ((l', started, answer), k')) :
    l'.warned = l.warned ∧ l'.lastOutcomeLogged = l.lastOutcomeLogged ∧ l'.droppedSinceLastLogged = l.droppedSinceLastLogged := by
  have add : ∀ {into d t l l' s k k'}, LoopState.addSnapshotValues (σ := σ) (L := L) l into d t e k = some ((l', s), k') →
      l'.warned = l.warned ∧ l'.lastOutcomeLogged = l.lastOutcomeLogged ∧ l'.droppedSinceLastLogged = l.droppedSinceLastLogged := by
    intro into d t l l' s k k' h
    unfold LoopState.addSnapshotValues at h
    cases hm : l.metrics with
    | none =>
      simp only [hm, M.bind_eq_some, M.run_pure, Option.some.injEq, Prod.mk.injEq] at h
      obtain ⟨_, _, _, _, _, _, ⟨rfl, _⟩, _⟩ := h
      exact ⟨rfl, rfl, rfl⟩
    | some i =>
      simp only [hm, M.bind_eq_some, M.run_pure, Option.some.injEq, Prod.mk.injEq] at h
      obtain ⟨_, _, _, _, _, _, _, _, _, _, _, _, ⟨rfl, _⟩, _⟩ := h
      exact ⟨rfl, rfl, rfl⟩
  rcases (begin_spec h).2 with ⟨_, rfl, _, _⟩ | ⟨m', _, hh⟩
  · exact ⟨rfl, rfl, rfl⟩
  · cases m' with
    | getSnapshot id d =>
      simp only [LoopState.handle, M.bind_eq_some, M.run_pure, Option.some.injEq, Prod.mk.injEq] at hh
      obtain ⟨⟨l₁, s⟩, k₁, hs, ⟨rfl, _⟩, _⟩ := hh
      unfold LoopState.makeSnapshot at hs
      simp only [M.bind_eq_some, M.run_now, Option.some.injEq, Prod.mk.injEq] at hs
      obtain ⟨_, _, ⟨rfl, rfl⟩, hs⟩ := hs
      cases hn : l.name with
      | none =>
        simp only [hn] at hs
        exact add hs
      | some name =>
        simp only [hn, M.bind_eq_some, M.run_pure, Option.some.injEq, Prod.mk.injEq] at hs
        obtain ⟨_, _, hs, ⟨rfl, _⟩, _⟩ := hs
        exact add hs
    | _ =>
      simp only [LoopState.handle, M.run_pure, Option.some.injEq, Prod.mk.injEq] at hh
      obtain ⟨⟨rfl, _⟩, _⟩ := hh
      exact ⟨rfl, rfl, rfl⟩

/-- An iteration either writes nothing or, if it has a run, one warning. -/
theorem iterate_warns (hc : CustomForward σ L) (hp : CustomProcessorForward σ) {e : Env} {k₀ k k' : Nat} {l l' : Loop σ L}
    {i : Iteration σ L} (h : (DriverThread.running l).iterate e k = (.running l', some i, k')) {log : List (Iteration σ L)}
    (hl : l.state.Warns e k₀ log) :
    l'.state.Warns e k₀ (log ++ [i]) ∧
      ((l'.state.warned = l.state.warned ∧ (i.outcome ≠ none → 0 < l'.state.droppedSinceLastLogged →
          ∃ j, k ≤ j ∧ sinceNs (e.clock j) l.state.lastOutcomeLogged ≤ 5 * 10 ^ 9)) ∨
        i.outcome ≠ none ∧ ∃ w, l'.state.warned = l.state.warned ++ [w] ∧ l'.state.droppedSinceLastLogged = 0 ∧ k < w.readings ∧
          w.readings < k' ∧ 0 < w.dropped) := by
  generalize ht : DriverThread.running l' = t' at h
  generalize hi : some i = i' at h
  have hk := iterates h
  cases hk with
  | stop _ => cases ht
  | panicEarly _ _ => cases ht
  | panicLate _ _ _ => cases ht
  | @done r m s started answer k₁ s' outcome rest k₂ hpoll hb hw =>
    cases ht
    cases hi
    have hkb := (keeps_begin hc hp (Node.Keeps.stepWise hc hp e []) 0 hb).1
    obtain ⟨b1, b2, b3⟩ := LoopState.begin_warns hb
    have hs : s.Warns e k₀ log := by
      obtain ⟨h1, h2, h3⟩ := hl
      exact ⟨by rw [b1, b3]; exact h1, by rw [b1, b2]; exact h2, by rw [b1]; exact h3⟩
    rw [← b1, ← b2]
    unfold LoopState.work at hw
    by_cases hpaused : s.paused = true
    · simp only [hpaused, if_true, M.run_bind_some (M.run_readings e k₁), M.run_pure, Option.some.injEq, Prod.mk.injEq] at hw
      obtain ⟨⟨rfl, rfl, rfl⟩, rfl⟩ := hw
      refine ⟨?_, .inl ⟨rfl, fun h => absurd rfl h⟩⟩
      obtain ⟨⟨rest, h1, h2⟩, h3, h4⟩ := hs
      exact ⟨⟨_, h1.none _, by rw [droppedIn_append, droppedIn_none rfl]; exact h2⟩, h3, h4⟩
    · simp only [if_neg hpaused, M.bind_eq_some, M.run_now, Option.some.injEq, Prod.mk.injEq] at hw
      obtain ⟨_, _, ⟨rfl, rfl⟩, ⟨ps, o⟩, k₃, h1, _, _, ⟨rfl, rfl⟩, l₁, k₄, h2, l₂, k₅, h3, hw⟩ := hw
      have hk₁ := (fwd_processNodes hc hp _ _ _).le h1
      have hrun : LoopState.Warns e k₀ log { s with processors := ps } := ⟨hs.1, hs.2, hs.3⟩
      obtain ⟨m₂, rfl, _, h7⟩ := noteRun_spec h3
      have hk₅ : k₄ ≤ k₅ := by
        cases hm : l₁.metrics with
        | none => simp only [hm] at h7; omega
        | some i =>
          simp only [hm] at h7
          obtain ⟨i', a, _⟩ := h7
          exact (DriverInstruments.fwd_updatePostCollection _ _ _).le a
      have main : outcome = some o ∧ k₅ ≤ k' ∧ s'.warned = l₁.warned ∧ s'.lastOutcomeLogged = l₁.lastOutcomeLogged ∧
          s'.droppedSinceLastLogged = l₁.droppedSinceLastLogged := by
        by_cases hcond : (decide (o.dropped > 0) || decide (o.processed > 100)) = true
        · simp only [if_pos hcond, M.run_pure, Option.some.injEq, Prod.mk.injEq] at hw
          obtain ⟨⟨rfl, rfl, rfl⟩, rfl⟩ := hw
          exact ⟨rfl, Nat.le_refl _, rfl, rfl, rfl⟩
        · simp only [if_neg hcond, M.bind_eq_some, M.run_now, M.run_readings, M.run_pure, Option.some.injEq, Prod.mk.injEq] at hw
          obtain ⟨_, _, ⟨rfl, rfl⟩, _, _, ⟨rfl, rfl⟩, l₃, k₆, hw, ⟨rfl, rfl, rfl⟩, rfl⟩ := hw
          obtain ⟨m₃, rfl, _, h8⟩ := reportElapsed_spec hw
          refine ⟨rfl, ?_, rfl, rfl, rfl⟩
          cases hm : m₂ with
          | none => simp only [hm] at h8; omega
          | some i =>
            simp only [hm] at h8
            rcases h8 with ⟨_, h8⟩ | ⟨i', ratio, a, _⟩
            · omega
            · have := (DriverInstruments.fwd_updateRunRatio _ _).le a
              omega
      obtain ⟨rfl, hk₆, c1, c2, c3⟩ := main
      obtain ⟨hw1, hw2⟩ := LoopState.logDropped_warns (i := { message := m, answer, outcome := some o, rest }) h2 hrun (droppedIn_some rfl)
      have hk₄ := (logDropped_spec h2).1
      refine ⟨⟨by rw [c1, c3]; exact hw1.1, by rw [c1, c2]; exact hw1.2, by rw [c1]; exact hw1.3⟩, ?_⟩
      rw [c1, c3]
      rcases hw2 with ⟨d1, d2⟩ | ⟨w, d1, d2, d3, d4, d5⟩
      · exact .inl ⟨d1, fun _ h => ⟨_, by omega, d2 h⟩⟩
      · exact .inr ⟨by simp, w, d1, d2, by omega, by omega, d5⟩

theorem DriverLife.warns (hc : CustomForward σ L) (hp : CustomProcessorForward σ) {e : Env} {k₀ k k' : Nat} {t t' : DriverThread σ L}
    {before log : List (Iteration σ L)} (h : DriverLife e k t log k' t') (ht : ∀ l, t = .running l → l.state.Warns e k₀ before) :
    ∀ l, t' = .running l → l.state.Warns e k₀ (before ++ log) := by
  induction h generalizing before with
  | nil => simpa using ht
  | @iteration k k₁ k₂ k' t t₁ t' i log hk hi hl ih =>
    cases t with
    | ended c => have := (iterate_ended hi).2.1; simp at this
    | running l =>
      have := ih (before := before ++ [i]) fun l₁ hl₁ => by
        subst hl₁
        exact (iterate_warns hc hp hi (ht l rfl)).1
      simpa using this
  | @over k k₁ k₂ k' t t₁ t' log hk hi hl ih =>
    refine ih fun l₁ hl₁ => ?_
    subst hl₁
    cases t with
    | ended c => have := (iterate_ended hi).1; simp at this
    | running l => cases iterates hi
  | others hl ih => exact ih fun l hl => (nomatch hl)

end Metrix
