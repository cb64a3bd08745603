import Verif.Proof.Switches
import Verif.Props.C25

/-! # C39: a last occurrence tracker shows whole seconds since the last update -/

namespace Metrix

theorem LastOccurrenceTracker.history {e : Env} {k k' : Nat} {t t' : LastOccurrenceTracker}
    {log : List (Event Update)} (h : History e k t log k' t') :
    t' = { t with happenedLast := (lastTap e.clock log).or t.happenedLast } := by
  have := History.lastWriter (sel := fun _ => some ()) (fun tap (_ : Unit) t => { t with happenedLast := some tap })
    (fun _ _ _ _ _ => rfl) (fun c u k c' n k' h => by
      change LastOccurrenceTracker.update c u e k = _ at h
      simp only [LastOccurrenceTracker.update, M.bind_eq_some, M.run_now, M.run_pure, Option.some.injEq,
        Prod.mk.injEq] at h
      obtain ⟨_, _, ⟨rfl, rfl⟩, ⟨rfl, rfl⟩, rfl⟩ := h
      simp)
    (fun c s d k c' s' k' h => (keeping_eq_some.mp h).1) h
  rw [this]
  unfold lastTap
  cases lastArrival e.clock (fun _ => some ()) log <;> rfl

/-- The tracker shows the whole seconds since the last update; before the first one nothing, or 0 if so configured. -/
theorem C39_shown {e : Env} {k k' k'' : Nat} {t t' : LastOccurrenceTracker} {log : List (Event Update)}
    (h : History e k t log k' t') (h0 : t.happenedLast = none) {into s : Snapshot} {d : Bool}
    (hput : t'.putSnapshot into d e k' = some (s, k'')) :
    s = putPostfixedDescriptives t.descr t.name into d ++
      match lastTap e.clock log with
      | some tap => [(t.name, .uint ((e.clock k' - tap).toNat / 1000000000))]
      | none => if t.makeNoneZero then [(t.name, .int 0)] else [] := by
  have ht := LastOccurrenceTracker.history h
  rw [h0, Option.or_none] at ht
  subst ht
  simp only [LastOccurrenceTracker.putSnapshot, LastOccurrenceTracker.elapsed, M.bind_eq_some] at hput
  obtain ⟨v, k₁, hv, hput⟩ := hput
  cases hl : lastTap e.clock log with
  | none =>
    simp only [hl] at hv
    simp at hv
    obtain ⟨rfl, rfl⟩ := hv
    by_cases hz : t.makeNoneZero = true
    · simp [hz, Snapshot.push] at hput; simp [hz, ← hput.1]
    · simp [hz] at hput; simp [hz, hput.1]
  | some tap =>
    simp only [hl, M.bind_eq_some, M.run_now, M.run_pure, Option.some.injEq, Prod.mk.injEq] at hv
    obtain ⟨_, _, ⟨rfl, rfl⟩, rfl, rfl⟩ := hv
    simp [Snapshot.push] at hput
    rw [← hput.1]; rfl

/-- The last update is in the past. -/
theorem LastOccurrenceTracker.past {e : Env} (mono : e.Mono) {k k' : Nat} {t t' : LastOccurrenceTracker} {log : List (Event Update)}
    (h : History e k t log k' t') (h0 : ∀ x, t.happenedLast = some x → x ≤ e.clock k) :
    ∀ x, t'.happenedLast = some x → x ≤ e.clock k' := by
  induction h with
  | nil hk => exact fun x hx => Int.le_trans (h0 x hx) (mono _ _ hk)
  | @cons k k₁ k₂ k' c c₁ c' op out log hk hs _ ih =>
    refine ih fun x hx => ?_
    cases op with
    | input u =>
      obtain ⟨n, _, hu⟩ := step_input_eq_some.mp hs
      change LastOccurrenceTracker.update c u e k₁ = _ at hu
      simp only [LastOccurrenceTracker.update, M.bind_eq_some, M.run_now, M.run_pure, Option.some.injEq, Prod.mk.injEq] at hu
      obtain ⟨_, _, ⟨rfl, rfl⟩, ⟨rfl, _⟩, rfl⟩ := hu
      cases hx
      exact mono _ _ (by omega)
    | snapshot into d =>
      obtain ⟨s, _, hs⟩ := step_snapshot_eq_some.mp hs
      obtain ⟨rfl, hp⟩ := keeping_eq_some.mp hs
      have : k₁ ≤ k₂ := by
        simp only [LastOccurrenceTracker.putSnapshot, LastOccurrenceTracker.elapsed, M.bind_eq_some] at hp
        obtain ⟨v, k₃, hv, hp⟩ := hp
        cases hl : c₁.happenedLast with
        | none =>
          simp only [hl] at hv
          simp at hv
          obtain ⟨rfl, rfl⟩ := hv
          by_cases hz : c₁.makeNoneZero = true
          · simp [hz] at hp; omega
          · simp [hz] at hp; omega
        | some tap =>
          simp only [hl, M.bind_eq_some, M.run_now, M.run_pure, Option.some.injEq, Prod.mk.injEq] at hv
          obtain ⟨_, _, ⟨rfl, rfl⟩, rfl, rfl⟩ := hv
          simp at hp
          omega
      exact Int.le_trans (h0 x hx) (mono _ _ (by omega))

/-- A later update never makes the shown value larger: `t'` has been updated before, `t''` is what it becomes by one more update.
At every later moment the second one shows no more than the first one would. -/
theorem C39_later_update {e : Env} (mono : e.Mono) {k k' k₁ j k₂ k₃ : Nat} {t t' t'' : LastOccurrenceTracker} {log : List (Event Update)}
    (h : History e k t log k' t') (h0 : t.happenedLast = none) (hsome : inputs log ≠ [])
    {u : Update} {n : Nat} (hu : t'.update u e k' = some ((t'', n), k₁)) (hj : k₁ ≤ j)
    {into s s' : Snapshot} {d : Bool} (hs : t'.putSnapshot into d e j = some (s, k₂)) (hs' : t''.putSnapshot into d e j = some (s', k₃)) :
    ∃ front v v', s = front ++ [(t.name, .uint v)] ∧ s' = front ++ [(t.name, .uint v')] ∧ v' ≤ v := by
  have hk : k₁ = k' + 1 := by
    simp only [LastOccurrenceTracker.update, M.bind_eq_some, M.run_now, M.run_pure, Option.some.injEq, Prod.mk.injEq] at hu
    obtain ⟨_, _, ⟨_, rfl⟩, _, rfl⟩ := hu
    rfl
  have hl : ∀ log : List (Event Update), inputs log ≠ [] → (arrivals e.clock (fun _ => some ()) log) ≠ [] := by
    intro log
    induction log with
    | nil => intro h; exact absurd rfl h
    | cons ev log ih =>
      obtain ⟨_, op, _, _⟩ := ev
      cases op with
      | input u => intro _; simp [arrivals]
      | snapshot into d => simpa [inputs, arrivals] using ih
  obtain ⟨tap, htap⟩ : ∃ tap, lastTap e.clock log = some tap := by
    unfold lastTap lastArrival
    cases hg : (arrivals e.clock (fun _ => some ()) log).getLast? with
    | none => exact absurd (List.getLast?_eq_none_iff.mp hg) (hl log hsome)
    | some x => exact ⟨x.1, rfl⟩
  have ht := LastOccurrenceTracker.history h
  have hpast := LastOccurrenceTracker.past mono h (by rw [h0]; intro x hx; cases hx) tap (by rw [ht, htap]; rfl)
  have hlate : History e k t (log ++ []) j t' := h.append (.nil (show k' ≤ j by omega))
  have hmore : History e k t (log ++ [⟨k', .input u, .updated n, k₁⟩]) j t'' :=
    h.append (.cons (Nat.le_refl k') (step_input_eq_some.mpr ⟨n, rfl, hu⟩) (.nil hj))
  have h1 := C39_shown hlate h0 hs
  have h2 := C39_shown hmore h0 hs'
  have happ : ∀ log ev, arrivals e.clock (fun _ => some ()) (log ++ [(⟨k', .input u, ev, k₁⟩ : Event Update)]) =
      arrivals e.clock (fun _ => some ()) log ++ [(e.clock (k₁ - 1), ())] := by
    intro log ev
    induction log with
    | nil => rfl
    | cons x log ih =>
      obtain ⟨_, op, _, _⟩ := x
      cases op <;> simp [arrivals, ih]
  have htap' : lastTap e.clock (log ++ [⟨k', .input u, .updated n, k₁⟩]) = some (e.clock k') := by
    unfold lastTap lastArrival
    rw [happ, hk]
    simp
  rw [List.append_nil, htap] at h1
  rw [htap'] at h2
  exact ⟨_, _, _, h1, h2, Nat.div_le_div_right (by omega)⟩

/-- Updates report 1. -/
theorem C39_reports {t t' : LastOccurrenceTracker} {u : Update} {n : Nat} {e : Env} {k k' : Nat}
    (h : t.update u e k = some ((t', n), k')) : n = 1 := by
  simp only [LastOccurrenceTracker.update, M.bind_eq_some, M.run_pure, Option.some.injEq, Prod.mk.injEq] at h
  obtain ⟨_, _, _, ⟨_, rfl⟩, _⟩ := h; rfl

/-- Finding: `invert` has no effect at all. -/
theorem C39_finding_invert_ignored (t : LastOccurrenceTracker) (i : Bool) (into : Snapshot) (d : Bool) :
    ({ t with invert := i } : LastOccurrenceTracker).putSnapshot into d = t.putSnapshot into d := rfl

/-- Updated at 1.4 s, shown at 4.9 s: 3 seconds. -/
example : ∃ t', History (C := LastOccurrenceTracker) (A := Update) ticking 1 { name := "l" }
    [⟨1, .input (.observation 0), .updated 1, 2⟩, ⟨2, .input (.observation 0), .updated 1, 3⟩] 3 t' ∧
    (t'.putSnapshot [] false ticking 7).map (·.1) = some [("l", .uint 3)] :=
  ⟨_, .cons (by decide) rfl (.cons (by decide) rfl (.nil (by decide))), rfl⟩

example := C39_shown (played_history (e := ticking) (k := 1) (c := ({ name := "l" } : LastOccurrenceTracker))
  (ops := [.input (.observation 0), .snapshot [] true]) rfl) rfl (into := []) (d := true) rfl
example := C39_later_update ticking_mono (j := 7) (played_history (e := ticking) (k := 1) (c := ({ name := "l" } : LastOccurrenceTracker))
  (ops := [.input (.observation 0), .snapshot [] true]) rfl) rfl nofun (u := .observation 0) rfl (by decide)
  (into := []) (d := true) rfl rfl
example := C39_reports (t := { name := "l" }) (u := .observation 0) (e := ticking) (k := 1) rfl

end Metrix
