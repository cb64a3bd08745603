import Verif.Proof.History
import Verif.Proof.Gauge
import Verif.Spec.Histogram

/-! Lemmas about histograms. -/

namespace Metrix

theorem History.split {C A : Type} [Component C A] {e : Env} {c c' : C} {l₁ l₂ : List (Event A)} :
    ∀ {k k' : Nat}, History e k c (l₁ ++ l₂) k' c' →
      ∃ k₁ c₁, History e k c l₁ k₁ c₁ ∧ History e k₁ c₁ l₂ k' c' := by
  induction l₁ generalizing c with
  | nil => intro k k' h; exact ⟨k, c, .nil le_rfl, h⟩
  | cons ev l ih =>
    intro k k' h
    cases h with
    | cons hk hs hr =>
      obtain ⟨k₁, c₁, h₁, h₂⟩ := ih hr
      exact ⟨k₁, c₁, .cons hk hs h₁, h₂⟩

/-- The configuration of a histogram. -/
structure Histogram.SameConfig (h h' : Histogram) : Prop where
  name : h'.name = h.name
  descr : h'.descr = h.descr
  limit : h'.maxInactivity = h.maxInactivity
  reset : h'.resetAfterInactivity = h.resetAfterInactivity
  show_ : h'.showActivityState = h.showActivityState
  unit : h'.displayTimeUnit = h.displayTimeUnit

theorem Histogram.SameConfig.refl (h : Histogram) : h.SameConfig h := ⟨rfl, rfl, rfl, rfl, rfl, rfl⟩

theorem Histogram.SameConfig.trans {a b c : Histogram} (h : a.SameConfig b) (h' : b.SameConfig c) : a.SameConfig c :=
  ⟨h'.name.trans h.name, h'.descr.trans h.descr, h'.limit.trans h.limit, h'.reset.trans h.reset,
    h'.show_.trans h.show_, h'.unit.trans h.unit⟩

/-- Whether the histogram is reset by an update at time `t`. -/
def Histogram.resetsAt (h : Histogram) (t : Int) : Prop :=
  ∃ d : Nat, h.maxInactivity = some d ∧ h.resetAfterInactivity = true ∧ h.lastUpdate + d < t

theorem Histogram.resetIfDue_eq_some {h h' : Histogram} {e : Env} {k k' : Nat} (hr : h.resetIfDue e k = some (h', k')) :
    k ≤ k' ∧ ((h.resetsAt (e.clock k) ∧ h' = { h with inner := [] }) ∨ (¬ h.resetsAt (e.clock k) ∧ h' = h)) := by
  unfold Histogram.resetIfDue at hr
  unfold Histogram.resetsAt
  cases hd : h.maxInactivity with
  | none => simp only [hd] at hr; simp at hr; obtain ⟨rfl, rfl⟩ := hr; simp
  | some d =>
    simp only [hd] at hr
    cases hres : h.resetAfterInactivity with
    | false => simp [hres] at hr; obtain ⟨rfl, rfl⟩ := hr; simp
    | true =>
      rw [if_pos hres, M.run_bind_some (M.run_now _ _)] at hr
      unfold sinceNs at hr
      split at hr
      · rename_i hgt
        simp at hr; obtain ⟨rfl, rfl⟩ := hr
        exact ⟨by omega, .inl ⟨⟨d, rfl, rfl, by omega⟩, by simp [hres]⟩⟩
      · rename_i hle
        simp at hr; obtain ⟨rfl, rfl⟩ := hr
        refine ⟨by omega, .inr ⟨?_, rfl⟩⟩
        rintro ⟨d', hd', -, hlt⟩
        obtain rfl : d = d' := by simpa using hd'
        omega

/-- What an update does. -/
theorem Histogram.update_eq_some {h h' : Histogram} {u : Update} {n : Nat} {e : Env} {k k' : Nat}
    (hu : h.update u e k = some ((h', n), k')) :
    h.SameConfig h' ∧ k ≤ k' ∧
    (match u.metered h.displayTimeUnit with
    | some v => n = 1 ∧ h'.lastUpdate = e.clock (k' - 1) ∧
        ((h.resetsAt (e.clock k) ∧ h'.inner = [v]) ∨ (¬ h.resetsAt (e.clock k) ∧ h'.inner = h.inner ++ [v]))
    | none => n = 0 ∧ h'.lastUpdate = h.lastUpdate ∧
        ((h.resetsAt (e.clock k) ∧ h'.inner = []) ∨ (¬ h.resetsAt (e.clock k) ∧ h'.inner = h.inner))) := by
  simp only [Histogram.update, M.bind_eq_some] at hu
  obtain ⟨h₁, k₁, h₁eq, hu⟩ := hu
  obtain ⟨hk, hcases⟩ := Histogram.resetIfDue_eq_some h₁eq
  have hcfg : h.SameConfig h₁ := by
    rcases hcases with ⟨_, rfl⟩ | ⟨_, rfl⟩ <;> exact ⟨rfl, rfl, rfl, rfl, rfl, rfl⟩
  have hlast : h₁.lastUpdate = h.lastUpdate := by rcases hcases with ⟨_, rfl⟩ | ⟨_, rfl⟩ <;> rfl
  have recorded : ∀ v, (do return (← h₁.record v, 1) : M (Histogram × Nat)) e k₁ = some ((h', n), k') →
      h.SameConfig h' ∧ k ≤ k' ∧ n = 1 ∧ h'.lastUpdate = e.clock (k' - 1) ∧
        ((h.resetsAt (e.clock k) ∧ h'.inner = [v]) ∨ (¬ h.resetsAt (e.clock k) ∧ h'.inner = h.inner ++ [v])) := by
    intro v hr
    simp only [Histogram.record, M.bind_eq_some, M.run_now, M.run_pure, Option.some.injEq, Prod.mk.injEq] at hr
    obtain ⟨_, _, ⟨_, _, ⟨rfl, rfl⟩, rfl, rfl⟩, ⟨rfl, rfl⟩, rfl⟩ := hr
    refine ⟨⟨hcfg.name, hcfg.descr, hcfg.limit, hcfg.reset, hcfg.show_, hcfg.unit⟩, by omega, rfl, rfl, ?_⟩
    rcases hcases with ⟨ha, rfl⟩ | ⟨ha, rfl⟩
    · exact .inl ⟨ha, rfl⟩
    · exact .inr ⟨ha, rfl⟩
  have ign : (return (h₁, 0) : M (Histogram × Nat)) e k₁ = some ((h', n), k') →
      h.SameConfig h' ∧ k ≤ k' ∧ n = 0 ∧ h'.lastUpdate = h.lastUpdate ∧
        ((h.resetsAt (e.clock k) ∧ h'.inner = []) ∨ (¬ h.resetsAt (e.clock k) ∧ h'.inner = h.inner)) := by
    intro hr
    simp at hr
    obtain ⟨⟨rfl, rfl⟩, rfl⟩ := hr
    refine ⟨hcfg, hk, rfl, hlast, ?_⟩
    rcases hcases with ⟨ha, rfl⟩ | ⟨ha, rfl⟩
    · exact .inl ⟨ha, rfl⟩
    · exact .inr ⟨ha, rfl⟩
  have gen : ∀ v : ObservedValue, (match v.convertToI64 with
      | some v => (do return (← h₁.record v, 1) : M (Histogram × Nat))
      | none => return (h₁, 0)) e k₁ = some ((h', n), k') →
      h.SameConfig h' ∧ k ≤ k' ∧
      (match v.convertToI64 with
      | some v => n = 1 ∧ h'.lastUpdate = e.clock (k' - 1) ∧
          ((h.resetsAt (e.clock k) ∧ h'.inner = [v]) ∨ (¬ h.resetsAt (e.clock k) ∧ h'.inner = h.inner ++ [v]))
      | none => n = 0 ∧ h'.lastUpdate = h.lastUpdate ∧
          ((h.resetsAt (e.clock k) ∧ h'.inner = []) ∨ (¬ h.resetsAt (e.clock k) ∧ h'.inner = h.inner))) := by
    intro v hr
    cases hv : v.convertToI64 <;> simp only [hv] at hr
    · exact ign hr
    · exact recorded _ hr
  cases u with
  | observation t => exact ign hu
  | observations c t => exact ign hu
  | withValue v t =>
    cases v with
    | duration d unit =>
      simp only [M.bind_eq_some] at hu
      obtain ⟨x, k₂, hx, hu⟩ := hu
      obtain ⟨rfl, hw⟩ := durationToDisplayValue_eq_some hx
      rw [hw, hcfg.unit] at hu
      exact recorded _ (by simpa only [M.bind_eq_some] using hu)
    | signedInteger v => exact gen (.signedInteger v) hu
    | unsignedInteger v => exact gen (.unsignedInteger v) hu
    | float v => exact gen (.float v) hu
    | bool v => exact gen (.bool v) hu
    | changedBy v => exact gen (.changedBy v) hu

theorem Histogram.step_snapshot {h h' : Histogram} {s : Snapshot} {d : Bool} {out : Out} {e : Env} {k k' : Nat}
    (hs : step h (.snapshot s d) e k = some ((h', out), k')) : h' = h := by
  obtain ⟨_, _, hu⟩ := step_snapshot_eq_some.mp hs
  exact (keeping_eq_some.mp hu).1

theorem lastAccepted_cons (clock : Nat → Int) (unit : TimeUnit) (last : Int) (ev : Event Update)
    (log : List (Event Update)) : lastAccepted clock unit last (ev :: log) =
      lastAccepted clock unit (lastAccepted clock unit last [ev]) log := by
  obtain ⟨start, op, out, stop⟩ := ev
  cases op with
  | snapshot s d => rfl
  | input u =>
    unfold lastAccepted
    simp only [marks]
    cases u.metered unit with
    | none => rfl
    | some v =>
      simp only [List.getLast?_cons]
      cases (marks clock (Update.metered unit) log).getLast? <;> rfl

theorem lastAccepted_append (clock : Nat → Int) (unit : TimeUnit) (l₁ l₂ : List (Event Update)) :
    ∀ last, lastAccepted clock unit last (l₁ ++ l₂) =
      lastAccepted clock unit (lastAccepted clock unit last l₁) l₂ := by
  induction l₁ with
  | nil => intro last; rfl
  | cons ev l ih => intro last; rw [List.cons_append, lastAccepted_cons, ih, ← lastAccepted_cons]

theorem Histogram.history_last {e : Env} {k k' : Nat} {h h' : Histogram} {log : List (Event Update)}
    (hist : History e k h log k' h') :
    h.SameConfig h' ∧ h'.lastUpdate = lastAccepted e.clock h.displayTimeUnit h.lastUpdate log := by
  induction hist with
  | nil => exact ⟨.refl _, rfl⟩
  | @cons k k₁ k₂ k' h h₁ h' op out log hk hs _ ih =>
    cases op with
    | snapshot s d =>
      obtain rfl := Histogram.step_snapshot hs
      exact ih
    | input u =>
      obtain ⟨n, _, hu⟩ := step_input_eq_some.mp hs
      obtain ⟨hc, _, hu⟩ := Histogram.update_eq_some hu
      refine ⟨hc.trans ih.1, ?_⟩
      rw [ih.2, hc.unit, lastAccepted_cons]
      congr 1
      cases hm : u.metered h.displayTimeUnit with
      | none => rw [hm] at hu; rw [hu.2.1]; simp [lastAccepted, marks, hm]
      | some v => rw [hm] at hu; rw [hu.2.1]; simp [lastAccepted, marks, hm]

/-- As long as nothing resets it, all accepted values are added. -/
theorem Histogram.history_noReset {e : Env} {k k' : Nat} {h h' : Histogram} {log : List (Event Update)}
    (hist : History e k h log k' h')
    (hno : ∀ l₁ ev l₂, log = l₁ ++ ev :: l₂ → (∃ u, ev.op = .input u) → ∀ d : Nat, h.maxInactivity = some d →
      h.resetAfterInactivity = true →
      ¬ lastAccepted e.clock h.displayTimeUnit h.lastUpdate l₁ + d < e.clock ev.start) :
    h'.inner = h.inner ++ acceptedValues h.displayTimeUnit log := by
  induction hist with
  | nil => simp [acceptedValues, inputs]
  | @cons k k₁ k₂ k' h h₁ h' op out log hk hs _ ih =>
    cases op with
    | snapshot s d =>
      obtain rfl := Histogram.step_snapshot hs
      exact ih fun l₁ ev l₂ hl => by
        have := hno (⟨k₁, .snapshot s d, out, k₂⟩ :: l₁) ev l₂ (by rw [hl]; rfl)
        exact this
    | input u =>
      obtain ⟨n, _, hu⟩ := step_input_eq_some.mp hs
      obtain ⟨hc, _, hu⟩ := Histogram.update_eq_some hu
      have hnr : ¬ h.resetsAt (e.clock k₁) := by
        rintro ⟨d, hd, hres, hlt⟩
        exact hno [] _ log rfl ⟨u, rfl⟩ d hd hres hlt
      have hlast : h₁.lastUpdate = lastAccepted e.clock h.displayTimeUnit h.lastUpdate
          [⟨k₁, .input u, out, k₂⟩] := by
        cases hm : u.metered h.displayTimeUnit with
        | none => rw [hm] at hu; rw [hu.2.1]; simp [lastAccepted, marks, hm]
        | some v => rw [hm] at hu; rw [hu.2.1]; simp [lastAccepted, marks, hm]
      have ih' := ih fun l₁ ev l₂ hl hin d hd hres => by
        rw [hc.limit] at hd; rw [hc.reset] at hres
        have := hno (⟨k₁, .input u, out, k₂⟩ :: l₁) ev l₂ (by rw [hl]; rfl) hin d hd hres
        rwa [lastAccepted_cons, ← hlast, ← hc.unit] at this
      rw [ih', hc.unit]
      cases hm : u.metered h.displayTimeUnit with
      | none =>
        rw [hm] at hu
        rcases hu.2.2 with ⟨ha, _⟩ | ⟨_, hb⟩
        · exact absurd ha hnr
        · rw [hb]; simp [acceptedValues, inputs, hm]
      | some v =>
        rw [hm] at hu
        rcases hu.2.2 with ⟨ha, _⟩ | ⟨_, hb⟩
        · exact absurd ha hnr
        · rw [hb]; simp [acceptedValues, inputs, hm]

/-- What a snapshot of a histogram shows. -/
theorem Histogram.putSnapshot_eq_some {h : Histogram} {into s : Snapshot} {d : Bool} {e : Env} {k k' : Nat}
    (hp : h.putSnapshot into d e k = some (s, k')) :
    ∃ active k₁, k' = k₁ ∧ k ≤ k₁ ∧
      (active = true ↔ ∀ l : Nat, h.maxInactivity = some l → (e.clock k - h.lastUpdate).toNat < l) ∧
      s = putPostfixedDescriptives h.descr h.name into d ++ [(h.name, .snapshot
        ((if h.maxInactivity.isSome && h.showActivityState then activityItems active else []) ++
         (if active then histogramItems (e.histStats k₁ h.inner) h.inner else [])))] := by
  have values : ∀ (into : Snapshot) (k : Nat), h.putHistogramValues into e k =
      some (into ++ histogramItems (e.histStats k h.inner) h.inner, k) := by
    intro into k
    unfold Histogram.putHistogramValues histogramItems
    rw [M.run_bind_some (M.run_env _ _), M.run_bind_some (M.run_readings _ _)]
    cases h.inner with
    | nil => rfl
    | cons v vs => simp [Snapshot.push]
  simp only [Histogram.putSnapshot, Histogram.putValues, Histogram.isActive, M.bind_eq_some, M.run_pure,
    Option.some.injEq, Prod.mk.injEq] at hp
  obtain ⟨level, k₁, ⟨active, k₂, hact, hl⟩, rfl, rfl⟩ := hp
  cases hmax : h.maxInactivity with
  | none =>
    simp only [hmax] at hact
    simp at hact
    obtain ⟨rfl, rfl⟩ := hact
    simp only [hmax, Option.isSome_none, Bool.false_and, Bool.false_eq_true, if_false, if_true, values,
      Option.some.injEq, Prod.mk.injEq] at hl
    obtain ⟨rfl, rfl⟩ := hl
    refine ⟨true, k, rfl, le_rfl, by simp, by simp [Snapshot.push]⟩
  | some l =>
    simp only [hmax, M.bind_eq_some, M.run_now, M.run_pure, Option.some.injEq, Prod.mk.injEq] at hact
    obtain ⟨_, _, ⟨rfl, rfl⟩, hact, rfl⟩ := hact
    have key : active = true ↔ ∀ l' : Nat, some l = some l' → (e.clock k - h.lastUpdate).toNat < l' := by
      rw [← hact]; simp [sinceNs]; exact decide_eq_true_iff
    simp only [hmax, Option.isSome_some, Bool.true_and] at hl
    cases active with
    | true =>
      simp only [if_true, values, Option.some.injEq, Prod.mk.injEq] at hl
      obtain ⟨rfl, rfl⟩ := hl
      refine ⟨true, k + 1, rfl, by omega, key, ?_⟩
      cases h.showActivityState <;> simp [Snapshot.push, activityItems]
    | false =>
      simp at hl
      obtain ⟨rfl, rfl⟩ := hl
      refine ⟨false, k + 1, rfl, by omega, key, ?_⟩
      cases h.showActivityState <;> simp [Snapshot.push, activityItems]

end Metrix
