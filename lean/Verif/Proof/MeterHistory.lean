import Verif.Proof.Meter

/-! Histories of meters. -/

namespace Metrix

theorem Meter.SameConfig.ofInner {m m' : Meter} {inner : StdMeter} (h : Meter.SameConfig { m with inner } m') :
    Meter.SameConfig m m' :=
  ⟨h.name, h.descr, h.cutoff, h.one, h.five, h.fifteen⟩

theorem StdMeter.catchUp_count (rnd : Rat → Rat) (now : Int) (s : StdMeter) :
    (s.catchUp rnd now).count = s.count := by
  induction s using StdMeter.catchUp.induct rnd now with
  | case1 s hle ih => rw [StdMeter.catchUp, if_pos hle, ih]; rfl
  | case2 s hgt => rw [StdMeter.catchUp, if_neg hgt]

theorem StdMeter.tick_count {s s' : StdMeter} {e : Env} {k k' : Nat} (h : s.tick e k = some (s', k')) :
    s'.count = s.count := by
  simp only [StdMeter.tick, M.bind_eq_some, M.run_env, M.run_now, M.run_pure, Option.some.injEq,
    Prod.mk.injEq] at h
  obtain ⟨_, _, ⟨rfl, rfl⟩, _, _, ⟨rfl, rfl⟩, rfl, rfl⟩ := h
  exact StdMeter.catchUp_count _ _ _

theorem StdMeter.mark_count {s s' : StdMeter} {n : Int} {e : Env} {k k' : Nat}
    (h : s.mark n e k = some (s', k')) : s'.count = wrapI64 (s.count + n) := by
  simp only [StdMeter.mark, M.bind_eq_some, M.run_pure, Option.some.injEq, Prod.mk.injEq] at h
  obtain ⟨s₁, k₁, h₁, c, k₂, hc, rfl, rfl⟩ := h
  obtain ⟨rfl, rfl, -⟩ := arithI64_eq_some hc
  rw [StdMeter.tick_count h₁]

theorem Meter.tickIfDue_count {m m' : Meter} {e : Env} {k k' : Nat} (h : m.tickIfDue e k = some (m', k')) :
    m'.inner.count = m.inner.count ∧ Meter.SameConfig m m' := by
  simp only [Meter.tickIfDue] at h
  rw [M.run_bind_some (M.run_now _ _)] at h
  split at h
  · simp only [M.bind_eq_some, M.run_now, M.run_pure, Option.some.injEq, Prod.mk.injEq] at h
    obtain ⟨s₁, k₁, h₁, _, _, ⟨rfl, rfl⟩, rfl, rfl⟩ := h
    exact ⟨StdMeter.tick_count h₁, ⟨rfl, rfl, rfl, rfl, rfl, rfl⟩⟩
  · simp at h; obtain ⟨rfl, rfl⟩ := h
    exact ⟨rfl, .refl _⟩

theorem Update.counted_observations (n : Nat) (t : Int) : (Update.observations n t).counted =
    if (n : Int) ≤ i64Max ∧ n ≠ 0 then some (n : Int) else none := by
  have h : (Update.observations n t).occurrences = n := rfl
  unfold Update.counted
  rw [h]
  by_cases hc : (n : Int) ≤ i64Max ∧ n ≠ 0
  · rw [if_pos hc, if_neg (by omega)]
  · rw [if_neg hc, if_pos (by omega)]

theorem Update.counted_one (u : Update) (h : u.occurrences = 1) : u.counted = some 1 := by
  unfold Update.counted; rw [h, if_neg (by unfold i64Max; omega)]; rfl

/-- What a `Meter` does with an update. -/
theorem Meter.update_eq_some {m m' : Meter} {u : Update} {n : Nat} {e : Env} {k k' : Nat}
    (h : m.update u e k = some ((m', n), k')) :
    n = 1 ∧ ∃ m₁ k₁, m.tickIfDue e k = some (m₁, k₁) ∧
      match u.counted with
      | none => m' = m₁ ∧ k' = k₁
      | some c => ∃ inner, m₁.inner.mark c e k₁ = some (inner, k') ∧ m' = { m₁ with inner } := by
  simp only [Meter.update, M.bind_eq_some] at h
  obtain ⟨m₁, k₁, h₁, h⟩ := h
  cases u with
  | withValue v t =>
    simp only [M.bind_eq_some, M.run_pure, Option.some.injEq, Prod.mk.injEq] at h
    obtain ⟨inner, _, h, ⟨rfl, rfl⟩, rfl⟩ := h
    rw [Update.counted_one _ rfl]
    exact ⟨rfl, m₁, k₁, h₁, inner, h, rfl⟩
  | observation t =>
    simp only [M.bind_eq_some, M.run_pure, Option.some.injEq, Prod.mk.injEq] at h
    obtain ⟨inner, _, h, ⟨rfl, rfl⟩, rfl⟩ := h
    rw [Update.counted_one _ rfl]
    exact ⟨rfl, m₁, k₁, h₁, inner, h, rfl⟩
  | observations c t =>
    rw [Update.counted_observations]
    by_cases hc : (c : Int) ≤ i64Max ∧ c ≠ 0
    · simp only [if_pos hc, M.bind_eq_some, M.run_pure, Option.some.injEq, Prod.mk.injEq] at h ⊢
      obtain ⟨inner, _, h, ⟨rfl, rfl⟩, rfl⟩ := h
      exact ⟨rfl, m₁, k₁, h₁, inner, h, rfl⟩
    · simp only [if_neg hc, M.run_pure, Option.some.injEq, Prod.mk.injEq] at h ⊢
      obtain ⟨⟨rfl, rfl⟩, rfl⟩ := h
      exact ⟨rfl, m₁, k₁, h₁, rfl, rfl⟩

/-- What a `ValueMeter` does with an update. -/
theorem ValueMeter.update_eq_some {m m' : ValueMeter} {u : Update} {n : Nat} {e : Env} {k k' : Nat}
    (h : m.update u e k = some ((m', n), k')) :
    match u.metered m.displayTimeUnit with
    | none => n = 0 ∧ m' = m ∧ k' = k
    | some c => n = 1 ∧ ∃ inner, m.meter.inner.mark c e k = some (inner, k') ∧
        m' = { m with meter := { m.meter with inner } } := by
  have gen : ∀ v : ObservedValue, (match v.convertToI64 with
      | some v => (do return (← m.mark v, 1) : M (ValueMeter × Nat))
      | none => return (m, 0)) e k = some ((m', n), k') →
      match v.convertToI64 with
      | none => n = 0 ∧ m' = m ∧ k' = k
      | some c => n = 1 ∧ ∃ inner, m.meter.inner.mark c e k = some (inner, k') ∧
        m' = { m with meter := { m.meter with inner } } := by
    clear h
    intro v h
    cases hv : v.convertToI64 <;> simp only [hv] at h
    · simp at h; obtain ⟨⟨rfl, rfl⟩, rfl⟩ := h; exact ⟨rfl, rfl, rfl⟩
    · simp only [ValueMeter.mark, M.bind_eq_some, M.run_pure, Option.some.injEq, Prod.mk.injEq] at h
      obtain ⟨_, _, ⟨inner, _, hx, rfl, rfl⟩, ⟨rfl, rfl⟩, rfl⟩ := h
      exact ⟨rfl, inner, hx, rfl⟩
  cases u with
  | observation t => simp [ValueMeter.update] at h; obtain ⟨⟨rfl, rfl⟩, rfl⟩ := h; exact ⟨rfl, rfl, rfl⟩
  | observations c t => simp [ValueMeter.update] at h; obtain ⟨⟨rfl, rfl⟩, rfl⟩ := h; exact ⟨rfl, rfl, rfl⟩
  | withValue v t =>
    cases v with
    | duration d unit =>
      simp only [ValueMeter.update, ValueMeter.mark, M.bind_eq_some, M.run_pure, Option.some.injEq,
        Prod.mk.injEq] at h
      obtain ⟨x, k₁, hx, _, _, ⟨inner, _, h, rfl, rfl⟩, ⟨rfl, rfl⟩, rfl⟩ := h
      obtain ⟨rfl, hw⟩ := durationToDisplayValue_eq_some hx
      rw [hw] at h
      exact ⟨rfl, inner, h, rfl⟩
    | signedInteger v => exact gen (.signedInteger v) h
    | unsignedInteger v => exact gen (.unsignedInteger v) h
    | float v => exact gen (.float v) h
    | bool v => exact gen (.bool v) h
    | changedBy v => exact gen (.changedBy v) h

theorem Meter.putSnapshot_count {m m' : Meter} {into s : Snapshot} {d : Bool} {e : Env} {k k' : Nat}
    (h : m.putSnapshot into d e k = some ((m', s), k')) :
    m'.inner.count = m.inner.count ∧ Meter.SameConfig m m' ∧
    ∃ r1 r5 r15, s = putPostfixedDescriptives m.descr m.name into d ++
      [(m.name, .snapshot (meterItems m (wrapU64 m.inner.count) r1 r5 r15))] := by
  simp only [Meter.putSnapshot, Meter.getSnapshot, StdMeter.snapshot, M.bind_eq_some, M.run_env, M.run_pure,
    Option.some.injEq, Prod.mk.injEq] at h
  obtain ⟨⟨_, _⟩, k₁, ⟨m₁, k₂, h₁, ⟨s₁, sn⟩, k₃, ⟨_, _, ⟨rfl, rfl⟩, s₂, k₄, hs₁, x, k₅, hx, hs, rfl⟩,
    ⟨rfl, rfl⟩, rfl⟩, ⟨rfl, rfl⟩, rfl⟩ := h
  obtain ⟨rfl, rfl⟩ := hs
  obtain ⟨hcount, hc⟩ := Meter.tickIfDue_count h₁
  have hcount' := StdMeter.tick_count hs₁
  refine ⟨by simp only [hcount', hcount], ⟨hc.name, hc.descr, hc.cutoff, hc.one, hc.five, hc.fifteen⟩,
    s₁.ewma1.perSecond e.rnd, s₁.ewma5.perSecond e.rnd, s₁.ewma15.perSecond e.rnd, ?_⟩
  simp only [MeterSnapshot.putSnapshot, Snapshot.push, hc.descr, hc.name, hcount', hcount,
    Meter.cut, hc.cutoff, hc.one, hc.five, hc.fifteen, meterItems, rateItem, withCutoff]
  cases m.oneMinute <;> cases m.fiveMinutes <;> cases m.fifteenMinutes <;> rfl

theorem ValueMeter.putSnapshot_eq_some {m m' : ValueMeter} {into s : Snapshot} {d : Bool} {e : Env} {k k' : Nat} :
    m.putSnapshot into d e k = some ((m', s), k') ↔
      ∃ meter, m.meter.putSnapshot into d e k = some ((meter, s), k') ∧ m' = { m with meter } := by
  simp only [ValueMeter.putSnapshot, M.bind_eq_some, M.run_pure, Option.some.injEq, Prod.mk.injEq, Prod.exists]
  constructor
  · rintro ⟨a, b, k₁, h, ⟨rfl, rfl⟩, rfl⟩; exact ⟨a, h, rfl⟩
  · rintro ⟨a, h, rfl⟩; exact ⟨a, s, k', h, ⟨rfl, rfl⟩, rfl⟩

/-- The interval that was reached never lies in the future. -/
theorem interval_bound {e : Env} (mono : e.Mono) {start : Int} {m k₁ k₂ : Nat}
    (ht : start + (m : Int) * (tickNs : Int) ≤ e.clock k₁) (hk : k₁ ≤ k₂) :
    ∀ j, k₂ ≤ j → start + (intervalOf start (e.clock k₁) : Int) * (tickNs : Int) ≤ e.clock j := by
  intro j hj
  refine le_trans (intervalOf_le ?_) (mono k₁ j (by omega))
  unfold tickNs at ht; omega

theorem Meter.history_rep {e : Env} (mono : e.Mono) {k k' : Nat} {m m' : Meter} {log : List (Event Update)}
    (h : History e k m log k' m') {start : Int} :
    ∀ {ms : List Mark} {i : Nat}, MeterRep e start ms i m.inner →
      (∀ j, k ≤ j → start + (i : Int) * (tickNs : Int) ≤ e.clock j) →
      Meter.SameConfig m m' ∧ ∃ i', MeterRep e start (ms ++ marks e.clock Update.counted log) i' m'.inner ∧
        ∀ j, k' ≤ j → start + (i' : Int) * (tickNs : Int) ≤ e.clock j := by
  induction h with
  | nil hk =>
    intro ms i r ht
    exact ⟨.refl _, i, by simpa [marks] using r, fun j hj => ht j (by omega)⟩
  | @cons k k₁ k₂ k' i i₁ i' op out log hk hs _ ih =>
    intro ms iv r ht
    cases op with
    | input u =>
      obtain ⟨n, _, hu⟩ := step_input_eq_some.mp hs
      obtain ⟨_, m₁, k₃, h₁, hu⟩ := Meter.update_eq_some hu
      obtain ⟨hle, hc, iv₁, r₁, ht₁⟩ := r.tickIfDue mono (fun j hj => ht j (by omega)) h₁
      cases hcnt : u.counted with
      | none =>
        rw [hcnt] at hu
        obtain ⟨rfl, rfl⟩ := hu
        obtain ⟨hc', iv', r', ht'⟩ := ih r₁ ht₁
        exact ⟨hc.trans hc', iv', by simpa [marks, hcnt] using r', ht'⟩
      | some c =>
        rw [hcnt] at hu
        obtain ⟨inner, hm, rfl⟩ := hu
        obtain ⟨rfl, r₂⟩ := r₁.mark (ht₁ k₃ le_rfl) hm
        obtain ⟨hc', iv', r', ht'⟩ := ih r₂ (interval_bound mono (ht₁ k₃ le_rfl) (by omega))
        refine ⟨hc.trans hc'.ofInner, iv', ?_, ht'⟩
        simpa [marks, hcnt] using r'
    | snapshot s d =>
      obtain ⟨_, _, hu⟩ := step_snapshot_eq_some.mp hs
      obtain ⟨hc, ⟨iv₁, r₁, ht₁⟩, _⟩ := r.putSnapshot mono (fun j hj => ht j (by omega)) hu
      obtain ⟨hc', iv', r', ht'⟩ := ih r₁ ht₁
      exact ⟨hc.trans hc', iv', by simpa [marks] using r', ht'⟩

theorem ValueMeter.history_rep {e : Env} (mono : e.Mono) {k k' : Nat} {m m' : ValueMeter}
    {log : List (Event Update)} (h : History e k m log k' m') {start : Int} :
    ∀ {ms : List Mark} {i : Nat}, MeterRep e start ms i m.meter.inner →
      (∀ j, k ≤ j → start + (i : Int) * (tickNs : Int) ≤ e.clock j) →
      Meter.SameConfig m.meter m'.meter ∧ ∃ i',
        MeterRep e start (ms ++ marks e.clock (Update.metered m.displayTimeUnit) log) i' m'.meter.inner ∧
        ∀ j, k' ≤ j → start + (i' : Int) * (tickNs : Int) ≤ e.clock j := by
  induction h with
  | nil hk =>
    intro ms i r ht
    exact ⟨.refl _, i, by simpa [marks] using r, fun j hj => ht j (by omega)⟩
  | @cons k k₁ k₂ k' i i₁ i' op out log hk hs _ ih =>
    intro ms iv r ht
    cases op with
    | input u =>
      obtain ⟨n, _, hu⟩ := step_input_eq_some.mp hs
      have hu := ValueMeter.update_eq_some hu
      cases hcnt : u.metered i.displayTimeUnit with
      | none =>
        rw [hcnt] at hu
        obtain ⟨rfl, rfl, rfl⟩ := hu
        obtain ⟨hc', iv', r', ht'⟩ := ih r (fun j hj => ht j (by omega))
        exact ⟨hc', iv', by simpa [marks, hcnt] using r', ht'⟩
      | some c =>
        rw [hcnt] at hu
        obtain ⟨rfl, inner, hm, rfl⟩ := hu
        obtain ⟨rfl, r₂⟩ := r.mark (ht k₁ hk) hm
        obtain ⟨hc', iv', r', ht'⟩ := ih r₂ (interval_bound mono (ht k₁ hk) (by omega))
        refine ⟨Meter.SameConfig.ofInner hc', iv', ?_, ht'⟩
        simpa [marks, hcnt] using r'
    | snapshot s d =>
      obtain ⟨_, _, hu⟩ := step_snapshot_eq_some.mp hs
      obtain ⟨meter, hu', rfl⟩ := ValueMeter.putSnapshot_eq_some.mp hu
      obtain ⟨hc, ⟨iv₁, r₁, ht₁⟩, _⟩ := r.putSnapshot mono (fun j hj => ht j (by omega)) hu'
      obtain ⟨hc', iv', r', ht'⟩ := ih r₁ ht₁
      exact ⟨hc.trans hc', iv', by simpa [marks] using r', ht'⟩

end Metrix
