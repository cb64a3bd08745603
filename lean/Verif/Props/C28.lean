import Verif.Proof.MeterHistory
import Verif.Proof.Played
import Verif.Proof.SafeTree
import Verif.Proof.TotalMeter

/-! # C28: a meter counts every occurrence -/

namespace Metrix

/-- The sum of what a list of updates counts. -/
def sumOf (amount : Update → Option Int) (us : List Update) : Int := (us.map fun u => (amount u).getD 0).sum

theorem Meter.history_count {e : Env} {k k' : Nat} {m m' : Meter} {log : List (Event Update)}
    (h : History e k m log k' m') (hm : I64 m.inner.count) :
    m'.inner.count = wrapI64 (m.inner.count + sumOf Update.counted (inputs log)) ∧ Meter.SameConfig m m' := by
  induction h with
  | nil => simp [inputs, sumOf, wrapI64_of_I64 hm, Meter.SameConfig.refl]
  | @cons k k₁ k₂ k' i i₁ i' op out log hk hs _ ih =>
    cases op with
    | input u =>
      obtain ⟨n, _, hu⟩ := step_input_eq_some.mp hs
      obtain ⟨_, m₁, k₃, h₁, hu⟩ := Meter.update_eq_some hu
      obtain ⟨hc₁, hsame⟩ := Meter.tickIfDue_count h₁
      cases hcnt : u.counted with
      | none =>
        rw [hcnt] at hu
        obtain ⟨rfl, rfl⟩ := hu
        obtain ⟨h1, h2⟩ := ih (by rw [hc₁]; exact hm)
        refine ⟨?_, hsame.trans h2⟩
        rw [h1, hc₁]; simp [inputs, sumOf, hcnt]
      | some c =>
        rw [hcnt] at hu
        obtain ⟨inner, hmk, rfl⟩ := hu
        have hc₂ := StdMeter.mark_count hmk
        rw [hc₁] at hc₂
        obtain ⟨h1, h2⟩ := ih (by simp only [hc₂]; exact I64_wrapI64 _)
        refine ⟨?_, hsame.trans h2.ofInner⟩
        rw [h1]; simp only [hc₂]
        rw [wrapI64_wrapI64_add]; simp [inputs, sumOf, hcnt, add_assoc]
    | snapshot s d =>
      obtain ⟨_, _, hu⟩ := step_snapshot_eq_some.mp hs
      obtain ⟨hc₁, hsame, _⟩ := Meter.putSnapshot_count hu
      obtain ⟨h1, h2⟩ := ih (by rw [hc₁]; exact hm)
      exact ⟨by rw [h1, hc₁]; rfl, hsame.trans h2⟩

theorem ValueMeter.history_count {e : Env} {k k' : Nat} {m m' : ValueMeter} {log : List (Event Update)}
    (h : History e k m log k' m') (hm : I64 m.meter.inner.count) :
    m'.meter.inner.count =
      wrapI64 (m.meter.inner.count + sumOf (Update.metered m.displayTimeUnit) (inputs log)) ∧
    Meter.SameConfig m.meter m'.meter := by
  induction h with
  | nil => simp [inputs, sumOf, wrapI64_of_I64 hm, Meter.SameConfig.refl]
  | @cons k k₁ k₂ k' i i₁ i' op out log hk hs _ ih =>
    cases op with
    | input u =>
      obtain ⟨n, _, hu⟩ := step_input_eq_some.mp hs
      have hu := ValueMeter.update_eq_some hu
      cases hcnt : u.metered i.displayTimeUnit with
      | none =>
        rw [hcnt] at hu
        obtain ⟨rfl, rfl, rfl⟩ := hu
        obtain ⟨h1, h2⟩ := ih hm
        refine ⟨?_, h2⟩
        rw [h1]; simp [inputs, sumOf, hcnt]
      | some c =>
        rw [hcnt] at hu
        obtain ⟨rfl, inner, hmk, rfl⟩ := hu
        have hc₂ := StdMeter.mark_count hmk
        obtain ⟨h1, h2⟩ := ih (by simp only [hc₂]; exact I64_wrapI64 _)
        refine ⟨?_, Meter.SameConfig.ofInner h2⟩
        rw [h1]; simp only [hc₂]
        rw [wrapI64_wrapI64_add]; simp [inputs, sumOf, hcnt, add_assoc]
    | snapshot s d =>
      obtain ⟨_, _, hu⟩ := step_snapshot_eq_some.mp hs
      obtain ⟨meter, hu', rfl⟩ := ValueMeter.putSnapshot_eq_some.mp hu
      obtain ⟨hc₁, hsame, _⟩ := Meter.putSnapshot_count hu'
      obtain ⟨h1, h2⟩ := ih (by simp only [hc₁]; exact hm)
      exact ⟨by rw [h1, hc₁]; rfl, hsame.trans h2⟩

/-- A snapshot of a meter shows as `count` its initial count (0 for a new one) plus the occurrences of all
updates (modulo 2^64), whatever happened in between. -/
theorem C28_meter_count {e : Env} {k k' k'' : Nat} {m m' m'' : Meter} {log : List (Event Update)}
    (h : History e k m log k' m') (hm : I64 m.inner.count) {into s : Snapshot} {d : Bool}
    (hput : m'.putSnapshot into d e k' = some ((m'', s), k'')) :
    ∃ front rates, s = front ++ [(m.name, .snapshot
      (("count", .uint (wrapU64 (m.inner.count + sumOf Update.counted (inputs log)))) :: rates))] := by
  obtain ⟨hc, hsame⟩ := Meter.history_count h hm
  obtain ⟨_, _, r1, r5, r15, hs⟩ := Meter.putSnapshot_count hput
  rw [hc, wrapU64_wrapI64, hsame.name] at hs
  exact ⟨_, _, hs⟩

/-- The same for a `ValueMeter`: the sum of the values in the display unit. -/
theorem C28_value_meter_count {e : Env} {k k' k'' : Nat} {m m' m'' : ValueMeter} {log : List (Event Update)}
    (h : History e k m log k' m') (hm : I64 m.meter.inner.count) {into s : Snapshot} {d : Bool}
    (hput : m'.putSnapshot into d e k' = some ((m'', s), k'')) :
    ∃ front rates, s = front ++ [(m.meter.name, .snapshot (("count", .uint
      (wrapU64 (m.meter.inner.count + sumOf (Update.metered m.displayTimeUnit) (inputs log)))) :: rates))] := by
  obtain ⟨hc, hsame⟩ := ValueMeter.history_count h hm
  obtain ⟨meter, hput, _⟩ := ValueMeter.putSnapshot_eq_some.mp hput
  obtain ⟨_, _, r1, r5, r15, hs⟩ := Meter.putSnapshot_count hput
  rw [hc, wrapU64_wrapI64, hsame.name] at hs
  exact ⟨_, _, hs⟩

/-- New meters have counted nothing. -/
theorem C28_new (name : String) (e : Env) (k : Nat) :
    (∃ m k', Meter.new name e k = some (m, k') ∧ m.inner.count = 0 ∧ m.name = name) ∧
    (∃ m k', ValueMeter.new name e k = some (m, k') ∧ m.meter.inner.count = 0 ∧ m.meter.name = name) :=
  ⟨⟨_, _, rfl, rfl, rfl⟩, ⟨_, _, rfl, rfl, rfl⟩⟩

/-- The shown number is the sum itself if that is a non-negative 64-bit number. -/
theorem C28_exact (x : Int) (h : 0 ≤ x) (h' : x < 2 ^ 64) : ((wrapU64 x : Nat) : Int) = x := by
  unfold wrapU64; omega

/-- A meter reports every update as one, a `ValueMeter` reports what it counts. -/
theorem C28_reports {e : Env} {k k' n : Nat} {u : Update} :
    (∀ m m' : Meter, m.update u e k = some ((m', n), k') → n = 1) ∧
    (∀ m m' : ValueMeter, m.update u e k = some ((m', n), k') →
      n = if (u.metered m.displayTimeUnit).isSome then 1 else 0) := by
  constructor
  · intro m m' h; exact (Meter.update_eq_some h).1
  · intro m m' h
    have := ValueMeter.update_eq_some h
    cases hc : u.metered m.displayTimeUnit with
    | none => rw [hc] at this; exact this.1
    | some c => rw [hc] at this; exact this.1

/-- What counts how much. -/
example : sumOf Update.counted [.observation 0, .observations 41 0, .withValue (.signedInteger 7) 0,
    .observations 0 0, .observations (2 ^ 63) 0] = 43 := rfl
example : sumOf (Update.metered .milliseconds) [.observation 0, .withValue (.duration 5999 .microseconds) 0,
    .withValue (.signedInteger (-2)) 0, .withValue (.bool true) 0] = 3 := rfl

/-- Finding: a `ValueMeter` that observed only -1 shows a count of 2^64 - 1. -/
theorem C28_finding_negative_values (e : Env) (he : e.profile = .release) (k : Nat) : ∃ m m' m'' k₁ k₂ k₃ rates,
    ValueMeter.new "m" e k = some (m, k₁) ∧
    m.update (.withValue (.signedInteger (-1)) 0) e k₁ = some ((m', 1), k₂) ∧
    m'.putSnapshot [] false e k₂ =
      some ((m'', [("m", .snapshot (("count", .uint (2 ^ 64 - 1)) :: rates))]), k₃) := by
  obtain ⟨m, k₁, hnew, hm0, hname⟩ := (C28_new "m" e k).2
  have hupd : ∃ m' k₂, m.update (.withValue (.signedInteger (-1)) 0) e k₁ = some ((m', 1), k₂) := by
    obtain ⟨inner, k₂, hmark⟩ := m.meter.inner.ok_mark he (-1) k₁
    refine ⟨{ m with meter := { m.meter with inner } }, k₂, ?_⟩
    simp only [ValueMeter.update, ObservedValue.convertToI64, ValueMeter.mark, M.bind_eq_some]
    exact ⟨_, _, ⟨_, _, hmark, rfl⟩, rfl⟩
  obtain ⟨m', k₂, hupd⟩ := hupd
  obtain ⟨⟨m₃, s⟩, k₃, hs⟩ := m'.meter.ok_putSnapshot he [] false k₂
  have hhist : History e k₁ m [⟨k₁, .input (.withValue (.signedInteger (-1)) 0), .updated 1, k₂⟩] k₂ m' :=
    .cons le_rfl (step_input_eq_some.mpr ⟨1, rfl, hupd⟩) (.nil le_rfl)
  obtain ⟨hc, hsame⟩ := ValueMeter.history_count hhist (by rw [hm0]; decide)
  obtain ⟨_, _, r1, r5, r15, hs'⟩ := Meter.putSnapshot_count hs
  rw [hc, hm0, hsame.name, hname] at hs'
  rw [hs'] at hs
  exact ⟨m, m', { m' with meter := m₃ }, k₁, k₂, k₃, _, hnew, hupd,
    ValueMeter.putSnapshot_eq_some.mpr ⟨m₃, hs, rfl⟩⟩

/-- Occurrences, a value, a duration and a snapshot. -/
def meteredOps : List (Op Update) := [.input (.observations 41 0), .snapshot [] true, .input (.withValue (.signedInteger 7) 0),
  .input (.withValue (.duration 3 .seconds) 0)]

/-- Meters right after they were made at 0.7 s. -/
def newMeter : Meter := { name := "m", lastTick := 0, inner := ⟨0, ⟨0, 1 / 10, 0, false⟩, ⟨0, 1 / 50, 0, false⟩,
  ⟨0, 1 / 150, 0, false⟩, 5700000000, 700000000⟩ }
def newValueMeter : ValueMeter := { meter := newMeter }

/-- They can be used by these operations and then put a snapshot. -/
theorem newMeter_used : ∃ log k' m', (History ticking 2 newMeter log k' m' ∧ log.map (·.op) = meteredOps) ∧
    ∃ m'' s k'', m'.putSnapshot [] true ticking k' = some ((m'', s), k'') :=
  exists_used (Meter.ok_update rfl) (Meter.ok_putSnapshot rfl) meteredOps [] true 2 newMeter

theorem newValueMeter_used : ∃ log k' m', (History ticking 2 newValueMeter log k' m' ∧ log.map (·.op) = meteredOps) ∧
    ∃ m'' s k'', m'.putSnapshot [] true ticking k' = some ((m'', s), k'') :=
  exists_used (ValueMeter.ok_update rfl) (ValueMeter.ok_putSnapshot rfl) meteredOps [] true 2 newValueMeter

example : True := by
  obtain ⟨_, _, _, ⟨h, _⟩, _, _, _, hput⟩ := newMeter_used
  have := C28_meter_count h (by decide) hput
  trivial

example : True := by
  obtain ⟨_, _, _, ⟨h, _⟩, _, _, _, hput⟩ := newValueMeter_used
  have := C28_value_meter_count h (by decide) hput
  trivial

example := C28_exact 5 (by decide) (by decide)
example : True := by
  obtain ⟨⟨m, n⟩, k, h⟩ := Meter.ok_update (e := ticking) rfl newMeter (.observation 0) 2
  have := C28_reports.1 _ _ h
  obtain ⟨⟨m, n⟩, k, h⟩ := ValueMeter.ok_update (e := ticking) rfl newValueMeter (.withValue (.signedInteger 7) 0) 2
  have := C28_reports.2 _ _ h
  trivial
example := C28_finding_negative_values ticking rfl 0

end Metrix
