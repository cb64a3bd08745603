import Verif.Proof.MeterHistory
import Verif.Props.C25
import Verif.Props.C28

/-! # C29: meter rates depend only on what happened per 5-second interval -/

namespace Metrix

/-- A meter started at reading `k₀` and then used in any way at monotone times: a snapshot shows the moving averages
over the complete 5-second intervals since then, each interval weighing what was counted within it. The
moment of the snapshot is one of the clock readings made during it. -/
theorem C29_meter_rates {e : Env} (mono : e.Mono) {k₀ k₁ k₂ k₃ : Nat} {m m' m'' : Meter}
    (hnew : StdMeter.new e k₀ = some (m.inner, k₁)) {log : List (Event Update)}
    (h : History e k₁ m log k₂ m') {into s : Snapshot} {d : Bool}
    (hput : m'.putSnapshot into d e k₂ = some ((m'', s), k₃)) :
    ∃ j front count, k₂ ≤ j ∧ j < k₃ ∧ s = front ++ [(m.name, .snapshot (meterItems m count
      (rateAt e.rnd e.alpha1 (e.clock k₀) (marks e.clock Update.counted log) (e.clock j))
      (rateAt e.rnd e.alpha5 (e.clock k₀) (marks e.clock Update.counted log) (e.clock j))
      (rateAt e.rnd e.alpha15 (e.clock k₀) (marks e.clock Update.counted log) (e.clock j))))] := by
  obtain ⟨rfl, r⟩ := MeterRep.new hnew
  obtain ⟨hc, i', r', ht'⟩ := Meter.history_rep mono h r
    (fun j hj => by simpa using mono _ _ (by omega : k₀ ≤ j))
  rw [List.nil_append] at r'
  obtain ⟨_, _, j, hj, hj', hs⟩ := r'.putSnapshot mono ht' hput
  simp only [hc.name, meterItems, hc.cutoff, hc.one, hc.five, hc.fifteen] at hs
  exact ⟨j, _, _, hj, hj', hs⟩

/-- The same for a `ValueMeter`. -/
theorem C29_value_meter_rates {e : Env} (mono : e.Mono) {k₀ k₁ k₂ k₃ : Nat} {m m' m'' : ValueMeter}
    (hnew : StdMeter.new e k₀ = some (m.meter.inner, k₁)) {log : List (Event Update)}
    (h : History e k₁ m log k₂ m') {into s : Snapshot} {d : Bool}
    (hput : m'.putSnapshot into d e k₂ = some ((m'', s), k₃)) :
    ∃ j front count, k₂ ≤ j ∧ j < k₃ ∧ s = front ++ [(m.meter.name, .snapshot (meterItems m.meter count
      (rateAt e.rnd e.alpha1 (e.clock k₀) (marks e.clock (Update.metered m.displayTimeUnit) log) (e.clock j))
      (rateAt e.rnd e.alpha5 (e.clock k₀) (marks e.clock (Update.metered m.displayTimeUnit) log) (e.clock j))
      (rateAt e.rnd e.alpha15 (e.clock k₀) (marks e.clock (Update.metered m.displayTimeUnit) log) (e.clock j))))] := by
  obtain ⟨rfl, r⟩ := MeterRep.new hnew
  obtain ⟨hc, i', r', ht'⟩ := ValueMeter.history_rep mono h r
    (fun j hj => by simpa using mono _ _ (by omega : k₀ ≤ j))
  rw [List.nil_append] at r'
  obtain ⟨meter, hput, _⟩ := ValueMeter.putSnapshot_eq_some.mp hput
  obtain ⟨_, _, j, hj, hj', hs⟩ := r'.putSnapshot mono ht' hput
  simp only [hc.name, meterItems, hc.cutoff, hc.one, hc.five, hc.fifteen] at hs
  exact ⟨j, _, _, hj, hj', hs⟩

/-- A `Meter` made by `new` contains such a started meter. -/
theorem C29_new {name : String} {e : Env} {k k' : Nat} {m : Meter} (h : Meter.new name e k = some (m, k')) :
    StdMeter.new e (k + 1) = some (m.inner, k') := by
  simp only [Meter.new, M.bind_eq_some, M.run_now, M.run_pure, Option.some.injEq, Prod.mk.injEq] at h
  obtain ⟨_, _, ⟨rfl, rfl⟩, inner, _, h, rfl, rfl⟩ := h
  exact h

/-- When and how often snapshots were taken does not matter: the marks of a log are those of its updates. -/
theorem C29_snapshots_do_not_matter (clock : Nat → Int) (amount : Update → Option Int) (log : List (Event Update)) :
    marks clock amount log = marks clock amount (log.filter fun ev => match ev.op with
      | .input _ => true
      | .snapshot _ _ => false) := by
  induction log with
  | nil => rfl
  | cons ev log ih =>
    obtain ⟨start, op, out, stop⟩ := ev
    cases op with
    | input u => simp only [List.filter_cons_of_pos, marks]; cases amount u <;> simp [ih]
    | snapshot s d => simpa [marks] using ih

/-- A meter is created at 0.7 s (second reading); 3 occurrences at 2.1 s, then one at 7.7 s (in the second
interval, the first of which had 3): 3 occurrences in 5 s, that is 0.6 per second. -/
example : ∃ m m', Meter.new "m" ticking 0 = some (m, 2) ∧
    History ticking 2 m [⟨2, .input (.observations 3 0), .updated 1, 4⟩,
      ⟨10, .input (.observation 0), .updated 1, 14⟩] 14 m' ∧
    rateAt ticking.rnd ticking.alpha1 (ticking.clock 1)
      (marks ticking.clock Update.counted [⟨2, .input (.observations 3 0), .updated 1, 4⟩,
        ⟨10, .input (.observation 0), .updated 1, 14⟩]) (ticking.clock 14) = 3 / 5 := by
  refine ⟨_, _, rfl, .cons (c₁ := { name := "m", lastTick := 0, inner := ⟨3, ⟨3, 1 / 10, 0, false⟩,
      ⟨3, 1 / 50, 0, false⟩, ⟨3, 1 / 150, 0, false⟩, 5700000000, 700000000⟩ }) (by decide) ?_
      (.cons (c₁ := { name := "m", lastTick := 8400000000, inner := ⟨4, ⟨1, 1 / 10, 3 / tickNs, true⟩,
        ⟨1, 1 / 50, 3 / tickNs, true⟩, ⟨1, 1 / 150, 3 / tickNs, true⟩, 10700000000, 700000000⟩ }) (by decide) ?_
        (.nil (by decide))), ?_⟩
  · have hm : ∀ s : StdMeter, s.nextTick = 5700000000 → s.catchUp ticking.rnd (ticking.clock 3) = s := by
      intro s hs
      rw [StdMeter.catchUp, if_neg (by rw [hs]; decide)]
    refine step_input_eq_some.mpr ⟨1, rfl, ?_⟩
    change Meter.update _ _ _ _ = _
    simp only [Meter.update, Meter.tickIfDue, StdMeter.mark, StdMeter.tick, M.run_bind, M.run_now]
    rw [if_neg (by decide)]
    simp only [M.run_pure]
    rw [if_pos (by decide)]
    simp only [M.run_bind, M.run_now, M.run_env, M.run_pure]
    rw [hm _ rfl]
    rfl
  · have hm : ∀ s : StdMeter, s.nextTick = 5700000000 → s.catchUp ticking.rnd (ticking.clock 11) = s.tickOnce ticking.rnd := by
      intro s hs
      rw [StdMeter.catchUp, if_pos (by rw [hs]; decide), StdMeter.catchUp, if_neg (by
        simp only [StdMeter.tickOnce, hs]; decide)]
    have hm' : ∀ s : StdMeter, s.nextTick = 10700000000 → s.catchUp ticking.rnd (ticking.clock 13) = s := by
      intro s hs
      rw [StdMeter.catchUp, if_neg (by rw [hs]; decide)]
    refine step_input_eq_some.mpr ⟨1, rfl, ?_⟩
    change Meter.update _ _ _ _ = _
    simp only [Meter.update, Meter.tickIfDue, StdMeter.mark, StdMeter.tick, M.run_bind, M.run_now, M.run_env, M.run_pure]
    rw [if_pos (by decide)]
    simp only [M.run_bind, M.run_now, M.run_env, M.run_pure]
    rw [hm _ rfl, hm' _ rfl]
    rfl
  · have : ∀ x : Rat, ticking.rnd x = x := fun _ => rfl
    have h3 : wrapU64 (inInterval (ticking.clock 1) (marks ticking.clock Update.counted
        [⟨2, .input (.observations 3 0), .updated 1, 4⟩, ⟨10, .input (.observation 0), .updated 1, 14⟩]) 0) = 3 := by
      decide
    have hi : intervalOf (ticking.clock 1) (ticking.clock 14) = 1 := by decide
    unfold rateAt
    rw [hi]
    simp only [ewmaAfter, instantRate, this]
    rw [h3]
    norm_num [tickNs, nanosPerSec]

example : True := by
  obtain ⟨_, _, _, ⟨h, _⟩, _, _, _, hput⟩ := newMeter_used
  have := C29_meter_rates ticking_mono (k₀ := 1) rfl h hput
  obtain ⟨_, _, _, ⟨h, _⟩, _, _, _, hput⟩ := newValueMeter_used
  have := C29_value_meter_rates ticking_mono (k₀ := 1) rfl h hput
  trivial

example := C29_new (name := "m") (e := ticking) (k := 0) (m := newMeter) rfl

end Metrix
