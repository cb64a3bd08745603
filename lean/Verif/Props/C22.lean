import Verif.Proof.Gauge
import Verif.Proof.Played

/-! # C22: a gauge shows the last value set plus later deltas -/

namespace Metrix

/-- After any history the value of a gauge is the last absolute value plus all later deltas
(`gaugeShows`), modulo 2^64. -/
theorem C22_gauge_value {e : Env} {k k' : Nat} {g g' : Gauge} {log : List (Event Update)}
    (h : History e k g log k' g') (hg : ∀ v ∈ g.value, I64 v) (hlog : ∀ u ∈ inputs log, u.InRange) :
    g'.value =
      (gaugeShows g.value ((inputs log).map (Update.change g.displayTimeUnit)).reverse).map wrapI64 := by
  rw [gaugeShows_reverse]
  induction h with
  | @nil k k' c hk =>
    cases hv : c.value with
    | none => simp [inputs]
    | some v => simp [inputs, wrapI64_of_I64 (hg v hv)]
  | @cons k k₁ k₂ k' i i₁ i' op out log _ hs _ ih =>
    cases op with
    | input u =>
      obtain ⟨n, _, hu⟩ := step_input_eq_some.mp hs
      obtain ⟨hv, hc⟩ := Gauge.update_eq_some hg (hlog u (by simp [inputs])) hu
      have ih := ih (by rw [hv]; intro v hv; simp at hv; obtain ⟨_, _, rfl⟩ := hv; exact I64_wrapI64 _)
        (fun u hu => hlog u (by simp [inputs, hu]))
      rw [ih, hc.unit]
      simp only [inputs, List.map_cons, List.foldl_cons]
      exact Change.wrap_foldl _ hv
    | snapshot s d =>
      obtain ⟨_, _, hu⟩ := step_snapshot_eq_some.mp hs
      obtain ⟨hv, hc⟩ := Gauge.putSnapshot_eq_some hu
      have ih := ih (by rw [hv]; exact hg) (fun u hu => hlog u (by simp [inputs, hu]))
      rw [ih, hc.unit, hv]; rfl

/-- The value is exact whenever the exact value fits into 64 bits. -/
theorem C22_gauge_value_exact {e : Env} {k k' : Nat} {g g' : Gauge} {log : List (Event Update)}
    (h : History e k g log k' g') (hg : ∀ v ∈ g.value, I64 v) (hlog : ∀ u ∈ inputs log, u.InRange)
    (fits : ∀ v ∈ gaugeShows g.value ((inputs log).map (Update.change g.displayTimeUnit)).reverse, I64 v) :
    g'.value = gaugeShows g.value ((inputs log).map (Update.change g.displayTimeUnit)).reverse := by
  rw [C22_gauge_value h hg hlog]
  cases hx : gaugeShows g.value ((inputs log).map (Update.change g.displayTimeUnit)).reverse with
  | none => rfl
  | some v => simp [wrapI64_of_I64 (fits v hx)]

/-- Plain occurrences and values that do not convert do not change the shown value. -/
theorem C22_ignored (unit : TimeUnit) (initial : Option Int) (older : List Change) (b : Bool) (n : Nat)
    (t : Int) (hn : i64Max < n) :
    ∀ u ∈ [Update.observation t, .observations n t, .withValue (.bool b) t, .withValue (.float .nan) t,
        .withValue (.unsignedInteger n) t],
      gaugeShows initial (u.change unit :: older) = gaugeShows initial older := by
  have : ¬ (n : Int) ≤ i64Max := by omega
  simp [Update.change, gaugeShows, ObservedValue.convertToI64, F64.le, this]

/-- A debug build panics when a delta leaves the 64-bit range. -/
theorem C22_debug_overflow_panics (e : Env) (k : Nat) (g : Gauge) (v d : Int) (t : Int)
    (hp : e.profile = .debug) (hv : g.value = some v) (big : ¬ I64 (v + d)) :
    g.update (.withValue (.changedBy d) t) e k = none := by
  simp only [Gauge.update, Gauge.set, hv]
  rw [M.run_bind_none]
  rw [M.run_bind_none]
  simp only [Gauge.nextValue]
  rw [M.run_bind_none]
  exact (arithI64_debug_none hp).mpr big

/-- What a snapshot shows: nothing without a value, else the value under the gauge's name, or under
`current` in a group with the gauge's name, followed by statistics only if tracking is on. -/
theorem C22_shown {e : Env} {k k' : Nat} {g g' : Gauge} {into s : Snapshot}
    (h : g.putSnapshot into false e k = some ((g', s), k')) :
    (g.value = none → s = if g.groupValues then into ++ [(g.name, .snapshot [])] else into) ∧
    (∀ v, g.value = some v → ∃ stats,
      (s = if g.groupValues then into ++ [(g.name, .snapshot (("current", .int v) :: stats))]
        else into ++ (g.name, .int v) :: stats) ∧ (g.tracking = none → stats = [])) := by
  have inner : ∀ (l : Snapshot) (r : Gauge × Snapshot) (k' : Nat), g.putValues l e k = some (r, k') →
      (g.value = none → r.2 = l) ∧
      (∀ v, g.value = some v → ∃ stats,
        r.2 = l ++ ((if g.groupValues then "current" else g.name), ItemKind.int v) :: stats ∧
        (g.tracking = none → stats = [])) := by
    intro l r k' h
    unfold Gauge.putValues at h
    cases hval : g.value <;> simp only [hval] at h
    · simp at h; obtain ⟨rfl, rfl⟩ := h; simp
    · cases ht : g.tracking <;> simp only [ht] at h
      · simp at h; obtain ⟨rfl, _⟩ := h; cases g.groupValues <;> simp [Snapshot.push]
      · simp only [M.bind_eq_some, M.run_pure, Option.some.injEq, Prod.mk.injEq] at h
        obtain ⟨_, _, _, rfl, _⟩ := h
        cases g.groupValues <;> simp [BucketsStats.addToSnapshot, Snapshot.push]
  unfold Gauge.putSnapshot at h
  simp only [putPostfixedDescriptives, Bool.false_eq_true, if_false] at h
  cases hg : g.groupValues <;> simp only [hg, Bool.false_eq_true, if_false, if_true] at h inner ⊢
  · obtain ⟨h1, h2⟩ := inner _ _ _ h
    exact ⟨h1, h2⟩
  · simp only [M.bind_eq_some, M.run_pure, Option.some.injEq, Prod.mk.injEq] at h
    obtain ⟨r, _, h, ⟨_, rfl⟩, _⟩ := h
    obtain ⟨h1, h2⟩ := inner _ _ _ h
    have hn := (Gauge.putValues_eq_some h).2.name
    refine ⟨fun hv => by rw [h1 hv, hn]; rfl, fun v hv => ?_⟩
    obtain ⟨stats, hs, ht⟩ := h2 v hv
    exact ⟨stats, by rw [hs, hn]; simp [Snapshot.push], ht⟩

/-- A value, two deltas, an ignored update and a snapshot in between. -/
example (e : Env) : ∃ g', History (C := Gauge) e 0 { name := "g" }
    [⟨0, .input (.withValue (.changedBy 5) 0), .updated 1, 0⟩,
     ⟨0, .input (.withValue (.signedInteger 10) 0), .updated 1, 0⟩,
     ⟨0, .snapshot [] false, .snapshot [("g", .int 10)], 0⟩,
     ⟨3, .input (.observation 0), .updated 0, 3⟩,
     ⟨3, .input (.withValue (.changedBy (-3)) 0), .updated 1, 3⟩] 3 g' ∧ g'.value = some 7 := by
  refine ⟨{ name := "g", value := some 7 }, ?_, rfl⟩
  repeat' first
    | exact History.nil (by decide)
    | refine History.cons (by decide) rfl ?_

/-- The spec on the same changes. -/
example : gaugeShows none [.delta (-3), .nothing, .absolute 10, .delta 5] = some 7 := by decide

/-- Finding: a value that does not convert still counts as an update (it reports 1). -/
theorem C22_finding_ignored_value_reports_update (e : Env) (k : Nat) (v : Int) :
    (Gauge.update { name := "g", value := some v } (.withValue (.bool true) 0)) e k =
      some (({ name := "g", value := some v }, 1), k) := rfl

/-- A value, a snapshot, a delta and an occurrence. -/
def gaugedOps : List (Op Update) :=
  [.input (.withValue (.signedInteger 50) 0), .snapshot [] true, .input (.withValue (.changedBy (-7)) 0), .input (.observation 0)]

example := C22_gauge_value (played_history (e := ticking) (k := 0) (c := ({ name := "g" } : Gauge)) (ops := gaugedOps) rfl)
  nofun (by simp [inputs, Update.InRange, ObservedValue.InRange, I64, i64Min, i64Max])
example := C22_gauge_value_exact (played_history (e := ticking) (k := 0) (c := ({ name := "g" } : Gauge)) (ops := gaugedOps) rfl)
  nofun (by simp [inputs, Update.InRange, ObservedValue.InRange, I64, i64Min, i64Max]) (by decide)
example := C22_ignored .seconds (some 3) [.absolute 4] true (2 ^ 63) 0 (by decide)
example := C22_debug_overflow_panics { ticking with profile := .debug } 0 { name := "g", value := some i64Max } i64Max 1 0 rfl rfl
  (by decide)
example := C22_shown (g := { name := "g", value := some 3, groupValues := true }) (into := []) (e := ticking) (k := 0) rfl

end Metrix
