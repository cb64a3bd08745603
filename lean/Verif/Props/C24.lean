import Verif.Props.C22
import Verif.Proof.Tracking
import Verif.Props.C25

/-! # C24: tracked gauge statistics cover exactly the tracked window -/

namespace Metrix

theorem tracked_history {e : Env} (mono : e.Mono) {n : Nat} {t0 : Int} {k k' : Nat} {g g' : Gauge}
    {log : List (Event Update)} (h : History e k g log k' g') :
    ∀ {recs : List Recorded} {s : Nat}, Tracked n t0 recs s g →
      (∀ j, k ≤ j → t0 + (s : Int) * (nanosPerSec : Int) ≤ e.clock j) → (∀ v ∈ g.value, I64 v) →
      (∀ u ∈ inputs log, u.InRange) → U64 (recs.length + (inputs log).length) →
      (∀ x ∈ recs, I64 x.value) →
      ∃ s', Tracked n t0 (recs ++ recordings e.clock g.displayTimeUnit g.value log) s' g' ∧
        (∀ j, k' ≤ j → t0 + (s' : Int) * (nanosPerSec : Int) ≤ e.clock j) ∧
        (∀ x ∈ recs ++ recordings e.clock g.displayTimeUnit g.value log, I64 x.value) ∧
        recs.length + (recordings e.clock g.displayTimeUnit g.value log).length ≤
          recs.length + (inputs log).length ∧
        Gauge.SameConfig g g' := by
  induction h with
  | @nil k k' c hk =>
    intro recs s r ht hg _ _ hI
    exact ⟨s, by simpa [recordings] using r, fun j hj => ht j (by omega), by simpa [recordings] using hI,
      by simp [recordings, inputs], ⟨rfl, rfl, rfl, rfl⟩⟩
  | @cons k k₁ k₂ k' i i₁ i' op out log hk hs _ ih =>
    intro recs s r ht hg hlog hlen hI
    cases op with
    | input u =>
      obtain ⟨m, _, hu⟩ := step_input_eq_some.mp hs
      simp only [inputs, List.length_cons] at hlen
      have hur := hlog u (by simp [inputs])
      obtain ⟨hle, s₁, r₁, hs₁⟩ := r.update (u := u) (by unfold U64 at *; omega) (ht k₁ hk) hg hur hu
      obtain ⟨hv, hc⟩ := Gauge.update_eq_some hg hur hu
      have hI₁ : ∀ v ∈ i₁.value, I64 v := by
        rw [hv]; intro v hv; simp at hv; obtain ⟨_, _, rfl⟩ := hv; exact I64_wrapI64 _
      have hrec : recordings e.clock i.displayTimeUnit i.value (⟨k₁, .input u, out, k₂⟩ :: log) =
          recordedBy e.clock k₁ u i₁.value ++ recordings e.clock i₁.displayTimeUnit i₁.value log := by
        have : (gaugeShows i.value [u.change i.displayTimeUnit]).map wrapI64 = i₁.value := by
          rw [hv]; congr 1; cases u.change i.displayTimeUnit <;> rfl
        simp only [recordings, this, hc.unit, recordedBy]
        cases u <;> cases i₁.value <;> rfl
      have hlen₁ : (recordedBy e.clock k₁ u i₁.value).length ≤ 1 := by
        unfold recordedBy; split <;> simp
      have ht₁ : ∀ j, k₂ ≤ j → t0 + (s₁ : Int) * (nanosPerSec : Int) ≤ e.clock j := by
        intro j hj
        rcases hs₁ with rfl | ⟨rfl, _⟩
        · exact ht j (by omega)
        · exact le_trans (tickedTo_le (ht k₁ hk)) (mono _ _ (by omega))
      obtain ⟨s', r', ht', hI', hl', hc'⟩ := ih r₁ ht₁ hI₁ (fun u hu => hlog u (by simp [inputs, hu]))
        (by simp only [List.length_append]; unfold U64 at *; omega)
        (by
          intro x hx
          rcases List.mem_append.mp hx with hx | hx
          · exact hI x hx
          · unfold recordedBy at hx
            split at hx
            · rename_i v heq; simp at hx; subst hx; exact hI₁ _ v
            · cases hx)
      refine ⟨s', by rw [hrec, ← List.append_assoc]; exact r', ht', by rw [hrec, ← List.append_assoc]; exact hI',
        ?_, ⟨hc'.name.trans hc.name, hc'.descr.trans hc.descr, hc'.unit.trans hc.unit, hc'.group.trans hc.group⟩⟩
      rw [hrec]; simp only [List.length_append, inputs, List.length_cons] at hl' ⊢; omega
    | snapshot into d =>
      obtain ⟨_, _, hu⟩ := step_snapshot_eq_some.mp hs
      obtain ⟨hv, hc⟩ := Gauge.putSnapshot_eq_some hu
      have hput : ∀ (l l' : Snapshot), i.putValues l e k₁ = some ((i₁, l'), k₂) →
          k₁ ≤ k₂ ∧ ∃ s', Tracked n t0 recs s' i₁ ∧ (s' = s ∨ s' = tickedTo t0 s (e.clock k₁) ∧ k₁ < k₂) := by
        intro l l' h
        obtain ⟨h1, s', h2, h3, _⟩ := r.putValues hI
          (by have := flatten_window_length t0 n (tickedTo t0 s (e.clock k₁)) recs
              unfold U64 at *; omega) h
        exact ⟨h1, s', h2, h3⟩
      have hput : k₁ ≤ k₂ ∧ ∃ s', Tracked n t0 recs s' i₁ ∧
          (s' = s ∨ s' = tickedTo t0 s (e.clock k₁) ∧ k₁ < k₂) := by
        change i.putSnapshot into d e k₁ = _ at hu
        simp only [Gauge.putSnapshot] at hu
        cases hgr : i.groupValues <;> simp only [hgr, Bool.false_eq_true, if_false, if_true] at hu
        · exact hput _ _ hu
        · simp only [M.bind_eq_some, M.run_pure, Option.some.injEq, Prod.mk.injEq] at hu
          obtain ⟨⟨i₂, l⟩, _, hu, ⟨rfl, _⟩, rfl⟩ := hu
          exact hput _ _ hu
      obtain ⟨hle, s₁, r₁, hs₁⟩ := hput
      have ht₁ : ∀ j, k₂ ≤ j → t0 + (s₁ : Int) * (nanosPerSec : Int) ≤ e.clock j := by
        intro j hj
        rcases hs₁ with rfl | ⟨rfl, _⟩
        · exact ht j (by omega)
        · exact le_trans (tickedTo_le (ht k₁ hk)) (mono _ _ (by omega))
      obtain ⟨s', r', ht', hI', hl', hc'⟩ := ih r₁ ht₁ (by rw [hv]; exact hg)
        (fun u hu => hlog u (by simp [inputs, hu])) (by simpa [inputs] using hlen) hI
      rw [hv, hc.unit] at r' hI' hl'
      exact ⟨s', r', ht', hI', by simpa [inputs, recordings] using hl',
        ⟨hc'.name.trans hc.name, hc'.descr.trans hc.descr, hc'.unit.trans hc.unit, hc'.group.trans hc.group⟩⟩

/-- A gauge whose tracking for `n` seconds was switched on, then used in any way at monotone times: a
snapshot shows, besides the current value, statistics of exactly the values recorded in the current second
and the `n - 1` seconds before, counted from the moment tracking was switched on. -/
theorem C24_window {e : Env} (mono : e.Mono) {n k₀ k₁ k₂ k₃ : Nat} {g₀ g g' g'' : Gauge} (hn : 0 < n)
    (hset : g₀.setTracking n e k₀ = some (g, k₁)) {log : List (Event Update)}
    (h : History e k₁ g log k₂ g') (hg : ∀ v ∈ g₀.value, I64 v) (hlog : ∀ u ∈ inputs log, u.InRange)
    (few : U64 (inputs log).length) {v : Int} (hv : g'.value = some v) {into s : Snapshot}
    {descriptive : Bool} (hput : g'.putSnapshot into descriptive e k₂ = some ((g'', s), k₃)) :
    ∃ stats front, IsStats e.rnd v (window (e.clock k₀) n (e.clock k₂)
        (recordings e.clock g₀.displayTimeUnit g₀.value log)) stats ∧
      s = front ++ if g₀.groupValues
        then [(g₀.name, .snapshot (("current", .int v) :: statItems "" stats))]
        else (g₀.name, .int v) :: statItems (g₀.name ++ "_") stats := by
  obtain ⟨ring, hring, rep⟩ := Rep.new (T := Bucket) hn e k₀
  simp only [Gauge.setTracking] at hset
  rw [if_pos (by omega), M.run_bind_some hring] at hset
  simp only [M.run_pure, Option.some.injEq, Prod.mk.injEq] at hset
  obtain ⟨rfl, rfl⟩ := hset
  have hT : Tracked n (e.clock k₀) [] 0 { g₀ with tracking := some ring } :=
    ⟨ring, rfl, by simpa [valuesIn, Bucket.of_nil] using rep⟩
  obtain ⟨s', r', ht', hI', hl', hc'⟩ := tracked_history mono h hT
    (fun j hj => by simpa using mono _ _ (by omega : k₀ ≤ j)) hg hlog (by simpa using few) (by simp)
  rw [List.nil_append] at r' hI'
  simp only [List.length_nil] at hl'
  have hs := tickedTo_eq (ht' k₂ le_rfl)
  have hlen : U64 ((windowSeconds n (tickedTo (e.clock k₀) s' (e.clock k₂))).map
      (valuesIn (e.clock k₀) (recordings e.clock g₀.displayTimeUnit g₀.value log))).flatten.length := by
    have := flatten_window_length (e.clock k₀) n (tickedTo (e.clock k₀) s' (e.clock k₂))
      (recordings e.clock g₀.displayTimeUnit g₀.value log)
    unfold U64 at *; omega
  have hname := hc'.name
  have hgroup := hc'.group
  simp only at hname hgroup
  simp only [Gauge.putSnapshot, hgroup] at hput
  unfold window
  rw [← hs]
  cases hgr : g₀.groupValues <;> simp only [hgr, Bool.false_eq_true, if_false, if_true] at hput ⊢
  · obtain ⟨_, _, _, _, hst⟩ := r'.putValues hI' hlen hput
    obtain ⟨st, hst, heq⟩ := hst v hv
    rw [hgroup, hgr, hname] at heq
    exact ⟨st, _, hst, heq⟩
  · simp only [M.bind_eq_some, M.run_pure, Option.some.injEq, Prod.mk.injEq] at hput
    obtain ⟨⟨g₁, l⟩, _, hput, ⟨rfl, rfl⟩, _⟩ := hput
    have hn₁ := (Gauge.putValues_eq_some hput).2.name
    obtain ⟨_, _, _, _, hst⟩ := r'.putValues hI' hlen hput
    obtain ⟨st, hst, heq⟩ := hst v hv
    rw [hgroup, hgr] at heq
    refine ⟨st, putPostfixedDescriptives g'.descr g'.name into descriptive, hst, ?_⟩
    simp only [hn₁, hname, heq, Snapshot.push]
    simp

/-- Tracking 2 seconds: switched on at 0 s, updates at 0.7 s, 1.4 s and 2.1 s, snapshot at 2.8 s. The first
value is out of the window. -/
example : ∃ g g' g'' : Gauge, ({ name := "g" } : Gauge).setTracking 2 ticking 0 = some (g, 1) ∧
    History ticking 1 g
      [⟨1, .input (.withValue (.signedInteger 50) 0), .updated 1, 2⟩,
       ⟨2, .input (.withValue (.signedInteger 10) 0), .updated 1, 3⟩,
       ⟨3, .input (.withValue (.changedBy (-7)) 0), .updated 1, 4⟩] 4 g' ∧
    g'.value = some 3 ∧
    g'.putSnapshot [] false ticking 4 = some ((g'', [("g", .int 3), ("g_peak", .int 10), ("g_peak_min", .int 3),
      ("g_peak_avg", .float (.fin (13 / 2))), ("g_bottom", .int 3), ("g_bottom_max", .int 10),
      ("g_bottom_avg", .float (.fin (13 / 2))), ("g_avg", .float (.fin (13 / 2)))]), 5) :=
  ⟨_, _, _, rfl, .cons (by decide) rfl (.cons (by decide) rfl (.cons (by decide) rfl (.nil (by decide)))),
    rfl, rfl⟩

example := C24_window ticking_mono (n := 2) (k₀ := 0) (g₀ := { name := "g" }) (by decide) rfl
  (played_history (ops := gaugedOps) rfl) nofun
  (by simp [inputs, Update.InRange, ObservedValue.InRange, I64, i64Min, i64Max]) (by decide) rfl
  (into := []) (descriptive := true) rfl

end Metrix
