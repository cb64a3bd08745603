import Verif.Props.C27
import Verif.Proof.Forward

/-! # C97: A longer tracking period only sees more, and every one sees the current value

The statistics of a tracking gauge are those of the values recorded in a window (see C24). -/

namespace Metrix

/-- The last value recorded is the one that is shown. -/
theorem recordings_last {e : Env} {k k' : Nat} {g g' : Gauge} {log : List (Event Update)} (h : History e k g log k' g') :
    (∀ v ∈ g.value, I64 v) → (∀ u ∈ inputs log, u.InRange) →
    (recordings e.clock g.displayTimeUnit g.value log = [] → g'.value = g.value) ∧
    ∀ r ∈ (recordings e.clock g.displayTimeUnit g.value log).getLast?, g'.value = some r.value := by
  induction h with
  | nil _ => intro _ _; exact ⟨fun _ => rfl, by simp [recordings]⟩
  | @cons k k₁ k₂ k' i i₁ i' op out log hk hs _ ih =>
    intro hg hlog
    cases op with
    | snapshot into d =>
      obtain ⟨_, _, hu⟩ := step_snapshot_eq_some.mp hs
      obtain ⟨hv, hc⟩ := Gauge.putSnapshot_eq_some hu
      have ih := ih (by rw [hv]; exact hg) (fun u hu => hlog u (by simp [inputs, hu]))
      rw [hv, hc.unit] at ih
      exact ih
    | input u =>
      obtain ⟨m, _, hu⟩ := step_input_eq_some.mp hs
      have hur := hlog u (by simp [inputs])
      obtain ⟨hv, hc⟩ := Gauge.update_eq_some hg hur hu
      have hI₁ : ∀ v ∈ i₁.value, I64 v := by
        rw [hv]; intro v hv; simp at hv; obtain ⟨_, _, rfl⟩ := hv; exact I64_wrapI64 _
      have ih := ih hI₁ (fun u hu => hlog u (by simp [inputs, hu]))
      have hnext : (gaugeShows i.value [u.change i.displayTimeUnit]).map wrapI64 = i₁.value := by
        rw [hv]; congr 1; cases u.change i.displayTimeUnit <;> rfl
      have hsame : ∀ v, i.value = some v → (some v).map wrapI64 = some v := fun v h => by
        simp [wrapI64_of_I64 (hg v h)]
      have hstay : u.change i.displayTimeUnit = .nothing → i₁.value = i.value := by
        intro hn
        rw [hv, hn]
        cases hiv : i.value with
        | none => rfl
        | some v => exact hsame v hiv
      rw [hc.unit] at ih
      simp only [recordings, hnext]
      cases u with
      | observation t =>
        have e1 := hstay rfl
        cases hx : i₁.value <;> simp only [hx] at ih ⊢ <;> rw [← e1, hx] <;> exact ih
      | observations n t =>
        have e1 := hstay rfl
        cases hx : i₁.value <;> simp only [hx] at ih ⊢ <;> rw [← e1, hx] <;> exact ih
      | withValue v t =>
        cases hx : i₁.value with
        | none =>
          have : i.value = none := by
            rw [hv] at hx
            cases hcg : (Update.withValue v t).change i.displayTimeUnit <;> rw [hcg] at hx <;>
              simp [Change.applyTo] at hx ⊢ <;> exact hx
          simp only [hx] at ih ⊢
          rw [this]
          exact ih
        | some x =>
          simp only [hx] at ih ⊢
          refine ⟨fun h => (List.cons_ne_nil _ _ h).elim, ?_⟩
          intro r hr
          cases hrest : recordings e.clock i.displayTimeUnit (some x) log with
          | nil =>
            rw [hrest] at hr
            simp only [List.getLast?_singleton, Option.mem_some_iff] at hr
            subst hr
            exact ih.1 hrest
          | cons r' rest =>
            rw [hrest, List.getLast?_cons_cons] at hr
            exact ih.2 r (by rw [hrest]; exact hr)

/-- Recordings are sorted by time, and none is later than the end. -/
theorem recordings_sorted {e : Env} (mono : e.Mono) {k k' : Nat} {g g' : Gauge} {log : List (Event Update)}
    (h : History e k g log k' g') : ∀ (unit : TimeUnit) (cur : Option Int), k ≤ k' ∧
    (recordings e.clock unit cur log).Pairwise (fun a b => a.time ≤ b.time) ∧
    ∀ r ∈ recordings e.clock unit cur log, e.clock k ≤ r.time ∧ r.time ≤ e.clock k' := by
  induction h with
  | nil hk => intro _ _; exact ⟨hk, .nil, nofun⟩
  | @cons k k₁ k₂ k' i i₁ i' op out log hk hs _ ih =>
    intro unit cur
    have hle : k₁ ≤ k₂ := by
      cases op with
      | input u =>
        obtain ⟨n, _, hu⟩ := step_input_eq_some.mp hs
        exact (Gauge.fwd_update _ _).le hu
      | snapshot into d =>
        obtain ⟨_, _, hu⟩ := step_snapshot_eq_some.mp hs
        exact (Gauge.fwd_putSnapshot _ _ _).le hu
    have m1 := mono k k₁ hk
    have m2 := mono k₁ k₂ hle
    have weak : ∀ cur, k ≤ k' ∧ (recordings e.clock unit cur log).Pairwise (fun a b => a.time ≤ b.time) ∧
        ∀ r ∈ recordings e.clock unit cur log, e.clock k ≤ r.time ∧ r.time ≤ e.clock k' := fun cur => by
      obtain ⟨a, b, c⟩ := ih unit cur
      exact ⟨by omega, b, fun r hr => ⟨m1.trans (m2.trans (c r hr).1), (c r hr).2⟩⟩
    cases op with
    | snapshot into d => exact weak cur
    | input u =>
      have hlater : ∀ cur, ∀ r ∈ recordings e.clock unit cur log, e.clock k₂ ≤ r.time := fun cur r hr => ((ih unit cur).2.2 r hr).1
      have hk' := (ih unit cur).1
      have m3 := mono k₂ k' hk'
      simp only [recordings]
      generalize (gaugeShows cur [u.change unit]).map wrapI64 = next
      obtain ⟨a, b, c⟩ := weak next
      cases u with
      | observation t => cases next <;> exact ⟨a, b, c⟩
      | observations n t => cases next <;> exact ⟨a, b, c⟩
      | withValue v t =>
        cases next with
        | none => exact ⟨a, b, c⟩
        | some x =>
          refine ⟨a, List.pairwise_cons.mpr ⟨fun r hr => m2.trans (hlater _ r hr), b⟩, ?_⟩
          intro r hr
          rcases List.mem_cons.mp hr with rfl | hr
          · exact ⟨m1, m2.trans m3⟩
          · exact c r hr

theorem mem_window {t0 now : Int} {n : Nat} {recs : List Recorded} {x : Int} : x ∈ (window t0 n now recs).flatten ↔
    ∃ r ∈ recs, r.value = x ∧ secondOf t0 now - n < secondOf t0 r.time ∧ secondOf t0 r.time ≤ secondOf t0 now := by
  simp only [window, windowSeconds, valuesIn, List.mem_flatten, List.mem_map, List.mem_range]
  constructor
  · rintro ⟨_, ⟨_, ⟨i, hi, rfl⟩, rfl⟩, hx⟩
    obtain ⟨r, hr, rfl⟩ := List.mem_map.mp hx
    obtain ⟨hr, hs⟩ := List.mem_filter.mp hr
    simp only [decide_eq_true_eq] at hs
    exact ⟨r, hr, rfl, by omega, by omega⟩
  · rintro ⟨r, hr, rfl, h1, h2⟩
    refine ⟨_, ⟨_, ⟨(secondOf t0 now - secondOf t0 r.time).toNat, by omega, rfl⟩, rfl⟩, ?_⟩
    refine List.mem_map.mpr ⟨r, List.mem_filter.mpr ⟨hr, ?_⟩, rfl⟩
    simp only [decide_eq_true_eq]
    omega

theorem secondOf_mono (t0 : Int) {t t' : Int} (h : t ≤ t') : secondOf t0 t ≤ secondOf t0 t' := by
  unfold secondOf nanosPerSec; omega

/-- If anything is in the window, so is the current value. -/
theorem current_in_window {e : Env} (mono : e.Mono) {k k' : Nat} {g g' : Gauge} {log : List (Event Update)}
    (h : History e k g log k' g') (hg : ∀ v ∈ g.value, I64 v) (hlog : ∀ u ∈ inputs log, u.InRange) {t0 : Int} {n : Nat} {v : Int}
    (hv : g'.value = some v)
    (hne : (window t0 n (e.clock k') (recordings e.clock g.displayTimeUnit g.value log)).flatten ≠ []) :
    v ∈ (window t0 n (e.clock k') (recordings e.clock g.displayTimeUnit g.value log)).flatten := by
  obtain ⟨x, hx⟩ := List.exists_mem_of_ne_nil _ hne
  obtain ⟨r, hr, rfl, h1, h2⟩ := mem_window.mp hx
  obtain ⟨_, hsort, hb⟩ := recordings_sorted mono h g.displayTimeUnit g.value
  obtain ⟨_, hl⟩ := recordings_last h hg hlog
  generalize recordings e.clock g.displayTimeUnit g.value log = recs at *
  have hne : recs ≠ [] := List.ne_nil_of_mem hr
  have hlast := hl (recs.getLast hne) (by rw [List.getLast?_eq_some_getLast hne]; rfl)
  rw [hv, Option.some.injEq] at hlast
  have hm : recs.getLast hne ∈ recs := List.getLast_mem hne
  have hle : r.time ≤ (recs.getLast hne).time := by
    have e1 := List.dropLast_concat_getLast hne
    rw [← e1] at hsort hr
    rcases List.mem_append.mp hr with hr | hr
    · exact (List.pairwise_append.mp hsort).2.2 r hr _ (List.mem_singleton.mpr rfl)
    · rw [List.mem_singleton.mp hr]
  have s1 := secondOf_mono t0 hle
  have s2 := secondOf_mono t0 (hb _ hm).2
  exact mem_window.mpr ⟨_, hm, hlast.symm, by omega, s2⟩

/-- What a snapshot of a tracking gauge shows as its current value lies between the bottom and the peak it shows. -/
theorem C97_current {e : Env} (mono : e.Mono) {n k₀ k₁ k₂ k₃ : Nat} {g₀ g g' g'' : Gauge} (hn : 0 < n)
    (hset : g₀.setTracking n e k₀ = some (g, k₁)) {log : List (Event Update)}
    (h : History e k₁ g log k₂ g') (hg : ∀ v ∈ g₀.value, I64 v) (hlog : ∀ u ∈ inputs log, u.InRange)
    (few : U64 (inputs log).length) {v : Int} (hv : g'.value = some v) {into s : Snapshot}
    {descriptive : Bool} (hput : g'.putSnapshot into descriptive e k₂ = some ((g'', s), k₃)) :
    ∃ stats front, s = front ++ (if g₀.groupValues
        then [(g₀.name, .snapshot (("current", .int v) :: statItems "" stats))]
        else (g₀.name, .int v) :: statItems (g₀.name ++ "_") stats) ∧
      stats.bottom ≤ v ∧ v ≤ stats.peak := by
  obtain ⟨stats, front, hst, hs⟩ := C24_window mono hn hset h hg hlog few hv hput
  refine ⟨stats, front, hs, ?_⟩
  obtain ⟨e1, e2⟩ : g.displayTimeUnit = g₀.displayTimeUnit ∧ g.value = g₀.value := by
    simp only [Gauge.setTracking] at hset
    rw [if_pos (by omega)] at hset
    simp only [M.bind_eq_some, M.run_pure, Option.some.injEq, Prod.mk.injEq] at hset
    obtain ⟨_, _, _, rfl, _⟩ := hset
    exact ⟨rfl, rfl⟩
  by_cases hne : (window (e.clock k₀) n (e.clock k₂) (recordings e.clock g₀.displayTimeUnit g₀.value log)).flatten = []
  · obtain ⟨a, -, b, -⟩ := hst.empty hne
    omega
  · have key := current_in_window mono h (by rw [e2]; exact hg) hlog (t0 := e.clock k₀) (n := n) hv (by rw [e1, e2]; exact hne)
    rw [e1, e2] at key
    exact ⟨(min?_spec.mp (hst.bottom hne)).2 _ key, (max?_spec.mp (hst.peak hne)).2 _ key⟩

/-- The same was done at the same moments. -/
def SameUse {A : Type} (log log' : List (Event A)) : Prop := log.map (fun ev => (ev.start, ev.op)) = log'.map fun ev => (ev.start, ev.op)

theorem SameUse.recordings {clock : Nat → Int} {unit : TimeUnit} {log log' : List (Event Update)} (h : SameUse log log') :
    ∀ cur, recordings clock unit cur log = recordings clock unit cur log' := by
  induction log generalizing log' with
  | nil =>
    intro cur
    cases log' with
    | nil => rfl
    | cons _ _ => cases h
  | cons ev log ih =>
    intro cur
    cases log' with
    | nil => cases h
    | cons ev' log' =>
      obtain ⟨start, op, out, stop⟩ := ev
      obtain ⟨start', op', out', stop'⟩ := ev'
      simp only [SameUse, List.map_cons, List.cons.injEq, Prod.mk.injEq] at h
      obtain ⟨⟨rfl, rfl⟩, h⟩ := h
      cases op with
      | snapshot into d => exact ih h cur
      | input u => simp only [Metrix.recordings, ih h]

theorem SameUse.inputs {A : Type} {log log' : List (Event A)} (h : SameUse log log') : inputs log = inputs log' := by
  induction log generalizing log' with
  | nil =>
    cases log' with
    | nil => rfl
    | cons _ _ => cases h
  | cons ev log ih =>
    cases log' with
    | nil => cases h
    | cons ev' log' =>
      obtain ⟨start, op, out, stop⟩ := ev
      obtain ⟨start', op', out', stop'⟩ := ev'
      simp only [SameUse, List.map_cons, List.cons.injEq, Prod.mk.injEq] at h
      obtain ⟨⟨rfl, rfl⟩, h⟩ := h
      cases op with
      | snapshot into d => exact ih (log' := log') h
      | input u => simp only [Metrix.inputs, ih h]

theorem windowSeconds_subset {n n' : Nat} (h : n ≤ n') {last i : Int} (hi : i ∈ windowSeconds n last) : i ∈ windowSeconds n' last := by
  simp only [windowSeconds, List.mem_map, List.mem_range] at hi ⊢
  obtain ⟨j, hj, rfl⟩ := hi
  exact ⟨j, by omega, rfl⟩

/-- The statistics `long` cover at least what the statistics `short` cover. -/
structure Covers (long short : BucketsStats) : Prop where
  peak : short.peak ≤ long.peak
  bottom : long.bottom ≤ short.bottom

theorem covers_of_windows {rnd : Rat → Rat} {v t0 now : Int} {n n' : Nat} (hn : n ≤ n') {recs : List Recorded}
    {short long : BucketsStats} (hs : IsStats rnd v (window t0 n now recs) short) (hl : IsStats rnd v (window t0 n' now recs) long)
    (hv : (window t0 n' now recs).flatten ≠ [] → v ∈ (window t0 n' now recs).flatten) : Covers long short ∧
    ((window t0 n now recs).flatten ≠ [] → long.peakMin ≤ short.peakMin ∧ short.bottomMax ≤ long.bottomMax) := by
  have sub : ∀ vs ∈ window t0 n now recs, vs ∈ window t0 n' now recs := by
    intro vs h
    obtain ⟨i, hi, rfl⟩ := List.mem_map.mp h
    exact List.mem_map.mpr ⟨i, windowSeconds_subset hn hi, rfl⟩
  have sub' : ∀ x ∈ (window t0 n now recs).flatten, x ∈ (window t0 n' now recs).flatten := by
    intro x hx
    obtain ⟨vs, h, hx⟩ := List.mem_flatten.mp hx
    exact List.mem_flatten.mpr ⟨vs, sub vs h, hx⟩
  by_cases h : (window t0 n now recs).flatten = []
  · refine ⟨?_, fun h' => absurd h h'⟩
    obtain ⟨a, -, b, -⟩ := hs.empty h
    by_cases h' : (window t0 n' now recs).flatten = []
    · obtain ⟨a', -, b', -⟩ := hl.empty h'
      exact ⟨by omega, by omega⟩
    · exact ⟨by rw [a]; exact (max?_spec.mp (hl.peak h')).2 _ (hv h'), by rw [b]; exact (min?_spec.mp (hl.bottom h')).2 _ (hv h')⟩
  · have h' : (window t0 n' now recs).flatten ≠ [] := by
      obtain ⟨x, hx⟩ := List.exists_mem_of_ne_nil _ h
      exact List.ne_nil_of_mem (sub' x hx)
    refine ⟨⟨(max?_spec.mp (hl.peak h')).2 _ (sub' _ (max?_spec.mp (hs.peak h)).1),
      (min?_spec.mp (hl.bottom h')).2 _ (sub' _ (min?_spec.mp (hs.bottom h)).1)⟩, fun _ => ⟨?_, ?_⟩⟩
    · obtain ⟨vs, hvs, hm⟩ := mem_maxima.mp (min?_spec.mp (hs.peakMin h)).1
      exact (min?_spec.mp (hl.peakMin h')).2 _ (mem_maxima.mpr ⟨vs, sub vs hvs, hm⟩)
    · obtain ⟨vs, hvs, hm⟩ := mem_minima.mp (max?_spec.mp (hs.bottomMax h)).1
      exact (max?_spec.mp (hl.bottomMax h')).2 _ (mem_minima.mpr ⟨vs, sub vs hvs, hm⟩)

theorem Gauge.setTracking_same {g₀ g : Gauge} {n : Nat} (hn : 0 < n) {e : Env} {k k' : Nat} (h : g₀.setTracking n e k = some (g, k')) :
    g.displayTimeUnit = g₀.displayTimeUnit ∧ g.value = g₀.value := by
  simp only [Gauge.setTracking] at h
  rw [if_pos (by omega)] at h
  simp only [M.bind_eq_some, M.run_pure, Option.some.injEq, Prod.mk.injEq] at h
  obtain ⟨_, _, _, rfl, _⟩ := h
  exact ⟨rfl, rfl⟩

/-- Had a gauge been told to track its values for a longer period, with the same use and a snapshot at the same moment, the same
value would be shown, with a peak that is not lower and a bottom that is not higher. If the shorter period has any values, then
also the lowest peak is not higher and the highest bottom is not lower. -/
theorem C97_longer {e : Env} (mono : e.Mono) {n n' k₀ k₁ k₁' k₂ k₃ k₃' : Nat} {g₀ g g' g'' l l' l'' : Gauge} (hn : 0 < n) (hle : n ≤ n')
    (hset : g₀.setTracking n e k₀ = some (g, k₁)) (hset' : g₀.setTracking n' e k₀ = some (l, k₁'))
    {log log' : List (Event Update)} (h : History e k₁ g log k₂ g') (h' : History e k₁' l log' k₂ l') (same : SameUse log log')
    (hg : ∀ v ∈ g₀.value, I64 v) (hlog : ∀ u ∈ inputs log, u.InRange)
    (few : U64 (inputs log).length) {v : Int} (hv : g'.value = some v) {into s into' s' : Snapshot} {d d' : Bool}
    (hput : g'.putSnapshot into d e k₂ = some ((g'', s), k₃)) (hput' : l'.putSnapshot into' d' e k₂ = some ((l'', s'), k₃')) :
    ∃ short long front front',
      s = front ++ (if g₀.groupValues
        then [(g₀.name, .snapshot (("current", .int v) :: statItems "" short))]
        else (g₀.name, .int v) :: statItems (g₀.name ++ "_") short) ∧
      s' = front' ++ (if g₀.groupValues
        then [(g₀.name, .snapshot (("current", .int v) :: statItems "" long))]
        else (g₀.name, .int v) :: statItems (g₀.name ++ "_") long) ∧
      Covers long short ∧
      ((∃ r ∈ recordings e.clock g₀.displayTimeUnit g₀.value log,
          secondOf (e.clock k₀) (e.clock k₂) - n < secondOf (e.clock k₀) r.time) →
        long.peakMin ≤ short.peakMin ∧ short.bottomMax ≤ long.bottomMax) := by
  obtain ⟨u1, v1⟩ := Gauge.setTracking_same hn hset
  obtain ⟨u2, v2⟩ := Gauge.setTracking_same (hn.trans_le hle) hset'
  have hi := same.inputs
  have hv' : l'.value = some v := by
    rw [← hv, C22_gauge_value h (by rw [v1]; exact hg) hlog, C22_gauge_value h' (by rw [v2]; exact hg) (by rw [← hi]; exact hlog),
      u1, v1, u2, v2, hi]
  obtain ⟨short, front, hst, hs⟩ := C24_window mono hn hset h hg hlog few hv hput
  obtain ⟨long, front', hst', hs'⟩ := C24_window mono (hn.trans_le hle) hset' h' hg (by rw [← hi]; exact hlog) (by rw [← hi]; exact few)
    hv' hput'
  rw [← same.recordings] at hst'
  have hc := covers_of_windows hle hst hst' fun hne => by
    have := current_in_window mono h (by rw [v1]; exact hg) hlog (t0 := e.clock k₀) (n := n') hv (by rw [u1, v1]; exact hne)
    rwa [u1, v1] at this
  refine ⟨short, long, front, front', hs, hs', hc.1, ?_⟩
  rintro ⟨r, hr, hlt⟩
  have hb := ((recordings_sorted mono h g.displayTimeUnit g.value).2.2 r (by rw [u1, v1]; exact hr)).2
  exact hc.2 (List.ne_nil_of_mem (mem_window.mpr ⟨r, hr, rfl, hlt, secondOf_mono _ hb⟩))

example := C97_current ticking_mono (n := 2) (k₀ := 0) (g₀ := { name := "g" }) (by decide) rfl
  (played_history (ops := gaugedOps) rfl) nofun
  (by simp [inputs, Update.InRange, ObservedValue.InRange, I64, i64Min, i64Max]) (by decide) rfl
  (into := []) (descriptive := true) rfl

/-- Tracking 1 or 5 seconds: values at 0.7 s and at 2.1 s, snapshot at 2.8 s. The shorter period has forgotten the first value. -/
example : True := by
  have := C97_longer ticking_mono (n := 1) (n' := 5) (k₀ := 0) (k₂ := 4) (g₀ := { name := "g" }) (by decide) (by decide) rfl rfl
    (log := [⟨1, .input (.withValue (.signedInteger 50) 0), .updated 1, 2⟩, ⟨3, .input (.withValue (.changedBy (-7)) 0), .updated 1, 4⟩])
    (log' := [⟨1, .input (.withValue (.signedInteger 50) 0), .updated 1, 2⟩, ⟨3, .input (.withValue (.changedBy (-7)) 0), .updated 1, 4⟩])
    (.cons (by decide) rfl (.cons (by decide) rfl (.nil (by decide))))
    (.cons (by decide) rfl (.cons (by decide) rfl (.nil (by decide)))) rfl nofun
    (by simp [inputs, Update.InRange, ObservedValue.InRange, I64, i64Min, i64Max]) (by decide) (v := 43) rfl
    (into := []) (into' := []) (d := true) (d' := true) rfl rfl
  obtain ⟨short, long, _, _, _, _, hc, hm⟩ := this
  have := hm ⟨⟨ticking.clock 3, 43⟩, List.mem_cons_of_mem _ (List.mem_singleton.mpr rfl), by decide⟩
  trivial

end Metrix
