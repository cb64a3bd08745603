import Verif.Spec.RunRatio
import Verif.Proof.DriverMetrics
import Verif.Proof.Delivery

/-! # The share of time that a driver spends on processing -/

namespace Metrix

theorem asSecsF64_eq (d : Nat) (e : Env) (k : Nat) : asSecsF64 d e k = some (e.seconds d, k) := by
  simp only [asSecsF64, Env.seconds, M.run_bind_some (M.run_env e k), M.run_pure]
  norm_num [nanosPerSec]

section
variable {e : Env} (hr : IsRounding e.rnd)
include hr

theorem rnd_nonneg {x : Rat} (h : 0 ≤ x) : 0 ≤ e.rnd x := by
  have := hr.mono h
  have h0 := hr.exact 0 (by norm_num)
  rw [Int.cast_zero] at h0
  rwa [h0] at this

theorem rnd_le_one {x : Rat} (h : x ≤ 1) : e.rnd x ≤ 1 := by
  have := hr.mono h
  have h1 := hr.exact 1 (by norm_num)
  rw [Int.cast_one] at h1
  rwa [h1] at this

theorem rnd_nat {n : Nat} (h : n ≤ 2 ^ 53) : e.rnd n = n := by
  have := hr.exact n (by rw [abs_of_nonneg (by positivity)]; exact_mod_cast h)
  exact_mod_cast this

theorem Env.seconds_nonneg (d : Nat) : 0 ≤ e.seconds d :=
  rnd_nonneg hr (add_nonneg (rnd_nonneg hr (by positivity)) (rnd_nonneg hr (div_nonneg (rnd_nonneg hr (by positivity)) (by norm_num))))

theorem Env.seconds_mono {a b : Nat} (h : a ≤ b) (hb : b < 2 ^ 53 * 10 ^ 9) : e.seconds a ≤ e.seconds b := by
  have q : ∀ d : Nat, d < 2 ^ 53 * 10 ^ 9 → e.rnd ((d / 10 ^ 9 : Nat) : Rat) = ((d / 10 ^ 9 : Nat) : Rat) :=
    fun d hd => rnd_nat hr (by omega)
  have r : ∀ d : Nat, e.rnd ((d % 10 ^ 9 : Nat) : Rat) = ((d % 10 ^ 9 : Nat) : Rat) := fun d => rnd_nat hr (by omega)
  have r0 : ∀ d : Nat, 0 ≤ e.rnd (((d % 10 ^ 9 : Nat) : Rat) / 10 ^ 9) := fun d => rnd_nonneg hr (by positivity)
  have r1 : ∀ d : Nat, e.rnd (((d % 10 ^ 9 : Nat) : Rat) / 10 ^ 9) ≤ 1 := fun d => rnd_le_one hr (by
    rw [div_le_one (by norm_num)]
    have : d % 10 ^ 9 ≤ 10 ^ 9 := by omega
    exact_mod_cast this)
  unfold Env.seconds
  apply hr.mono
  rw [q a (by omega), q b hb, r, r]
  by_cases hq : a / 10 ^ 9 = b / 10 ^ 9
  · rw [hq]
    refine add_le_add le_rfl (hr.mono (div_le_div_of_nonneg_right ?_ (by norm_num)))
    have : a % 10 ^ 9 ≤ b % 10 ^ 9 := by omega
    exact_mod_cast this
  · have h1 : a / 10 ^ 9 + 1 ≤ b / 10 ^ 9 := by omega
    have h2 : ((a / 10 ^ 9 : Nat) : Rat) + 1 ≤ ((b / 10 ^ 9 : Nat) : Rat) := by exact_mod_cast h1
    linarith [r1 a, r0 b]

theorem Env.perMille_nonneg (part whole : Nat) : 0 ≤ e.perMille part whole :=
  Rat.le_floor_iff.mpr (by
    rw [Int.cast_zero]
    exact rnd_nonneg hr (mul_nonneg (rnd_nonneg hr (div_nonneg (seconds_nonneg hr _) (seconds_nonneg hr _))) (by norm_num)))

theorem Env.perMille_le {part whole : Nat} (h : part ≤ whole) (hb : whole < 2 ^ 53 * 10 ^ 9) : e.perMille part whole ≤ 1000 := by
  have h1 : e.rnd (e.seconds part / e.seconds whole) ≤ 1 :=
    rnd_le_one hr (div_le_one_of_le₀ (seconds_mono hr h hb) (seconds_nonneg hr _))
  have h2 : e.rnd (e.rnd (e.seconds part / e.seconds whole) * 1000) ≤ 1000 := by
    have := hr.mono (show e.rnd (e.seconds part / e.seconds whole) * 1000 ≤ ((1000 : Nat) : Rat) by push_cast; linarith)
    rw [rnd_nat hr (by norm_num)] at this
    exact_mod_cast this
  have h3 : ((e.perMille part whole : Int) : Rat) ≤ ((1000 : Int) : Rat) := (Rat.floor_le _).trans (by exact_mod_cast h2)
  exact_mod_cast h3

end

/-! ## The instruments -/

/-- What the two instruments for the share have noted. -/
structure RatioNoted (v : Option Int) (n : Nat) (i : DriverInstruments) : Prop where
  ratio : GaugeNoted "iteration_update_ratio_per_mille" v i.ratio
  histo : HistogramNoted "iteration_update_ratio_per_mille_histo" n i.ratioHisto

theorem RatioNoted.postCollection {v : Option Int} {n : Nat} {i i' : DriverInstruments} {o : Outcome} {started : Int} {e : Env}
    {k k' : Nat} (hi : RatioNoted v n i) (h : i.updatePostCollection o started e k = some (i', k')) :
    RatioNoted v n i' ∧ k ≤ k' := by
  simp only [DriverInstruments.updatePostCollection, M.bind_eq_some, M.run_now, Option.some.injEq, Prod.mk.injEq] at h
  obtain ⟨_, _, ⟨rfl, rfl⟩, i₁, k₁, g1, i₂, k₂, g2, i₃, k₃, g3, i₄, k₄, g4, i₅, k₅, g5, g6⟩ := h
  obtain ⟨e1, m₁, hh₁, rfl, -⟩ := notePass_spec g1
  obtain ⟨e2, m₂, hh₂, rfl, -⟩ := noteProcessed_spec g2
  obtain ⟨e3, g₃, rfl, -⟩ := noteEnqueued_spec g3
  obtain ⟨e4, j', e4', e4'', m₄, hh₄, t₄, rfl, -⟩ := noteDropped_spec g4
  obtain ⟨e5, m₅, rfl, -⟩ := noteUpdated_spec g5
  obtain ⟨e6, x₆, rfl, -⟩ := noteActivity_spec g6
  exact ⟨⟨hi.ratio, hi.histo⟩, by omega⟩

theorem RatioNoted.postSnapshot {v : Option Int} {n : Nat} {i i' : DriverInstruments} {started : Int} {e : Env} {k k' : Nat}
    (hi : RatioNoted v n i) (h : i.updatePostSnapshot started e k = some (i', k')) : RatioNoted v n i' ∧ k ≤ k' := by
  simp only [DriverInstruments.updatePostSnapshot, M.bind_eq_some, M.run_now, M.run_pure, Option.some.injEq, Prod.mk.injEq] at h
  obtain ⟨_, _, ⟨rfl, rfl⟩, ⟨m, _⟩, _, hm, time, _, ht, ⟨hh, _⟩, _, hhh, rfl, rfl⟩ := h
  have e1 := (Meter.fwd_update _ _).le hm
  have e2 := (fwd_ofDuration _).le ht
  have e3 := (Histogram.fwd_update _ _).le hhh
  exact ⟨⟨hi.ratio, hi.histo⟩, by omega⟩

theorem RatioNoted.runRatio {v : Option Int} {n : Nat} {i i' : DriverInstruments} {r : Rat} {e : Env} {k k' : Nat}
    (hi : RatioNoted v n i) (h0 : 0 ≤ (e.rnd (r * 1000)).floor) (h1 : (e.rnd (r * 1000)).floor ≤ 1000)
    (h : i.updateRunRatio r e k = some (i', k')) : RatioNoted (some (e.rnd (r * 1000)).floor) (n + 1) i' ∧ k ≤ k' := by
  simp only [DriverInstruments.updateRunRatio, M.bind_eq_some, M.run_now, M.run_env, M.run_pure, Option.some.injEq,
    Prod.mk.injEq] at h
  obtain ⟨_, _, ⟨rfl, rfl⟩, _, _, ⟨rfl, rfl⟩, ⟨hh, _⟩, _, hhh, ⟨g, _⟩, _, hg, rfl, rfl⟩ := h
  have e1 := (Histogram.fwd_update _ _).le hhh
  have e2 := (Gauge.fwd_update _ _).le hg
  have ht : ((truncToU64 (e.rnd (r * 1000)) : Nat) : Int) = (e.rnd (r * 1000)).floor := by
    unfold truncToU64 u64Bound; omega
  have hle : ((truncToU64 (e.rnd (r * 1000)) : Nat) : Int) ≤ i64Max := by rw [ht]; unfold i64Max; omega
  have a1 := hi.histo.number hhh
  have a2 := hi.ratio.number hg
  rw [if_pos hle] at a1 a2
  rw [ht] at a2
  exact ⟨⟨a2, a1⟩, by omega⟩

theorem RatioNoted.put {v : Option Int} {n : Nat} {i i' : DriverInstruments} {into s : Snapshot} {d : Bool} {e : Env} {k k' : Nat}
    (hi : RatioNoted v n i) (h : i.putSnapshot into d e k = some ((i', s), k')) :
    RatioNoted v n i' ∧ k ≤ k' ∧ ∃ rest x y, s = into ++ [("_metrix", .snapshot (rest ++ [("iteration_update_ratio_per_mille", x),
      ("iteration_update_ratio_per_mille_histo", y)]))] ∧ ShowsCurrent v x ∧ ShowsCount n y := by
  simp only [DriverInstruments.putSnapshot, M.bind_eq_some, M.run_pure, Option.some.injEq, Prod.mk.injEq] at h
  obtain ⟨⟨i1, s1⟩, k1, p1, s2, k2, p2, ⟨i3, s3⟩, k3, p3, s4, k4, p4, ⟨i5, s5⟩, k5, p5, s6, k6, p6, ⟨i7, s7⟩, k7, p7,
    ⟨i8, s8⟩, k8, p8, ⟨i9, s9⟩, k9, p9, s10, k10, p10, s11, k11, p11, s12, k12, p12, ⟨i13, s13⟩, k13, p13, s14, k14, p14,
    ⟨rfl, rfl⟩, rfl⟩ := h
  obtain ⟨q13, v13, rfl, w13⟩ := hi.ratio.put p13
  obtain ⟨v14, rfl, w14⟩ := hi.histo.put p14
  have e1 := (Meter.fwd_putSnapshot _ _ _).le p1
  have e2 := (Histogram.fwd_putSnapshot _ _ _).le p2
  have e3 := (Meter.fwd_putSnapshot _ _ _).le p3
  have e4 := (Histogram.fwd_putSnapshot _ _ _).le p4
  have e5 := (Meter.fwd_putSnapshot _ _ _).le p5
  have e6 := (Histogram.fwd_putSnapshot _ _ _).le p6
  have e7 := (Gauge.fwd_putSnapshot _ _ _).le p7
  have e8 := (Meter.fwd_putSnapshot _ _ _).le p8
  have e9 := (Meter.fwd_putSnapshot _ _ _).le p9
  have e10 := (Histogram.fwd_putSnapshot _ _ _).le p10
  have e11 := (fwd_timerPut _ _ _).le p11
  have e12 := (fwd_indicatorPut _ _ _).le p12
  have e13 := (Gauge.fwd_putSnapshot _ _ _).le p13
  have e14 := (Histogram.fwd_putSnapshot _ _ _).le p14
  exact ⟨⟨q13, hi.histo⟩, by omega, s12, v13, v14, by simp [Snapshot.push], w13, w14⟩

theorem DriverInstruments.new_ratio {i : DriverInstruments} {e : Env} {k k' : Nat} (h : DriverInstruments.new e k = some (i, k')) :
    RatioNoted none 0 i := by
  simp only [DriverInstruments.new, M.bind_eq_some, M.run_pure, Option.some.injEq, Prod.mk.injEq] at h
  obtain ⟨_, _, h1, _, _, h2, _, _, h3, _, _, h4, _, _, h5, _, _, h6, g, _, h7, _, _, h8, _, _, h9, _, _, h10, a, _, h11,
    _, _, h12, g', _, h13, rfl, rfl⟩ := h
  obtain ⟨-, b', rfl⟩ := setTracking_eq_some h13
  exact ⟨⟨rfl, rfl, rfl, rfl⟩, Histogram.new_noted h12⟩

/-! ## The loop -/

section
variable {σ L : Type} [DecidableEq L] [Custom σ L] [CustomProcessor σ]

/-- The share in a state of the loop. -/
def LoopState.RatioNoted (l : LoopState σ L) (name : Option String) (v : Option Int) (n : Nat) : Prop :=
  l.name = name ∧ ∃ i, l.metrics = some i ∧ Metrix.RatioNoted v n i

variable {l l' : LoopState σ L} {name : Option String} {v : Option Int} {n : Nat} {e : Env} {k k' : Nat}

omit [DecidableEq L] in
theorem makeSnapshot_ratio {d : Bool} {s : Snapshot} (hl : l.RatioNoted name v n)
    (h : l.makeSnapshot d e k = some ((l', s), k')) :
    l'.RatioNoted name v n ∧ (AllForward σ L → k ≤ k') ∧ ∃ front rest x y, s = grouped name (front ++ [("_metrix", .snapshot (rest ++
      [("iteration_update_ratio_per_mille", x), ("iteration_update_ratio_per_mille_histo", y)]))]) ∧
      ShowsCurrent v x ∧ ShowsCount n y := by
  obtain ⟨rfl, i, hi, hn⟩ := hl
  obtain ⟨level, hv, rfl⟩ := makeSnapshot_spec h
  obtain ⟨ps, ss, items₁, items₂, k₁, k₂, metrics, entry, hp, hsn, hlev, -, -, rfl, hm⟩ := addSnapshotValues_spec hv
  rw [hi] at hm
  obtain ⟨i₁, i₂, k₃, hu, hs, rfl⟩ := hm
  obtain ⟨hn₁, hk₁⟩ := hn.postSnapshot hu
  obtain ⟨hn₂, hk₂, rest, x, y, hc, hx, hy⟩ := hn₁.put hs
  refine ⟨⟨rfl, i₂, rfl, hn₂⟩, fun hf => ?_, items₂, rest, x, y, by rw [hc], hx, hy⟩
  have e1 := hp.fwd fun n s => n.fwd_putSnapshot hf.custom hf.processor d s
  have e2 := hsn.fwd fun n s => n.fwd_putSnapshot hf.custom d s
  omega

omit [DecidableEq L] in
theorem begin_ratio {m : Option (DriverMsg σ L)} {started : Int} {answer : Option Snapshot}
    (hl : l.RatioNoted name v n) (h : l.begin m e k = some ((l', started, answer), k')) :
    started = e.clock k ∧ l'.RatioNoted name v n ∧ (AllForward σ L → k < k') ∧ ∀ id d, m = some (.getSnapshot id d) →
      ∃ front rest x y, answer = some (grouped name (front ++ [("_metrix", .snapshot (rest ++
        [("iteration_update_ratio_per_mille", x), ("iteration_update_ratio_per_mille_histo", y)]))])) ∧
        ShowsCurrent v x ∧ ShowsCount n y := by
  obtain ⟨h0, h⟩ := begin_spec h
  refine ⟨h0, ?_⟩
  rcases h with ⟨rfl, rfl, rfl, rfl⟩ | ⟨m', rfl, hh⟩
  · exact ⟨hl, fun _ => by omega, fun id d h => by cases h⟩
  · cases m' with
    | getSnapshot id d =>
      simp only [LoopState.handle, M.bind_eq_some, M.run_pure, Option.some.injEq, Prod.mk.injEq] at hh
      obtain ⟨⟨l₁, s⟩, k₁, hh, ⟨rfl, rfl⟩, rfl⟩ := hh
      obtain ⟨h1, h2, front, rest, x, y, rfl, hx, hy⟩ := makeSnapshot_ratio hl hh
      refine ⟨h1, fun hf => ?_, fun _ _ _ => ⟨front, rest, x, y, rfl, hx, hy⟩⟩
      have := h2 hf
      omega
    | _ =>
      simp only [LoopState.handle, M.run_pure, Option.some.injEq, Prod.mk.injEq] at hh
      obtain ⟨⟨rfl, rfl⟩, rfl⟩ := hh
      exact ⟨hl, fun _ => by omega, fun id d h => by cases h⟩

theorem work_ratio (hmono : e.Mono) (hr : IsRounding e.rnd) (hf : AllForward σ L) {x : TimedIteration σ L} {o : Option Outcome} {rest : Option Nap}
    (hl : l.RatioNoted name v n) (hstart : x.start < k) (hstop : x.stop = k') (ho : x.what.outcome = o)
    (h : l.work (e.clock x.start) e k = some ((l', o, rest), k'))
    (hshort : e.clock x.stop - e.clock x.start < 2 ^ 53 * 10 ^ 9) :
    ∃ v' n', l'.RatioNoted name v' n' ∧
      ∀ {tl v'' n''}, RatioAfter e v' n' tl v'' n'' → RatioAfter e v n (x :: tl) v'' n'' := by
  obtain ⟨rfl, i, hi, hn⟩ := hl
  unfold LoopState.work at h
  by_cases hp : l.paused = true
  · simp only [hp, if_true, M.run_bind_some (M.run_readings e k), M.run_pure, Option.some.injEq, Prod.mk.injEq] at h
    obtain ⟨⟨rfl, rfl, -⟩, rfl⟩ := h
    exact ⟨v, n, ⟨rfl, i, hi, hn⟩, .busy (fun o' h' => by rw [ho] at h'; cases h')⟩
  simp only [if_neg hp, M.bind_eq_some, M.run_now, Option.some.injEq, Prod.mk.injEq] at h
  obtain ⟨_, _, ⟨rfl, rfl⟩, ⟨ps, o'⟩, k₁, h1, _, _, ⟨rfl, rfl⟩, l₁, k₂, h2, l₂, k₃, h3, h⟩ := h
  obtain ⟨hk, t, c, w, rfl⟩ := logDropped_spec h2
  obtain ⟨metrics, rfl, -, hm⟩ := noteRun_spec h3
  simp only [hi] at hm
  obtain ⟨i', hu, rfl⟩ := hm
  obtain ⟨hn', hk'⟩ := hn.postCollection hu
  have hle := (fwd_processNodes hf.custom hf.processor _ _ _).le h1
  by_cases hc : (decide (o'.dropped > 0) || decide (o'.processed > 100)) = true
  · simp only [if_pos hc, M.run_pure, Option.some.injEq, Prod.mk.injEq] at h
    obtain ⟨⟨rfl, rfl, -⟩, rfl⟩ := h
    refine ⟨v, n, ⟨rfl, i', rfl, hn'⟩, .busy fun o h' => ?_⟩
    rw [ho] at h'; cases h'
    simpa using hc
  · simp only [if_neg hc, M.bind_eq_some, M.run_now, M.run_readings, M.run_pure, Option.some.injEq, Prod.mk.injEq] at h
    obtain ⟨_, _, ⟨rfl, rfl⟩, _, _, ⟨rfl, rfl⟩, l₃, k₄, h, ⟨rfl, rfl, -⟩, rfl⟩ := h
    simp only [Bool.or_eq_true, decide_eq_true_eq, not_or, not_lt, Nat.le_zero] at hc
    unfold LoopState.reportElapsed at h
    simp only [M.bind_eq_some, M.run_now, asSecsF64_eq, Option.some.injEq, Prod.mk.injEq] at h
    obtain ⟨_, _, ⟨rfl, rfl⟩, _, _, ⟨rfl, rfl⟩, _, _, ⟨rfl, rfl⟩, h⟩ := h
    have hrun : e.clock k ≤ e.clock k₁ := hmono _ _ (by omega)
    have hwhole : e.clock x.start ≤ e.clock (k₃ + 1) := hmono _ _ (by omega)
    have hmeas : k₃ + 1 < x.stop → MeasuredIn e x (sinceNs (e.clock k₁) (e.clock k)) (sinceNs (e.clock (k₃ + 1)) (e.clock x.start)) :=
      fun hs => ⟨o', _, _, _, k, k₁, k₃ + 1, ho, by omega, by omega, hstart, h1, by omega, by omega, hs,
        by simp only [sinceNs]; omega, by simp only [sinceNs]; omega⟩
    split at h
    · rename_i hpos
      simp only [M.bind_eq_some, M.run_env, M.run_pure, Option.some.injEq, Prod.mk.injEq] at h
      obtain ⟨_, _, ⟨rfl, rfl⟩, i'', _, h, rfl, rfl⟩ := h
      have hk₄ := (DriverInstruments.fwd_updateRunRatio _ _).le h
      have a1 : e.clock x.start ≤ e.clock k := hmono _ _ (by omega)
      have a2 : e.clock k₁ ≤ e.clock (k₃ + 1) := hmono _ _ (by omega)
      have a3 : e.clock (k₃ + 1) ≤ e.clock x.stop := hmono _ _ (by omega)
      obtain ⟨g1, g2⟩ := hn'.runRatio (Env.perMille_nonneg hr _ _)
        (Env.perMille_le hr (by simp only [sinceNs]; omega) (by simp only [sinceNs]; omega)) h
      exact ⟨_, _, ⟨rfl, i'', rfl, g1⟩, .measured (hmeas (by omega)) hpos⟩
    · rename_i hpos
      simp only [M.run_pure, Option.some.injEq, Prod.mk.injEq] at h
      obtain ⟨rfl, rfl⟩ := h
      exact ⟨v, n, ⟨rfl, i', rfl, hn'⟩, .tooShort (hmeas (by omega)) (not_lt.mp hpos)⟩

/-- The share at any moment of the life of a driver. -/
theorem DriverTimeline.ratio (hmono : e.Mono) (hr : IsRounding e.rnd) (hf : AllForward σ L) {t t' : DriverThread σ L}
    {tl before after : List (TimedIteration σ L)} {x : TimedIteration σ L} (h : DriverTimeline e k t tl k' t')
    (ht : ∀ l, t = .running l → l.state.RatioNoted name v n) (htl : tl = before ++ x :: after)
    (hshort : ∀ y ∈ before, e.clock y.stop - e.clock y.start < 2 ^ 53 * 10 ^ 9) :
    ∃ (l : Loop σ L) (t₁ : DriverThread σ L) (v' : Option Int) (n' : Nat),
      (DriverThread.running l).iterate e x.start = (t₁, some x.what, x.stop) ∧ l.state.RatioNoted name v' n' ∧
      RatioAfter e v n before v' n' := by
  induction h generalizing v n before with
  | nil => simp at htl
  | @iteration k k₁ k₂ k' t t₁ t' j tl hk hi hl ih =>
    cases t with
    | ended c => have := (iterate_ended hi).2.1; simp at this
    | running l =>
      have hn := ht l rfl
      cases before with
      | nil =>
        simp only [List.nil_append, List.cons.injEq] at htl
        obtain ⟨rfl, rfl⟩ := htl
        exact ⟨l, t₁, v, n, hi, hn, .nil⟩
      | cons b before =>
        simp only [List.cons_append, List.cons.injEq] at htl
        obtain ⟨rfl, rfl⟩ := htl
        have hs' : ∀ y ∈ before, e.clock y.stop - e.clock y.start < 2 ^ 53 * 10 ^ 9 := fun y hy => hshort y (List.mem_cons_of_mem _ hy)
        have ended : ∀ c, t₁ = .ended c → False := by
          rintro c rfl
          obtain ⟨h1, _⟩ := hl.life.ended rfl
          simp at h1
        cases iterates hi with
        | panicEarly hp hb => exact (ended _ rfl).elim
        | panicLate hp hb hw => exact (ended _ rfl).elim
        | @done r m s started answer k₃ s' outcome rest _ hp hb hw =>
          obtain ⟨h0, n1, f1, -⟩ := begin_ratio hn hb
          subst h0
          obtain ⟨v₁, n₁, n2, hafter⟩ := work_ratio hmono hr hf (x := ⟨k₁, { message := m, answer, outcome, rest }, k₂⟩) n1 (f1 hf) rfl rfl hw
            (hshort _ List.mem_cons_self)
          obtain ⟨l', t₂, v', n', g1, g2, g3⟩ := ih (v := v₁) (n := n₁) (fun l' hl' => by cases hl'; exact n2) rfl hs'
          exact ⟨l', t₂, v', n', g1, g2, hafter g3⟩
  | @over k k₁ k₂ k' t t₁ t' log hk hi hl ih =>
    cases t with
    | ended c =>
      obtain ⟨rfl, -, rfl⟩ := iterate_ended hi
      obtain ⟨h1, _⟩ := hl.life.ended rfl
      simp at h1; rw [h1] at htl; simp at htl
    | running l =>
      cases iterates hi with
      | stop hp =>
        obtain ⟨h1, _⟩ := hl.life.ended rfl
        simp at h1; rw [h1] at htl; simp at htl
  | others hl ih =>
    obtain ⟨h1, _⟩ := hl.life.ended rfl
    simp at h1; rw [h1] at htl; simp at htl

omit [DecidableEq L] [Custom σ L] [CustomProcessor σ] in
theorem NewDriver.ratio {descr : Descr} {strategy : Strategy} {programs : List (SendThread (DriverMsg σ L))} {t : DriverThread σ L}
    (h : NewDriver e k name descr strategy true programs t) : ∀ l, t = .running l → l.state.RatioNoted name none 0 := by
  obtain ⟨k₀, state, ahead, blind, hn, rfl⟩ := h.created
  intro l hl; cases hl
  simp only [LoopState.new, if_true, M.bind_eq_some, M.map_eq_some, M.run_now, M.run_pure, Option.some.injEq, Prod.mk.injEq] at hn
  obtain ⟨_, _, ⟨i, hi, rfl⟩, _, _, ⟨rfl, rfl⟩, _, _, hs, rfl, rfl⟩ := hn
  exact ⟨rfl, i, rfl, DriverInstruments.new_ratio hi⟩

end

end Metrix
