import Verif.Proof.History
import Verif.Proof.Gauge
import Verif.Spec.Meter

/-! Lemmas about meters: a meter represents the list of everything it counted. -/

namespace Metrix

theorem wrapU64_add (a b : Int) : (wrapU64 a + wrapU64 b) % u64Bound = wrapU64 (a + b) := by
  unfold wrapU64 u64Bound; omega

theorem wrapU64_wrapI64 (x : Int) : wrapU64 (wrapI64 x) = wrapU64 x := by
  unfold wrapU64 wrapI64
  congr 1
  exact Int.bmod_emod ..

/-- `w` represents a moving average after `m` complete intervals with the given counts. -/
structure EwmaRep (rnd : Rat → Rat) (alpha : Rat) (count : Nat → Nat) (m : Nat) (w : Ewma) : Prop where
  alphaEq : w.alpha = alpha
  uncounted : w.uncounted = count m
  rate : w.rate = ewmaAfter rnd alpha count m
  init : w.init = decide (0 < m)

theorem EwmaRep.tick {rnd : Rat → Rat} {alpha : Rat} {count : Nat → Nat} {m : Nat} {w : Ewma}
    (r : EwmaRep rnd alpha count m w) (h : count (m + 1) = 0) :
    EwmaRep rnd alpha count (m + 1) (w.tick rnd) := by
  unfold Ewma.tick
  cases m with
  | zero =>
    rw [if_neg (by simp [r.init])]
    exact ⟨r.alphaEq, h.symm, by simp [ewmaAfter, instantRate, r.uncounted], by simp⟩
  | succ m =>
    rw [if_pos (by simp [r.init])]
    exact ⟨r.alphaEq, h.symm, by simp [ewmaAfter, instantRate, r.uncounted, r.rate, r.alphaEq], by simp [r.init]⟩

/-- `s` represents everything counted since `start`; `m` intervals were completed when it was last ticked. -/
structure MeterRep (e : Env) (start : Int) (ms : List Mark) (m : Nat) (s : StdMeter) : Prop where
  nextTick : s.nextTick = start + ((m + 1 : Nat) : Int) * (tickNs : Int)
  startEq : s.start = start
  count : s.count = wrapI64 (total ms)
  ewma1 : EwmaRep e.rnd e.alpha1 (fun i => wrapU64 (inInterval start ms i)) m s.ewma1
  ewma5 : EwmaRep e.rnd e.alpha5 (fun i => wrapU64 (inInterval start ms i)) m s.ewma5
  ewma15 : EwmaRep e.rnd e.alpha15 (fun i => wrapU64 (inInterval start ms i)) m s.ewma15
  past : ∀ mk ∈ ms, intervalOf start mk.time ≤ m

theorem inInterval_future {start : Int} {ms : List Mark} {m i : Nat}
    (h : ∀ mk ∈ ms, intervalOf start mk.time ≤ m) (hi : m < i) : inInterval start ms i = 0 := by
  have : ms.filter (fun mk => decide (intervalOf start mk.time = i)) = [] := by
    rw [List.filter_eq_nil_iff]
    intro mk hmk
    have := h mk hmk
    simp; omega
  simp [inInterval, this, total]

theorem MeterRep.tickOnce {e : Env} {start : Int} {ms : List Mark} {m : Nat} {s : StdMeter}
    (r : MeterRep e start ms m s) : MeterRep e start ms (m + 1) (s.tickOnce e.rnd) := by
  have h0 : wrapU64 (inInterval start ms (m + 1)) = 0 := by
    rw [inInterval_future r.past (by omega)]; rfl
  refine ⟨?_, r.startEq, r.count, r.ewma1.tick h0, r.ewma5.tick h0, r.ewma15.tick h0,
    fun mk hmk => by have := r.past mk hmk; omega⟩
  simp only [StdMeter.tickOnce, r.nextTick]
  push_cast; ring

theorem MeterRep.catchUp {e : Env} {start : Int} {ms : List Mark} (now : Int) (s : StdMeter) :
    ∀ {m : Nat}, MeterRep e start ms m s → start + (m : Int) * (tickNs : Int) ≤ now →
      MeterRep e start ms (intervalOf start now) (s.catchUp e.rnd now) := by
  induction s using StdMeter.catchUp.induct e.rnd now with
  | case1 s hle ih =>
    intro m r _
    rw [StdMeter.catchUp, if_pos hle]
    exact ih r.tickOnce (by rw [← r.nextTick]; exact hle)
  | case2 s hgt =>
    intro m r hm
    rw [StdMeter.catchUp, if_neg hgt]
    have : intervalOf start now = m := by
      have h := r.nextTick
      unfold intervalOf tickNs at *
      push_cast at h
      omega
    rw [this]; exact r

theorem MeterRep.tick {e : Env} {start : Int} {ms : List Mark} {s s' : StdMeter} {m k k' : Nat}
    (r : MeterRep e start ms m s) (ht : start + (m : Int) * (tickNs : Int) ≤ e.clock k)
    (h : s.tick e k = some (s', k')) :
    k' = k + 1 ∧ MeterRep e start ms (intervalOf start (e.clock k)) s' := by
  simp only [StdMeter.tick, M.bind_eq_some, M.run_env, M.run_now, M.run_pure, Option.some.injEq,
    Prod.mk.injEq] at h
  obtain ⟨_, _, ⟨rfl, rfl⟩, _, _, ⟨rfl, rfl⟩, rfl, rfl⟩ := h
  exact ⟨rfl, r.catchUp _ _ ht⟩

theorem intervalOf_le {start t : Int} (h : start ≤ t) : start + (intervalOf start t : Int) * (tickNs : Int) ≤ t := by
  unfold intervalOf tickNs; omega

theorem inInterval_append (start : Int) (ms : List Mark) (t n : Int) (i : Nat) :
    inInterval start (ms ++ [⟨t, n⟩]) i = inInterval start ms i + if intervalOf start t = i then n else 0 := by
  unfold inInterval total
  by_cases h : intervalOf start t = i <;> simp [h]

/-- Only complete intervals count. -/
theorem ewmaAfter_congr (rnd : Rat → Rat) (alpha : Rat) {c c' : Nat → Nat} :
    ∀ m, (∀ i, i < m → c i = c' i) → ewmaAfter rnd alpha c m = ewmaAfter rnd alpha c' m
  | 0, _ => rfl
  | 1, h => by simp only [ewmaAfter]; rw [h 0 (by omega)]
  | m + 2, h => by
    simp only [ewmaAfter]
    rw [ewmaAfter_congr rnd alpha (m + 1) fun i hi => h i (by omega), h (m + 1) (by omega)]

theorem EwmaRep.update {e : Env} {alpha : Rat} {start t n : Int} {ms : List Mark} {m : Nat} {w : Ewma}
    (r : EwmaRep e.rnd alpha (fun i => wrapU64 (inInterval start ms i)) m w) (hm : intervalOf start t = m) :
    EwmaRep e.rnd alpha (fun i => wrapU64 (inInterval start (ms ++ [⟨t, n⟩]) i)) m
      (w.update (wrapU64 n)) := by
  refine ⟨r.alphaEq, ?_, ?_, r.init⟩
  · simp only [Ewma.update, r.uncounted]
    rw [inInterval_append, if_pos hm, wrapU64_add]
  · simp only [Ewma.update]
    rw [r.rate]
    refine ewmaAfter_congr _ _ m fun i hi => ?_
    rw [inInterval_append, if_neg (by omega), add_zero]

theorem MeterRep.mark {e : Env} {start : Int} {ms : List Mark} {s s' : StdMeter} {m k k' : Nat} {n : Int}
    (r : MeterRep e start ms m s) (ht : start + (m : Int) * (tickNs : Int) ≤ e.clock k)
    (h : s.mark n e k = some (s', k')) :
    k' = k + 1 ∧ MeterRep e start (ms ++ [⟨e.clock k, n⟩]) (intervalOf start (e.clock k)) s' := by
  simp only [StdMeter.mark, M.bind_eq_some, M.run_pure, Option.some.injEq, Prod.mk.injEq] at h
  obtain ⟨s₁, k₁, h₁, c, k₂, hc, rfl, rfl⟩ := h
  obtain ⟨rfl, r₁⟩ := r.tick ht h₁
  obtain ⟨rfl, rfl, -⟩ := arithI64_eq_some hc
  refine ⟨rfl, r₁.nextTick, r₁.startEq, ?_, r₁.ewma1.update rfl, r₁.ewma5.update rfl, r₁.ewma15.update rfl, ?_⟩
  · simp only [r₁.count, wrapI64_wrapI64_add]; simp [total]
  · intro mk hmk
    rcases List.mem_append.mp hmk with hmk | hmk
    · exact r₁.past mk hmk
    · simp at hmk; subst hmk; rfl

theorem StdMeter.mean_readings {s : StdMeter} {x : F64} {e : Env} {k k' : Nat}
    (h : s.mean e k = some (x, k')) : k ≤ k' := by
  unfold StdMeter.mean at h
  split at h
  · simp at h; omega
  · simp only [M.bind_eq_some, M.run_env, M.run_now, Option.some.injEq, Prod.mk.injEq] at h
    obtain ⟨_, _, ⟨rfl, rfl⟩, _, _, ⟨rfl, rfl⟩, _, _, h1, _, _, h2, h⟩ := h
    obtain ⟨rfl, -⟩ := arithU64_eq_some h1
    obtain ⟨rfl, -⟩ := arithU64_eq_some h2
    split at h <;> simp at h <;> omega

/-- What the mean is for never matters: it is not shown. -/
theorem MeterRep.snapshot {e : Env} {start : Int} {ms : List Mark} {s s' : StdMeter} {m k k' : Nat}
    {sn : StdMeter.Snap} (r : MeterRep e start ms m s) (ht : start + (m : Int) * (tickNs : Int) ≤ e.clock k)
    (h : s.snapshot e k = some ((s', sn), k')) :
    k < k' ∧ MeterRep e start ms (intervalOf start (e.clock k)) s' ∧ sn.count = wrapI64 (total ms) ∧
    sn.rate1 = rateAt e.rnd e.alpha1 start ms (e.clock k) ∧
    sn.rate5 = rateAt e.rnd e.alpha5 start ms (e.clock k) ∧
    sn.rate15 = rateAt e.rnd e.alpha15 start ms (e.clock k) := by
  simp only [StdMeter.snapshot, M.bind_eq_some, M.run_env, M.run_pure, Option.some.injEq, Prod.mk.injEq] at h
  obtain ⟨_, _, ⟨rfl, rfl⟩, s₁, k₁, h₁, x, k₂, hx, ⟨rfl, rfl⟩, rfl⟩ := h
  obtain ⟨rfl, r₁⟩ := r.tick ht h₁
  have := StdMeter.mean_readings hx
  exact ⟨by omega, r₁, r₁.count, by simp [Ewma.perSecond, r₁.ewma1.rate, rateAt],
    by simp [Ewma.perSecond, r₁.ewma5.rate, rateAt], by simp [Ewma.perSecond, r₁.ewma15.rate, rateAt]⟩

theorem MeterRep.new {inner : StdMeter} {e : Env} {k k' : Nat} (h : StdMeter.new e k = some (inner, k')) :
    k' = k + 1 ∧ MeterRep e (e.clock k) [] 0 inner := by
  simp only [StdMeter.new, M.bind_eq_some, M.run_env, M.run_now, M.run_pure, Option.some.injEq, Prod.mk.injEq] at h
  obtain ⟨_, _, ⟨rfl, rfl⟩, _, _, ⟨rfl, rfl⟩, rfl, rfl⟩ := h
  refine ⟨rfl, by simp, rfl, rfl, ?_, ?_, ?_, by simp⟩ <;>
  exact ⟨rfl, rfl, rfl, rfl⟩

/-- The parts of a meter that are configuration. -/
structure Meter.SameConfig (m m' : Meter) : Prop where
  name : m'.name = m.name
  descr : m'.descr = m.descr
  cutoff : m'.lowerCutoff = m.lowerCutoff
  one : m'.oneMinute = m.oneMinute
  five : m'.fiveMinutes = m.fiveMinutes
  fifteen : m'.fifteenMinutes = m.fifteenMinutes

theorem Meter.SameConfig.refl (m : Meter) : Meter.SameConfig m m := ⟨rfl, rfl, rfl, rfl, rfl, rfl⟩

theorem Meter.SameConfig.trans {a b c : Meter} (h : Meter.SameConfig a b) (h' : Meter.SameConfig b c) :
    Meter.SameConfig a c :=
  ⟨h'.name.trans h.name, h'.descr.trans h.descr, h'.cutoff.trans h.cutoff, h'.one.trans h.one,
    h'.five.trans h.five, h'.fifteen.trans h.fifteen⟩

theorem MeterRep.tickIfDue {e : Env} (mono : e.Mono) {start : Int} {ms : List Mark} {s s' : Meter} {m k k' : Nat}
    (r : MeterRep e start ms m s.inner) (ht : ∀ j, k ≤ j → start + (m : Int) * (tickNs : Int) ≤ e.clock j)
    (h : s.tickIfDue e k = some (s', k')) :
    k ≤ k' ∧ Meter.SameConfig s s' ∧ ∃ m', MeterRep e start ms m' s'.inner ∧
      ∀ j, k' ≤ j → start + (m' : Int) * (tickNs : Int) ≤ e.clock j := by
  simp only [Meter.tickIfDue] at h
  rw [M.run_bind_some (M.run_now _ _)] at h
  split at h
  · simp only [M.bind_eq_some, M.run_now, M.run_pure, Option.some.injEq, Prod.mk.injEq] at h
    obtain ⟨s₁, k₁, h₁, _, _, ⟨rfl, rfl⟩, rfl, rfl⟩ := h
    obtain ⟨rfl, r₁⟩ := r.tick (ht (k + 1) (by omega)) h₁
    refine ⟨by omega, ⟨rfl, rfl, rfl, rfl, rfl, rfl⟩, _, r₁, fun j hj => ?_⟩
    refine le_trans (intervalOf_le ?_) (mono (k + 1) j (by omega))
    have := ht (k + 1) (by omega)
    unfold tickNs at this; omega
  · simp at h; obtain ⟨rfl, rfl⟩ := h
    exact ⟨by omega, .refl _, m, r, fun j hj => ht j (by omega)⟩

/-- Putting a snapshot. -/
theorem MeterRep.putSnapshot {e : Env} (mono : e.Mono) {start : Int} {ms : List Mark} {s s' : Meter}
    {m k k' : Nat} {into out : Snapshot} {d : Bool} (r : MeterRep e start ms m s.inner)
    (ht : ∀ j, k ≤ j → start + (m : Int) * (tickNs : Int) ≤ e.clock j)
    (h : s.putSnapshot into d e k = some ((s', out), k')) :
    Meter.SameConfig s s' ∧ (∃ m', MeterRep e start ms m' s'.inner ∧
      ∀ j, k' ≤ j → start + (m' : Int) * (tickNs : Int) ≤ e.clock j) ∧
    ∃ j, k ≤ j ∧ j < k' ∧ out = putPostfixedDescriptives s.descr s.name into d ++
      [(s.name, .snapshot (meterItems s (wrapU64 (total ms)) (rateAt e.rnd e.alpha1 start ms (e.clock j))
        (rateAt e.rnd e.alpha5 start ms (e.clock j)) (rateAt e.rnd e.alpha15 start ms (e.clock j))))] := by
  simp only [Meter.putSnapshot, Meter.getSnapshot, M.bind_eq_some, M.run_pure, Option.some.injEq,
    Prod.mk.injEq] at h
  obtain ⟨⟨_, _⟩, k₁, ⟨s₁, k₂, h₁, ⟨inner, sn⟩, k₃, h₂, ⟨rfl, rfl⟩, rfl⟩, ⟨rfl, rfl⟩, rfl⟩ := h
  obtain ⟨hle, hc, m₁, r₁, ht₁⟩ := r.tickIfDue mono ht h₁
  obtain ⟨hlt, r₂, hcount, hr1, hr5, hr15⟩ := r₁.snapshot (ht₁ k₂ le_rfl) h₂
  refine ⟨⟨hc.name, hc.descr, hc.cutoff, hc.one, hc.five, hc.fifteen⟩, ⟨_, r₂, fun j hj => ?_⟩,
    k₂, hle, hlt, ?_⟩
  · refine le_trans (intervalOf_le ?_) (mono k₂ j (by omega))
    have := ht₁ k₂ le_rfl
    unfold tickNs at this; omega
  · simp only [MeterSnapshot.putSnapshot, Snapshot.push, hc.descr, hc.name, hcount, wrapU64_wrapI64, hr1, hr5, hr15,
      Meter.cut, hc.cutoff, hc.one, hc.five, hc.fifteen, meterItems, rateItem, withCutoff]
    cases s.oneMinute <;> cases s.fiveMinutes <;> cases s.fifteenMinutes <;> rfl

end Metrix
