import Verif.Spec.Later

/-! # Everything happens alike at another time: instruments -/

namespace Metrix

theorem Env.later_shifted (c : Int) (e : Env) : e.Shifted c (e.later c) := rfl

namespace M.Later
variable {c : Int} {A B C D : Type}

theorem pure {T : A → B} {a : A} {b : B} (h : b = T a) : M.Later c T (Pure.pure a) (Pure.pure b) := by
  subst h
  refine ⟨fun e k => rfl, fun e e' k r r' _ hr hr' => ?_⟩
  cases hr; cases hr'; rfl

theorem bind {S : A → C} {T : B → D} {x : M A} {y : M C} {f : A → M B} {g : C → M D} (hx : M.Later c S x y)
    (h : ∀ a, M.Later c T (f a) (g (S a))) : M.Later c T (x >>= f) (y >>= g) := by
  constructor
  · intro e k
    rw [M.run_bind, M.run_bind, hx.exact e k]
    cases x e k with
    | none => rfl
    | some r => exact (h r.1).exact e r.2
  · intro e e' k r r' he hr hr'
    obtain ⟨a, k₁, h1, h2⟩ := M.bind_eq_some.1 hr
    obtain ⟨a', k₁', h1', h2'⟩ := M.bind_eq_some.1 hr'
    cases hx.agree e e' k _ _ he h1 h1'
    exact (h a).agree e e' k₁ _ _ he h2 h2'

theorem ite {T : A → B} {p q : Prop} [Decidable p] [Decidable q] {x y : M A} {u v : M B} (hpq : q ↔ p) (h1 : M.Later c T x u)
    (h2 : M.Later c T y v) : M.Later c T (if p then x else y) (if q then u else v) := by
  by_cases hp : p
  · rw [if_pos hp, if_pos (hpq.2 hp)]; exact h1
  · rw [if_neg hp, if_neg (fun hq => hp (hpq.1 hq))]; exact h2

theorem iteSame {T : A → B} {p : Prop} [Decidable p] {x y : M A} {u v : M B} (h1 : M.Later c T x u) (h2 : M.Later c T y v) :
    M.Later c T (if p then x else y) (if p then u else v) := ite Iff.rfl h1 h2

theorem now : M.Later c (· + c) M.now M.now := by
  refine ⟨fun e k => rfl, fun e e' k r r' he hr hr' => ?_⟩
  rw [he] at hr'
  cases hr; cases hr'; rfl

/-- Neither the clock nor the limits of `Instant` may be looked at. -/
theorem bindEnv {T : A → B} {f : Env → M A} {g : Env → M B} (h : ∀ e e', e.Shifted c e' → M.Later c T (f e) (g e')) :
    M.Later c T (M.env >>= f) (M.env >>= g) :=
  ⟨fun e k => (h e (e.later c) (e.later_shifted c)).exact e k, fun e e' k r r' he hr hr' => (h e e' he).agree e e' k r r' he hr hr'⟩

theorem readings : M.Later c id M.readings M.readings := by
  refine ⟨fun e k => rfl, fun e e' k r r' he hr hr' => ?_⟩
  cases hr; cases hr'; rfl

theorem panic {T : A → B} : M.Later c T M.panic M.panic :=
  ⟨fun e k => rfl, fun e e' k r r' _ hr _ => nomatch hr⟩

theorem arithI64 (x : Int) : M.Later c id (Metrix.arithI64 x) (Metrix.arithI64 x) := by
  have key : ∀ e e' k, e'.profile = e.profile → Metrix.arithI64 x e' k = Metrix.arithI64 x e k := by
    intro e e' k h; unfold Metrix.arithI64; rw [h]
  constructor
  · intro e k
    rw [key e (e.later c) k rfl]
    cases Metrix.arithI64 x e k <;> rfl
  · intro e e' k r r' he hr hr'
    rw [key e e' k (by rw [he]; rfl), hr] at hr'
    cases hr'; rfl

theorem arithU64 (x : Nat) : M.Later c id (Metrix.arithU64 x) (Metrix.arithU64 x) := by
  have key : ∀ e e' k, e'.profile = e.profile → Metrix.arithU64 x e' k = Metrix.arithU64 x e k := by
    intro e e' k h; unfold Metrix.arithU64; rw [h]
  constructor
  · intro e k
    rw [key e (e.later c) k rfl]
    cases Metrix.arithU64 x e k <;> rfl
  · intro e e' k r r' he hr hr'
    rw [key e e' k (by rw [he]; rfl), hr] at hr'
    cases hr'; rfl

theorem subDur (t : Int) (d : Nat) : M.Later c (· + c) (Metrix.subDur t d) (Metrix.subDur (t + c) d) := by
  constructor
  · intro e k
    unfold Metrix.subDur
    by_cases h : e.instMin ≤ t - d
    · rw [if_pos h, if_pos (by simp only [Env.later]; omega)]
      simp only [Option.map_some, Option.some.injEq, Prod.mk.injEq, and_true]; omega
    · rw [if_neg h, if_neg (by simp only [Env.later]; omega)]; rfl
  · intro e e' k r r' he hr hr'
    unfold Metrix.subDur at hr hr'
    split at hr
    · split at hr'
      · cases hr; cases hr'
        simp only [Prod.mk.injEq, and_true]; omega
      · cases hr'
    · cases hr

theorem addDur (t : Int) (d : Nat) : M.Later c (· + c) (Metrix.addDur t d) (Metrix.addDur (t + c) d) := by
  constructor
  · intro e k
    unfold Metrix.addDur
    by_cases h : t + d ≤ e.instMax
    · rw [if_pos h, if_pos (by simp only [Env.later]; omega)]
      simp only [Option.map_some, Option.some.injEq, Prod.mk.injEq, and_true]; omega
    · rw [if_neg h, if_neg (by simp only [Env.later]; omega)]; rfl
  · intro e e' k r r' he hr hr'
    unfold Metrix.addDur at hr hr'
    split at hr
    · split at hr'
      · cases hr; cases hr'
        simp only [Prod.mk.injEq, and_true]; omega
      · cases hr'
    · cases hr

/-- Put what is returned into something else. -/
theorem wrap {X : Type} {S : A → A} {T : B → B} {x y : M (A × X)} {g : A → B} (h : M.Later c (laterFst S) x y)
    (hg : ∀ a, g (S a) = T (g a)) :
    M.Later c (laterFst T) (do let (a, n) ← x; return (g a, n)) (do let (a, n) ← y; return (g a, n)) :=
  h.bind fun a => .pure (by simp only [laterFst, hg])

end M.Later

theorem sinceNs_later (c t s : Int) : sinceNs (t + c) (s + c) = sinceNs t s := by
  unfold sinceNs; congr 1; omega

theorem later_index {T : Type} (c : Int) (xs : List T) (i : Nat) : M.Later c id (index xs i) (index xs i) := by
  unfold index; split
  · exact .pure rfl
  · exact .panic

theorem later_assignAt {T : Type} (c : Int) (xs : List T) (i : Nat) (x : T) :
    M.Later c id (assignAt xs i x) (assignAt xs i x) := by
  unfold assignAt; exact .iteSame (.pure rfl) .panic

theorem later_displayValue (c : Int) (n : Nat) (a b : TimeUnit) :
    M.Later c id (durationToDisplayValue n a b) (durationToDisplayValue n a b) := by
  unfold durationToDisplayValue
  split <;> first | exact .pure rfl | exact .arithU64 _

theorem later_ofDuration (c : Int) (d : Nat) : M.Later c id (ObservedValue.ofDuration d) (ObservedValue.ofDuration d) := by
  unfold ObservedValue.ofDuration
  exact .bind (.arithU64 _) fun _ => .bind (.arithU64 _) fun _ => .pure rfl

/-! ## Buckets -/

section Buckets
variable {T : Type} [Inhabited T] (c : Int)

theorem SecondsBuckets.later_new (n : Nat) :
    M.Later c (SecondsBuckets.later c) (SecondsBuckets.new n : M (SecondsBuckets T)) (SecondsBuckets.new n) := by
  unfold SecondsBuckets.new SecondsBuckets.initialized
  exact .iteSame .panic (.bind .now fun _ => .pure rfl)

theorem SecondsBuckets.later_advance (b : SecondsBuckets T) : M.Later c (SecondsBuckets.later c) b.advance (b.later c).advance := by
  unfold SecondsBuckets.advance
  refine .bind (S := id) (.iteSame .panic (.pure rfl)) fun i => .bind (later_assignAt c _ _ _) fun bs => .pure rfl

theorem SecondsBuckets.later_advanceN (n : Nat) (b : SecondsBuckets T) :
    M.Later c (SecondsBuckets.later c) (b.advanceN n) ((b.later c).advanceN n) := by
  induction n generalizing b with
  | zero => exact .pure rfl
  | succ n ih => exact .bind (b.later_advance c) fun b => ih b

theorem SecondsBuckets.later_tick (b : SecondsBuckets T) : M.Later c (SecondsBuckets.later c) b.tick (b.later c).tick := by
  unfold SecondsBuckets.tick
  refine .bind .now fun now => ?_
  have h : sinceNs (now + c) (b.later c).currentTime = sinceNs now b.currentTime := sinceNs_later _ _ _
  simp only [h]
  have hb : ∀ n : Int, { b.later c with currentTime := (b.later c).currentTime + n } =
      ({ b with currentTime := b.currentTime + n } : SecondsBuckets T).later c := by
    intro n; simp only [SecondsBuckets.later, SecondsBuckets.mk.injEq, true_and, and_true]; omega
  refine .iteSame (.pure rfl) (.iteSame ?_ (.iteSame ?_ (.pure ?_)))
  · rw [hb]; exact later_advance c _
  · rw [hb]; exact later_advanceN c _ _
  · simp only [SecondsBuckets.later, SecondsBuckets.mk.injEq, true_and, and_true]; omega

theorem SecondsBuckets.later_modifyCurrent (b : SecondsBuckets T) (f : T → M T) (hf : ∀ x, M.Later c id (f x) (f x)) :
    M.Later c (SecondsBuckets.later c) (b.modifyCurrent f) ((b.later c).modifyCurrent f) := by
  unfold SecondsBuckets.modifyCurrent
  exact .bind (b.later_tick c) fun b => .bind (later_index c _ _) fun x => .bind (hf x) fun y =>
    .bind (later_assignAt c _ _ _) fun bs => .pure rfl

omit [Inhabited T] in
theorem SecondsBuckets.later_iterFrom (bs : List T) (n i : Nat) :
    M.Later c id (SecondsBuckets.iterFrom bs n i) (SecondsBuckets.iterFrom bs n i) := by
  induction n generalizing i with
  | zero => exact .pure rfl
  | succ n ih => exact .bind (later_index c _ _) fun x => .bind (ih _) fun xs => .pure rfl

theorem SecondsBuckets.later_iter (b : SecondsBuckets T) :
    M.Later c (laterFst (SecondsBuckets.later c)) b.iter (b.later c).iter := by
  unfold SecondsBuckets.iter
  exact .bind (b.later_tick c) fun b => .bind (later_iterFrom c _ _ _) fun xs => .pure rfl

end Buckets

/-! ## Gauges -/

theorem Bucket.later_update (c : Int) (b : Bucket) (v : Int) : M.Later c id (b.update v) (b.update v) := by
  unfold Bucket.update
  exact .bind (.arithI64 _) fun _ => .bind (.arithU64 _) fun _ => .pure rfl

theorem StatsAcc.later_add (c : Int) (a : StatsAcc) (b : Bucket) : M.Later c id (a.add b) (a.add b) := by
  unfold StatsAcc.add
  exact .iteSame (.bind (.arithI64 _) fun _ => .bind (.arithU64 _) fun _ => .bind (.arithI64 _) fun _ =>
    .bind (.arithI64 _) fun _ => .pure rfl) (.pure rfl)

theorem StatsAcc.later_addAll (c : Int) (bs : List Bucket) (a : StatsAcc) : M.Later c id (a.addAll bs) (a.addAll bs) := by
  induction bs generalizing a with
  | nil => exact .pure rfl
  | cons b bs ih => exact .bind (a.later_add c b) fun a => ih a

theorem later_divF64 (c : Int) (x y : Int) : M.Later c id (divF64 x y) (divF64 x y) :=
  .bindEnv fun _ _ he => .pure (by rw [he]; rfl)

theorem later_toF64 (c : Int) (x : Int) : M.Later c id (toF64 x) (toF64 x) :=
  .bindEnv fun _ _ he => .pure (by rw [he]; rfl)

theorem BucketsStats.later_fromBuckets (c : Int) (b : SecondsBuckets Bucket) (v : Int) :
    M.Later c (laterFst (SecondsBuckets.later c)) (fromBuckets b v) (fromBuckets (b.later c) v) := by
  unfold fromBuckets
  refine .bind (b.later_iter c) fun r => .bind (StatsAcc.later_addAll c r.2 {}) fun a => .iteSame ?_ ?_
  · exact .bind (later_divF64 c _ _) fun _ => .bind (later_divF64 c _ _) fun _ => .bind (later_divF64 c _ _) fun _ => .pure rfl
  · exact .bind (later_toF64 c _) fun _ => .pure rfl

theorem Gauge.later_setTracking (c : Int) (g : Gauge) (n : Nat) :
    M.Later c (Gauge.later c) (g.setTracking n) ((g.later c).setTracking n) := by
  unfold setTracking
  exact .iteSame (.bind (SecondsBuckets.later_new c n) fun _ => .pure rfl) (.pure rfl)

theorem Gauge.later_nextValue (c : Int) (u : TimeUnit) (v : Option Int) (o : ObservedValue) :
    M.Later c id (nextValue u v o) (nextValue u v o) := by
  unfold nextValue
  split
  · split
    · exact .bind (.arithI64 _) fun _ => .pure rfl
    · exact .pure rfl
  · exact .bind (later_displayValue c _ _ _) fun _ => .pure rfl
  · exact .pure rfl

theorem Gauge.later_track (c : Int) (t : Option (SecondsBuckets Bucket)) (v : Int) :
    M.Later c (Option.map (SecondsBuckets.later c)) (track t v) (track (t.map (SecondsBuckets.later c)) v) := by
  cases t with
  | none => exact .pure rfl
  | some b => exact .bind (b.later_modifyCurrent c _ fun x => x.later_update c v) fun _ => .pure rfl

theorem Gauge.later_set (c : Int) (g : Gauge) (o : ObservedValue) : M.Later c (Gauge.later c) (g.set o) ((g.later c).set o) := by
  unfold set
  rw [show (g.later c).value = g.value from rfl]
  cases g.value with
  | none =>
    refine .bind (later_nextValue c _ _ _) fun v => ?_
    cases v with
    | none => exact .pure rfl
    | some v => exact .bind (later_track c g.tracking v) fun _ => .pure rfl
  | some x =>
    refine .bind (later_nextValue c _ _ _) fun v => ?_
    cases v with
    | none => exact .pure rfl
    | some v => exact .bind (later_track c g.tracking v) fun _ => .pure rfl

theorem Gauge.later_update (c : Int) (g : Gauge) (u : Update) :
    M.Later c (laterFst (Gauge.later c)) (g.update u) ((g.later c).update (u.later c)) := by
  cases u with
  | withValue v t => exact .bind (g.later_set c v) fun _ => .pure rfl
  | observation => exact .pure rfl
  | observations => exact .pure rfl

theorem Gauge.later_putValues (c : Int) (g : Gauge) (into : Snapshot) :
    M.Later c (laterFst (Gauge.later c)) (g.putValues into) ((g.later c).putValues into) := by
  unfold putValues
  rw [show (g.later c).value = g.value from rfl, show (g.later c).groupValues = g.groupValues from rfl,
    show (g.later c).name = g.name from rfl, show (g.later c).tracking = g.tracking.map (·.later c) from rfl]
  cases g.value with
  | none => exact .pure rfl
  | some v =>
    simp only
    cases g.tracking with
    | none => exact .pure rfl
    | some b => exact .bind (BucketsStats.later_fromBuckets c b v) fun _ => .pure rfl

theorem Gauge.later_put (c : Int) (g : Gauge) (into : Snapshot) (d : Bool) :
    M.Later c (laterFst (Gauge.later c)) (g.putSnapshot into d) ((g.later c).putSnapshot into d) := by
  unfold putSnapshot
  exact .iteSame (.bind (g.later_putValues c _) fun _ => .pure rfl) (g.later_putValues c _)

/-! ## Meters -/

theorem StdMeter.later_new (c : Int) : M.Later c (StdMeter.later c) StdMeter.new StdMeter.new := by
  unfold new
  refine .bindEnv fun e e' he => .bind .now fun now => .pure ?_
  rw [he]
  simp only [StdMeter.later, Env.later, StdMeter.mk.injEq, true_and, and_true]; omega

theorem StdMeter.later_catchUp (c : Int) (rnd : Rat → Rat) (now : Int) (s : StdMeter) :
    (s.later c).catchUp rnd (now + c) = (s.catchUp rnd now).later c := by
  induction s using StdMeter.catchUp.induct (rnd := rnd) (now := now) with
  | case1 s h ih =>
    have hs : (s.later c).tickOnce rnd = (s.tickOnce rnd).later c := by
      simp only [later, tickOnce, StdMeter.mk.injEq, true_and, and_true]; omega
    rw [catchUp.eq_1 rnd now s, catchUp.eq_1 rnd (now + c) (s.later c), if_pos h, if_pos (by simp only [later]; omega), hs, ih]
  | case2 s h =>
    rw [catchUp.eq_1 rnd now s, catchUp.eq_1 rnd (now + c) (s.later c), if_neg h, if_neg (by simp only [later]; omega)]

theorem StdMeter.later_tick (c : Int) (s : StdMeter) : M.Later c (StdMeter.later c) s.tick (s.later c).tick := by
  unfold tick
  refine .bindEnv fun e e' he => .bind .now fun now => .pure ?_
  rw [show e'.rnd = e.rnd by rw [he]; rfl]
  exact later_catchUp c e.rnd now s

theorem StdMeter.later_mark (c : Int) (s : StdMeter) (n : Int) :
    M.Later c (StdMeter.later c) (s.mark n) ((s.later c).mark n) := by
  unfold mark
  exact .bind (s.later_tick c) fun s => .bind (.arithI64 _) fun _ => .pure rfl

theorem StdMeter.later_mean (c : Int) (s : StdMeter) : M.Later c id s.mean (s.later c).mean := by
  unfold mean
  refine .iteSame (.pure rfl) (.bindEnv fun e e' he => .bind .now fun now => ?_)
  rw [show e'.rnd = e.rnd by rw [he]; rfl, show sinceNs (now + c) (s.later c).start = sinceNs now s.start from sinceNs_later _ _ _]
  exact .bind (.arithU64 _) fun _ => .bind (.arithU64 _) fun _ => .iteSame (.pure rfl) (.pure rfl)

theorem StdMeter.later_snapshot (c : Int) (s : StdMeter) :
    M.Later c (laterFst (StdMeter.later c)) s.snapshot (s.later c).snapshot := by
  unfold snapshot
  refine .bindEnv fun e e' he => .bind (s.later_tick c) fun s => .bind (s.later_mean c) fun _ => .pure ?_
  rw [show e'.rnd = e.rnd by rw [he]; rfl]; rfl

theorem Meter.later_new (c : Int) (n : String) : M.Later c (Meter.later c) (Meter.new n) (Meter.new n) := by
  unfold new
  exact .bind .now fun _ => .bind (StdMeter.later_new c) fun _ => .pure rfl

theorem Meter.later_tickIfDue (c : Int) (m : Meter) : M.Later c (Meter.later c) m.tickIfDue (m.later c).tickIfDue := by
  unfold tickIfDue
  refine .bind .now fun now => ?_
  rw [show sinceNs (now + c) (m.later c).lastTick = sinceNs now m.lastTick from sinceNs_later _ _ _]
  exact .iteSame (.bind (m.inner.later_tick c) fun _ => .bind .now fun _ => .pure rfl) (.pure rfl)

theorem Meter.later_put (c : Int) (m : Meter) (into : Snapshot) (d : Bool) :
    M.Later c (laterFst (Meter.later c)) (m.putSnapshot into d) ((m.later c).putSnapshot into d) := by
  unfold putSnapshot getSnapshot
  refine .bind (S := laterFst (Meter.later c)) (.bind (m.later_tickIfDue c) fun m => ?_) fun _ => .pure rfl
  exact .bind (m.inner.later_snapshot c) fun _ => .pure rfl

theorem Meter.later_update (c : Int) (m : Meter) (u : Update) :
    M.Later c (laterFst (Meter.later c)) (m.update u) ((m.later c).update (u.later c)) := by
  unfold update
  refine .bind (m.later_tickIfDue c) fun m => ?_
  cases u with
  | withValue v t => exact .bind (m.inner.later_mark c 1) fun _ => .pure rfl
  | observation => exact .bind (m.inner.later_mark c 1) fun _ => .pure rfl
  | observations => exact .iteSame (.bind (m.inner.later_mark c _) fun _ => .pure rfl) (.pure rfl)

theorem ValueMeter.later_new (c : Int) (n : String) : M.Later c (ValueMeter.later c) (ValueMeter.new n) (ValueMeter.new n) := by
  unfold new
  exact .bind (Meter.later_new c n) fun _ => .pure rfl

theorem ValueMeter.later_mark (c : Int) (m : ValueMeter) (v : Int) :
    M.Later c (ValueMeter.later c) (m.mark v) ((m.later c).mark v) := by
  unfold mark
  exact .bind (m.meter.inner.later_mark c v) fun _ => .pure rfl

theorem ValueMeter.later_update (c : Int) (m : ValueMeter) (u : Update) :
    M.Later c (laterFst (ValueMeter.later c)) (m.update u) ((m.later c).update (u.later c)) := by
  cases u with
  | withValue v t =>
    have other : ∀ v : ObservedValue, M.Later c (laterFst (ValueMeter.later c))
        (match v.convertToI64 with
          | some v => do return (← m.mark v, 1)
          | none => return (m, 0))
        (match v.convertToI64 with
          | some v => do return (← (m.later c).mark v, 1)
          | none => return (m.later c, 0)) := by
      intro v
      cases v.convertToI64 with
      | none => exact .pure rfl
      | some v => exact .bind (m.later_mark c v) fun _ => .pure rfl
    cases v with
    | duration n unit => exact .bind (later_displayValue c _ _ _) fun _ => .bind (m.later_mark c _) fun _ => .pure rfl
    | signedInteger v => exact other (.signedInteger v)
    | unsignedInteger v => exact other (.unsignedInteger v)
    | float v => exact other (.float v)
    | bool v => exact other (.bool v)
    | changedBy v => exact other (.changedBy v)
  | observation => exact .pure rfl
  | observations => exact .pure rfl

theorem ValueMeter.later_put (c : Int) (m : ValueMeter) (into : Snapshot) (d : Bool) :
    M.Later c (laterFst (ValueMeter.later c)) (m.putSnapshot into d) ((m.later c).putSnapshot into d) := by
  unfold putSnapshot
  exact .bind (m.meter.later_put c into d) fun _ => .pure rfl

/-! ## Histograms -/

theorem Histogram.later_new (c : Int) (n : String) : M.Later c (Histogram.later c) (Histogram.new n) (Histogram.new n) := by
  unfold new
  exact .bind .now fun _ => .pure rfl

theorem Histogram.later_putHistogramValues (c : Int) (h : Histogram) (into : Snapshot) :
    M.Later c id (h.putHistogramValues into) ((h.later c).putHistogramValues into) := by
  unfold putHistogramValues
  refine .bindEnv fun e e' he => .bind .readings fun k => ?_
  rw [show e'.histStats = e.histStats by rw [he]; rfl]
  exact .iteSame (.pure rfl) (.pure rfl)

theorem Histogram.later_isActive (c : Int) (h : Histogram) : M.Later c id h.isActive (h.later c).isActive := by
  unfold isActive
  rw [show (h.later c).maxInactivity = h.maxInactivity from rfl]
  cases h.maxInactivity with
  | none => exact .pure rfl
  | some d =>
    refine .bind .now fun now => .pure ?_
    rw [show sinceNs (now + c) (h.later c).lastUpdate = sinceNs now h.lastUpdate from sinceNs_later _ _ _]; rfl

theorem Histogram.later_put (c : Int) (h : Histogram) (into : Snapshot) (d : Bool) :
    M.Later c id (h.putSnapshot into d) ((h.later c).putSnapshot into d) := by
  unfold putSnapshot putValues
  exact .bind (S := id) (.bind (h.later_isActive c) fun a => .iteSame (h.later_putHistogramValues c _) (.pure rfl)) fun _ => .pure rfl

theorem Histogram.later_resetIfDue (c : Int) (h : Histogram) : M.Later c (Histogram.later c) h.resetIfDue (h.later c).resetIfDue := by
  unfold resetIfDue
  rw [show (h.later c).maxInactivity = h.maxInactivity from rfl]
  cases h.maxInactivity with
  | none => exact .pure rfl
  | some d =>
    refine .iteSame (.bind .now fun now => ?_) (.pure rfl)
    rw [show sinceNs (now + c) (h.later c).lastUpdate = sinceNs now h.lastUpdate from sinceNs_later _ _ _]
    exact .iteSame (.pure rfl) (.pure rfl)

theorem Histogram.later_record (c : Int) (h : Histogram) (v : Int) :
    M.Later c (Histogram.later c) (h.record v) ((h.later c).record v) := by
  unfold record
  exact .bind .now fun _ => .pure rfl

theorem Histogram.later_update (c : Int) (h : Histogram) (u : Update) :
    M.Later c (laterFst (Histogram.later c)) (h.update u) ((h.later c).update (u.later c)) := by
  unfold update
  refine .bind (h.later_resetIfDue c) fun h => ?_
  cases u with
  | withValue v t =>
    have other : ∀ v : ObservedValue, M.Later c (laterFst (Histogram.later c))
        (match v.convertToI64 with
          | some v => do return (← h.record v, 1)
          | none => return (h, 0))
        (match v.convertToI64 with
          | some v => do return (← (h.later c).record v, 1)
          | none => return (h.later c, 0)) := by
      intro v
      cases v.convertToI64 with
      | none => exact .pure rfl
      | some v => exact .bind (h.later_record c v) fun _ => .pure rfl
    cases v with
    | duration n unit => exact .bind (later_displayValue c _ _ _) fun _ => .bind (h.later_record c _) fun _ => .pure rfl
    | signedInteger v => exact other (.signedInteger v)
    | unsignedInteger v => exact other (.unsignedInteger v)
    | float v => exact other (.float v)
    | bool v => exact other (.bool v)
    | changedBy v => exact other (.changedBy v)
  | observation => exact .pure rfl
  | observations => exact .pure rfl

/-! ## Switches -/

theorem later_putTimedSwitch (c : Int) (n : String) (ds : Descr) (inv : Option NameAlternation) {x y : M Bool} (h : M.Later c id x y)
    (into : Snapshot) (d : Bool) : M.Later c id (putTimedSwitch n ds inv x into d) (putTimedSwitch n ds inv y into d) := by
  unfold putTimedSwitch
  refine .bind h fun s => ?_
  cases inv with
  | none => exact .pure rfl
  | some a => exact .bind h fun _ => .pure rfl

theorem StaircaseTimer.later_state (c : Int) (t : StaircaseTimer) : M.Later c id t.state (t.later c).state := by
  unfold state
  rw [show (t.later c).stayOnUntil = t.stayOnUntil.map (· + c) from rfl]
  cases t.stayOnUntil with
  | none => exact .pure rfl
  | some u =>
    refine .bind .now fun now => .pure ?_
    simp only [ge_iff_le, Int.add_le_add_iff_right]; rfl

theorem StaircaseTimer.later_put (c : Int) (t : StaircaseTimer) (into : Snapshot) (d : Bool) :
    M.Later c id (t.putSnapshot into d) ((t.later c).putSnapshot into d) :=
  later_putTimedSwitch c _ _ _ (t.later_state c) into d

theorem StaircaseTimer.later_update (c : Int) (t : StaircaseTimer) (u : Update) :
    M.Later c (laterFst (StaircaseTimer.later c)) (t.update u) ((t.later c).update (u.later c)) := by
  unfold update
  exact .bind .now fun now => .bind (.addDur now _) fun _ => .pure rfl

theorem OccurrenceIndicator.later_new (c : Int) (n : String) :
    M.Later c (OccurrenceIndicator.later c) (OccurrenceIndicator.new n) (OccurrenceIndicator.new n) := by
  unfold new
  exact .bind .now fun now => .bind (.subDur now _) fun _ => .pure rfl

theorem OccurrenceIndicator.later_setIfHappenedWithin (c : Int) (i : OccurrenceIndicator) (d : Nat) :
    M.Later c (OccurrenceIndicator.later c) (i.setIfHappenedWithin d) ((i.later c).setIfHappenedWithin d) := by
  unfold setIfHappenedWithin
  exact .bind .now fun now => .bind (.subDur now _) fun _ => .pure rfl

theorem OccurrenceIndicator.later_state (c : Int) (i : OccurrenceIndicator) : M.Later c id i.state (i.later c).state := by
  unfold state
  refine .bind .now fun now => .bind (.subDur now _) fun t => .pure ?_
  simp only [later, gt_iff_lt, Int.add_lt_add_iff_right, id_eq]

theorem OccurrenceIndicator.later_put (c : Int) (i : OccurrenceIndicator) (into : Snapshot) (d : Bool) :
    M.Later c id (i.putSnapshot into d) ((i.later c).putSnapshot into d) :=
  later_putTimedSwitch c _ _ _ (i.later_state c) into d

theorem OccurrenceIndicator.later_update (c : Int) (i : OccurrenceIndicator) (u : Update) :
    M.Later c (laterFst (OccurrenceIndicator.later c)) (i.update u) ((i.later c).update (u.later c)) := by
  unfold update
  exact .bind .now fun now => .pure rfl

theorem NonOccurrenceIndicator.later_new (c : Int) (n : String) :
    M.Later c (NonOccurrenceIndicator.later c) (NonOccurrenceIndicator.new n) (NonOccurrenceIndicator.new n) := by
  unfold new
  exact .bind .now fun now => .pure rfl

theorem NonOccurrenceIndicator.later_state (c : Int) (i : NonOccurrenceIndicator) : M.Later c id i.state (i.later c).state := by
  unfold state
  refine .bind .now fun now => .bind (.subDur now _) fun t => .pure ?_
  simp only [later, Int.add_le_add_iff_right, id_eq]

theorem NonOccurrenceIndicator.later_put (c : Int) (i : NonOccurrenceIndicator) (into : Snapshot) (d : Bool) :
    M.Later c id (i.putSnapshot into d) ((i.later c).putSnapshot into d) :=
  later_putTimedSwitch c _ _ _ (i.later_state c) into d

theorem NonOccurrenceIndicator.later_update (c : Int) (i : NonOccurrenceIndicator) (u : Update) :
    M.Later c (laterFst (NonOccurrenceIndicator.later c)) (i.update u) ((i.later c).update (u.later c)) := by
  unfold update
  exact .bind .now fun now => .pure rfl

/-! ## Others -/

theorem Update.later_observedValue (c : Int) (u : Update) : (u.later c).observedValue = u.observedValue := by cases u <;> rfl

theorem DataDisplay.later_shown (c : Int) (x : DataDisplay) : M.Later c id x.shown (x.later c).shown := by
  unfold shown
  rw [show (x.later c).stayOnUntil = x.stayOnUntil.map (· + c) from rfl]
  cases x.stayOnUntil with
  | none => exact .pure rfl
  | some u =>
    refine .bind .now fun now => .pure ?_
    simp only [ge_iff_le, Int.add_le_add_iff_right]; rfl

theorem DataDisplay.later_put (c : Int) (x : DataDisplay) (into : Snapshot) (d : Bool) :
    M.Later c id (x.putSnapshot into d) ((x.later c).putSnapshot into d) := by
  unfold putSnapshot
  refine .bind (x.later_shown c) fun v => ?_
  cases v <;> exact .pure rfl

theorem DataDisplay.later_update (c : Int) (x : DataDisplay) (u : Update) :
    M.Later c (laterFst (DataDisplay.later c)) (x.update u) ((x.later c).update (u.later c)) := by
  unfold update
  rw [u.later_observedValue c, show (x.later c).resetAfter = x.resetAfter from rfl]
  cases u.observedValue.bind ObservedValue.toItemKind with
  | none => exact .pure rfl
  | some v =>
    simp only
    cases x.resetAfter with
    | none => exact .pure rfl
    | some r => exact .bind .now fun now => .bind (.addDur now _) fun _ => .pure rfl

theorem LastOccurrenceTracker.later_put (c : Int) (t : LastOccurrenceTracker) (into : Snapshot) (d : Bool) :
    M.Later c id (t.putSnapshot into d) ((t.later c).putSnapshot into d) := by
  unfold putSnapshot elapsed
  rw [show (t.later c).happenedLast = t.happenedLast.map (· + c) from rfl]
  refine .bind (S := id) ?_ fun v => ?_
  · cases t.happenedLast with
    | none => exact .pure rfl
    | some x => exact .bind .now fun now => .pure (by rw [sinceNs_later]; rfl)
  · cases v with
    | none => exact .iteSame (.pure rfl) (.pure rfl)
    | some v => exact .pure rfl

theorem LastOccurrenceTracker.later_update (c : Int) (t : LastOccurrenceTracker) (u : Update) :
    M.Later c (laterFst (LastOccurrenceTracker.later c)) (t.update u) ((t.later c).update (u.later c)) := by
  unfold update
  exact .bind .now fun now => .pure rfl

theorem Counter.later_update (c : Int) (x : Counter) (u : Update) : M.Later c (laterFst id) (x.update u) (x.update (u.later c)) := by
  cases u <;> exact .bind (S := id) (.bind (.arithU64 _) fun _ => .pure rfl) fun _ => .pure rfl

theorem Flag.later_update (c : Int) (x : Flag) (u : Update) : x.update (u.later c) = x.update u := by
  cases u with
  | withValue v t => cases v <;> rfl
  | observation => rfl
  | observations => rfl

end Metrix
