import Verif.Spec.Undisturbed
import Verif.Proof.Ring
import Verif.Proof.Named

/-! Components that differ only by how far they have been ticked behave the same. -/

namespace Metrix

/-- Both panic, or both have related results. How often the clock was read before does not matter. -/
def M.Sync {α β : Type} (e : Env) (R : α → β → Prop) (x : M α) (y : M β) : Prop :=
  ∀ k k', Option.Rel (fun a b => R a.1 b.1) (x e k) (y e k')

namespace M.Sync
variable {α β γ δ : Type} {e : Env}

theorem pure {R : α → β → Prop} {a : α} {b : β} (h : R a b) : M.Sync e R (Pure.pure a) (Pure.pure b) :=
  fun _ _ => .some h

theorem panic {R : α → β → Prop} : M.Sync e R M.panic M.panic := fun _ _ => .none

theorem bind {x : M α} {y : M β} {f : α → M γ} {g : β → M δ} {S : γ → δ → Prop} (R : α → β → Prop) (hx : M.Sync e R x y)
    (hf : ∀ a b, R a b → M.Sync e S (f a) (g b)) : M.Sync e S (x >>= f) (y >>= g) := by
  intro k k'
  have := hx k k'
  cases h1 : x e k with
  | none =>
    rw [h1] at this
    cases h2 : y e k' with
    | none => rw [M.run_bind_none h1, M.run_bind_none h2]; exact .none
    | some b => rw [h2] at this; cases this
  | some a =>
    rw [h1] at this
    cases h2 : y e k' with
    | none => rw [h2] at this; cases this
    | some b =>
      rw [h2] at this
      cases this with
      | some h =>
        obtain ⟨a, ka⟩ := a; obtain ⟨b, kb⟩ := b
        rw [M.run_bind_some h1, M.run_bind_some h2]
        exact hf _ _ h _ _

theorem ite {R : α → β → Prop} {c : Prop} [Decidable c] {x x' : M α} {y y' : M β} (h : M.Sync e R x y)
    (h' : M.Sync e R x' y') : M.Sync e R (if c then x else x') (if c then y else y') := by
  split <;> assumption

theorem mono {R S : α → β → Prop} {x : M α} {y : M β} (h : M.Sync e R x y) (hi : ∀ a b, R a b → S a b) :
    M.Sync e S x y := by
  intro k k'
  have := h k k'
  revert this
  cases x e k <;> cases y e k' <;> intro this
  · exact .none
  · cases this
  · cases this
  · cases this with
    | some h => exact .some (hi _ _ h)

/-- Also bind, for computations that are the same on both sides. -/
theorem bindEq {x : M α} {f : α → M γ} {g : α → M δ} {S : γ → δ → Prop} (hx : M.Sync e Eq x x)
    (hf : ∀ a, M.Sync e S (f a) (g a)) : M.Sync e S (x >>= f) (x >>= g) :=
  .bind Eq hx fun a _ h => h ▸ hf a

theorem of_map {x : M α} (h : ∀ k k', (x e k).map (·.1) = (x e k').map (·.1)) : M.Sync e Eq x x := by
  intro k k'
  have := h k k'
  revert this
  cases x e k <;> cases x e k' <;> intro this
  · exact .none
  · cases this
  · cases this
  · exact .some (Option.some.inj this)

end M.Sync

/-- The clock stands still at `t`. -/
structure Frozen (e : Env) (t : Int) : Prop where
  clock : ∀ k, e.clock k = t
  stats : ∀ k k', e.histStats k = e.histStats k'

theorem Env.at_frozen (e : Env) (m : Nat) : Frozen (e.at m) (e.clock m) := ⟨fun _ => rfl, fun _ _ => rfl⟩

variable {e : Env} {t : Int}

theorem Frozen.now (h : Frozen e t) : M.Sync e Eq M.now M.now := fun k k' => .some ((h.clock k).trans (h.clock k').symm)

theorem sync_env : M.Sync e Eq M.env M.env := fun _ _ => .some rfl

theorem sync_arithI64 (x : Int) : M.Sync e Eq (arithI64 x) (arithI64 x) :=
  .of_map fun k k' => by unfold arithI64; split <;> [rfl; (split <;> rfl)]

theorem sync_arithU64 (x : Nat) : M.Sync e Eq (arithU64 x) (arithU64 x) :=
  .of_map fun k k' => by unfold arithU64; split <;> [rfl; (split <;> rfl)]

theorem sync_subDur (x : Int) (d : Nat) : M.Sync e Eq (subDur x d) (subDur x d) :=
  .of_map fun k k' => by unfold subDur; split <;> rfl

theorem sync_addDur (x : Int) (d : Nat) : M.Sync e Eq (addDur x d) (addDur x d) :=
  .of_map fun k k' => by unfold addDur; split <;> rfl

theorem sync_duration (x : Nat) (u v : TimeUnit) :
    M.Sync e Eq (durationToDisplayValue x u v) (durationToDisplayValue x u v) := by
  cases u <;> cases v <;> first
    | exact .pure rfl
    | exact sync_arithU64 _

/-! ## Rings -/

section Ring
variable {T : Type} [Inhabited T]

/-- Two rings that are the same after they are ticked at `t`, except for where they begin. -/
def RingAlike (t : Int) (b b' : SecondsBuckets T) : Prop :=
  ∃ n t0 cont s s', Rep n t0 cont s b ∧ Rep n t0 cont s' b' ∧ tickedTo t0 s t = tickedTo t0 s' t

theorem RingAlike.refl {b : SecondsBuckets T} (h : b.currentIdx < b.buckets.length) : RingAlike t b b := by
  have r : Rep b.buckets.length b.currentTime
      (fun s : Int => if 0 < s then default else
        (b.buckets[back b.buckets.length b.currentIdx (-s).toNat]?).getD default) 0 b := by
    refine ⟨rfl, h, by simp, ?_, ?_⟩
    · intro i hi
      rw [if_neg (by push_cast; omega)]
      have := back_lt h hi
      rw [show (-(((0 : Nat) : Int) - (i : Int))).toNat = i by push_cast; omega, List.getElem?_eq_getElem this]
      rfl
    · intro s' hs
      exact if_pos (by simpa using hs)
  exact ⟨_, _, _, _, _, r, r, rfl⟩

theorem tickedTo_tickedTo (t0 t : Int) (s : Nat) : tickedTo t0 (tickedTo t0 s t) t = tickedTo t0 s t := by
  unfold tickedTo sinceNs nanosPerSec
  omega

theorem tickedTo_mono {t0 t t' : Int} {s s' : Nat} (h : tickedTo t0 s t = tickedTo t0 s' t) (ht : t ≤ t') :
    tickedTo t0 s t' = tickedTo t0 s' t' := by
  unfold tickedTo sinceNs nanosPerSec at *
  omega

theorem RingAlike.mono {b b' : SecondsBuckets T} {t' : Int} (h : RingAlike t b b') (ht : t ≤ t') : RingAlike t' b b' := by
  obtain ⟨n, t0, cont, s, s', r, r', hs⟩ := h
  exact ⟨n, t0, cont, s, s', r, r', tickedTo_mono hs ht⟩

theorem RingAlike.modifyCurrent (hf : Frozen e t) {b b' : SecondsBuckets T} (h : RingAlike t b b') {f : T → M T}
    (hs : ∀ x, M.Sync e Eq (f x) (f x)) : M.Sync e (RingAlike t) (b.modifyCurrent f) (b'.modifyCurrent f) := by
  obtain ⟨n, t0, cont, s, s', r, r', hss⟩ := h
  intro k k'
  obtain ⟨h1, h2⟩ := r.modifyCurrent f e k
  obtain ⟨h1', h2'⟩ := r'.modifyCurrent f e k'
  rw [hf.clock] at h1 h2 h1' h2'
  rw [← hss] at h1' h2'
  have := hs (cont (tickedTo t0 s t)) (k + 1) (k' + 1)
  cases hb : b.modifyCurrent f e k with
  | none =>
    rw [h1.1 hb] at this
    cases hb' : b'.modifyCurrent f e k' with
    | none => exact .none
    | some a =>
      obtain ⟨y, hy, _⟩ := h2' _ _ hb'
      rw [hy] at this
      cases this
  | some a =>
    obtain ⟨y, hy, ry⟩ := h2 _ _ hb
    rw [hy] at this
    cases hb' : b'.modifyCurrent f e k' with
    | none =>
      rw [h1'.1 hb'] at this
      cases this
    | some a' =>
      obtain ⟨y', hy', ry'⟩ := h2' _ _ hb'
      rw [hy'] at this
      cases this with
      | some h =>
        obtain rfl : y = y' := h
        exact .some ⟨_, _, _, _, _, ry, ry', rfl⟩

theorem RingAlike.iter (hf : Frozen e t) {b b' : SecondsBuckets T} (h : RingAlike t b b') :
    M.Sync e (fun a a' => a.2 = a'.2 ∧ a.1.buckets.length = a'.1.buckets.length ∧ RingAlike t a.1 a'.1 ∧ RingAlike t a.1 b')
      b.iter b'.iter := by
  obtain ⟨n, t0, cont, s, s', r, r', hss⟩ := h
  intro k k'
  obtain ⟨b₁, h1, r₁⟩ := r.iter e k
  obtain ⟨b₂, h2, r₂⟩ := r'.iter e k'
  rw [hf.clock] at h1 h2 r₁ r₂
  rw [h1, h2]
  refine .some ⟨by rw [hss], by rw [r₁.length, r₂.length], ⟨_, _, _, _, _, r₁, r₂, by rw [hss]⟩,
    ⟨_, _, _, _, _, r₁, r', ?_⟩⟩
  rw [tickedTo_tickedTo, hss]

end Ring

/-! ## Gauges -/

theorem sync_bucketUpdate (b : Bucket) (v : Int) : M.Sync e Eq (b.update v) (b.update v) := by
  unfold Bucket.update
  split
  exact .bindEq (sync_arithI64 _) fun _ => .bindEq (sync_arithU64 _) fun _ => .pure rfl

theorem sync_add (a : StatsAcc) (b : Bucket) : M.Sync e Eq (a.add b) (a.add b) :=
  .ite (.bindEq (sync_arithI64 _) fun _ => .bindEq (sync_arithU64 _) fun _ => .bindEq (sync_arithI64 _) fun _ =>
    .bindEq (sync_arithI64 _) fun _ => .pure rfl) (.pure rfl)

theorem sync_addAll (a : StatsAcc) (bs : List Bucket) : M.Sync e Eq (a.addAll bs) (a.addAll bs) := by
  induction bs generalizing a with
  | nil => exact .pure rfl
  | cons b bs ih => exact .bindEq (sync_add a b) fun a => ih a

theorem sync_divF64 (x y : Int) : M.Sync e Eq (divF64 x y) (divF64 x y) := .bindEq sync_env fun _ => .pure rfl

theorem sync_toF64 (x : Int) : M.Sync e Eq (toF64 x) (toF64 x) := .bindEq sync_env fun _ => .pure rfl

theorem RingAlike.stats (hf : Frozen e t) {b b' : SecondsBuckets Bucket} (h : RingAlike t b b') (v : Int) :
    M.Sync e (fun a a' => a.2 = a'.2 ∧ RingAlike t a.1 a'.1 ∧ RingAlike t a.1 b')
      (BucketsStats.fromBuckets b v) (BucketsStats.fromBuckets b' v) := by
  unfold BucketsStats.fromBuckets
  refine .bind _ (h.iter hf) ?_
  rintro ⟨b₁, bs⟩ ⟨b₂, bs'⟩ ⟨h1, h2, h3, h4⟩
  simp only at h1 h2 h3 h4
  subst h1
  simp only
  refine .bindEq (sync_addAll _ _) fun a => .ite ?_ ?_
  · rw [h2]
    exact .bindEq (sync_divF64 _ _) fun _ => .bindEq (sync_divF64 _ _) fun _ => .bindEq (sync_divF64 _ _) fun _ =>
      .pure ⟨rfl, h3, h4⟩
  · exact .bindEq (sync_toF64 _) fun _ => .pure ⟨rfl, h3, h4⟩

/-- Gauges with rings that are alike. -/
def Gauge.Alike (t : Int) (g g' : Gauge) : Prop :=
  ∃ r, g' = { g with tracking := r } ∧ Option.Rel (RingAlike t) g.tracking r

theorem sync_nextValue (u : TimeUnit) (c : Option Int) (v : ObservedValue) :
    M.Sync e Eq (Gauge.nextValue u c v) (Gauge.nextValue u c v) := by
  cases v with
  | changedBy d =>
    cases c with
    | none => exact .pure rfl
    | some c => exact .bindEq (sync_arithI64 _) fun _ => .pure rfl
  | duration x y => exact .bindEq (sync_duration _ _ _) fun _ => .pure rfl
  | signedInteger _ => exact .pure rfl
  | unsignedInteger _ => exact .pure rfl
  | bool _ => exact .pure rfl
  | float _ => exact .pure rfl

theorem sync_track (hf : Frozen e t) {r r' : Option (SecondsBuckets Bucket)} (h : Option.Rel (RingAlike t) r r') (v : Int) :
    M.Sync e (Option.Rel (RingAlike t)) (Gauge.track r v) (Gauge.track r' v) := by
  cases h with
  | none => exact .pure .none
  | some h => exact .bind _ (h.modifyCurrent hf fun x => sync_bucketUpdate x v) fun _ _ h => .pure (.some h)

theorem Gauge.Alike.set (hf : Frozen e t) {g g' : Gauge} (h : g.Alike t g') (v : ObservedValue) :
    M.Sync e (Gauge.Alike t) (g.set v) (g'.set v) := by
  obtain ⟨r, rfl, h⟩ := h
  unfold Gauge.set
  simp only
  cases hv : g.value with
  | none =>
    refine .bindEq (sync_nextValue _ _ _) fun n => ?_
    cases n with
    | none => exact .pure ⟨r, rfl, h⟩
    | some n => exact .bind _ (sync_track hf h n) fun a b hab => .pure ⟨b, rfl, hab⟩
  | some c =>
    refine .bindEq (sync_nextValue _ _ _) fun n => ?_
    cases n with
    | none => exact .pure ⟨r, rfl, h⟩
    | some n => exact .bind _ (sync_track hf h n) fun a b hab => .pure ⟨b, rfl, hab⟩

/-- The same report or result, and the components are alike afterwards. -/
abbrev Takes {C : Type} (e : Env) (R : C → C → Prop) (x y : M (C × Nat)) : Prop :=
  M.Sync e (fun a b => a.2 = b.2 ∧ R a.1 b.1) x y

/-- The same snapshot, and the components are alike afterwards. The first one is also still like what the second one was
before. -/
abbrev PutsSame {C : Type} (e : Env) (R : C → C → Prop) (c' : C) (x y : M (C × Snapshot)) : Prop :=
  M.Sync e (fun a b => a.2 = b.2 ∧ R a.1 b.1 ∧ R a.1 c') x y

theorem Gauge.Alike.update (hf : Frozen e t) {g g' : Gauge} (h : g.Alike t g') (u : Update) :
    Takes e (Gauge.Alike t) (g.update u) (g'.update u) := by
  cases u with
  | withValue v _ => exact .bind _ (h.set hf v) fun _ _ h => .pure ⟨rfl, h⟩
  | observation _ => exact .pure ⟨rfl, h⟩
  | observations _ _ => exact .pure ⟨rfl, h⟩

theorem Gauge.Alike.putValues (hf : Frozen e t) {g g' : Gauge} (h : g.Alike t g') (into : Snapshot) :
    PutsSame e (Gauge.Alike t) g' (g.putValues into) (g'.putValues into) := by
  obtain ⟨r, rfl, h⟩ := h
  unfold Gauge.putValues
  simp only
  cases hv : g.value with
  | none => exact .pure ⟨rfl, ⟨r, by simp [hv], h⟩, ⟨r, by simp [hv], h⟩⟩
  | some v =>
    cases ht : g.tracking with
    | none =>
      rw [ht] at h
      cases h
      exact .pure ⟨rfl, ⟨none, by simp [hv], by rw [ht]; exact .none⟩, ⟨none, by simp [hv], by rw [ht]; exact .none⟩⟩
    | some b =>
      rw [ht] at h
      cases h with
      | some h =>
        refine .bind _ (h.stats hf v) ?_
        rintro ⟨b₁, st⟩ ⟨b₂, st'⟩ ⟨h1, h2, h3⟩
        simp only at h1 h2 h3
        subst h1
        exact .pure ⟨rfl, ⟨some b₂, by simp, .some h2⟩, ⟨_, by simp [hv], .some h3⟩⟩

theorem Gauge.Alike.put (hf : Frozen e t) {g g' : Gauge} (h : g.Alike t g') (into : Snapshot) (d : Bool) :
    PutsSame e (Gauge.Alike t) g' (g.putSnapshot into d) (g'.putSnapshot into d) := by
  have hn : g'.name = g.name ∧ g'.descr = g.descr ∧ g'.groupValues = g.groupValues := by
    obtain ⟨r, rfl, _⟩ := h; exact ⟨rfl, rfl, rfl⟩
  unfold Gauge.putSnapshot
  rw [hn.1, hn.2.1, hn.2.2]
  refine .ite (.bind _ (h.putValues hf []) ?_) (h.putValues hf _)
  rintro ⟨a, s⟩ ⟨b, s'⟩ ⟨h1, h2, h3⟩
  simp only at h1 h2 h3
  subst h1
  refine .pure ⟨?_, h2, h3⟩
  obtain ⟨r, rfl, _⟩ := h2
  rfl

/-! ## Meters -/

theorem StdMeter.catchUp_catchUp (rnd : Rat → Rat) {t t' : Int} (h : t ≤ t') (s : StdMeter) :
    (s.catchUp rnd t).catchUp rnd t' = s.catchUp rnd t' := by
  induction s using StdMeter.catchUp.induct rnd t with
  | case1 s hle ih =>
    rw [StdMeter.catchUp.eq_1 rnd t, if_pos hle, ih]
    conv_rhs => rw [StdMeter.catchUp, if_pos (by omega)]
  | case2 s hgt => rw [StdMeter.catchUp.eq_1 rnd t, if_neg hgt]

/-- Meters that are the same after they are ticked. -/
def Meter.Alike (rnd : Rat → Rat) (t : Int) (m m' : Meter) : Prop :=
  ∃ lt inner, m' = { m with lastTick := lt, inner } ∧ m.inner.catchUp rnd t = inner.catchUp rnd t

theorem Meter.Alike.refl (rnd : Rat → Rat) (t : Int) (m : Meter) : m.Alike rnd t m := ⟨m.lastTick, m.inner, rfl, rfl⟩

theorem Meter.Alike.mono {rnd : Rat → Rat} {t t' : Int} {m m' : Meter} (h : m.Alike rnd t m') (ht : t ≤ t') :
    m.Alike rnd t' m' := by
  obtain ⟨lt, inner, rfl, h⟩ := h
  refine ⟨lt, inner, rfl, ?_⟩
  rw [← StdMeter.catchUp_catchUp rnd ht, h, StdMeter.catchUp_catchUp rnd ht]

theorem sync_tick (hf : Frozen e t) (s s' : StdMeter) (h : s.catchUp e.rnd t = s'.catchUp e.rnd t) :
    M.Sync e (fun a b => a = b ∧ a = s.catchUp e.rnd t) s.tick s'.tick := by
  intro k k'
  have : ∀ (s : StdMeter) k, s.tick e k = some (s.catchUp e.rnd t, k + 1) := by
    intro s k
    show some (s.catchUp e.rnd (e.clock k), k + 1) = _
    rw [hf.clock]
  rw [this, this, h]
  exact .some ⟨rfl, rfl⟩

theorem sync_mark (hf : Frozen e t) {s s' : StdMeter} (h : s.catchUp e.rnd t = s'.catchUp e.rnd t) (n : Int) :
    M.Sync e Eq (s.mark n) (s'.mark n) := by
  refine .bind _ (sync_tick hf s s' h) ?_
  rintro a _ ⟨rfl, _⟩
  exact .bindEq (sync_arithI64 _) fun _ => .pure rfl

theorem sync_mean (hf : Frozen e t) (s : StdMeter) : M.Sync e Eq s.mean s.mean :=
  .ite (.pure rfl) (.bindEq sync_env fun _ => .bindEq hf.now fun _ => .bindEq (sync_arithU64 _) fun _ =>
    .bindEq (sync_arithU64 _) fun _ => .ite (.pure rfl) (.pure rfl))

theorem sync_stdSnapshot (hf : Frozen e t) {s s' : StdMeter} (h : s.catchUp e.rnd t = s'.catchUp e.rnd t) :
    M.Sync e (fun a b => a = b ∧ a.1 = s.catchUp e.rnd t) s.snapshot s'.snapshot := by
  refine .bindEq sync_env fun e => .bind _ (sync_tick hf s s' h) ?_
  rintro a _ ⟨rfl, ha⟩
  exact .bindEq (sync_mean hf a) fun _ => .pure ⟨rfl, ha⟩

/-- Ticking changes nothing. -/
theorem tickIfDue_spec (hf : Frozen e t) (m : Meter) (k : Nat) :
    ∃ lt inner k', m.tickIfDue e k = some ({ m with lastTick := lt, inner }, k') ∧
      inner.catchUp e.rnd t = m.inner.catchUp e.rnd t := by
  unfold Meter.tickIfDue
  rw [M.run_bind_some (M.run_now _ _)]
  split
  · refine ⟨_, m.inner.catchUp e.rnd (e.clock (k + 1)), _, rfl, ?_⟩
    rw [hf.clock, StdMeter.catchUp_catchUp _ (le_refl t)]
  · exact ⟨m.lastTick, m.inner, _, rfl, rfl⟩

theorem sync_tickIfDue (hf : Frozen e t) {m m' : Meter} (h : m.Alike e.rnd t m') :
    M.Sync e (fun a b => a.Alike e.rnd t b ∧ a.Alike e.rnd t m') m.tickIfDue m'.tickIfDue := by
  obtain ⟨lt, inner, rfl, h⟩ := h
  intro k k'
  obtain ⟨lt₁, inner₁, k₁, h₁, hi₁⟩ := tickIfDue_spec hf m k
  obtain ⟨lt₂, inner₂, k₂, h₂, hi₂⟩ := tickIfDue_spec hf { m with lastTick := lt, inner } k'
  rw [h₁, h₂]
  exact .some ⟨⟨_, _, rfl, by rw [hi₁, h, hi₂]⟩, ⟨_, _, rfl, by rw [hi₁, h]⟩⟩

theorem Meter.Alike.update (hf : Frozen e t) {m m' : Meter} (h : m.Alike e.rnd t m') (u : Update) :
    Takes e (Meter.Alike e.rnd t) (m.update u) (m'.update u) := by
  refine .bind _ (sync_tickIfDue hf h) ?_
  rintro m₁ m₂ ⟨h₁, _⟩
  have hm : ∀ n : Int, Takes e (Meter.Alike e.rnd t) (do return ({ m₁ with inner := ← m₁.inner.mark n }, 1))
      (do return ({ m₂ with inner := ← m₂.inner.mark n }, 1)) := by
    intro n
    obtain ⟨lt, inner, rfl, hi⟩ := h₁
    refine .bind _ (sync_mark hf hi n) ?_
    rintro a _ rfl
    exact .pure ⟨rfl, ⟨_, _, rfl, rfl⟩⟩
  cases u with
  | withValue _ _ => exact hm 1
  | observation _ => exact hm 1
  | observations n _ => exact .ite (hm n) (.pure ⟨rfl, h₁⟩)

theorem Meter.Alike.getSnapshot (hf : Frozen e t) {m m' : Meter} (h : m.Alike e.rnd t m') :
    M.Sync e (fun a b => a.2 = b.2 ∧ a.1.Alike e.rnd t b.1 ∧ a.1.Alike e.rnd t m') m.getSnapshot m'.getSnapshot := by
  refine .bind _ (sync_tickIfDue hf h) ?_
  rintro m₁ m₂ ⟨h₁, h₂⟩
  obtain ⟨lt, inner, rfl, hi⟩ := h₁
  obtain ⟨lt', inner', rfl, hi'⟩ := h₂
  refine .bind _ (sync_stdSnapshot hf hi) ?_
  rintro ⟨i, s⟩ _ ⟨rfl, hs⟩
  simp only at hs
  refine .pure ⟨rfl, ⟨_, _, rfl, rfl⟩, ⟨_, _, rfl, ?_⟩⟩
  show StdMeter.catchUp _ _ i = _
  rw [hs, StdMeter.catchUp_catchUp _ (le_refl t), hi']

theorem Meter.Alike.put (hf : Frozen e t) {m m' : Meter} (h : m.Alike e.rnd t m') (into : Snapshot) (d : Bool) :
    PutsSame e (Meter.Alike e.rnd t) m' (m.putSnapshot into d) (m'.putSnapshot into d) := by
  refine .bind _ (h.getSnapshot hf) ?_
  rintro ⟨a, s⟩ ⟨b, s'⟩ ⟨h1, h2, h3⟩
  simp only at h1 h2 h3
  subst h1
  exact .pure ⟨rfl, h2, h3⟩

def ValueMeter.Alike (rnd : Rat → Rat) (t : Int) (m m' : ValueMeter) : Prop :=
  ∃ i, m' = { m with meter := i } ∧ m.meter.Alike rnd t i

theorem ValueMeter.Alike.mark (hf : Frozen e t) {m m' : ValueMeter} (h : m.Alike e.rnd t m') (n : Int) :
    M.Sync e (ValueMeter.Alike e.rnd t) (m.mark n) (m'.mark n) := by
  obtain ⟨_, rfl, lt, inner, rfl, h⟩ := h
  refine .bind _ (sync_mark hf h n) ?_
  rintro a _ rfl
  exact .pure ⟨_, rfl, _, _, rfl, rfl⟩

theorem ValueMeter.Alike.update (hf : Frozen e t) {m m' : ValueMeter} (h : m.Alike e.rnd t m') (u : Update) :
    Takes e (ValueMeter.Alike e.rnd t) (m.update u) (m'.update u) := by
  have hu : m'.displayTimeUnit = m.displayTimeUnit := by obtain ⟨_, rfl, _⟩ := h; rfl
  have hm : ∀ n : Int, Takes e (ValueMeter.Alike e.rnd t) (do return (← m.mark n, 1)) (do return (← m'.mark n, 1)) :=
    fun n => .bind _ (h.mark hf n) fun _ _ h => .pure ⟨rfl, h⟩
  cases u with
  | withValue v _ =>
    cases v with
    | duration x y =>
      unfold ValueMeter.update
      simp only [hu]
      exact .bindEq (sync_duration _ _ _) fun _ => hm _
    | changedBy v => cases hc : (ObservedValue.changedBy v).convertToI64 <;> simp only [ValueMeter.update, hc] <;> first | exact hm _ | exact .pure ⟨rfl, h⟩
    | signedInteger v => cases hc : (ObservedValue.signedInteger v).convertToI64 <;> simp only [ValueMeter.update, hc] <;> first | exact hm _ | exact .pure ⟨rfl, h⟩
    | unsignedInteger v => cases hc : (ObservedValue.unsignedInteger v).convertToI64 <;> simp only [ValueMeter.update, hc] <;> first | exact hm _ | exact .pure ⟨rfl, h⟩
    | bool v => cases hc : (ObservedValue.bool v).convertToI64 <;> simp only [ValueMeter.update, hc] <;> first | exact hm _ | exact .pure ⟨rfl, h⟩
    | float v => cases hc : (ObservedValue.float v).convertToI64 <;> simp only [ValueMeter.update, hc] <;> first | exact hm _ | exact .pure ⟨rfl, h⟩
  | observation _ => exact .pure ⟨rfl, h⟩
  | observations _ _ => exact .pure ⟨rfl, h⟩

theorem ValueMeter.Alike.put (hf : Frozen e t) {m m' : ValueMeter} (h : m.Alike e.rnd t m') (into : Snapshot) (d : Bool) :
    PutsSame e (ValueMeter.Alike e.rnd t) m' (m.putSnapshot into d) (m'.putSnapshot into d) := by
  obtain ⟨i, rfl, h⟩ := h
  refine .bind _ (h.put hf into d) ?_
  rintro ⟨a, s⟩ ⟨b, s'⟩ ⟨h1, h2, h3⟩
  simp only at h1 h2 h3
  subst h1
  exact .pure ⟨rfl, ⟨_, rfl, h2⟩, ⟨_, rfl, h3⟩⟩

/-! ## Instruments -/

theorem sync_histogramUpdate (hf : Frozen e t) (h : Histogram) (u : Update) : M.Sync e Eq (h.update u) (h.update u) := by
  unfold Histogram.update
  refine .bindEq ?_ fun h => ?_
  · unfold Histogram.resetIfDue
    split
    · exact .ite (.bindEq hf.now fun _ => .ite (.pure rfl) (.pure rfl)) (.pure rfl)
    · exact .pure rfl
  · have hr : ∀ v : Int, M.Sync e Eq (h.record v) (h.record v) := fun v => .bindEq hf.now fun _ => .pure rfl
    split
    · exact .bindEq (sync_duration _ _ _) fun _ => .bindEq (hr _) fun _ => .pure rfl
    · split
      · exact .bindEq (hr _) fun _ => .pure rfl
      · exact .pure rfl
    · exact .pure rfl

theorem sync_histogramPut (hf : Frozen e t) (h : Histogram) (into : Snapshot) (d : Bool) :
    M.Sync e Eq (h.putSnapshot into d) (h.putSnapshot into d) := by
  unfold Histogram.putSnapshot
  refine .bindEq ?_ fun _ => .pure rfl
  unfold Histogram.putValues
  refine .bindEq ?_ fun a => ?_
  · unfold Histogram.isActive
    split
    · exact .bindEq hf.now fun _ => .pure rfl
    · exact .pure rfl
  · have hp : ∀ into, M.Sync e Eq (h.putHistogramValues into) (h.putHistogramValues into) := by
      intro into
      refine .of_map fun k k' => ?_
      unfold Histogram.putHistogramValues
      simp only [M.run_bind, M.env, M.readings]
      split
      · rw [hf.stats k k']; rfl
      · rfl
    exact .ite (hp _) (.pure rfl)

theorem sync_timedSwitch (name : String) (ds : Descr) (inv : Option NameAlternation) {state : M Bool}
    (hs : M.Sync e Eq state state) (into : Snapshot) (d : Bool) :
    M.Sync e Eq (putTimedSwitch name ds inv state into d) (putTimedSwitch name ds inv state into d) := by
  refine .bindEq hs fun s => ?_
  cases inv with
  | none => exact .pure rfl
  | some a => exact .bindEq hs fun _ => .pure rfl

theorem sync_keeping {I : Type} {f : I → Snapshot → Bool → M Snapshot} {i : I} {into : Snapshot} {d : Bool}
    (h : M.Sync e Eq (f i into d) (f i into d)) :
    M.Sync e (fun a b => a = b ∧ a.1 = i) (keeping f i into d) (keeping f i into d) :=
  .bindEq h fun _ => .pure ⟨rfl, rfl⟩

variable {σ L : Type}

/-- Instruments that are the same after they are ticked. -/
inductive Instrument.Alike (rnd : Rat → Rat) (t : Int) : Instrument σ → Instrument σ → Prop
  | gauge {i i' : Gauge} : i.Alike t i' → Alike rnd t (.gauge i) (.gauge i')
  | meter {i i' : Meter} : i.Alike rnd t i' → Alike rnd t (.meter i) (.meter i')
  | valueMeter {i i' : ValueMeter} : i.Alike rnd t i' → Alike rnd t (.valueMeter i) (.valueMeter i')
  | counter (i : Counter) : Alike rnd t (.counter i) (.counter i)
  | histogram (i : Histogram) : Alike rnd t (.histogram i) (.histogram i)
  | flag (i : Flag) : Alike rnd t (.flag i) (.flag i)
  | staircaseTimer (i : StaircaseTimer) : Alike rnd t (.staircaseTimer i) (.staircaseTimer i)
  | occurrenceIndicator (i : OccurrenceIndicator) : Alike rnd t (.occurrenceIndicator i) (.occurrenceIndicator i)
  | nonOccurrenceIndicator (i : NonOccurrenceIndicator) :
      Alike rnd t (.nonOccurrenceIndicator i) (.nonOccurrenceIndicator i)
  | dataDisplay (i : DataDisplay) : Alike rnd t (.dataDisplay i) (.dataDisplay i)
  | lastOccurrenceTracker (i : LastOccurrenceTracker) : Alike rnd t (.lastOccurrenceTracker i) (.lastOccurrenceTracker i)
  | custom (s : σ) : Alike rnd t (.custom s) (.custom s)

theorem Gauge.Alike.mono {t t' : Int} {g g' : Gauge} (h : g.Alike t g') (ht : t ≤ t') : g.Alike t' g' := by
  obtain ⟨r, rfl, h⟩ := h
  refine ⟨r, rfl, ?_⟩
  revert h
  cases g.tracking <;> cases r <;> intro h
  · exact .none
  · cases h
  · cases h
  · cases h with
    | some h => exact .some (h.mono ht)

theorem Gauge.Alike.refl {g : Gauge} (h : ∀ r, g.tracking = some r → r.currentIdx < r.buckets.length) : g.Alike t g := by
  refine ⟨g.tracking, rfl, ?_⟩
  cases hg : g.tracking with
  | none => exact .none
  | some r => exact .some (.refl (h r hg))

theorem ValueMeter.Alike.mono {rnd : Rat → Rat} {t t' : Int} {m m' : ValueMeter} (h : m.Alike rnd t m') (ht : t ≤ t') :
    m.Alike rnd t' m' := by
  obtain ⟨i, rfl, h⟩ := h
  exact ⟨i, rfl, h.mono ht⟩

theorem Instrument.Alike.mono {rnd : Rat → Rat} {t t' : Int} {i i' : Instrument σ} (h : i.Alike rnd t i') (ht : t ≤ t') :
    i.Alike rnd t' i' := by
  cases h with
  | gauge h => exact .gauge (h.mono ht)
  | meter h => exact .meter (h.mono ht)
  | valueMeter h => exact .valueMeter (h.mono ht)
  | _ => constructor

theorem Instrument.Alike.refl {rnd : Rat → Rat} {t : Int} {i : Instrument σ} (h : RingsOk [i]) : i.Alike rnd t i := by
  cases i with
  | gauge g => exact .gauge (.refl fun r hr => h g r (by simp) hr)
  | meter m => exact .meter (.refl _ _ _)
  | valueMeter m => exact .valueMeter ⟨m.meter, rfl, .refl _ _ _⟩
  | _ => constructor

theorem takes_of_eq {C D : Type} {R : C → C → Prop} {w : D → C} {x : M (D × Nat)} (hx : M.Sync e Eq x x)
    (hr : ∀ c, R (w c) (w c)) :
    Takes e R (do let (i, n) ← x; return (w i, n)) (do let (i, n) ← x; return (w i, n)) :=
  .bindEq hx fun _ => .pure ⟨rfl, hr _⟩

theorem takes_wrap {C D : Type} {R : C → C → Prop} {S : D → D → Prop} {w : D → C} {x y : M (D × Nat)}
    (hx : Takes e S x y) (hr : ∀ c c', S c c' → R (w c) (w c')) :
    Takes e R (do let (i, n) ← x; return (w i, n)) (do let (i, n) ← y; return (w i, n)) :=
  .bind _ hx fun _ _ h => .pure ⟨h.1, hr _ _ h.2⟩

theorem puts_of_eq {C D : Type} {R : C → C → Prop} {w : D → C} {i : D} {x : M (D × Snapshot)}
    (hx : M.Sync e (fun a b => a = b ∧ a.1 = i) x x) (hr : ∀ c, R (w c) (w c)) :
    PutsSame e R (w i) (do let (i, n) ← x; return (w i, n)) (do let (i, n) ← x; return (w i, n)) :=
  .bind _ hx fun a b h => by
    obtain ⟨rfl, rfl⟩ := h
    exact .pure ⟨rfl, hr _, hr _⟩

theorem puts_wrap {C D : Type} {R : C → C → Prop} {S : D → D → Prop} {w : D → C} {c' : D} {x y : M (D × Snapshot)}
    (hx : PutsSame e S c' x y) (hr : ∀ c c', S c c' → R (w c) (w c')) :
    PutsSame e R (w c') (do let (i, n) ← x; return (w i, n)) (do let (i, n) ← y; return (w i, n)) :=
  .bind _ hx fun _ _ h => .pure ⟨h.1, hr _ _ h.2.1, hr _ _ h.2.2⟩

/-- What is needed of user defined components at the moment. -/
structure StillAt (σ L : Type) [Custom σ L] (e : Env) : Prop where
  update : ∀ (s : σ) u, M.Sync e Eq (Custom.update L s u) (Custom.update L s u)
  handle : ∀ (s : σ) (o : Observation L), M.Sync e Eq (Custom.handle s o) (Custom.handle s o)
  put : ∀ (s : σ) into d, M.Sync e (fun a b => a = b ∧ a.1 = s) (Custom.putSnapshot L s into d) (Custom.putSnapshot L s into d)

theorem CustomStill.at [Custom σ L] (h : CustomStill σ L) (e : Env) (m : Nat) : StillAt σ L (e.at m) where
  update s u := .of_map (h.update e m s u)
  handle s o := .of_map (h.handle e m s o)
  put s into d := by
    intro k k'
    have h1 := h.putSnapshot e m s into d k k'
    have h2 := h.unchanged e m s into d k
    revert h1 h2
    cases Custom.putSnapshot L s into d (e.at m) k <;> cases Custom.putSnapshot L s into d (e.at m) k' <;> intro h1 h2
    · exact .none
    · cases h1
    · cases h1
    · exact .some ⟨Option.some.inj h1, h2 _ rfl⟩

variable [Custom σ L]

theorem Instrument.Alike.update (hc : StillAt σ L e) (hf : Frozen e t) {i i' : Instrument σ} (h : i.Alike e.rnd t i')
    (u : Update) : Takes e (Instrument.Alike e.rnd t) (i.update L u) (i'.update L u) := by
  cases h with
  | gauge h => exact takes_wrap (h.update hf u) fun _ _ => .gauge
  | meter h => exact takes_wrap (h.update hf u) fun _ _ => .meter
  | valueMeter h => exact takes_wrap (h.update hf u) fun _ _ => .valueMeter
  | counter i =>
    refine takes_of_eq ?_ .counter
    cases u with
    | withValue _ _ => exact .bindEq (.bindEq (sync_arithU64 _) fun _ => .pure rfl) fun _ => .pure rfl
    | observation _ => exact .bindEq (.bindEq (sync_arithU64 _) fun _ => .pure rfl) fun _ => .pure rfl
    | observations _ _ => exact .bindEq (.bindEq (sync_arithU64 _) fun _ => .pure rfl) fun _ => .pure rfl
  | histogram i => exact takes_of_eq (sync_histogramUpdate hf i u) .histogram
  | flag i => exact takes_of_eq (.pure rfl) .flag
  | staircaseTimer i =>
    refine takes_of_eq ?_ .staircaseTimer
    show M.Sync e Eq (i.update u) (i.update u)
    unfold StaircaseTimer.update
    exact .bindEq hf.now fun _ => .bindEq (sync_addDur _ _) fun _ => .pure rfl
  | occurrenceIndicator i =>
    refine takes_of_eq ?_ .occurrenceIndicator
    show M.Sync e Eq (i.update u) (i.update u)
    unfold OccurrenceIndicator.update
    exact .bindEq hf.now fun _ => .pure rfl
  | nonOccurrenceIndicator i =>
    refine takes_of_eq ?_ .nonOccurrenceIndicator
    show M.Sync e Eq (i.update u) (i.update u)
    unfold NonOccurrenceIndicator.update
    exact .bindEq hf.now fun _ => .pure rfl
  | dataDisplay i =>
    refine takes_of_eq ?_ .dataDisplay
    show M.Sync e Eq (i.update u) (i.update u)
    unfold DataDisplay.update
    split
    · split
      · exact .bindEq hf.now fun _ => .bindEq (sync_addDur _ _) fun _ => .pure rfl
      · exact .pure rfl
    · exact .pure rfl
  | lastOccurrenceTracker i =>
    refine takes_of_eq ?_ .lastOccurrenceTracker
    show M.Sync e Eq (i.update u) (i.update u)
    unfold LastOccurrenceTracker.update
    exact .bindEq hf.now fun _ => .pure rfl
  | custom s => exact takes_of_eq (hc.update s u) .custom

theorem Instrument.Alike.put (hc : StillAt σ L e) (hf : Frozen e t) {i i' : Instrument σ} (h : i.Alike e.rnd t i')
    (into : Snapshot) (d : Bool) :
    PutsSame e (Instrument.Alike e.rnd t) i' (i.putSnapshot L into d) (i'.putSnapshot L into d) := by
  cases h with
  | gauge h => exact puts_wrap (h.put hf into d) fun _ _ => .gauge
  | meter h => exact puts_wrap (h.put hf into d) fun _ _ => .meter
  | valueMeter h => exact puts_wrap (h.put hf into d) fun _ _ => .valueMeter
  | counter i => exact puts_of_eq (sync_keeping (.pure rfl)) .counter
  | histogram i => exact puts_of_eq (sync_keeping (sync_histogramPut hf i into d)) .histogram
  | flag i => exact puts_of_eq (sync_keeping (.pure rfl)) .flag
  | staircaseTimer i =>
    refine puts_of_eq (sync_keeping (sync_timedSwitch _ _ _ ?_ _ _)) .staircaseTimer
    unfold StaircaseTimer.state
    split
    · exact .bindEq hf.now fun _ => .pure rfl
    · exact .pure rfl
  | occurrenceIndicator i =>
    exact puts_of_eq (sync_keeping (sync_timedSwitch _ _ _ (.bindEq hf.now fun _ => .bindEq (sync_subDur _ _) fun _ =>
      .pure rfl) _ _)) .occurrenceIndicator
  | nonOccurrenceIndicator i =>
    exact puts_of_eq (sync_keeping (sync_timedSwitch _ _ _ (.bindEq hf.now fun _ => .bindEq (sync_subDur _ _) fun _ =>
      .pure rfl) _ _)) .nonOccurrenceIndicator
  | dataDisplay i =>
    refine puts_of_eq (sync_keeping ?_) .dataDisplay
    unfold DataDisplay.putSnapshot
    refine .bindEq ?_ fun o => ?_
    · unfold DataDisplay.shown
      split
      · exact .bindEq hf.now fun _ => .pure rfl
      · exact .pure rfl
    · cases o with
      | none => exact .pure rfl
      | some v => exact .pure rfl
  | lastOccurrenceTracker i =>
    refine puts_of_eq (sync_keeping ?_) .lastOccurrenceTracker
    unfold LastOccurrenceTracker.putSnapshot
    refine .bindEq ?_ fun o => ?_
    · unfold LastOccurrenceTracker.elapsed
      split
      · exact .bindEq hf.now fun _ => .pure rfl
      · exact .pure rfl
    · cases o with
      | none => exact .ite (.pure rfl) (.pure rfl)
      | some v => exact .pure rfl
  | custom s => exact puts_of_eq (hc.put s into d) .custom

/-! ## Adapters and panels -/

section
omit [Custom σ L]

def InstrumentAdapter.Alike {I : Type} (R : I → I → Prop) (a a' : InstrumentAdapter L I) : Prop :=
  ∃ i, a' = { a with instrument := i } ∧ R a.instrument i

def GaugeAdapter.Alike (t : Int) (a a' : GaugeAdapter L) : Prop := ∃ g, a' = { a with gauge := g } ∧ a.gauge.Alike t g

theorem InstrumentAdapter.Alike.handle [DecidableEq L] {I : Type} {R : I → I → Prop} {up : I → Update → M (I × Nat)}
    (hup : ∀ i i' u, R i i' → Takes e R (up i u) (up i' u)) {a a' : InstrumentAdapter L I} (h : a.Alike R a')
    (o : Observation L) : Takes e (InstrumentAdapter.Alike R) (a.handle up o) (a'.handle up o) := by
  obtain ⟨i, rfl, h⟩ := h
  refine .ite ?_ (.pure ⟨rfl, i, rfl, h⟩)
  exact .bind _ (hup _ _ _ h) fun _ _ h => .pure ⟨h.1, _, rfl, h.2⟩

theorem InstrumentAdapter.Alike.put {I : Type} {R : I → I → Prop} {put : I → Snapshot → Bool → M (I × Snapshot)}
    (hput : ∀ i i' s d, R i i' → PutsSame e R i' (put i s d) (put i' s d)) {a a' : InstrumentAdapter L I} (h : a.Alike R a')
    (s : Snapshot) (d : Bool) : PutsSame e (InstrumentAdapter.Alike R) a' (a.putSnapshot put s d) (a'.putSnapshot put s d) := by
  obtain ⟨i, rfl, h⟩ := h
  exact .bind _ (hput _ _ _ _ h) fun _ _ h => .pure ⟨h.1, ⟨_, rfl, h.2.1⟩, ⟨_, rfl, h.2.2⟩⟩

theorem InstrumentAdapter.Alike.mono {I : Type} {R S : I → I → Prop} (hRS : ∀ i i', R i i' → S i i')
    {a a' : InstrumentAdapter L I} (h : a.Alike R a') : a.Alike S a' := by
  obtain ⟨i, rfl, h⟩ := h
  exact ⟨i, rfl, hRS _ _ h⟩

theorem GaugeAdapter.Alike.updateGauge (hf : Frozen e t) {a a' : GaugeAdapter L} (h : a.Alike t a') (u : Update) :
    Takes e (GaugeAdapter.Alike t) (a.updateGauge u) (a'.updateGauge u) := by
  obtain ⟨g, rfl, h⟩ := h
  exact .bind _ (h.update hf u) fun _ _ h => .pure ⟨h.1, _, rfl, h.2⟩

theorem GaugeAdapter.Alike.handle [DecidableEq L] (hf : Frozen e t) {a a' : GaugeAdapter L} (h : a.Alike t a')
    (o : Observation L) : Takes e (GaugeAdapter.Alike t) (a.handle o) (a'.handle o) := by
  have hs : a'.strategy = a.strategy ∧ a'.modifyUpdate = a.modifyUpdate := by obtain ⟨g, rfl, _⟩ := h; exact ⟨rfl, rfl⟩
  unfold GaugeAdapter.handle
  rw [hs.1, hs.2]
  split
  · exact .ite (h.updateGauge hf _) (.pure ⟨rfl, h⟩)
  · refine .ite ?_ (.pure ⟨rfl, h⟩)
    split
    · exact h.updateGauge hf _
    · exact .pure ⟨rfl, h⟩
  · exact .ite (h.updateGauge hf _) (.ite (h.updateGauge hf _) (.pure ⟨rfl, h⟩))

theorem GaugeAdapter.Alike.put (hf : Frozen e t) {a a' : GaugeAdapter L} (h : a.Alike t a') (s : Snapshot) (d : Bool) :
    PutsSame e (GaugeAdapter.Alike t) a' (a.putSnapshot s d) (a'.putSnapshot s d) := by
  obtain ⟨i, rfl, h⟩ := h
  exact .bind _ (h.put hf _ _) fun _ _ h => .pure ⟨h.1, ⟨_, rfl, h.2.1⟩, ⟨_, rfl, h.2.2⟩⟩

theorem GaugeAdapter.Alike.mono {t t' : Int} (ht : t ≤ t') {a a' : GaugeAdapter L} (h : a.Alike t a') : a.Alike t' a' := by
  obtain ⟨i, rfl, h⟩ := h
  exact ⟨i, rfl, h.mono ht⟩

theorem handleSlot_takes {A : Type} {R : A → A → Prop} {f : A → M (A × Nat)} (hfun : ∀ a a', R a a' → Takes e R (f a) (f a'))
    {a a' : Option A} (h : Option.Rel R a a') : Takes e (Option.Rel R) (handleSlot f a) (handleSlot f a') := by
  cases h with
  | none => exact .pure ⟨rfl, .none⟩
  | some h => exact .bind _ (hfun _ _ h) fun _ _ h => .pure ⟨h.1, .some h.2⟩

theorem putSlot_puts {A : Type} {R : A → A → Prop} {f : A → Snapshot → M (A × Snapshot)}
    (hfun : ∀ a a' s, R a a' → PutsSame e R a' (f a s) (f a' s)) {a a' : Option A} (h : Option.Rel R a a') (s : Snapshot) :
    PutsSame e (Option.Rel R) a' (putSlot f a s) (putSlot f a' s) := by
  cases h with
  | none => exact .pure ⟨rfl, .none, .none⟩
  | some h => exact .bind _ (hfun _ _ _ h) fun _ _ h => .pure ⟨h.1, .some h.2.1, .some h.2.2⟩

def PanelHead.Alike (rnd : Rat → Rat) (t : Int) (h h' : PanelHead L) : Prop :=
  ∃ g m, h' = { h with gauge := g, meter := m } ∧ Option.Rel (GaugeAdapter.Alike t) h.gauge g ∧
    Option.Rel (InstrumentAdapter.Alike (Meter.Alike rnd t)) h.meter m

theorem sync_slot {A : Type} {f : A → M (A × Nat)} (hfun : ∀ a, M.Sync e Eq (f a) (f a)) (a : Option A) :
    M.Sync e Eq (handleSlot f a) (handleSlot f a) := by
  cases a with
  | none => exact .pure rfl
  | some a => exact .bindEq (hfun a) fun _ => .pure rfl

theorem sync_adapter [DecidableEq L] {I : Type} {up : I → Update → M (I × Nat)} (hup : ∀ i u, M.Sync e Eq (up i u) (up i u))
    (a : InstrumentAdapter L I) (o : Observation L) : M.Sync e Eq (a.handle up o) (a.handle up o) :=
  .ite (.bindEq (hup _ _) fun _ => .pure rfl) (.pure rfl)

theorem sync_counterUpdate (i : Counter) (u : Update) : M.Sync e Eq (i.update u) (i.update u) := by
  cases u with
  | withValue _ _ => exact .bindEq (.bindEq (sync_arithU64 _) fun _ => .pure rfl) fun _ => .pure rfl
  | observation _ => exact .bindEq (.bindEq (sync_arithU64 _) fun _ => .pure rfl) fun _ => .pure rfl
  | observations _ _ => exact .bindEq (.bindEq (sync_arithU64 _) fun _ => .pure rfl) fun _ => .pure rfl

theorem PanelHead.Alike.handle [DecidableEq L] (hf : Frozen e t) {h h' : PanelHead L} (ha : h.Alike e.rnd t h')
    (o : Observation L) : Takes e (PanelHead.Alike e.rnd t) (h.handle o) (h'.handle o) := by
  obtain ⟨g, m, rfl, hg, hm⟩ := ha
  unfold PanelHead.handle
  refine .bindEq (sync_slot (fun a => sync_adapter sync_counterUpdate a o) _) fun c => ?_
  refine .bind _ (handleSlot_takes (fun a a' h => h.handle hf o) hg) ?_
  rintro ⟨g₁, n₁⟩ ⟨g₂, _⟩ ⟨rfl, hg⟩
  refine .bind _ (handleSlot_takes (fun a a' h => h.handle (fun i i' u h => h.update hf u) o) hm) ?_
  rintro ⟨m₁, n₂⟩ ⟨m₂, _⟩ ⟨rfl, hm⟩
  refine .bindEq (sync_slot (fun a => sync_adapter (fun i u => sync_histogramUpdate hf i u) a o) _) fun c => ?_
  exact .pure ⟨rfl, _, _, rfl, hg, hm⟩

theorem PanelHead.Alike.putSlots (hf : Frozen e t) {h h' : PanelHead L} (ha : h.Alike e.rnd t h') (s : Snapshot) (d : Bool) :
    PutsSame e (PanelHead.Alike e.rnd t) h' (h.putSlots s d) (h'.putSlots s d) := by
  obtain ⟨g, m, rfl, hg, hm⟩ := ha
  have slot : ∀ {I : Type} [IsInstrument I] (hput : ∀ (i : I) s, M.Sync e (fun a b => a = b ∧ a.1 = i)
      (IsInstrument.putSnapshot i s d) (IsInstrument.putSnapshot i s d)) (a : Option (InstrumentAdapter L I)) s,
      M.Sync e (fun x y => x = y ∧ x.1 = a) (putSlot (fun a s => a.putSnapshot IsInstrument.putSnapshot s d) a s)
        (putSlot (fun a s => a.putSnapshot IsInstrument.putSnapshot s d) a s) := by
    intro I _ hput a s
    cases a with
    | none => exact .pure ⟨rfl, rfl⟩
    | some a =>
      refine .bind (fun x y => x = y ∧ x.1 = a) (.bind _ (hput _ _) ?_) ?_
      · rintro ⟨i, s⟩ _ ⟨rfl, rfl⟩
        exact .pure ⟨rfl, rfl⟩
      · rintro ⟨i, s⟩ _ ⟨rfl, rfl⟩
        exact .pure ⟨rfl, rfl⟩
  unfold PanelHead.putSlots
  refine .bind _ (slot (fun i s => sync_keeping (.pure rfl)) h.counter s) ?_
  rintro ⟨c, s₁⟩ _ ⟨rfl, hc⟩
  simp only at hc
  refine .bind _ (putSlot_puts (fun a a' s h => h.put hf s d) hg s₁) ?_
  rintro ⟨g₁, s₂⟩ ⟨g₂, _⟩ ⟨rfl, hg, hg'⟩
  refine .bind _ (putSlot_puts (fun a a' s h => h.put (fun i i' s d h => h.put hf s d) s d) hm s₂) ?_
  rintro ⟨m₁, s₃⟩ ⟨m₂, _⟩ ⟨rfl, hm, hm'⟩
  refine .bind _ (slot (fun i s => sync_keeping (sync_histogramPut hf i s d)) h.histogram s₃) ?_
  rintro ⟨hh, s₄⟩ _ ⟨rfl, hh'⟩
  simp only at hh'
  subst hc hh'
  exact .pure ⟨rfl, ⟨_, _, rfl, hg, hm⟩, ⟨_, _, rfl, hg', hm'⟩⟩

theorem rel_mono {A : Type} {R S : A → A → Prop} (h : ∀ a b, R a b → S a b) {a b : Option A} (hab : Option.Rel R a b) :
    Option.Rel S a b := by
  cases hab with
  | none => exact .none
  | some h' => exact .some (h _ _ h')

theorem PanelHead.Alike.mono {rnd : Rat → Rat} {t t' : Int} (ht : t ≤ t') {h h' : PanelHead L} (ha : h.Alike rnd t h') :
    h.Alike rnd t' h' := by
  obtain ⟨g, m, rfl, hg, hm⟩ := ha
  exact ⟨g, m, rfl, rel_mono (fun _ _ h => h.mono ht) hg, rel_mono (fun _ _ h => h.mono fun _ _ h => h.mono ht) hm⟩

theorem PanelHead.Alike.refl (rnd : Rat → Rat) (t : Int) {h : PanelHead L}
    (hr : RingsOk (h.instruments : List (Instrument σ))) : h.Alike rnd t h := by
  refine ⟨h.gauge, h.meter, rfl, ?_, ?_⟩
  · cases hg : h.gauge with
    | none => exact .none
    | some a =>
      refine .some ⟨a.gauge, rfl, .refl fun r ht => hr a.gauge r ?_ ht⟩
      simp [PanelHead.instruments, hg]
  · cases hm : h.meter with
    | none => exact .none
    | some a => exact .some ⟨a.instrument, rfl, .refl _ _ _⟩

end

end Metrix
