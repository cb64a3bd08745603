import Verif.Proof.Batch
import Verif.Proof.Values
import Verif.Proof.AgreeRun
import Verif.Spec.Order

/-! # Observations that come in another order -/

namespace Metrix
variable {σ L : Type}

/-! ## Instruments -/

section Instruments
variable {e : Env} {t : Int}

/-- What something does at the moment, whatever the number of clock readings so far. -/
def Acts {S : Type} (e : Env) (f : S → M (S × Nat)) (F : S → Option (S × Nat)) : Prop := ∀ x k, (f x e k).map (·.1) = F x

theorem Swaps.acts {S : Type} {f g : S → M (S × Nat)} {F G : S → Option (S × Nat)} (hf : Acts e f F) (hg : Acts e g G) {x : S}
    (h : ∀ z c y c', F x = some (z, c) → G z = some (y, c') → ∃ z', G x = some (z', c') ∧ F z' = some (y, c)) : Swaps e f g x := by
  have run : ∀ {f : S → M (S × Nat)} {F : S → Option (S × Nat)} {x : S} {r : S × Nat}, Acts e f F → F x = some r →
      ∀ k, ∃ k', f x e k = some (r, k') := by
    intro f F x r hf hr k
    have := hf x k
    rw [hr] at this
    obtain ⟨⟨r, k'⟩, h1, rfl⟩ := Option.map_eq_some_iff.1 this
    exact ⟨k', h1⟩
  intro k₁ k₁' k₂ k₂' z y c c' h1 h2
  have h3 := hf x k₁
  have h4 := hg z k₂
  rw [h1] at h3
  rw [h2] at h4
  obtain ⟨z', h5, h6⟩ := h z c y c' h3.symm h4.symm
  exact ⟨z', run hg h5, run hf h6⟩

theorem Swaps.map {S T : Type} {f g : S → M (S × Nat)} {f' g' : T → M (T × Nat)} (w : S → T) {x : S} (hj : Swaps e f g x)
    (hf : ∀ x, f' (w x) = do let r ← f x; return (w r.1, r.2)) (hg : ∀ x, g' (w x) = do let r ← g x; return (w r.1, r.2)) :
    Swaps e f' g' (w x) := by
  intro k₁ k₁' k₂ k₂' z y c c' h1 h2
  rw [hf] at h1
  obtain ⟨⟨z, c⟩, k₃, h3, h1⟩ := M.bind_eq_some.1 h1
  cases h1
  rw [hg] at h2
  obtain ⟨⟨y, c'⟩, k₄, h4, h2⟩ := M.bind_eq_some.1 h2
  cases h2
  obtain ⟨z', h5, h6⟩ := hj _ _ _ _ _ _ _ _ h3 h4
  refine ⟨w z', fun k => ?_, fun k => ?_⟩
  · obtain ⟨k', h⟩ := h5 k
    rw [hg, M.run_bind_some h]; exact ⟨_, rfl⟩
  · obtain ⟨k', h⟩ := h6 k
    rw [hf, M.run_bind_some h]; exact ⟨_, rfl⟩

theorem steady {S : Type} {m : M S} (hm : M.Sync e Eq m m) {k k' : Nat} {r : S} (h : m e k = some (r, k')) :
    ∀ j, ∃ j', m e j = some (r, j') := by
  intro j
  have := hm k j
  rw [h] at this
  cases hj : m e j with
  | none => rw [hj] at this; cases this
  | some r' =>
    rw [hj] at this
    cases this with
    | some h => obtain ⟨r', j'⟩ := r'; cases h; exact ⟨_, rfl⟩

theorem Acts.steady {S : Type} {f : S → M (S × Nat)} {F : S → Option (S × Nat)} (hf : Acts e f F) (x : S) : M.Sync e Eq (f x) (f x) :=
  .of_map fun k k' => by rw [hf, hf]

/-- One of them does nothing. -/
theorem Swaps.left {S : Type} {f g : S → M (S × Nat)} {x : S} {n : Nat} (hf : ∀ x' k₁ k₁' c, g x e k₁ = some ((x', c), k₁') → f x' = pure (x', n))
    (h0 : f x = pure (x, n)) (hg : M.Sync e Eq (g x) (g x)) : Swaps e f g x := by
  intro k₁ k₁' k₂ k₂' z y c c' h1 h2
  rw [h0] at h1
  cases h1
  exact ⟨y, steady hg h2, fun k => ⟨k, by rw [hf _ _ _ _ h2]; rfl⟩⟩

theorem Swaps.right {S : Type} {f g : S → M (S × Nat)} {x : S} {n : Nat} (hg : ∀ x' k₁ k₁' c, f x e k₁ = some ((x', c), k₁') → g x' = pure (x', n))
    (h0 : g x = pure (x, n)) (hf : M.Sync e Eq (f x) (f x)) : Swaps e f g x := by
  intro k₁ k₁' k₂ k₂' z y c c' h1 h2
  rw [hg _ _ _ _ h1] at h2
  cases h2
  exact ⟨x, fun k => ⟨k, by rw [h0]; rfl⟩, steady hf h1⟩

/-- One after the other, each on its own part. -/
theorem Swaps.both {A B T : Type} {f g : A → M (A × Nat)} {f' g' : B → M (B × Nat)} {F G : T → M (T × Nat)} (w : A → B → T)
    {a : A} {b : B} (ha : Swaps e f g a) (hb : Swaps e f' g' b)
    (hF : ∀ a b, F (w a b) = do let r ← f a; let r' ← f' b; return (w r.1 r'.1, r.2 + r'.2))
    (hG : ∀ a b, G (w a b) = do let r ← g a; let r' ← g' b; return (w r.1 r'.1, r.2 + r'.2)) : Swaps e F G (w a b) := by
  intro k₁ k₁' k₂ k₂' z y c c' h1 h2
  rw [hF] at h1
  obtain ⟨⟨a₁, c₁⟩, k₃, f1, h1⟩ := M.bind_eq_some.1 h1
  obtain ⟨⟨a₂, c₂⟩, k₄, f2, h1⟩ := M.bind_eq_some.1 h1
  cases h1
  dsimp only at h2
  rw [hG] at h2
  obtain ⟨⟨b₁, d₁⟩, k₅, g1, h2⟩ := M.bind_eq_some.1 h2
  obtain ⟨⟨b₂, d₂⟩, k₆, g2, h2⟩ := M.bind_eq_some.1 h2
  cases h2
  obtain ⟨z₁, p1, q1⟩ := ha _ _ _ _ _ _ _ _ f1 g1
  obtain ⟨z₂, p2, q2⟩ := hb _ _ _ _ _ _ _ _ f2 g2
  refine ⟨w z₁ z₂, fun k => ?_, fun k => ?_⟩
  · obtain ⟨j, h⟩ := p1 k
    obtain ⟨j', h'⟩ := p2 j
    rw [hG]
    exact ⟨j', M.bind_eq_some.2 ⟨_, _, h, M.bind_eq_some.2 ⟨_, _, h', rfl⟩⟩⟩
  · obtain ⟨j, h⟩ := q1 k
    obtain ⟨j', h'⟩ := q2 j
    rw [hF]
    exact ⟨j', M.bind_eq_some.2 ⟨_, _, h, M.bind_eq_some.2 ⟨_, _, h', rfl⟩⟩⟩

theorem Swaps.congr {S : Type} {f g f' g' : S → M (S × Nat)} {x : S} (h : Swaps e f g x) (hf : ∀ x, f' x = f x) (hg : ∀ x, g' x = g x) :
    Swaps e f' g' x := by
  rw [show f' = f from funext hf, show g' = g from funext hg]; exact h

theorem Counter.acts (hp : e.profile = .release) (u : Update) :
    Acts e (Counter.update · u) fun c => some ({ c with count := (c.count + u.occurrences) % u64Bound }, 1) := by
  intro c k
  have h1 : ∀ n, c.incBy n e k = some ({ c with count := (c.count + n) % u64Bound }, k) := by
    intro n
    unfold Counter.incBy
    rw [M.run_bind_some (arithU64_release hp)]; rfl
  have h2 : ∀ n, (do return (← c.incBy n, 1) : M (Counter × Nat)) e k = some (({ c with count := (c.count + n) % u64Bound }, 1), k) := by
    intro n
    rw [M.run_bind_some (h1 n)]; rfl
  cases u with
  | observation _ => exact congrArg (Option.map (·.1)) (h2 1)
  | withValue _ _ => exact congrArg (Option.map (·.1)) (h2 1)
  | observations n _ => exact congrArg (Option.map (·.1)) (h2 n)

theorem Counter.swaps (hp : e.profile = .release) (u u' : Update) (c : Counter) : Swaps e (Counter.update · u) (Counter.update · u') c := by
  refine .acts (acts hp u) (acts hp u') fun z n y n' h1 h2 => ?_
  cases h1; cases h2
  refine ⟨_, rfl, ?_⟩
  simp only [Option.some.injEq, Prod.mk.injEq, and_true, Counter.mk.injEq, true_and]
  unfold u64Bound
  omega

/-- The measurement after marking. -/
def StdMeter.marked (rnd : Rat → Rat) (t : Int) (s : StdMeter) (n : Int) : StdMeter :=
  { s.catchUp rnd t with
    count := wrapI64 ((s.catchUp rnd t).count + n)
    ewma1 := (s.catchUp rnd t).ewma1.update (wrapU64 n)
    ewma5 := (s.catchUp rnd t).ewma5.update (wrapU64 n)
    ewma15 := (s.catchUp rnd t).ewma15.update (wrapU64 n) }

theorem StdMeter.mark_release (hp : e.profile = .release) (hf : Frozen e t) (s : StdMeter) (n : Int) (k : Nat) :
    ∃ k', s.mark n e k = some (s.marked e.rnd t n, k') := by
  have h1 : s.tick e k = some (s.catchUp e.rnd t, k + 1) := by
    show some (s.catchUp e.rnd (e.clock k), k + 1) = _
    rw [hf.clock]
  unfold StdMeter.mark
  rw [M.run_bind_some h1, M.run_bind_some (arithI64_release hp)]
  exact ⟨_, rfl⟩

theorem StdMeter.marked_caught (rnd : Rat → Rat) (t : Int) (s : StdMeter) (n : Int) : (s.marked rnd t n).catchUp rnd t = s.marked rnd t n := by
  have := s.catchUp_nextTick rnd t
  rw [StdMeter.catchUp, if_neg]
  unfold StdMeter.marked
  dsimp only
  omega

theorem Ewma.update_comm (w : Ewma) (a b : Nat) : (w.update a).update b = (w.update b).update a := by
  unfold Ewma.update
  dsimp only
  congr 1
  unfold u64Bound
  omega

theorem StdMeter.marked_comm (rnd : Rat → Rat) (t : Int) (s : StdMeter) (a b : Int) :
    (s.marked rnd t a).marked rnd t b = (s.marked rnd t b).marked rnd t a := by
  rw [StdMeter.marked, marked_caught, StdMeter.marked.eq_1 (n := a) (s := s.marked rnd t b), marked_caught]
  unfold StdMeter.marked
  dsimp only
  rw [Ewma.update_comm, Ewma.update_comm (s.catchUp rnd t).ewma5, Ewma.update_comm (s.catchUp rnd t).ewma15, wrapI64_wrapI64_add,
    wrapI64_wrapI64_add]
  congr 2
  ring

/-- The number that a meter marks. -/
def Update.marks : Update → Option Int
  | .observations n _ => if (n : Int) ≤ i64Max ∧ n ≠ 0 then some n else none
  | _ => some 1

/-- The meter after an update. -/
def Meter.after (rnd : Rat → Rat) (t : Int) (m : Meter) (u : Update) : Meter :=
  { m with
    lastTick := if sinceNs t m.lastTick ≥ tickNs then t else m.lastTick
    inner := match u.marks with
      | some n => m.inner.marked rnd t n
      | none => if sinceNs t m.lastTick ≥ tickNs then m.inner.catchUp rnd t else m.inner }

theorem Meter.acts (hp : e.profile = .release) (hf : Frozen e t) (u : Update) :
    Acts e (Meter.update · u) fun m => some (m.after e.rnd t u, 1) := by
  intro m k
  have htick : ∃ k', m.tickIfDue e k = some ({ m with
      lastTick := if sinceNs t m.lastTick ≥ tickNs then t else m.lastTick
      inner := if sinceNs t m.lastTick ≥ tickNs then m.inner.catchUp e.rnd t else m.inner }, k') := by
    unfold Meter.tickIfDue
    rw [M.run_bind_some (M.run_now _ _), hf.clock]
    split
    · refine ⟨k + 1 + 1 + 1, ?_⟩
      show some (({ m with inner := m.inner.catchUp e.rnd (e.clock (k + 1)), lastTick := e.clock (k + 2) } : Meter), _) = _
      rw [hf.clock, hf.clock]
    · exact ⟨_, rfl⟩
  obtain ⟨k', htick⟩ := htick
  have hcc : ∀ n, (if sinceNs t m.lastTick ≥ tickNs then m.inner.catchUp e.rnd t else m.inner).marked e.rnd t n = m.inner.marked e.rnd t n := by
    intro n
    split
    · unfold StdMeter.marked
      rw [StdMeter.catchUp_catchUp _ (le_refl t)]
    · rfl
  have hmark : ∀ n : Int, u.marks = some n → ((do
      let m ← m.tickIfDue
      return ({ m with inner := ← m.inner.mark n }, 1) : M (Meter × Nat)) e k).map (·.1) = some (m.after e.rnd t u, 1) := by
    intro n hn
    rw [M.run_bind_some htick]
    obtain ⟨k'', h⟩ := StdMeter.mark_release hp hf (if sinceNs t m.lastTick ≥ tickNs then m.inner.catchUp e.rnd t else m.inner) n k'
    rw [M.run_bind_some h, hcc]
    unfold Meter.after
    rw [hn]
    rfl
  cases u with
  | observation _ => exact hmark 1 rfl
  | withValue _ _ => exact hmark 1 rfl
  | observations n s =>
    by_cases hn : (n : Int) ≤ i64Max ∧ n ≠ 0
    · have h1 : m.update (.observations n s) = do
          let m ← m.tickIfDue
          return ({ m with inner := ← m.inner.mark n }, 1) := by
        unfold Meter.update
        dsimp only
        congr 1
        funext m'
        rw [if_pos hn]
      show (m.update (.observations n s) e k).map (·.1) = _
      rw [h1]
      exact hmark n (by unfold Update.marks; dsimp only; rw [if_pos hn])
    · have h1 : m.update (.observations n s) = do
          let m ← m.tickIfDue
          return (m, 1) := by
        unfold Meter.update
        dsimp only
        congr 1
        funext m'
        rw [if_neg hn]
      show (m.update (.observations n s) e k).map (·.1) = _
      rw [h1, M.run_bind_some htick]
      have h2 : (Update.observations n s).marks = none := by unfold Update.marks; dsimp only; rw [if_neg hn]
      unfold Meter.after
      dsimp only
      rw [h2]
      rfl

theorem Meter.after_comm (rnd : Rat → Rat) (t : Int) (m : Meter) (u u' : Update) :
    (m.after rnd t u).after rnd t u' = (m.after rnd t u').after rnd t u := by
  have h1 : ∀ u, (m.after rnd t u).lastTick = if sinceNs t m.lastTick ≥ tickNs then t else m.lastTick := fun _ => rfl
  have h2 : ¬ (sinceNs t (if sinceNs t m.lastTick ≥ tickNs then t else m.lastTick) ≥ tickNs) := by
    split
    · simp [sinceNs, tickNs]
    · assumption
  rw [Meter.after, Meter.after.eq_1 (u := u) (m := m.after rnd t u'), h1, h1]
  unfold Meter.after
  dsimp only
  have h3 : ∀ n, (if sinceNs t m.lastTick ≥ tickNs then m.inner.catchUp rnd t else m.inner).marked rnd t n = m.inner.marked rnd t n := by
    intro n
    split
    · unfold StdMeter.marked
      rw [StdMeter.catchUp_catchUp _ (le_refl t)]
    · rfl
  cases hu : u.marks with
  | none =>
    cases hu' : u'.marks with
    | none => simp only [if_neg h2]
    | some b => simp only [h3, if_neg h2]
  | some a =>
    cases u'.marks with
    | none => simp only [h3, if_neg h2]
    | some b => dsimp only; rw [StdMeter.marked_comm]

theorem Meter.swaps (hp : e.profile = .release) (hf : Frozen e t) (u u' : Update) (m : Meter) :
    Swaps e (Meter.update · u) (Meter.update · u') m := by
  refine .acts (acts hp hf u) (acts hp hf u') fun z n y n' h1 h2 => ?_
  cases h1; cases h2
  exact ⟨_, rfl, by rw [Meter.after_comm]⟩

theorem ValueMeter.mark_release (hp : e.profile = .release) (hf : Frozen e t) (m : ValueMeter) (v : Int) (k : Nat) :
    ∃ k', (do return (← m.mark v, 1) : M (ValueMeter × Nat)) e k =
      some (({ m with meter := { m.meter with inner := m.meter.inner.marked e.rnd t v } }, 1), k') := by
  obtain ⟨k', h⟩ := StdMeter.mark_release hp hf m.meter.inner v k
  have : m.mark v e k = some ({ m with meter := { m.meter with inner := m.meter.inner.marked e.rnd t v } }, k') := by
    unfold ValueMeter.mark
    rw [M.run_bind_some h]; rfl
  rw [M.run_bind_some this]
  exact ⟨_, rfl⟩

theorem durationToDisplayValue_release (hp : e.profile = .release) (v : Nat) (u d : TimeUnit) :
    ∃ n, ∀ k, durationToDisplayValue v u d e k = some (n, k) := by
  rcases durationToDisplayValue_cases v u d with h | h
  · exact ⟨_, fun k => by rw [h]; rfl⟩
  · exact ⟨_, fun k => by rw [h]; exact arithU64_release hp⟩

/-- The meter after a value. -/
def ValueMeter.after (rnd : Rat → Rat) (t : Int) (m : ValueMeter) : Option Int → ValueMeter × Nat
  | some v => ({ m with meter := { m.meter with inner := m.meter.inner.marked rnd t v } }, 1)
  | none => (m, 0)

theorem ValueMeter.acts (hp : e.profile = .release) (hf : Frozen e t) (u : Update) : ∃ v : TimeUnit → Option Int,
    Acts e (ValueMeter.update · u) fun m => some (m.after e.rnd t (v m.displayTimeUnit)) := by
  have mark := ValueMeter.mark_release hp hf
  have other : ∀ x : Option Int, (∀ m k, (ValueMeter.update m u e k) = match x with
      | some v => (do return (← m.mark v, 1) : M (ValueMeter × Nat)) e k
      | none => (return (m, 0) : M (ValueMeter × Nat)) e k) →
      Acts e (ValueMeter.update · u) fun m => some (m.after e.rnd t x) := by
    intro x hx m k
    dsimp only
    rw [hx]
    cases x with
    | none => rfl
    | some v =>
      obtain ⟨k', h⟩ := mark m v k
      dsimp only
      rw [h]; rfl
  cases u with
  | observation _ => exact ⟨fun _ => none, other none fun _ _ => rfl⟩
  | observations _ _ => exact ⟨fun _ => none, other none fun _ _ => rfl⟩
  | withValue x s =>
    cases x with
    | duration time unit =>
      refine ⟨fun d => some (wrapI64 ((Classical.choose (durationToDisplayValue_release hp time unit d) : Nat) : Int)), fun m k => ?_⟩
      have h1 := Classical.choose_spec (durationToDisplayValue_release hp time unit m.displayTimeUnit) k
      obtain ⟨k', h⟩ := mark m (wrapI64 ((Classical.choose (durationToDisplayValue_release hp time unit m.displayTimeUnit) : Nat) : Int)) k
      show ((do
        let v ← durationToDisplayValue time unit m.displayTimeUnit
        return (← m.mark (wrapI64 v), 1) : M (ValueMeter × Nat)) e k).map (·.1) = _
      rw [M.run_bind_some h1]
      exact congrArg (Option.map (·.1)) h
    | signedInteger v =>
      refine ⟨fun _ => _, other (ObservedValue.signedInteger v).convertToI64 fun m k => ?_⟩
      unfold ValueMeter.update
      dsimp only
      cases (ObservedValue.signedInteger v).convertToI64 <;> rfl
    | unsignedInteger v =>
      refine ⟨fun _ => _, other (ObservedValue.unsignedInteger v).convertToI64 fun m k => ?_⟩
      unfold ValueMeter.update
      dsimp only
      cases (ObservedValue.unsignedInteger v).convertToI64 <;> rfl
    | float v =>
      refine ⟨fun _ => _, other (ObservedValue.float v).convertToI64 fun m k => ?_⟩
      unfold ValueMeter.update
      dsimp only
      cases (ObservedValue.float v).convertToI64 <;> rfl
    | bool v =>
      refine ⟨fun _ => _, other (ObservedValue.bool v).convertToI64 fun m k => ?_⟩
      unfold ValueMeter.update
      dsimp only
      cases (ObservedValue.bool v).convertToI64 <;> rfl
    | changedBy v =>
      refine ⟨fun _ => _, other (ObservedValue.changedBy v).convertToI64 fun m k => ?_⟩
      unfold ValueMeter.update
      dsimp only
      cases (ObservedValue.changedBy v).convertToI64 <;> rfl

theorem ValueMeter.swaps (hp : e.profile = .release) (hf : Frozen e t) (u u' : Update) (m : ValueMeter) :
    Swaps e (ValueMeter.update · u) (ValueMeter.update · u') m := by
  obtain ⟨v, h1⟩ := ValueMeter.acts hp hf u
  obtain ⟨v', h2⟩ := ValueMeter.acts hp hf u'
  refine .acts h1 h2 fun z n y n' h1 h2 => ?_
  have hd : ∀ x, (m.after e.rnd t x).1.displayTimeUnit = m.displayTimeUnit := by intro x; cases x <;> rfl
  have hz : z = (m.after e.rnd t (v m.displayTimeUnit)).1 := congrArg Prod.fst (Option.some.inj h1).symm
  have hn : n = (m.after e.rnd t (v m.displayTimeUnit)).2 := congrArg Prod.snd (Option.some.inj h1).symm
  have h3 := (Option.some.inj h2).symm
  rw [hz, hd] at h3
  refine ⟨(m.after e.rnd t (v' m.displayTimeUnit)).1, ?_, ?_⟩
  · have : n' = (m.after e.rnd t (v' m.displayTimeUnit)).2 := by
      rw [show n' = _ from congrArg Prod.snd h3]
      cases v' m.displayTimeUnit <;> rfl
    rw [this]
  · rw [hd, hn, show y = _ from congrArg Prod.fst h3]
    cases v m.displayTimeUnit with
    | none => cases v' m.displayTimeUnit <;> rfl
    | some a =>
      cases v' m.displayTimeUnit with
      | none => rfl
      | some b =>
        unfold ValueMeter.after
        dsimp only
        rw [StdMeter.marked_comm]

/-- What is put there at the same moment is the same. -/
theorem swaps_once {S : Type} {f : S → M (S × Nat)} {w : S → Option (S × Nat)} (hf : Acts e f w)
    (hw : ∀ x r, w x = some r → w r.1 = some r) (x : S) : Swaps e f f x := by
  refine .acts hf hf fun z c y c' h1 h2 => ?_
  have h3 := hw _ _ h1
  dsimp only at h3
  rw [h3] at h2
  cases h2
  exact ⟨z, h1, h3⟩

theorem StaircaseTimer.acts (hf : Frozen e t) (u : Update) : Acts e (StaircaseTimer.update · u) fun i =>
    (addDur t i.switchOffAfter e 0).map fun r => ({ i with stayOnUntil := some r.1 }, 1) := by
  intro i k
  dsimp only
  unfold StaircaseTimer.update
  rw [M.run_bind_some (M.run_now _ _), hf.clock, M.run_bind]
  unfold addDur
  by_cases h : t + i.switchOffAfter ≤ e.instMax
  · rw [if_pos h, if_pos h]; rfl
  · rw [if_neg h, if_neg h]; rfl

theorem Histogram.not_forgets {i : Histogram} {b : Bool} : ¬ Holder.ForgetsOrder ⟨.histogram i, b⟩ := id

/-- A gauge that does not track gets a change. -/
theorem Gauge.acts (hp : e.profile = .release) (d s : Int) : ∀ (g : Gauge), g.tracking = none → ∀ k,
    g.update (.withValue (.changedBy d) s) e k = some (({ g with value := some (match g.value with
      | some c => wrapI64 (c + d)
      | none => d) }, 1), k) := by
  intro g hg k
  unfold Gauge.update Gauge.set
  cases hv : g.value with
  | none =>
    dsimp only [Gauge.nextValue]
    rw [hg]
    rw [M.run_bind]
    rfl
  | some c =>
    dsimp only [Gauge.nextValue]
    rw [hg, M.run_bind, M.run_bind, M.run_bind, arithI64_release hp]
    rfl

theorem Instrument.swaps [Custom σ L] (hc : CustomForgets σ L) (hp : e.profile = .release) (hf : Frozen e t)
    (hx : ∃ e₀ m, e = Env.at e₀ m) {i : Instrument σ} {b : Bool} (hi : Holder.ForgetsOrder ⟨i.bare, b⟩) (hb : b = false) (u u' : Update) :
    Swaps e (Instrument.update L · u) (Instrument.update L · u') i := by
  cases i with
  | counter i => exact Swaps.map Instrument.counter (i.swaps hp u u') (fun _ => rfl) (fun _ => rfl)
  | gauge i => subst hb; cases hi.1
  | meter i => exact Swaps.map Instrument.meter (i.swaps hp hf u u') (fun _ => rfl) (fun _ => rfl)
  | valueMeter i => exact Swaps.map Instrument.valueMeter (i.swaps hp hf u u') (fun _ => rfl) (fun _ => rfl)
  | histogram i => exact hi.elim
  | flag i => exact hi.elim
  | dataDisplay i => exact hi.elim
  | staircaseTimer i =>
    refine Swaps.map Instrument.staircaseTimer (f := (StaircaseTimer.update · u)) (g := (StaircaseTimer.update · u')) ?_ (fun _ => rfl)
      (fun _ => rfl)
    refine swaps_once (StaircaseTimer.acts hf u) ?_ i
    intro i r h
    obtain ⟨⟨u, k⟩, h1, rfl⟩ := Option.map_eq_some_iff.1 h
    dsimp only
    rw [h1]; rfl
  | occurrenceIndicator i =>
    refine Swaps.map Instrument.occurrenceIndicator (f := (OccurrenceIndicator.update · u)) (g := (OccurrenceIndicator.update · u')) ?_
      (fun _ => rfl) (fun _ => rfl)
    refine swaps_once (w := fun i => some ({ i with happenedLast := t }, 1)) (fun i k => ?_) ?_ i
    · show some (({ i with happenedLast := e.clock k } : OccurrenceIndicator), 1) = _; rw [hf.clock]
    · rintro i r h; cases h; rfl
  | nonOccurrenceIndicator i =>
    refine Swaps.map Instrument.nonOccurrenceIndicator (f := (NonOccurrenceIndicator.update · u)) (g := (NonOccurrenceIndicator.update · u')) ?_
      (fun _ => rfl) (fun _ => rfl)
    refine swaps_once (w := fun i => some ({ i with happenedLast := t }, 1)) (fun i k => ?_) ?_ i
    · show some (({ i with happenedLast := e.clock k } : NonOccurrenceIndicator), 1) = _; rw [hf.clock]
    · rintro i r h; cases h; rfl
  | lastOccurrenceTracker i =>
    refine Swaps.map Instrument.lastOccurrenceTracker (f := (LastOccurrenceTracker.update · u)) (g := (LastOccurrenceTracker.update · u')) ?_
      (fun _ => rfl) (fun _ => rfl)
    refine swaps_once (w := fun i => some ({ i with happenedLast := some t }, 1)) (fun i k => ?_) ?_ i
    · show some (({ i with happenedLast := some (e.clock k) } : LastOccurrenceTracker), 1) = _; rw [hf.clock]
    · rintro i r h; cases h; rfl
  | custom i =>
    obtain ⟨e₀, m, rfl⟩ := hx
    exact Swaps.map Instrument.custom (hc.update i e₀ m u u') (fun _ => rfl) (fun _ => rfl)

theorem Instrument.steady [Custom σ L] (hc : StillAt σ L e) (hp : e.profile = .release) (hf : Frozen e t) {i : Instrument σ} {b : Bool}
    (hi : Holder.ForgetsOrder ⟨i.bare, b⟩) (hb : b = false) (u : Update) : M.Sync e Eq (i.update L u) (i.update L u) := by
  have wrap : ∀ {S : Type} {w : S → Instrument σ} {m : M (S × Nat)}, M.Sync e Eq m m →
      M.Sync e Eq (do let (i, n) ← m; return (w i, n)) (do let (i, n) ← m; return (w i, n)) := fun h => .bindEq h fun _ => .pure rfl
  cases i with
  | counter i => exact wrap ((Counter.acts hp u).steady i)
  | gauge i => subst hb; cases hi.1
  | meter i => exact wrap ((Meter.acts hp hf u).steady i)
  | valueMeter i =>
    obtain ⟨v, h⟩ := ValueMeter.acts hp hf u
    exact wrap (h.steady i)
  | histogram i => exact hi.elim
  | flag i => exact hi.elim
  | dataDisplay i => exact hi.elim
  | staircaseTimer i => exact wrap ((StaircaseTimer.acts hf u).steady i)
  | occurrenceIndicator i =>
    refine wrap (show M.Sync e Eq (i.update u) (i.update u) from ?_)
    unfold OccurrenceIndicator.update
    exact .bindEq hf.now fun _ => .pure rfl
  | nonOccurrenceIndicator i =>
    refine wrap (show M.Sync e Eq (i.update u) (i.update u) from ?_)
    unfold NonOccurrenceIndicator.update
    exact .bindEq hf.now fun _ => .pure rfl
  | lastOccurrenceTracker i =>
    refine wrap (show M.Sync e Eq (i.update u) (i.update u) from ?_)
    unfold LastOccurrenceTracker.update
    exact .bindEq hf.now fun _ => .pure rfl
  | custom i => exact wrap (hc.update i u)

end Instruments

/-! ## Adapters -/

section Adapters
variable {e : Env} {t : Int} [DecidableEq L]

theorem InstrumentAdapter.steady {I : Type} {update : I → Update → M (I × Nat)} {a : InstrumentAdapter L I}
    (hs : ∀ u, M.Sync e Eq (update a.instrument u) (update a.instrument u)) (o : Observation L) :
    M.Sync e Eq (a.handle update o) (a.handle update o) := by
  unfold InstrumentAdapter.handle
  exact .ite (.bindEq (hs _) fun _ => .pure rfl) (.pure rfl)

theorem InstrumentAdapter.swaps {I : Type} {update : I → Update → M (I × Nat)} {a : InstrumentAdapter L I}
    (hs : ∀ u, M.Sync e Eq (update a.instrument u) (update a.instrument u))
    (hi : ∀ u u', Swaps e (update · u) (update · u') a.instrument) (o o' : Observation L) :
    Swaps e (InstrumentAdapter.handle update · o) (InstrumentAdapter.handle update · o') a := by
  have hm : ∀ o : Observation L, (a.labelFilter.accepts o.label = true) → ∀ i,
      InstrumentAdapter.handle update { a with instrument := i } o = do
        let r ← update i (a.modifyUpdate.modify o.label o.toUpdate)
        return ({ a with instrument := r.1 }, r.2) := by
    intro o h i
    unfold InstrumentAdapter.handle
    dsimp only
    rw [if_pos h]
  have hn : ∀ o : Observation L, ¬ (a.labelFilter.accepts o.label = true) → ∀ i,
      InstrumentAdapter.handle update { a with instrument := i } o = do
        let r ← (pure (i, 0) : M (I × Nat))
        return ({ a with instrument := r.1 }, r.2) := by
    intro o h i
    unfold InstrumentAdapter.handle
    dsimp only
    rw [if_neg h]
    rfl
  have he : a = { a with instrument := a.instrument } := rfl
  rw [he]
  by_cases h1 : a.labelFilter.accepts o.label = true <;> by_cases h2 : a.labelFilter.accepts o'.label = true
  · exact Swaps.map (f' := (InstrumentAdapter.handle update · o)) (g' := (InstrumentAdapter.handle update · o')) (fun i => { a with instrument := i })
      (f := (update · (a.modifyUpdate.modify o.label o.toUpdate)))
      (g := (update · (a.modifyUpdate.modify o'.label o'.toUpdate))) (hi _ _) (hm o h1) (hm o' h2)
  · exact Swaps.map (f' := (InstrumentAdapter.handle update · o)) (g' := (InstrumentAdapter.handle update · o')) (fun i => { a with instrument := i })
      (f := (update · (a.modifyUpdate.modify o.label o.toUpdate)))
      (g := (fun i => pure (i, 0))) (Swaps.right (n := 0) (fun _ _ _ _ _ => rfl) rfl (hs _)) (hm o h1) (hn o' h2)
  · exact Swaps.map (f' := (InstrumentAdapter.handle update · o)) (g' := (InstrumentAdapter.handle update · o')) (fun i => { a with instrument := i })
      (f := (fun i => pure (i, 0)))
      (g := (update · (a.modifyUpdate.modify o'.label o'.toUpdate))) (Swaps.left (n := 0) (fun _ _ _ _ _ => rfl) rfl (hs _)) (hn o h1) (hm o' h2)
  · exact Swaps.map (f' := (InstrumentAdapter.handle update · o)) (g' := (InstrumentAdapter.handle update · o')) (fun i => { a with instrument := i })
      (f := (fun i => pure (i, 0)))
      (g := (fun i => pure (i, 0))) (Swaps.left (n := 0) (fun _ _ _ _ _ => rfl) rfl (.pure rfl)) (hn o h1) (hn o' h2)

/-- A gauge gets a change or nothing. -/
def Gauge.changed (g : Gauge) : Option (Int × Int) → M (Gauge × Nat)
  | some d => g.update (.withValue (.changedBy d.1) d.2)
  | none => pure (g, 0)

theorem GaugeAdapter.changed {a : GaugeAdapter L} (ha : a.holder.ForgetsOrder) (o : Observation L) : ∃ d, ∀ g,
    GaugeAdapter.handle { a with gauge := g } o = do
      let r ← g.changed d
      return ({ a with gauge := r.1 }, r.2) := by
  have hs : (match a.strategy with
    | .filter _ => false
    | .deltasOnly _ => true
    | .incDecOnLabels _ _ => true) = true := ha.1
  unfold GaugeAdapter.handle
  cases h : a.strategy with
  | filter f => rw [h] at hs; cases hs
  | deltasOnly f =>
    dsimp only
    by_cases hf : f.accepts o.label = true
    · cases hu : a.modifyUpdate.modify o.label o.toUpdate with
      | withValue v s =>
        cases v with
        | changedBy d => exact ⟨some (d, s), fun g => by rw [if_pos hf]; rfl⟩
        | _ => exact ⟨none, fun g => by rw [if_pos hf]; rfl⟩
      | _ => exact ⟨none, fun g => by rw [if_pos hf]; rfl⟩
    · exact ⟨none, fun g => by rw [if_neg hf]; rfl⟩
  | incDecOnLabels inc dec =>
    dsimp only
    by_cases hi : inc.accepts o.label = true
    · exact ⟨some (1, o.timestamp), fun g => by rw [if_pos hi]; rfl⟩
    · by_cases hd : dec.accepts o.label = true
      · exact ⟨some (-1, o.timestamp), fun g => by rw [if_neg hi, if_pos hd]; rfl⟩
      · exact ⟨none, fun g => by rw [if_neg hi, if_neg hd]; rfl⟩

theorem Gauge.swaps (hp : e.profile = .release) {g : Gauge} (hg : g.tracking = none) (d d' : Option (Int × Int)) :
    Swaps e (Gauge.changed · d) (Gauge.changed · d') g := by
  have hs : ∀ d, M.Sync e Eq (g.changed d) (g.changed d) := by
    intro d
    cases d with
    | none => exact .pure rfl
    | some d => exact .of_map fun k k' => by dsimp only [Gauge.changed]; rw [Gauge.acts hp _ _ g hg, Gauge.acts hp _ _ g hg]; rfl
  cases d with
  | none => exact .left (fun _ _ _ _ _ => rfl) rfl (hs _)
  | some d =>
    cases d' with
    | none => exact .right (fun _ _ _ _ _ => rfl) rfl (hs _)
    | some d' =>
      intro k₁ k₁' k₂ k₂' z y c c' h1 h2
      have act := fun d s g hg k => Gauge.acts (e := e) hp d s g hg k
      have act' := fun d s v k => Gauge.acts (e := e) hp d s { g with value := v } hg k
      dsimp only [Gauge.changed] at h1 h2 ⊢
      rw [act _ _ g hg] at h1
      cases h1
      rw [act'] at h2
      cases h2
      refine ⟨_, fun k => ⟨_, act _ _ g hg k⟩, fun k => ⟨k, ?_⟩⟩
      rw [act']
      dsimp only
      cases g.value with
      | none => dsimp only; rw [Int.add_comm]
      | some c =>
        dsimp only
        rw [wrapI64_wrapI64_add, wrapI64_wrapI64_add, show c + d'.1 + d.1 = c + d.1 + d'.1 by ring]

theorem GaugeAdapter.steady (hp : e.profile = .release) {a : GaugeAdapter L} (ha : a.holder.ForgetsOrder) (o : Observation L) :
    M.Sync e Eq (a.handle o) (a.handle o) := by
  obtain ⟨d, h⟩ := GaugeAdapter.changed ha o
  have := h a.gauge
  rw [show ({ a with gauge := a.gauge } : GaugeAdapter L) = a from rfl] at this
  rw [this]
  refine .bindEq ?_ fun _ => .pure rfl
  cases d with
  | none => exact .pure rfl
  | some d =>
    have hg : a.gauge.tracking = none := by
      have := ha.2
      revert this
      unfold Gauge.bare
      cases a.gauge.tracking <;> simp
    exact .of_map fun k k' => by dsimp only [Gauge.changed]; rw [Gauge.acts hp _ _ _ hg, Gauge.acts hp _ _ _ hg]; rfl

theorem GaugeAdapter.swaps (hp : e.profile = .release) {a : GaugeAdapter L} (ha : a.holder.ForgetsOrder) (o o' : Observation L) :
    Swaps e (GaugeAdapter.handle · o) (GaugeAdapter.handle · o') a := by
  obtain ⟨d, h⟩ := GaugeAdapter.changed ha o
  obtain ⟨d', h'⟩ := GaugeAdapter.changed ha o'
  have hg : a.gauge.tracking = none := by
    have := ha.2
    revert this
    unfold Gauge.bare
    cases a.gauge.tracking <;> simp
  have he : a = { a with gauge := a.gauge } := rfl
  rw [he]
  exact Swaps.map (f' := (GaugeAdapter.handle · o)) (g' := (GaugeAdapter.handle · o')) (fun g => { a with gauge := g }) (Gauge.swaps hp hg d d') h h'

omit [DecidableEq L] in
theorem swaps_slot {A : Type} {f g : A → M (A × Nat)} {x : Option A} (hx : ∀ a, x = some a → Swaps e f g a) :
    Swaps e (handleSlot f) (handleSlot g) x := by
  cases x with
  | none => exact .left (n := 0) (fun _ _ _ _ h => by cases h; rfl) rfl (.pure rfl)
  | some a => exact Swaps.map some (hx a rfl) (fun _ => rfl) (fun _ => rfl)

omit [DecidableEq L] in
theorem steady_slot {A : Type} {f : A → M (A × Nat)} {x : Option A} (hx : ∀ a, x = some a → M.Sync e Eq (f a) (f a)) :
    M.Sync e Eq (handleSlot f x) (handleSlot f x) := by
  cases x with
  | none => exact .pure rfl
  | some a => exact .bindEq (hx a rfl) fun _ => .pure rfl

variable (hp : e.profile = .release) (hf : Frozen e t)
include hp hf

theorem PanelHead.steady {x : PanelHead L} (hx : ∀ h ∈ x.holders, h.ForgetsOrder) (o : Observation L) :
    M.Sync e Eq (x.handle o) (x.handle o) := by
  unfold PanelHead.handle
  refine .bindEq (steady_slot fun a ha => InstrumentAdapter.steady (fun u => (Counter.acts hp u).steady _) o) fun _ => ?_
  refine .bindEq (steady_slot fun a ha => GaugeAdapter.steady hp (hx _ (by simp [PanelHead.holders, ha])) o) fun _ => ?_
  refine .bindEq (steady_slot fun a ha => InstrumentAdapter.steady (fun u => (Meter.acts hp hf u).steady _) o) fun _ => ?_
  refine .bindEq (steady_slot fun a ha => ?_) fun _ => .pure rfl
  exact (hx (a.holder fun i => .histogram i.bare) (by simp [PanelHead.holders, ha])).elim

theorem PanelHead.swaps {x : PanelHead L} (hx : ∀ h ∈ x.holders, h.ForgetsOrder) (o o' : Observation L) :
    Swaps e (PanelHead.handle · o) (PanelHead.handle · o') x := by
  have j1 := swaps_slot (e := e) (x := x.counter) fun a _ => InstrumentAdapter.swaps (update := IsInstrument.update) (a := a)
    (fun u => (Counter.acts hp u).steady _) (fun u u' => a.instrument.swaps hp u u') o o'
  have j2 := swaps_slot (x := x.gauge) (fun a ha => GaugeAdapter.swaps (e := e) hp (a := a) (hx _ (by simp [PanelHead.holders, ha])) o o')
  have j3 := swaps_slot (e := e) (x := x.meter) fun a _ => InstrumentAdapter.swaps (update := IsInstrument.update) (a := a)
    (fun u => (Meter.acts hp hf u).steady _) (fun u u' => a.instrument.swaps hp hf u u') o o'
  have hh : x.histogram = none := by
    cases h : x.histogram with
    | none => rfl
    | some a => exact (hx (a.holder fun i => .histogram i.bare) (by simp [PanelHead.holders, h])).elim
  have j4 := swaps_slot (e := e) (f := fun a => InstrumentAdapter.handle (I := Histogram) (L := L) IsInstrument.update a o)
    (g := fun a => InstrumentAdapter.handle IsInstrument.update a o') (x := x.histogram) (fun a ha => by rw [hh] at ha; cases ha)
  intro k k₁' k₂ k₂' z y c c' h1 h2
  obtain ⟨⟨a₁, c₁⟩, _, f1, h1⟩ := M.bind_eq_some.1 h1
  obtain ⟨⟨a₂, c₂⟩, _, f2, h1⟩ := M.bind_eq_some.1 h1
  obtain ⟨⟨a₃, c₃⟩, _, f3, h1⟩ := M.bind_eq_some.1 h1
  obtain ⟨⟨a₄, c₄⟩, _, f4, h1⟩ := M.bind_eq_some.1 h1
  cases h1
  obtain ⟨⟨b₁, d₁⟩, _, g1, h2⟩ := M.bind_eq_some.1 h2
  obtain ⟨⟨b₂, d₂⟩, _, g2, h2⟩ := M.bind_eq_some.1 h2
  obtain ⟨⟨b₃, d₃⟩, _, g3, h2⟩ := M.bind_eq_some.1 h2
  obtain ⟨⟨b₄, d₄⟩, _, g4, h2⟩ := M.bind_eq_some.1 h2
  cases h2
  obtain ⟨z₁, p1, q1⟩ := j1 _ _ _ _ _ _ _ _ f1 g1
  obtain ⟨z₂, p2, q2⟩ := j2 _ _ _ _ _ _ _ _ f2 g2
  obtain ⟨z₃, p3, q3⟩ := j3 _ _ _ _ _ _ _ _ f3 g3
  obtain ⟨z₄, p4, q4⟩ := j4 _ _ _ _ _ _ _ _ f4 g4
  refine ⟨{ x with counter := z₁, gauge := z₂, meter := z₃, histogram := z₄ }, fun k => ?_, fun k => ?_⟩
  · obtain ⟨k1, e1⟩ := p1 k
    obtain ⟨k2, e2⟩ := p2 k1
    obtain ⟨k3, e3⟩ := p3 k2
    obtain ⟨k4, e4⟩ := p4 k3
    exact ⟨k4, M.bind_eq_some.2 ⟨_, _, e1, M.bind_eq_some.2 ⟨_, _, e2, M.bind_eq_some.2 ⟨_, _, e3, M.bind_eq_some.2 ⟨_, _, e4, rfl⟩⟩⟩⟩⟩
  · obtain ⟨k1, e1⟩ := q1 k
    obtain ⟨k2, e2⟩ := q2 k1
    obtain ⟨k3, e3⟩ := q3 k2
    obtain ⟨k4, e4⟩ := q4 k3
    exact ⟨k4, M.bind_eq_some.2 ⟨_, _, e1, M.bind_eq_some.2 ⟨_, _, e2, M.bind_eq_some.2 ⟨_, _, e3, M.bind_eq_some.2 ⟨_, _, e4, rfl⟩⟩⟩⟩⟩

end Adapters

/-! ## Panels, cockpits and processors -/

section Tree
variable {e : Env} {t : Int} [DecidableEq L] [Custom σ L]

section Steady
variable (hc : StillAt σ L e) (hp : e.profile = .release) (hf : Frozen e t) (o : Observation L)
include hc hp hf

mutual
theorem Panel.steady : ∀ p : Panel σ L, (∀ h ∈ p.holders, h.ForgetsOrder) → M.Sync e Eq (p.handle o) (p.handle o)
  | .mk h ps hs ss, hx => by
    simp only [Panel.holders, List.mem_append] at hx
    unfold Panel.handle
    exact .ite (.bindEq (PanelHead.steady hp hf (fun m hm => hx m (.inl (.inl hm))) o) fun _ =>
      .bindEq (steady_handlePanels ps (fun m hm => hx m (.inl (.inr hm)))) fun _ =>
      .bindEq (steady_handleHandlers hs (fun m hm => hx m (.inr hm))) fun _ => .pure rfl) (.pure rfl)
theorem steady_handlePanels : ∀ ps : List (Panel σ L), (∀ h ∈ holdersOfPanels ps, h.ForgetsOrder) →
    M.Sync e Eq (handlePanels o ps) (handlePanels o ps)
  | [], _ => .pure rfl
  | p :: ps, hx => by
    simp only [holdersOfPanels, List.mem_append] at hx
    unfold handlePanels
    exact .bindEq (Panel.steady p (fun m hm => hx m (.inl hm))) fun _ =>
      .bindEq (steady_handlePanels ps (fun m hm => hx m (.inr hm))) fun _ => .pure rfl
theorem Handler.steady : ∀ h : Handler σ L, (∀ m ∈ h.holders, m.ForgetsOrder) → M.Sync e Eq (h.handle o) (h.handle o)
  | .instrument a, hx => by
    rw [Handler.handle]
    exact .bindEq (InstrumentAdapter.steady (fun u => Instrument.steady hc hp hf (b := false)
      (hx (a.holder Instrument.bare) (by simp [Handler.holders])) rfl u) o) fun _ => .pure rfl
  | .gauge a, hx => by
    rw [Handler.handle]
    exact .bindEq (GaugeAdapter.steady hp (hx a.holder (by simp [Handler.holders])) o) fun _ => .pure rfl
  | .panel p, hx => by
    rw [Handler.handle]
    exact .bindEq (Panel.steady p hx) fun _ => .pure rfl
  | .cockpit h ps hs ss, hx => by
    simp only [Handler.holders, List.mem_append] at hx
    unfold Handler.handle
    exact .bindEq hf.now fun _ => .bindEq (steady_handleHandlers hs (fun m hm => hx m (.inr hm))) fun _ =>
      .bindEq (steady_handlePanels ps (fun m hm => hx m (.inl hm))) fun _ => .pure rfl
  | .custom x, _ => by
    rw [Handler.handle]
    exact .bindEq (hc.handle x o) fun _ => .pure rfl
theorem steady_handleHandlers : ∀ hs : List (Handler σ L), (∀ h ∈ holdersOfHandlers hs, h.ForgetsOrder) →
    M.Sync e Eq (handleHandlers o hs) (handleHandlers o hs)
  | [], _ => .pure rfl
  | p :: ps, hx => by
    simp only [holdersOfHandlers, List.mem_append] at hx
    unfold handleHandlers
    exact .bindEq (Handler.steady p (fun m hm => hx m (.inl hm))) fun _ =>
      .bindEq (steady_handleHandlers ps (fun m hm => hx m (.inr hm))) fun _ => .pure rfl
end

theorem Cockpit.steady (x : Cockpit σ L) (hx : ∀ h ∈ x.holders, h.ForgetsOrder) : M.Sync e Eq (x.handle o) (x.handle o) := by
  simp only [Cockpit.holders, List.mem_append] at hx
  unfold Cockpit.handle
  exact .bindEq hf.now fun _ => .bindEq (steady_handleHandlers hc hp hf o x.handlers (fun m hm => hx m (.inr hm))) fun _ =>
    .bindEq (steady_handlePanels hc hp hf o x.panels (fun m hm => hx m (.inl hm))) fun _ => .pure rfl

theorem steady_handleCockpits : ∀ cs : List (Cockpit σ L), (∀ h ∈ cs.flatMap Cockpit.holders, h.ForgetsOrder) →
    M.Sync e Eq (handleCockpits o cs) (handleCockpits o cs)
  | [], _ => .pure rfl
  | p :: ps, hx => by
    simp only [List.flatMap_cons, List.mem_append] at hx
    unfold handleCockpits
    exact .bindEq (Cockpit.steady hc hp hf o p (fun m hm => hx m (.inl hm))) fun _ =>
      .bindEq (steady_handleCockpits ps (fun m hm => hx m (.inr hm))) fun _ => .pure rfl

theorem ProcessorState.steady (x : ProcessorState σ L) (hx : ∀ h ∈ x.holders, h.ForgetsOrder) :
    M.Sync e Eq (x.handleAll o) (x.handleAll o) := by
  simp only [ProcessorState.holders, List.mem_append] at hx
  unfold ProcessorState.handleAll
  exact .bindEq (steady_handleCockpits hc hp hf o x.cockpits (fun m hm => hx m (.inl hm))) fun _ =>
    .bindEq (steady_handleHandlers hc hp hf o x.handlers (fun m hm => hx m (.inr hm))) fun _ => .pure rfl

end Steady

section Commute
variable (hs : StillAt σ L e) (hc : CustomForgets σ L) (hp : e.profile = .release) (hf : Frozen e t) (he : ∃ e₀ m, e = Env.at e₀ m)
  (o o' : Observation L)
include hs hc hp hf he

mutual
theorem Panel.swaps : ∀ p : Panel σ L, (∀ h ∈ p.holders, h.ForgetsOrder) → Swaps e (Panel.handle o) (Panel.handle o') p
  | .mk h ps hh ss, hx => by
    have hx' := hx
    simp only [Panel.holders, List.mem_append] at hx
    have j1 := PanelHead.swaps hp hf (x := h) (fun m hm => hx m (.inl (.inl hm))) o o'
    have j2 := swaps_handlePanels ps (fun m hm => hx m (.inl (.inr hm)))
    have j3 := swaps_handleHandlers hh (fun m hm => hx m (.inr hm))
    have filter : ∀ (o : Observation L) (p' : Panel σ L) (k k' c : Nat), (Panel.mk h ps hh ss).handle o e k = some ((p', c), k') →
        ∃ h' ps' hh' ss', p' = .mk h' ps' hh' ss' ∧ h'.labelFilter = h.labelFilter := by
      intro o p' k k' c hr
      unfold Panel.handle at hr
      split at hr
      · obtain ⟨⟨a₁, c₁⟩, k3, f1, h1⟩ := M.bind_eq_some.1 hr
        obtain ⟨⟨a₂, c₂⟩, _, f2, h1⟩ := M.bind_eq_some.1 h1
        obtain ⟨⟨a₃, c₃⟩, _, f3, h1⟩ := M.bind_eq_some.1 h1
        cases h1
        refine ⟨_, _, _, _, rfl, ?_⟩
        simp only [PanelHead.handle, M.bind_eq_some, M.run_pure, Option.some.injEq, Prod.mk.injEq] at f1
        obtain ⟨_, _, _, _, _, _, _, _, _, _, _, _, ⟨rfl, _⟩, _⟩ := f1
        rfl
      · cases hr
        exact ⟨_, _, _, _, rfl, rfl⟩
    have skip : ∀ o : Observation L, ¬ h.labelFilter.accepts o.label = true → ∀ h' ps' hh' ss', h'.labelFilter = h.labelFilter →
        Panel.handle o (.mk h' ps' hh' ss' : Panel σ L) = pure (.mk h' ps' hh' ss', 0) := by
      intro o ho h' ps' hh' ss' hl
      unfold Panel.handle
      rw [if_neg (by rw [hl]; exact ho)]
    by_cases hk : h.labelFilter.accepts o.label = true
    · by_cases hk' : h.labelFilter.accepts o'.label = true
      · have go : ∀ o : Observation L, h.labelFilter.accepts o.label = true → ∀ h' ps' hh' ss', h'.labelFilter = h.labelFilter →
            Panel.handle o (.mk h' ps' hh' ss' : Panel σ L) = do
              let (h, n₁) ← h'.handle o
              let (ps, n₂) ← handlePanels o ps'
              let (hs, n₃) ← handleHandlers o hh'
              return (.mk h ps hs ss', n₁ + n₂ + n₃) := by
          intro o ho h' ps' hh' ss' hl
          unfold Panel.handle
          rw [if_pos (by rw [hl]; exact ho)]
        have keep : ∀ (o : Observation L) (h' h'' : PanelHead L) (k k' c : Nat), h'.handle o e k = some ((h'', c), k') →
            h''.labelFilter = h'.labelFilter := by
          intro o h' h'' k k' c f1
          simp only [PanelHead.handle, M.bind_eq_some, M.run_pure, Option.some.injEq, Prod.mk.injEq] at f1
          obtain ⟨_, _, _, _, _, _, _, _, _, _, _, _, ⟨rfl, _⟩, _⟩ := f1
          rfl
        intro k₁ k₁' k₂ k₂' z y c c' h1 h2
        rw [go o hk _ _ _ _ rfl] at h1
        obtain ⟨⟨a₁, c₁⟩, k3, f1, h1⟩ := M.bind_eq_some.1 h1
        obtain ⟨⟨a₂, c₂⟩, _, f2, h1⟩ := M.bind_eq_some.1 h1
        obtain ⟨⟨a₃, c₃⟩, _, f3, h1⟩ := M.bind_eq_some.1 h1
        cases h1
        rw [go o' hk' _ _ _ _ (keep _ _ _ _ _ _ f1)] at h2
        obtain ⟨⟨b₁, d₁⟩, _, g1, h2⟩ := M.bind_eq_some.1 h2
        obtain ⟨⟨b₂, d₂⟩, _, g2, h2⟩ := M.bind_eq_some.1 h2
        obtain ⟨⟨b₃, d₃⟩, _, g3, h2⟩ := M.bind_eq_some.1 h2
        cases h2
        obtain ⟨z₁, p1, q1⟩ := j1 _ _ _ _ _ _ _ _ f1 g1
        obtain ⟨z₂, p2, q2⟩ := j2 _ _ _ _ _ _ _ _ f2 g2
        obtain ⟨z₃, p3, q3⟩ := j3 _ _ _ _ _ _ _ _ f3 g3
        obtain ⟨_, hz⟩ := p1 0
        refine ⟨.mk z₁ z₂ z₃ ss, fun k => ?_, fun k => ?_⟩
        · obtain ⟨k1, e1⟩ := p1 k
          obtain ⟨k2, e2⟩ := p2 k1
          obtain ⟨k3, e3⟩ := p3 k2
          rw [go o' hk' _ _ _ _ rfl]
          exact ⟨k3, M.bind_eq_some.2 ⟨_, _, e1, M.bind_eq_some.2 ⟨_, _, e2, M.bind_eq_some.2 ⟨_, _, e3, rfl⟩⟩⟩⟩
        · obtain ⟨k1, e1⟩ := q1 k
          obtain ⟨k2, e2⟩ := q2 k1
          obtain ⟨k3, e3⟩ := q3 k2
          rw [go o hk _ _ _ _ (keep _ _ _ _ _ _ hz)]
          exact ⟨k3, M.bind_eq_some.2 ⟨_, _, e1, M.bind_eq_some.2 ⟨_, _, e2, M.bind_eq_some.2 ⟨_, _, e3, rfl⟩⟩⟩⟩
      · refine .right (n := 0) (fun p' k k' c hr => ?_) (skip o' hk' _ _ _ _ rfl) (Panel.steady hs hp hf o _ hx')
        obtain ⟨_, _, _, _, rfl, hl⟩ := filter o p' k k' c hr
        exact skip o' hk' _ _ _ _ hl
    · refine .left (n := 0) (fun p' k k' c hr => ?_) (skip o hk _ _ _ _ rfl) (Panel.steady hs hp hf o' _ hx')
      obtain ⟨_, _, _, _, rfl, hl⟩ := filter o' p' k k' c hr
      exact skip o hk _ _ _ _ hl
theorem swaps_handlePanels : ∀ ps : List (Panel σ L), (∀ h ∈ holdersOfPanels ps, h.ForgetsOrder) →
    Swaps e (handlePanels o) (handlePanels o') ps
  | [], _ => .left (n := 0) (fun _ _ _ _ h => by cases h; rfl) rfl (.pure rfl)
  | p :: ps, hx => by
    simp only [holdersOfPanels, List.mem_append] at hx
    refine .both List.cons (Panel.swaps p (fun m hm => hx m (.inl hm))) (swaps_handlePanels ps (fun m hm => hx m (.inr hm))) ?_ ?_ <;>
      · intro a b; rw [handlePanels]
theorem Handler.swaps : ∀ h : Handler σ L, (∀ m ∈ h.holders, m.ForgetsOrder) → Swaps e (Handler.handle o) (Handler.handle o') h
  | .instrument a, hx => by
    have hi := hx (a.holder Instrument.bare) (by simp [Handler.holders])
    refine Swaps.map Handler.instrument (InstrumentAdapter.swaps (update := Instrument.update L)
      (fun u => Instrument.steady hs hp hf (b := false) hi rfl u)
      (fun u u' => Instrument.swaps hc hp hf he (b := false) hi rfl u u') o o') ?_ ?_ <;> · intro x; rw [Handler.handle]
  | .gauge a, hx => by
    refine Swaps.map Handler.gauge (GaugeAdapter.swaps hp (hx a.holder (by simp [Handler.holders])) o o') ?_ ?_ <;>
      · intro x; rw [Handler.handle]
  | .panel p, hx => by
    refine Swaps.map Handler.panel (Panel.swaps p hx) ?_ ?_ <;> · intro x; rw [Handler.handle]
  | .cockpit h ps hh ss, hx => by
    simp only [Handler.holders, List.mem_append] at hx
    have j1 := swaps_handleHandlers hh (fun m hm => hx m (.inr hm))
    have j2 := swaps_handlePanels ps (fun m hm => hx m (.inl hm))
    intro k₁ k₁' k₂ k₂' z y c c' h1 h2
    unfold Handler.handle at h1
    rw [M.run_bind_some (M.run_now _ _), hf.clock] at h1
    obtain ⟨⟨a₁, c₁⟩, k3, f1, h1⟩ := M.bind_eq_some.1 h1
    obtain ⟨⟨a₂, c₂⟩, _, f2, h1⟩ := M.bind_eq_some.1 h1
    cases h1
    unfold Handler.handle at h2
    rw [M.run_bind_some (M.run_now _ _), hf.clock] at h2
    obtain ⟨⟨b₁, d₁⟩, _, g1, h2⟩ := M.bind_eq_some.1 h2
    obtain ⟨⟨b₂, d₂⟩, _, g2, h2⟩ := M.bind_eq_some.1 h2
    cases h2
    obtain ⟨z₁, p1, q1⟩ := j1 _ _ _ _ _ _ _ _ f1 g1
    obtain ⟨z₂, p2, q2⟩ := j2 _ _ _ _ _ _ _ _ f2 g2
    refine ⟨.cockpit { h with activity := { h.activity with lastActivity := t } } z₂ z₁ ss, fun k => ?_, fun k => ?_⟩
    · obtain ⟨k1, e1⟩ := p1 (k + 1)
      obtain ⟨k2, e2⟩ := p2 k1
      unfold Handler.handle
      rw [M.run_bind_some (M.run_now _ _), hf.clock]
      exact ⟨k2, M.bind_eq_some.2 ⟨_, _, e1, M.bind_eq_some.2 ⟨_, _, e2, rfl⟩⟩⟩
    · obtain ⟨k1, e1⟩ := q1 (k + 1)
      obtain ⟨k2, e2⟩ := q2 k1
      unfold Handler.handle
      rw [M.run_bind_some (M.run_now _ _), hf.clock]
      exact ⟨k2, M.bind_eq_some.2 ⟨_, _, e1, M.bind_eq_some.2 ⟨_, _, e2, rfl⟩⟩⟩
  | .custom x, _ => by
    obtain ⟨e₀, m, rfl⟩ := he
    refine Swaps.map Handler.custom (hc.handle x e₀ m o o') ?_ ?_ <;> · intro x; rw [Handler.handle]
theorem swaps_handleHandlers : ∀ hs : List (Handler σ L), (∀ h ∈ holdersOfHandlers hs, h.ForgetsOrder) →
    Swaps e (handleHandlers o) (handleHandlers o') hs
  | [], _ => .left (n := 0) (fun _ _ _ _ h => by cases h; rfl) rfl (.pure rfl)
  | p :: ps, hx => by
    simp only [holdersOfHandlers, List.mem_append] at hx
    refine .both List.cons (Handler.swaps p (fun m hm => hx m (.inl hm))) (swaps_handleHandlers ps (fun m hm => hx m (.inr hm))) ?_ ?_ <;>
      · intro a b; rw [handleHandlers]
end

theorem Cockpit.swaps (x : Cockpit σ L) (hx : ∀ h ∈ x.holders, h.ForgetsOrder) :
    Swaps e (Cockpit.handle · o) (Cockpit.handle · o') x := by
  simp only [Cockpit.holders, List.mem_append] at hx
  have j1 := swaps_handleHandlers hs hc hp hf he o o' x.handlers (fun m hm => hx m (.inr hm))
  have j2 := swaps_handlePanels hs hc hp hf he o o' x.panels (fun m hm => hx m (.inl hm))
  intro k₁ k₁' k₂ k₂' z y c c' h1 h2
  dsimp only at h1 h2 ⊢
  unfold Cockpit.handle at h1
  rw [M.run_bind_some (M.run_now _ _), hf.clock] at h1
  obtain ⟨⟨a₁, c₁⟩, k3, f1, h1⟩ := M.bind_eq_some.1 h1
  obtain ⟨⟨a₂, c₂⟩, _, f2, h1⟩ := M.bind_eq_some.1 h1
  cases h1
  unfold Cockpit.handle at h2
  rw [M.run_bind_some (M.run_now _ _), hf.clock] at h2
  obtain ⟨⟨b₁, d₁⟩, _, g1, h2⟩ := M.bind_eq_some.1 h2
  obtain ⟨⟨b₂, d₂⟩, _, g2, h2⟩ := M.bind_eq_some.1 h2
  cases h2
  obtain ⟨z₁, p1, q1⟩ := j1 _ _ _ _ _ _ _ _ f1 g1
  obtain ⟨z₂, p2, q2⟩ := j2 _ _ _ _ _ _ _ _ f2 g2
  refine ⟨{ x with head := { x.head with activity := { x.head.activity with lastActivity := t } }, panels := z₂, handlers := z₁ }, fun k => ?_, fun k => ?_⟩
  · obtain ⟨k1, e1⟩ := p1 (k + 1)
    obtain ⟨k2, e2⟩ := p2 k1
    unfold Cockpit.handle
    rw [M.run_bind_some (M.run_now _ _), hf.clock]
    exact ⟨k2, M.bind_eq_some.2 ⟨_, _, e1, M.bind_eq_some.2 ⟨_, _, e2, rfl⟩⟩⟩
  · obtain ⟨k1, e1⟩ := q1 (k + 1)
    obtain ⟨k2, e2⟩ := q2 k1
    unfold Cockpit.handle
    rw [M.run_bind_some (M.run_now _ _), hf.clock]
    exact ⟨k2, M.bind_eq_some.2 ⟨_, _, e1, M.bind_eq_some.2 ⟨_, _, e2, rfl⟩⟩⟩

theorem swaps_handleCockpits : ∀ cs : List (Cockpit σ L), (∀ h ∈ cs.flatMap Cockpit.holders, h.ForgetsOrder) →
    Swaps e (handleCockpits o) (handleCockpits o') cs
  | [], _ => .left (n := 0) (fun _ _ _ _ h => by cases h; rfl) rfl (.pure rfl)
  | p :: ps, hx => by
    simp only [List.flatMap_cons, List.mem_append] at hx
    refine .both List.cons (Cockpit.swaps hs hc hp hf he o o' p (fun m hm => hx m (.inl hm)))
      (swaps_handleCockpits ps (fun m hm => hx m (.inr hm))) ?_ ?_ <;>
      · intro a b; rw [handleCockpits]

theorem ProcessorState.swaps (x : ProcessorState σ L) (hx : ∀ h ∈ x.holders, h.ForgetsOrder) :
    Swaps e (ProcessorState.handleAll o) (ProcessorState.handleAll o') x := by
  simp only [ProcessorState.holders, List.mem_append] at hx
  have j1 := swaps_handleCockpits hs hc hp hf he o o' x.cockpits (fun m hm => hx m (.inl hm))
  have j2 := swaps_handleHandlers hs hc hp hf he o o' x.handlers (fun m hm => hx m (.inr hm))
  have hx : x = { x with cockpits := x.cockpits, handlers := x.handlers } := rfl
  rw [hx]
  exact .both (F := ProcessorState.handleAll o) (G := ProcessorState.handleAll o') (fun a b => { x with cockpits := a, handlers := b }) j1 j2
    (fun _ _ => rfl) (fun _ _ => rfl)

end Commute
end Tree

section Stay
/-! ## Instruments stay what they are -/

theorem SecondsBuckets.bare_bare (b : SecondsBuckets Bucket) : b.bare.bare = b.bare := by
  unfold SecondsBuckets.bare
  simp

theorem Gauge.bare_bare (g : Gauge) : g.bare.bare = g.bare := by
  unfold Gauge.bare
  cases g.tracking with
  | none => rfl
  | some b => simp [SecondsBuckets.bare_bare]

theorem Instrument.bare_bare (i : Instrument σ) : i.bare.bare = i.bare := by
  cases i with
  | gauge i => exact congrArg Instrument.gauge i.bare_bare
  | _ => rfl

theorem GaugeAdapter.holder_bare (a : GaugeAdapter L) : a.bare.holder = a.holder := by
  unfold GaugeAdapter.holder GaugeAdapter.bare
  dsimp only
  rw [Gauge.bare_bare]

theorem PanelHead.holders_bare (h : PanelHead L) : h.bare.holders = h.holders := by
  have hg : (h.gauge.map GaugeAdapter.bare).toList.map (·.holder) = h.gauge.toList.map (·.holder) := by
    cases h.gauge with
    | none => rfl
    | some a => exact congrArg (fun x => [x]) a.holder_bare
  unfold PanelHead.holders PanelHead.bare
  dsimp only
  rw [hg]
  cases h.counter <;> cases h.meter <;> cases h.histogram <;> rfl

mutual
theorem Panel.holders_bare : ∀ p : Panel σ L, p.bare.holders = p.holders
  | .mk h ps hs ss => by
    simp only [Panel.bare, Panel.holders, h.holders_bare, holdersOfPanels_bare ps, holdersOfHandlers_bare hs]
theorem holdersOfPanels_bare : ∀ ps : List (Panel σ L), holdersOfPanels (barePanels ps) = holdersOfPanels ps
  | [] => rfl
  | p :: ps => by simp only [barePanels, holdersOfPanels, Panel.holders_bare p, holdersOfPanels_bare ps]
theorem Handler.holders_bare : ∀ h : Handler σ L, h.bare.holders = h.holders
  | .instrument a => congrArg (fun x => [Holder.mk x false]) a.instrument.bare_bare
  | .gauge a => congrArg (fun x => [x]) a.holder_bare
  | .panel p => by simp only [Handler.bare, Handler.holders, Panel.holders_bare p]
  | .cockpit h ps hs ss => by simp only [Handler.bare, Handler.holders, holdersOfPanels_bare ps, holdersOfHandlers_bare hs]
  | .custom _ => rfl
theorem holdersOfHandlers_bare : ∀ hs : List (Handler σ L), holdersOfHandlers (bareHandlers hs) = holdersOfHandlers hs
  | [] => rfl
  | h :: hs => by simp only [bareHandlers, holdersOfHandlers, Handler.holders_bare h, holdersOfHandlers_bare hs]
end

theorem Cockpit.holders_bare (c : Cockpit σ L) : c.bare.holders = c.holders := by
  simp only [Cockpit.bare, Cockpit.holders, holdersOfPanels_bare, holdersOfHandlers_bare]

theorem holdersOfPanels_eq (ps : List (Panel σ L)) : holdersOfPanels ps = ps.flatMap Panel.holders := by
  induction ps with
  | nil => rfl
  | cons p ps ih => rw [holdersOfPanels, ih]; rfl

theorem holdersOfHandlers_eq (hs : List (Handler σ L)) : holdersOfHandlers hs = hs.flatMap Handler.holders := by
  induction hs with
  | nil => rfl
  | cons p ps ih => rw [holdersOfHandlers, ih]; rfl

theorem cockpitHolders_bare (cs : List (Cockpit σ L)) : (cs.map Cockpit.bare).flatMap Cockpit.holders = cs.flatMap Cockpit.holders := by
  induction cs with
  | nil => rfl
  | cons c cs ih => rw [List.map_cons, List.flatMap_cons, List.flatMap_cons, ih, c.holders_bare]

theorem ProcessorState.holders_addCockpit (s : ProcessorState σ L) (c : Cockpit σ L) {m : Holder}
    (h : m ∈ (s.addCockpit c).holders) : m ∈ s.holders ∨ m ∈ c.holders := by
  have : (s.addCockpit c).holders = s.holders ∨
      (s.addCockpit c).holders = s.cockpits.flatMap Cockpit.holders ++ c.holders ++ holdersOfHandlers s.handlers := by
    unfold ProcessorState.addCockpit
    split
    · split
      · exact .inl rfl
      · exact .inr (by simp [ProcessorState.holders])
    · exact .inr (by simp [ProcessorState.holders])
  rcases this with this | this
  · exact .inl (this ▸ h)
  · rw [this] at h
    simp only [ProcessorState.holders, List.mem_append] at h ⊢
    tauto

theorem ProcessorState.holders_addHandler (s : ProcessorState σ L) (x : Handler σ L) {m : Holder}
    (h : m ∈ (s.addHandler x).holders) : m ∈ s.holders ∨ m ∈ x.holders := by
  simp only [ProcessorState.holders, ProcessorState.addHandler, holdersOfHandlers_eq, List.flatMap_append, List.mem_append,
    List.flatMap_cons, List.flatMap_nil, List.append_nil] at h ⊢
  tauto

theorem modifyFirst_holders {name : String} {f : Cockpit σ L → Cockpit σ L} {l : List (Holder)} {m : Holder}
    (hf : ∀ c, m ∈ (f c).holders → m ∈ c.holders ∨ m ∈ l) : ∀ cs : List (Cockpit σ L),
    m ∈ (ProcessorState.modifyFirst name f cs).flatMap Cockpit.holders → m ∈ cs.flatMap Cockpit.holders ∨ m ∈ l
  | [], h => .inl h
  | c :: cs, h => by
    unfold ProcessorState.modifyFirst at h
    split at h
    · simp only [List.flatMap_cons, List.mem_append] at h ⊢
      rcases h with h | h
      · rcases hf c h with h | h
        · exact .inl (.inl h)
        · exact .inr h
      · exact .inl (.inr h)
    · simp only [List.flatMap_cons, List.mem_append] at h ⊢
      rcases h with h | h
      · exact .inl (.inl h)
      · rcases modifyFirst_holders hf cs h with h | h
        · exact .inl (.inr h)
        · exact .inr h

theorem ProcessorState.holders_set (s : ProcessorState σ L) (c : Call σ L) {m : Holder} (h : m ∈ (s.set c).holders) :
    m ∈ s.holders ∨ m ∈ c.holders := by
  cases c with
  | addCockpit c => exact s.holders_addCockpit c h
  | addHandler x => exact s.holders_addHandler x h
  | _ => exact .inl h

variable [DecidableEq L] [Custom σ L]

theorem ProcessorState.holders_receive {s s' : ProcessorState σ L} {dec : Decider} {t t' : Tally} {x : Message σ L} {e : Env} {k k' : Nat}
    (hr : s.receive dec t x e k = some ((s', t'), k')) {m : Holder} (h : m ∈ s'.holders) : m ∈ s.holders ∨ m ∈ x.holders := by
  cases x with
  | observation o =>
    unfold ProcessorState.receive at hr
    dsimp only at hr
    split at hr
    · obtain ⟨⟨cs, n⟩, k₁, h1, hr⟩ := M.bind_eq_some.1 hr
      obtain ⟨⟨hs, n'⟩, k₂, h2, hr⟩ := M.bind_eq_some.1 hr
      cases hr
      have h3 : bareHandlers hs = bareHandlers s.handlers := keepsBare_handleHandlers o s.handlers _ _ _ _ h2
      have h4 : cs.map Cockpit.bare = s.cockpits.map Cockpit.bare := by
        have : M.Post (handleCockpits o s.cockpits) fun r => r.1.map Cockpit.bare = s.cockpits.map Cockpit.bare := by
          generalize s.cockpits = l
          induction l with
          | nil => exact .pure rfl
          | cons c l ih => exact .bind _ (c.keepsBare_handle o) fun _ h₁ => .bind _ ih fun _ h₂ => .pure (by simp [h₁, h₂])
        exact this _ _ _ _ h1
      left
      simp only [ProcessorState.holders, List.mem_append] at h ⊢
      rw [← holdersOfHandlers_bare, h3, holdersOfHandlers_bare, ← cockpitHolders_bare, h4, cockpitHolders_bare] at h
      exact h
    · cases hr; exact .inl h
  | addCockpit c => cases hr; exact s.holders_addCockpit c h
  | addHandler c => cases hr; exact s.holders_addHandler c h
  | removeCockpit n =>
    cases hr
    left
    simp only [ProcessorState.holders, ProcessorState.removeCockpit, List.mem_append, List.mem_flatMap, List.mem_filter] at h ⊢
    rcases h with ⟨c, ⟨hc, _⟩, h⟩ | h
    · exact .inl ⟨c, hc, h⟩
    · exact .inr h
  | addPanelToCockpit n p =>
    cases hr
    simp only [ProcessorState.holders, List.mem_append] at h ⊢
    have hf : ∀ c : Cockpit σ L, m ∈ (c.addPanel p).holders → m ∈ c.holders ∨ m ∈ p.holders := by
      intro c hc
      unfold Cockpit.addPanel at hc
      split at hc
      · split at hc
        · exact .inl hc
        · simp only [Cockpit.holders, holdersOfPanels_eq, List.flatMap_append, List.mem_append, List.flatMap_cons, List.flatMap_nil,
            List.append_nil] at hc ⊢
          tauto
      · simp only [Cockpit.holders, holdersOfPanels_eq, List.flatMap_append, List.mem_append, List.flatMap_cons, List.flatMap_nil,
          List.append_nil] at hc ⊢
        tauto
    rcases h with h | h
    · rcases modifyFirst_holders hf s.cockpits h with h | h
      · exact .inl (.inl h)
      · exact .inr h
    · exact .inl (.inr h)
  | removePanelFromCockpit n q =>
    cases hr
    simp only [ProcessorState.holders, List.mem_append] at h ⊢
    left
    have hf : ∀ c : Cockpit σ L, m ∈ (c.removePanel q).holders → m ∈ c.holders ∨ m ∈ ([] : List (Holder)) := by
      intro c hc
      left
      simp only [Cockpit.removePanel, Cockpit.holders, holdersOfPanels_eq, List.mem_append, List.mem_flatMap, List.mem_filter] at hc ⊢
      rcases hc with ⟨p, ⟨hp, _⟩, hc⟩ | hc
      · exact .inl ⟨p, hp, hc⟩
      · exact .inr hc
    rcases h with h | h
    · rcases modifyFirst_holders hf s.cockpits h with h | h
      · exact .inl h
      · cases h
    · exact .inr h

/-! ## Happenings -/

theorem Happening.play_holders {e : Env} {x y : ProcessorState σ L × Tally} {h : Happening σ L} (hp : h.play e x = some y)
    {m : Holder} (hm : m ∈ y.1.holders) : m ∈ x.1.holders ∨ m ∈ h.holders := by
  cases h with
  | set c =>
    cases hp
    exact x.1.holders_set c hm
  | message n strategy msg =>
    unfold Happening.play at hp
    dsimp only at hp
    obtain ⟨⟨z, k⟩, hz, rfl⟩ := Option.map_eq_some_iff.1 hp
    obtain ⟨dec, k₁, h1, hz⟩ := M.bind_eq_some.1 hz
    obtain ⟨⟨s, t⟩, k₂, h2, hz⟩ := M.bind_eq_some.1 hz
    cases hz
    exact ProcessorState.holders_receive h2 hm

end Stay

/-! ## Processors -/

section Plays
variable {e : Env} [DecidableEq L] [Custom σ L]

theorem Happening.play_unchecked (hc : CustomAgrees σ L) {h : Happening σ L} {x y : ProcessorState σ L × Tally} (hp : h.play e x = some y) :
    h.play e.unchecked x = some y := by
  cases h with
  | set c => exact hp
  | message n strategy msg =>
    unfold Happening.play at hp ⊢
    dsimp only at hp ⊢
    obtain ⟨z, hz, rfl⟩ := Option.map_eq_some_iff.1 hp
    refine Option.map_eq_some_iff.2 ⟨z, ?_, rfl⟩
    exact M.Agr.same (e := e.at n) (.bind strategy.agr_decider fun _ => .bind (ProcessorState.agr_receive hc _ _ _ _) fun _ => .pure _) hz

theorem plays_unchecked (hc : CustomAgrees σ L) : ∀ {hs : List (Happening σ L)} {x y : ProcessorState σ L × Tally},
    hs.foldlM (Happening.play e) x = some y → hs.foldlM (Happening.play e.unchecked) x = some y
  | [], _, _, h => h
  | a :: hs, x, y, h => by
    rw [List.foldlM_cons] at h ⊢
    obtain ⟨z, h1, h2⟩ := Option.bind_eq_some_iff.1 h
    exact Option.bind_eq_some_iff.2 ⟨z, Happening.play_unchecked hc h1, plays_unchecked hc h2⟩

theorem plays_swap (hs : CustomStill σ L) (hc : CustomForgets σ L) (hp : e.profile = .release) {m : Nat} {strategy strategy' : Strategy}
    {o o' : Observation L} {x : ProcessorState σ L} (hx : ∀ h ∈ x.holders, h.ForgetsOrder) {u : Tally} {z y : ProcessorState σ L × Tally}
    (h1 : (Happening.message m strategy (.observation o)).play e (x, u) = some z)
    (h2 : (Happening.message m strategy' (.observation o')).play e z = some y) :
    ∃ z', (Happening.message m strategy' (.observation o')).play e (x, u) = some z' ∧
      (Happening.message m strategy (.observation o)).play e z' = some y := by
  have decided : ∀ {strategy : Strategy} {o : Observation L} {x z : ProcessorState σ L × Tally},
      (Happening.message m strategy (.observation o)).play e x = some z → ∃ dec k, strategy.decider (e.at m) 0 = some (dec, k) := by
    intro strategy o x z h
    unfold Happening.play at h
    dsimp only at h
    obtain ⟨⟨z, k⟩, hz, rfl⟩ := Option.map_eq_some_iff.1 h
    obtain ⟨dec, k₁, h1, hz⟩ := M.bind_eq_some.1 hz
    exact ⟨dec, k₁, h1⟩
  obtain ⟨dec, k, hd⟩ := decided h1
  obtain ⟨dec', k', hd'⟩ := decided h2
  obtain ⟨z, v⟩ := z
  rw [play_handleAll hd] at h1
  rw [play_handleAll hd'] at h2
  by_cases ho : dec.shouldBeProcessed o = true <;> by_cases ho' : dec'.shouldBeProcessed o' = true
  · rw [if_pos ho] at h1
    rw [if_pos ho'] at h2
    obtain ⟨⟨⟨a, n⟩, j⟩, g1, h3⟩ := Option.map_eq_some_iff.1 h1
    cases h3
    rw [handleAll_active, Option.map_map] at h2
    obtain ⟨⟨⟨b, n'⟩, j'⟩, g2, rfl⟩ := Option.map_eq_some_iff.1 h2
    obtain ⟨z', p, q⟩ := ProcessorState.swaps (hs.at e m) hc hp (e.at_frozen m) ⟨e, m, rfl⟩ o o' x hx _ _ _ _ _ _ _ _ g1 g2
    obtain ⟨i, p⟩ := p k'
    obtain ⟨i', q⟩ := q k
    refine ⟨(z'.activeAt (e.clock m), { u with processed := u.processed + 1, updated := u.updated + n' }), ?_, ?_⟩
    · rw [play_handleAll hd', if_pos ho', p]; rfl
    · rw [play_handleAll hd, if_pos ho, handleAll_active, q]
      show some _ = some _
      dsimp only
      rw [show u.updated + n' + n = u.updated + n + n' by omega]
      rfl
  · rw [if_pos ho] at h1
    rw [if_neg ho'] at h2
    obtain ⟨⟨⟨a, n⟩, j⟩, g1, h3⟩ := Option.map_eq_some_iff.1 h1
    cases h3
    cases h2
    refine ⟨(x.activeAt (e.clock m), { u with dropped := u.dropped + 1 }), ?_, ?_⟩
    · rw [play_handleAll hd', if_neg ho']
    · rw [play_handleAll hd, if_pos ho, handleAll_active, g1]; rfl
  · rw [if_neg ho] at h1
    rw [if_pos ho'] at h2
    cases h1
    rw [handleAll_active, Option.map_map] at h2
    obtain ⟨⟨⟨b, n'⟩, j'⟩, g2, rfl⟩ := Option.map_eq_some_iff.1 h2
    refine ⟨(b.activeAt (e.clock m), { u with processed := u.processed + 1, updated := u.updated + n' }), ?_, ?_⟩
    · rw [play_handleAll hd', if_pos ho', g2]; rfl
    · rw [play_handleAll hd, if_neg ho]; rfl
  · rw [if_neg ho] at h1
    rw [if_neg ho'] at h2
    cases h1
    cases h2
    refine ⟨(x.activeAt (e.clock m), { u with dropped := u.dropped + 1 }), ?_, ?_⟩
    · rw [play_handleAll hd', if_neg ho']
    · rw [play_handleAll hd, if_neg ho]

omit [DecidableEq L] [Custom σ L] in
theorem Reordered.perm {hs hs' : List (Happening σ L)} (ho : Reordered hs hs') : hs.Perm hs' := by
  induction ho with
  | nil => exact .nil
  | same h _ ih => exact ih.cons h
  | swap => exact .swap ..
  | trans _ _ ih ih' => exact ih.trans ih'

omit [DecidableEq L] [Custom σ L] in
theorem Reordered.refl (hs : List (Happening σ L)) : Reordered hs hs := by
  induction hs with
  | nil => exact .nil
  | cons h _ ih => exact ih.same h

theorem Reordered.plays (hs : CustomStill σ L) (hc : CustomForgets σ L) (hp : e.profile = .release) {l l' : List (Happening σ L)}
    (ho : Reordered l l') {x y : ProcessorState σ L × Tally} (hx : ∀ h ∈ x.1.holders, h.ForgetsOrder)
    (hm : ∀ a ∈ l, ∀ h ∈ a.holders, h.ForgetsOrder) (h : l.foldlM (Happening.play e) x = some y) :
    l'.foldlM (Happening.play e) x = some y := by
  induction ho generalizing x with
  | nil => exact h
  | @same a l l' _ ih =>
    rw [List.foldlM_cons] at h ⊢
    obtain ⟨z, h1, h2⟩ := Option.bind_eq_some_iff.1 h
    refine Option.bind_eq_some_iff.2 ⟨z, h1, ih (fun b hb => ?_) (fun b hb => hm b (List.mem_cons_of_mem _ hb)) h2⟩
    rcases Happening.play_holders h1 hb with hb | hb
    · exact hx b hb
    · exact hm a List.mem_cons_self b hb
  | swap m strategy strategy' o o' l =>
    rw [List.foldlM_cons] at h ⊢
    obtain ⟨z, h1, h2⟩ := Option.bind_eq_some_iff.1 h
    rw [List.foldlM_cons] at h2
    obtain ⟨z₂, h2, h3⟩ := Option.bind_eq_some_iff.1 h2
    obtain ⟨z', h4, h5⟩ := plays_swap hs hc hp (x := x.1) (u := x.2) hx h1 h2
    refine Option.bind_eq_some_iff.2 ⟨z', h4, ?_⟩
    rw [List.foldlM_cons]
    exact Option.bind_eq_some_iff.2 ⟨z₂, h5, h3⟩
  | trans h1 _ ih ih' =>
    exact ih' hx (fun a ha => hm a (h1.perm.mem_iff.2 ha)) (ih hx hm h)

end Plays

end Metrix
