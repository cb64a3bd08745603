import Verif.Spec.Within
import Verif.Proof.Append
import Verif.Proof.Undisturbed

/-! What instruments do depends neither on the number of readings of the clock nor on what else is in the snapshot. -/

namespace Metrix

/-- If the second one does not panic, then neither does the first, and the results are related. -/
def M.Covers {α β : Type} (e : Env) (R : α → β → Prop) (x : M α) (y : M β) : Prop :=
  ∀ k k' b k₂, y e k' = some (b, k₂) → ∃ a k₁, x e k = some (a, k₁) ∧ R a b

namespace M.Covers
variable {α β γ δ : Type} {e : Env}

theorem of_sync {R : α → β → Prop} {x : M α} {y : M β} (h : M.Sync e R x y) : M.Covers e R x y := by
  intro k k' b k₂ hy
  have := h k k'
  rw [hy] at this
  cases hx : x e k with
  | none => rw [hx] at this; cases this
  | some r =>
    rw [hx] at this
    cases this with
    | some h => exact ⟨r.1, r.2, rfl, h⟩

theorem pure {R : α → β → Prop} {a : α} {b : β} (h : R a b) : M.Covers e R (Pure.pure a) (Pure.pure b) := of_sync (.pure h)

theorem bind {x : M α} {y : M β} {f : α → M γ} {g : β → M δ} {S : γ → δ → Prop} (R : α → β → Prop) (hx : M.Covers e R x y)
    (hf : ∀ a b, R a b → M.Covers e S (f a) (g b)) : M.Covers e S (x >>= f) (y >>= g) := by
  intro k k' d k₂ h
  obtain ⟨b, k₃, h1, h2⟩ := M.bind_eq_some.1 h
  obtain ⟨a, k₄, h3, h4⟩ := hx k k' b k₃ h1
  obtain ⟨c, k₅, h5, h6⟩ := hf a b h4 k₄ k₃ d k₂ h2
  exact ⟨c, k₅, (M.run_bind_some h3).trans h5, h6⟩

theorem bindEq {x : M α} {f : α → M γ} {g : α → M δ} {S : γ → δ → Prop} (hx : M.Sync e Eq x x)
    (hf : ∀ a, M.Covers e S (f a) (g a)) : M.Covers e S (x >>= f) (x >>= g) :=
  .bind Eq (of_sync hx) fun a b h => by subst h; exact hf a

/-- More is done on the right. -/
theorem skip {x : M γ} {y : M β} {g : β → M δ} {S : γ → δ → Prop} (P : β → Prop) (hy : y.Post P)
    (hf : ∀ b, P b → M.Covers e S x (g b)) : M.Covers e S x (y >>= g) := by
  intro k k' d k₂ h
  obtain ⟨b, k₃, h1, h2⟩ := M.bind_eq_some.1 h
  exact hf b (hy e k' b k₃ h1) k k₃ d k₂ h2

theorem skipAny {x : M γ} {y : M β} {g : β → M δ} {S : γ → δ → Prop} (hf : ∀ b, M.Covers e S x (g b)) : M.Covers e S x (y >>= g) := by
  intro k k' d k₂ h
  obtain ⟨b, k₃, h1, h2⟩ := M.bind_eq_some.1 h
  exact hf b k k₃ d k₂ h2

theorem ite {R : α → β → Prop} {c : Prop} [Decidable c] {x x' : M α} {y y' : M β} (h : M.Covers e R x y)
    (h' : M.Covers e R x' y') : M.Covers e R (if c then x else x') (if c then y else y') := by
  split <;> assumption

end M.Covers

variable {e : Env} {t : Int}

/-! ## Updates -/

theorem sync_index {T : Type} (xs : List T) (i : Nat) : M.Sync e Eq (index xs i) (index xs i) := by
  unfold index
  split
  · exact .pure rfl
  · exact .panic

theorem sync_assignAt {T : Type} (xs : List T) (i : Nat) (x : T) : M.Sync e Eq (assignAt xs i x) (assignAt xs i x) :=
  .ite (.pure rfl) .panic

section
variable {T : Type} [Inhabited T]

omit [Inhabited T] in
theorem sync_idx (b : SecondsBuckets T) (n : Nat) : M.Sync e Eq (b.idx n) (b.idx n) := .ite .panic (.pure rfl)

theorem sync_advance (b : SecondsBuckets T) : M.Sync e Eq b.advance b.advance :=
  .bindEq (sync_idx _ _) fun _ => .bindEq (sync_assignAt _ _ _) fun _ => .pure rfl

theorem sync_advanceN : ∀ (n : Nat) (b : SecondsBuckets T), M.Sync e Eq (b.advanceN n) (b.advanceN n)
  | 0, _ => .pure rfl
  | n + 1, b => .bindEq (sync_advance b) fun b => sync_advanceN n b

theorem sync_ringTick (hf : Frozen e t) (b : SecondsBuckets T) : M.Sync e Eq b.tick b.tick :=
  .bindEq hf.now fun _ => .ite (.pure rfl) (.ite (sync_advance _) (.ite (sync_advanceN _ _) (.pure rfl)))

theorem sync_modifyCurrent (hf : Frozen e t) (b : SecondsBuckets T) {f : T → M T} (h : ∀ x, M.Sync e Eq (f x) (f x)) :
    M.Sync e Eq (b.modifyCurrent f) (b.modifyCurrent f) :=
  .bindEq (sync_ringTick hf b) fun _ => .bindEq (sync_index _ _) fun _ => .bindEq (h _) fun _ =>
    .bindEq (sync_assignAt _ _ _) fun _ => .pure rfl

omit [Inhabited T] in
theorem sync_iterFrom (bs : List T) : ∀ (n i : Nat), M.Sync e Eq (SecondsBuckets.iterFrom bs n i) (SecondsBuckets.iterFrom bs n i)
  | 0, _ => .pure rfl
  | n + 1, i => .bindEq (sync_index _ _) fun _ => .bindEq (sync_iterFrom bs n _) fun _ => .pure rfl

theorem sync_ringIter (hf : Frozen e t) (b : SecondsBuckets T) : M.Sync e Eq b.iter b.iter :=
  .bindEq (sync_ringTick hf b) fun _ => .bindEq (sync_iterFrom _ _ _) fun _ => .pure rfl
end

theorem sync_gaugeTrack (hf : Frozen e t) (r : Option (SecondsBuckets Bucket)) (v : Int) : M.Sync e Eq (Gauge.track r v) (Gauge.track r v) := by
  cases r with
  | none => exact .pure rfl
  | some b => exact .bindEq (sync_modifyCurrent hf b fun x => sync_bucketUpdate x v) fun _ => .pure rfl

theorem sync_gaugeSet (hf : Frozen e t) (g : Gauge) (v : ObservedValue) : M.Sync e Eq (g.set v) (g.set v) := by
  unfold Gauge.set
  split
  · refine .bindEq (sync_nextValue _ _ _) fun o => ?_
    cases o with
    | none => exact .pure rfl
    | some _ => exact .bindEq (sync_gaugeTrack hf _ _) fun _ => .pure rfl
  · refine .bindEq (sync_nextValue _ _ _) fun o => ?_
    cases o with
    | none => exact .pure rfl
    | some _ => exact .bindEq (sync_gaugeTrack hf _ _) fun _ => .pure rfl

theorem sync_gaugeUpdate (hf : Frozen e t) (g : Gauge) (u : Update) : M.Sync e Eq (g.update u) (g.update u) := by
  unfold Gauge.update
  split
  · exact .bindEq (sync_gaugeSet hf _ _) fun _ => .pure rfl
  · exact .pure rfl

theorem sync_stdTick (hf : Frozen e t) (s : StdMeter) : M.Sync e Eq s.tick s.tick :=
  .bindEq sync_env fun _ => .bindEq hf.now fun _ => .pure rfl

theorem sync_stdMark (hf : Frozen e t) (s : StdMeter) (n : Int) : M.Sync e Eq (s.mark n) (s.mark n) :=
  .bindEq (sync_stdTick hf s) fun _ => .bindEq (sync_arithI64 _) fun _ => .pure rfl

theorem sync_meterTick (hf : Frozen e t) (m : Meter) : M.Sync e Eq m.tickIfDue m.tickIfDue :=
  .bindEq hf.now fun _ => .ite (.bindEq (sync_stdTick hf _) fun _ => .bindEq hf.now fun _ => .pure rfl) (.pure rfl)

theorem sync_meterUpdate (hf : Frozen e t) (m : Meter) (u : Update) : M.Sync e Eq (m.update u) (m.update u) := by
  refine .bindEq (sync_meterTick hf m) fun m => ?_
  cases u with
  | withValue _ _ => exact .bindEq (sync_stdMark hf _ _) fun _ => .pure rfl
  | observation _ => exact .bindEq (sync_stdMark hf _ _) fun _ => .pure rfl
  | observations _ _ => exact .ite (.bindEq (sync_stdMark hf _ _) fun _ => .pure rfl) (.pure rfl)

theorem sync_valueMark (hf : Frozen e t) (m : ValueMeter) (v : Int) : M.Sync e Eq (m.mark v) (m.mark v) :=
  .bindEq (sync_stdMark hf _ _) fun _ => .pure rfl

theorem sync_valueMeterUpdate (hf : Frozen e t) (m : ValueMeter) (u : Update) : M.Sync e Eq (m.update u) (m.update u) := by
  unfold ValueMeter.update
  split
  · exact .bindEq (sync_duration _ _ _) fun _ => .bindEq (sync_valueMark hf _ _) fun _ => .pure rfl
  · split
    · exact .bindEq (sync_valueMark hf _ _) fun _ => .pure rfl
    · exact .pure rfl
  · exact .pure rfl

variable {σ L : Type}

theorem sync_update [Custom σ L] (hc : StillAt σ L e) (hf : Frozen e t) (i : Instrument σ) (u : Update) :
    M.Sync e Eq (i.update L u) (i.update L u) := by
  cases i with
  | counter i => exact .bindEq (sync_counterUpdate i u) fun _ => .pure rfl
  | gauge i => exact .bindEq (sync_gaugeUpdate hf i u) fun _ => .pure rfl
  | meter i => exact .bindEq (sync_meterUpdate hf i u) fun _ => .pure rfl
  | valueMeter i => exact .bindEq (sync_valueMeterUpdate hf i u) fun _ => .pure rfl
  | histogram i => exact .bindEq (sync_histogramUpdate hf i u) fun _ => .pure rfl
  | flag i => exact .bindEq (.pure rfl) fun _ => .pure rfl
  | staircaseTimer i =>
    refine .bindEq ?_ fun _ => .pure rfl
    show M.Sync e Eq (i.update u) (i.update u)
    unfold StaircaseTimer.update
    exact .bindEq hf.now fun _ => .bindEq (sync_addDur _ _) fun _ => .pure rfl
  | occurrenceIndicator i =>
    refine .bindEq ?_ fun _ => .pure rfl
    show M.Sync e Eq (i.update u) (i.update u)
    unfold OccurrenceIndicator.update
    exact .bindEq hf.now fun _ => .pure rfl
  | nonOccurrenceIndicator i =>
    refine .bindEq ?_ fun _ => .pure rfl
    show M.Sync e Eq (i.update u) (i.update u)
    unfold NonOccurrenceIndicator.update
    exact .bindEq hf.now fun _ => .pure rfl
  | dataDisplay i =>
    refine .bindEq ?_ fun _ => .pure rfl
    show M.Sync e Eq (i.update u) (i.update u)
    unfold DataDisplay.update
    split
    · split
      · exact .bindEq hf.now fun _ => .bindEq (sync_addDur _ _) fun _ => .pure rfl
      · exact .pure rfl
    · exact .pure rfl
  | lastOccurrenceTracker i =>
    refine .bindEq ?_ fun _ => .pure rfl
    show M.Sync e Eq (i.update u) (i.update u)
    unfold LastOccurrenceTracker.update
    exact .bindEq hf.now fun _ => .pure rfl
  | custom s => exact .bindEq (hc.update s u) fun _ => .pure rfl

theorem sync_gaugeAdapter [DecidableEq L] (hf : Frozen e t) (a : GaugeAdapter L) (o : Observation L) :
    M.Sync e Eq (a.handle o) (a.handle o) := by
  have hu : ∀ u, M.Sync e Eq (a.updateGauge u) (a.updateGauge u) := fun u => .bindEq (sync_gaugeUpdate hf _ _) fun _ => .pure rfl
  unfold GaugeAdapter.handle
  split
  · exact .ite (hu _) (.pure rfl)
  · refine .ite ?_ (.pure rfl)
    split
    · exact hu _
    · exact .pure rfl
  · exact .ite (hu _) (.ite (hu _) (.pure rfl))

/-! ## Snapshots -/

/-- The same is added to both. -/
def AddsSame (s s' x y : Snapshot) : Prop := ∃ a, x = s ++ a ∧ y = s' ++ a

theorem AddsSame.refl (s s' : Snapshot) : AddsSame s s' s s' := ⟨[], by simp, by simp⟩

theorem AddsSame.push {s s' x y : Snapshot} (h : AddsSame s s' x y) (n : String) (v : ItemKind) : AddsSame s s' (x.push n v) (y.push n v) := by
  obtain ⟨a, rfl, rfl⟩ := h
  exact ⟨a ++ [(n, v)], by simp [Snapshot.push], by simp [Snapshot.push]⟩

/-- Both put the same items, whatever else is in the snapshot. -/
abbrev PutsAlso {C : Type} (e : Env) (s s' : Snapshot) (x y : M (C × Snapshot)) : Prop :=
  M.Sync e (fun r r' => AddsSame s s' r.2 r'.2) x y

variable (s s' : Snapshot)

theorem also_keeping {I : Type} {f : I → Snapshot → Bool → M Snapshot} {i : I} (h : M.Sync e (AddsSame s s') (f i s false) (f i s' false)) :
    PutsAlso e s s' (keeping f i s false) (keeping f i s' false) := .bind _ h fun _ _ h => .pure h

theorem also_wrap {C D : Type} {w : C → D} {s s' : Snapshot} {x y : M (C × Snapshot)} (h : PutsAlso e s s' x y) :
    PutsAlso e s s' (do let (i, s) ← x; return (w i, s)) (do let (i, s) ← y; return (w i, s)) := .bind _ h fun _ _ h => .pure h

theorem sync_fromBuckets (hf : Frozen e t) (b : SecondsBuckets Bucket) (v : Int) :
    M.Sync e Eq (BucketsStats.fromBuckets b v) (BucketsStats.fromBuckets b v) :=
  .bindEq (sync_ringIter hf b) fun _ => .bindEq (sync_addAll _ _) fun _ => .ite
    (.bindEq (sync_divF64 _ _) fun _ => .bindEq (sync_divF64 _ _) fun _ => .bindEq (sync_divF64 _ _) fun _ => .pure rfl)
    (.bindEq (sync_toF64 _) fun _ => .pure rfl)

theorem also_stats {x y : Snapshot} (h : AddsSame s s' x y) (b : BucketsStats) (p : Option String) :
    AddsSame s s' (b.addToSnapshot x p) (b.addToSnapshot y p) :=
  (((((((h.push _ _).push _ _).push _ _).push _ _).push _ _).push _ _).push _ _)

/-- Both end as the same gauge. -/
theorem also_gaugeValues (hf : Frozen e t) (g : Gauge) :
    M.Sync e (fun r r' => r.1 = r'.1 ∧ AddsSame s s' r.2 r'.2) (g.putValues s) (g.putValues s') := by
  unfold Gauge.putValues
  cases g.value with
  | none => exact .pure ⟨rfl, .refl _ _⟩
  | some v =>
    have key : ∀ (x y : Snapshot) (p : Option String), AddsSame s s' x y →
        M.Sync e (fun r r' => r.1 = r'.1 ∧ AddsSame s s' r.2 r'.2)
          (match g.tracking with
            | none => return (g, x)
            | some b => do
              let (b, stats) ← BucketsStats.fromBuckets b v
              return ({ g with value := some v, tracking := some b }, stats.addToSnapshot x p))
          (match g.tracking with
            | none => return (g, y)
            | some b => do
              let (b, stats) ← BucketsStats.fromBuckets b v
              return ({ g with value := some v, tracking := some b }, stats.addToSnapshot y p)) := by
      intro x y p h
      cases g.tracking with
      | none => exact .pure ⟨rfl, h⟩
      | some b => exact .bindEq (sync_fromBuckets hf b v) fun r => .pure ⟨rfl, also_stats _ _ h _ _⟩
    by_cases hg : g.groupValues = true
    · simp only [if_pos hg]
      exact key _ _ none ((AddsSame.refl _ _).push _ _)
    · simp only [if_neg hg]
      exact key _ _ (some g.name) ((AddsSame.refl _ _).push _ _)

theorem also_gauge (hf : Frozen e t) (g : Gauge) : PutsAlso e s s' (g.putSnapshot s false) (g.putSnapshot s' false) := by
  refine .ite (.bind _ (also_gaugeValues [] [] hf g) ?_) ((also_gaugeValues s s' hf g).mono fun _ _ h => h.2)
  rintro ⟨g, x⟩ ⟨_, y⟩ ⟨rfl, a, h1, h2⟩
  simp only [List.nil_append] at h1 h2
  subst h1 h2
  exact .pure ((AddsSame.refl _ _).push _ _)

theorem also_meter (hf : Frozen e t) (m : Meter) : PutsAlso e s s' (m.putSnapshot s false) (m.putSnapshot s' false) := by
  refine .bindEq (.bindEq (sync_meterTick hf m) fun m => .bindEq ?_ fun _ => .pure rfl) fun r => .pure ((AddsSame.refl _ _).push _ _)
  exact .bindEq sync_env fun _ => .bindEq (sync_stdTick hf _) fun _ => .bindEq (sync_mean hf _) fun _ => .pure rfl

theorem also_histogram (hf : Frozen e t) (h : Histogram) :
    M.Sync e (AddsSame s s') (h.putSnapshot s false) (h.putSnapshot s' false) := by
  unfold Histogram.putSnapshot
  refine .bindEq ?_ fun _ => .pure ((AddsSame.refl _ _).push _ _)
  unfold Histogram.putValues
  refine .bindEq ?_ fun a => ?_
  · unfold Histogram.isActive
    split
    · exact .bindEq hf.now fun _ => .pure rfl
    · exact .pure rfl
  · have hp : ∀ into, M.Sync e Eq (h.putHistogramValues into) (h.putHistogramValues into) := by
      intro into
      refine .of_map fun k k' => ?_
      unfold Histogram.putHistogramValues
      simp only [M.run_bind, M.env, M.readings]
      split
      · rw [hf.stats k k']; rfl
      · rfl
    exact .ite (hp _) (.pure rfl)

theorem also_timedSwitch (name : String) (ds : Descr) (inv : Option NameAlternation) {state : M Bool}
    (hs : M.Sync e Eq state state) :
    M.Sync e (AddsSame s s') (putTimedSwitch name ds inv state s false) (putTimedSwitch name ds inv state s' false) := by
  refine .bindEq hs fun s => ?_
  cases inv with
  | none => exact .pure ((AddsSame.refl _ _).push _ _)
  | some a => exact .bindEq hs fun _ => .pure (((AddsSame.refl _ _).push _ _).push _ _)

theorem also_custom [Custom σ L] (hc : StillAt σ L e) (ha : CustomFrames σ L) (x : σ) :
    PutsAlso e s s' (Custom.putSnapshot L x s false) (Custom.putSnapshot L x s' false) := by
  intro k k'
  rw [ha x s e k, ha x s' e k']
  have := hc.put x [] false k k'
  revert this
  cases Custom.putSnapshot L x [] false e k <;> cases Custom.putSnapshot L x [] false e k' <;> intro this
  · exact .none
  · cases this
  · cases this
  · cases this with
    | some h => exact .some ⟨_, rfl, by rw [h.1]⟩

theorem also_put [Custom σ L] (hc : StillAt σ L e) (ha : CustomFrames σ L) (hf : Frozen e t) (i : Instrument σ) :
    PutsAlso e s s' (i.putSnapshot L s false) (i.putSnapshot L s' false) := by
  cases i with
  | counter i => exact also_wrap (also_keeping _ _ (.pure ((AddsSame.refl _ _).push _ _)))
  | gauge i => exact also_wrap (also_gauge s s' hf i)
  | meter i => exact also_wrap (also_meter s s' hf i)
  | valueMeter i =>
    refine also_wrap ?_
    show PutsAlso e s s' (i.putSnapshot s false) (i.putSnapshot s' false)
    exact .bind _ (also_meter s s' hf i.meter) fun _ _ h => .pure h
  | histogram i => exact also_wrap (also_keeping _ _ (also_histogram s s' hf i))
  | flag i =>
    refine also_wrap (also_keeping _ _ (.pure ?_))
    unfold Flag.putSnapshot
    cases i.state with
    | none => exact .refl _ _
    | some b =>
      cases i.showInverted with
      | none => exact (AddsSame.refl _ _).push _ _
      | some a => exact ((AddsSame.refl _ _).push _ _).push _ _
  | staircaseTimer i =>
    refine also_wrap (also_keeping _ _ (also_timedSwitch _ _ _ _ _ ?_))
    unfold StaircaseTimer.state
    split
    · exact .bindEq hf.now fun _ => .pure rfl
    · exact .pure rfl
  | occurrenceIndicator i =>
    exact also_wrap (also_keeping _ _ (also_timedSwitch _ _ _ _ _ (.bindEq hf.now fun _ => .bindEq (sync_subDur _ _) fun _ => .pure rfl)))
  | nonOccurrenceIndicator i =>
    exact also_wrap (also_keeping _ _ (also_timedSwitch _ _ _ _ _ (.bindEq hf.now fun _ => .bindEq (sync_subDur _ _) fun _ => .pure rfl)))
  | dataDisplay i =>
    refine also_wrap (also_keeping _ _ (.bindEq ?_ fun o => ?_))
    · unfold DataDisplay.shown
      split
      · exact .bindEq hf.now fun _ => .pure rfl
      · exact .pure rfl
    · cases o with
      | none => exact .pure (.refl _ _)
      | some v => exact .pure ((AddsSame.refl _ _).push _ _)
  | lastOccurrenceTracker i =>
    refine also_wrap (also_keeping _ _ (.bindEq ?_ fun o => ?_))
    · unfold LastOccurrenceTracker.elapsed
      split
      · exact .bindEq hf.now fun _ => .pure rfl
      · exact .pure rfl
    · cases o with
      | none => exact .ite (.pure ((AddsSame.refl _ _).push _ _)) (.pure (.refl _ _))
      | some v => exact .pure ((AddsSame.refl _ _).push _ _)
  | custom x => exact also_wrap (also_custom s s' hc ha x)

end Metrix
