import Verif.Proof.History
import Verif.Proof.Values
import Verif.Spec.Gauge

/-! Lemmas about the gauge. -/

namespace Metrix

/-- One change, oldest first. -/
def Change.applyTo (cur : Option Int) : Change → Option Int
  | .absolute v => some v
  | .delta d => some (cur.getD 0 + d)
  | .nothing => cur

theorem gaugeShows_reverse (initial : Option Int) (cs : List Change) :
    gaugeShows initial cs.reverse = cs.foldl Change.applyTo initial := by
  suffices ∀ l : List Change, gaugeShows initial l = l.foldr (fun c x => c.applyTo x) initial by
    rw [this, List.foldr_reverse]
  intro l
  induction l with
  | nil => rfl
  | cons c l ih => cases c <;> simp [gaugeShows, Change.applyTo, ih]

theorem durationToDisplayValue_eq_some {v n : Nat} {u d : TimeUnit} {e : Env} {k k' : Nat}
    (h : durationToDisplayValue v u d e k = some (n, k')) :
    k' = k ∧ wrapI64 n = wrapI64 (displayed v u d) := by
  rcases durationToDisplayValue_cases v u d with hc | hc <;> rw [hc] at h
  · simp at h; obtain ⟨rfl, rfl⟩ := h; exact ⟨rfl, rfl⟩
  · obtain ⟨rfl, rfl, -⟩ := arithU64_eq_some h
    exact ⟨rfl, wrapI64_mod _⟩

/-- Both overflow behaviours agree with the exact value modulo 2^64. -/
theorem Gauge.nextValue_eq_some {unit : TimeUnit} {cur r : Option Int} {v : ObservedValue} {t : Int}
    {e : Env} {k k' : Nat} (hcur : ∀ c ∈ cur, I64 c) (hv : v.InRange)
    (h : Gauge.nextValue unit cur v e k = some (r, k')) :
    k' = k ∧ r = (((Update.withValue v t).change unit).applyTo cur).map wrapI64 := by
  have hcur' : cur.map wrapI64 = cur := by
    cases cur with
    | none => rfl
    | some c => simp [wrapI64_of_I64 (hcur c rfl)]
  have hconv : ∀ n, v.convertToI64 = some n → I64 n := by
    intro n hn
    cases v <;> simp only [ObservedValue.convertToI64] at hn
    case signedInteger => simp at hn; subst hn; exact hv
    case unsignedInteger =>
      split at hn
      · simp at hn; subst hn; unfold I64 i64Min; omega
      · cases hn
    case float x =>
      split at hn
      · simp at hn; subst hn; cases x <;> simp [F64.roundToI64, I64, i64Min, i64Max]
      · cases hn
    all_goals cases hn
  have gen : ∀ x : Option Int, (∀ n ∈ x, I64 n) → (x <|> cur) =
      ((match x with
        | some n => Change.absolute n
        | none => Change.nothing).applyTo cur).map wrapI64 := by
    intro x hx
    cases x with
    | none => simp [Change.applyTo, hcur']
    | some n => simp [Change.applyTo, wrapI64_of_I64 (hx n rfl)]
  cases v with
  | changedBy d =>
    cases cur with
    | none =>
      simp [Gauge.nextValue] at h; obtain ⟨rfl, rfl⟩ := h
      exact ⟨rfl, by simp [Update.change, Change.applyTo, wrapI64_of_I64 hv]⟩
    | some c =>
      simp only [Gauge.nextValue, M.bind_eq_some, M.run_pure, Option.some.injEq, Prod.mk.injEq] at h
      obtain ⟨a, k₁, ha, rfl, rfl⟩ := h
      obtain ⟨rfl, rfl, -⟩ := arithI64_eq_some ha
      exact ⟨rfl, by simp [Update.change, Change.applyTo]⟩
  | duration n u =>
    simp only [Gauge.nextValue, M.bind_eq_some, M.run_pure, Option.some.injEq, Prod.mk.injEq] at h
    obtain ⟨a, k₁, ha, rfl, rfl⟩ := h
    obtain ⟨rfl, hw⟩ := durationToDisplayValue_eq_some ha
    exact ⟨rfl, by simp [Update.change, Change.applyTo, hw]⟩
  | signedInteger n =>
    simp only [Gauge.nextValue, M.run_pure, Option.some.injEq, Prod.mk.injEq] at h
    obtain ⟨rfl, rfl⟩ := h; exact ⟨rfl, gen _ hconv⟩
  | unsignedInteger n =>
    simp only [Gauge.nextValue, M.run_pure, Option.some.injEq, Prod.mk.injEq] at h
    obtain ⟨rfl, rfl⟩ := h; exact ⟨rfl, gen _ hconv⟩
  | float n =>
    simp only [Gauge.nextValue, M.run_pure, Option.some.injEq, Prod.mk.injEq] at h
    obtain ⟨rfl, rfl⟩ := h; exact ⟨rfl, gen _ hconv⟩
  | bool n =>
    simp only [Gauge.nextValue, M.run_pure, Option.some.injEq, Prod.mk.injEq] at h
    obtain ⟨rfl, rfl⟩ := h; exact ⟨rfl, gen _ hconv⟩

/-- The parts of a gauge that are configuration. -/
structure Gauge.SameConfig (g g' : Gauge) : Prop where
  name : g'.name = g.name
  descr : g'.descr = g.descr
  unit : g'.displayTimeUnit = g.displayTimeUnit
  group : g'.groupValues = g.groupValues

theorem Gauge.set_eq_some {g g' : Gauge} {v : ObservedValue} {t : Int} {e : Env} {k k' : Nat}
    (hg : ∀ c ∈ g.value, I64 c) (hv : v.InRange) (h : g.set v e k = some (g', k')) :
    g'.value = (((Update.withValue v t).change g.displayTimeUnit).applyTo g.value).map wrapI64 ∧
    Gauge.SameConfig g g' := by
  have key : ∀ (x : Option Int) (_ : g.value = x) (r : Option Int) (k₁ : Nat),
      Gauge.nextValue g.displayTimeUnit x v e k = some (r, k₁) →
      (match r with
        | some next => do
          let t ← Gauge.track g.tracking next
          return { g with value := some next, tracking := t }
        | none => return { g with value := x }) e k₁ = some (g', k') →
      g'.value = (((Update.withValue v t).change g.displayTimeUnit).applyTo g.value).map wrapI64 ∧
      Gauge.SameConfig g g' := by
    intro x hx r k₁ hn h
    rw [hx] at hg ⊢
    obtain ⟨-, hr⟩ := Gauge.nextValue_eq_some (t := t) hg hv hn
    rw [← hr]
    cases r with
    | none =>
      simp at h; obtain ⟨rfl, -⟩ := h
      refine ⟨?_, ⟨rfl, rfl, rfl, rfl⟩⟩
      cases x with
      | none => rfl
      | some c =>
        exfalso
        generalize (Update.withValue v t).change g.displayTimeUnit = ch at hr
        cases ch <;> simp [Change.applyTo] at hr
    | some r =>
      simp only [M.bind_eq_some, M.run_pure, Option.some.injEq, Prod.mk.injEq] at h
      obtain ⟨t, k₂, _, rfl, _⟩ := h
      exact ⟨rfl, ⟨rfl, rfl, rfl, rfl⟩⟩
  unfold Gauge.set at h
  cases hval : g.value <;> simp only [hval] at h <;> rw [M.bind_eq_some] at h <;>
    obtain ⟨r, k₁, hn, h⟩ := h <;> rw [← hval] <;> exact key _ hval r k₁ hn h

theorem Gauge.update_eq_some {g g' : Gauge} {u : Update} {n : Nat} {e : Env} {k k' : Nat}
    (hg : ∀ c ∈ g.value, I64 c) (hu : u.InRange) (h : g.update u e k = some ((g', n), k')) :
    g'.value = ((u.change g.displayTimeUnit).applyTo g.value).map wrapI64 ∧ Gauge.SameConfig g g' := by
  have hcur : g.value.map wrapI64 = g.value := by
    cases hv : g.value with
    | none => rfl
    | some c => simp [wrapI64_of_I64 (hg c hv)]
  cases u with
  | withValue v t =>
    simp only [Gauge.update, M.bind_eq_some, M.run_pure, Option.some.injEq, Prod.mk.injEq] at h
    obtain ⟨g₁, k₁, h, ⟨rfl, rfl⟩, rfl⟩ := h
    exact Gauge.set_eq_some hg hu h
  | observation t =>
    simp [Gauge.update] at h; obtain ⟨⟨rfl, rfl⟩, rfl⟩ := h
    exact ⟨hcur.symm, ⟨rfl, rfl, rfl, rfl⟩⟩
  | observations n t =>
    simp [Gauge.update] at h; obtain ⟨⟨rfl, rfl⟩, rfl⟩ := h
    exact ⟨hcur.symm, ⟨rfl, rfl, rfl, rfl⟩⟩

theorem Gauge.putValues_eq_some {g g' : Gauge} {s s' : Snapshot} {e : Env} {k k' : Nat}
    (h : g.putValues s e k = some ((g', s'), k')) : g'.value = g.value ∧ Gauge.SameConfig g g' := by
  unfold Gauge.putValues at h
  cases hval : g.value <;> simp only [hval] at h
  · simp at h; obtain ⟨⟨rfl, rfl⟩, rfl⟩ := h; exact ⟨hval, ⟨rfl, rfl, rfl, rfl⟩⟩
  · cases ht : g.tracking <;> simp only [ht] at h
    · simp at h; obtain ⟨⟨rfl, _⟩, _⟩ := h; exact ⟨hval, ⟨rfl, rfl, rfl, rfl⟩⟩
    · simp only [M.bind_eq_some, M.run_pure, Option.some.injEq, Prod.mk.injEq] at h
      obtain ⟨_, _, _, ⟨rfl, _⟩, _⟩ := h
      exact ⟨rfl, ⟨rfl, rfl, rfl, rfl⟩⟩

theorem Gauge.putSnapshot_eq_some {g g' : Gauge} {s s' : Snapshot} {d : Bool} {e : Env} {k k' : Nat}
    (h : g.putSnapshot s d e k = some ((g', s'), k')) : g'.value = g.value ∧ Gauge.SameConfig g g' := by
  unfold Gauge.putSnapshot at h
  simp only at h
  split at h
  · simp only [M.bind_eq_some, M.run_pure, Option.some.injEq, Prod.mk.injEq] at h
    obtain ⟨⟨g₁, l⟩, _, h, ⟨rfl, _⟩, _⟩ := h
    exact Gauge.putValues_eq_some h
  · exact Gauge.putValues_eq_some h

theorem Change.wrap_applyTo (c : Change) {x y : Option Int} (h : x = y.map wrapI64) :
    (c.applyTo x).map wrapI64 = (c.applyTo y).map wrapI64 := by
  subst h
  cases c with
  | absolute v => rfl
  | delta d => cases y <;> simp [Change.applyTo, wrapI64_wrapI64_add]
  | nothing => cases y <;> simp [Change.applyTo, wrapI64_of_I64 (I64_wrapI64 _)]

theorem Change.wrap_foldl (cs : List Change) {x y : Option Int} (h : x = y.map wrapI64) :
    (cs.foldl Change.applyTo x).map wrapI64 = (cs.foldl Change.applyTo y).map wrapI64 := by
  suffices ∀ x y : Option Int, x.map wrapI64 = y.map wrapI64 →
      (cs.foldl Change.applyTo x).map wrapI64 = (cs.foldl Change.applyTo y).map wrapI64 by
    apply this; rw [h]; cases y <;> simp [wrapI64_of_I64 (I64_wrapI64 _)]
  clear h
  induction cs with
  | nil => exact fun _ _ h => h
  | cons c cs ih =>
    intro x y h
    apply ih
    rw [← Change.wrap_applyTo c (x := x.map wrapI64) (y := x) rfl, h, Change.wrap_applyTo c rfl]

end Metrix
