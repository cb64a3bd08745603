import Verif.Props.C22
import Verif.Spec.Observation

/-! # C23: delta-only and increment/decrement gauges -/

namespace Metrix
variable {L : Type} [DecidableEq L]

/-- What an observation means to a delta-only gauge: changes with accepted labels count, nothing else. -/
def deltasOnlyChange (f : LabelFilter L) (o : Observation L) : Change :=
  match o with
  | .observedOneValue l (.changedBy d) _ => if f.accepts l then .delta d else .nothing
  | _ => .nothing

/-- What an observation means to an increment/decrement gauge: only the label counts. -/
def incDecChange (inc dec : LabelFilter L) (o : Observation L) : Change :=
  if inc.accepts o.label then .delta 1
  else if dec.accepts o.label then .delta (-1)
  else .nothing

omit [DecidableEq L] in
theorem GaugeAdapter.updateGauge_eq_some {a a' : GaugeAdapter L} {u : Update} {n : Nat} {e : Env}
    {k k' : Nat} (hg : ∀ c ∈ a.gauge.value, I64 c) (hu : u.InRange)
    (h : a.updateGauge u e k = some ((a', n), k')) :
    a'.gauge.value = ((u.change a.gauge.displayTimeUnit).applyTo a.gauge.value).map wrapI64 ∧
    a'.strategy = a.strategy ∧ a'.modifyUpdate = a.modifyUpdate := by
  simp only [GaugeAdapter.updateGauge, M.bind_eq_some, M.run_pure, Option.some.injEq,
    Prod.mk.injEq] at h
  obtain ⟨⟨g, m⟩, _, h, ⟨rfl, _⟩, _⟩ := h
  exact ⟨(Gauge.update_eq_some hg hu h).1, rfl, rfl⟩

omit [DecidableEq L] in
theorem GaugeAdapter.putSnapshot_eq_some {a a' : GaugeAdapter L} {s s' : Snapshot} {d : Bool} {e : Env}
    {k k' : Nat} (h : a.putSnapshot s d e k = some ((a', s'), k')) :
    a'.gauge.value = a.gauge.value ∧ a'.strategy = a.strategy ∧ a'.modifyUpdate = a.modifyUpdate := by
  simp only [GaugeAdapter.putSnapshot, M.bind_eq_some, M.run_pure, Option.some.injEq,
    Prod.mk.injEq] at h
  obtain ⟨⟨g, m⟩, _, h, ⟨rfl, _⟩, _⟩ := h
  exact ⟨(Gauge.putSnapshot_eq_some h).1, rfl, rfl⟩

/-- An observation's payload is a value of the Rust type. -/
def Observation.InRange (o : Observation L) : Prop := o.content.InRange

theorem adapter_history (st : GaugeUpdateStrategy L) (change : Observation L → Change) (Q : Observation L → Prop)
    (hstep : ∀ (a a' : GaugeAdapter L) (o : Observation L) (n : Nat) (e : Env) (k k' : Nat),
      a.strategy = st → a.modifyUpdate = none → (∀ v ∈ a.gauge.value, I64 v) → Q o →
      a.handle o e k = some ((a', n), k') →
      a'.gauge.value = ((change o).applyTo a.gauge.value).map wrapI64 ∧
      a'.strategy = a.strategy ∧ a'.modifyUpdate = a.modifyUpdate)
    {e : Env} {k k' : Nat} {a a' : GaugeAdapter L} {log : List (Event (Observation L))}
    (h : History e k a log k' a') (hs : a.strategy = st) (hm : a.modifyUpdate = none)
    (hg : ∀ v ∈ a.gauge.value, I64 v) (hlog : ∀ o ∈ inputs log, Q o) :
    a'.gauge.value = (((inputs log).map change).foldl Change.applyTo a.gauge.value).map wrapI64 := by
  induction h with
  | @nil k k' c hk =>
    cases hv : c.gauge.value with
    | none => simp [inputs]
    | some v => simp [inputs, wrapI64_of_I64 (hg v hv)]
  | @cons k k₁ k₂ k' i i₁ i' op out log _ hst _ ih =>
    cases op with
    | input o =>
      obtain ⟨n, _, hu⟩ := step_input_eq_some.mp hst
      obtain ⟨hv, hs', hm'⟩ := hstep _ _ _ _ _ _ _ hs hm hg (hlog o (by simp [inputs])) hu
      rw [ih (hs' ▸ hs) (hm' ▸ hm)
        (by rw [hv]; intro v hv; simp at hv; obtain ⟨_, _, rfl⟩ := hv; exact I64_wrapI64 _)
        (fun u hu => hlog u (by simp [inputs, hu]))]
      simp only [inputs, List.map_cons, List.foldl_cons]
      exact Change.wrap_foldl _ hv
    | snapshot s d =>
      obtain ⟨_, _, hu⟩ := step_snapshot_eq_some.mp hst
      obtain ⟨hv, hs', hm'⟩ := GaugeAdapter.putSnapshot_eq_some hu
      rw [ih (hs' ▸ hs) (hm' ▸ hm) (by rw [hv]; exact hg) (fun u hu => hlog u (by simp [inputs, hu])), hv]
      rfl

theorem handle_deltasOnly (f : LabelFilter L) (a a' : GaugeAdapter L) (o : Observation L) (n : Nat)
    (e : Env) (k k' : Nat) (hs : a.strategy = .deltasOnly f) (hm : a.modifyUpdate = none)
    (hg : ∀ v ∈ a.gauge.value, I64 v) (ho : o.InRange) (h : a.handle o e k = some ((a', n), k')) :
    a'.gauge.value = ((deltasOnlyChange f o).applyTo a.gauge.value).map wrapI64 ∧
    a'.strategy = a.strategy ∧ a'.modifyUpdate = a.modifyUpdate := by
  have hcur : a.gauge.value.map wrapI64 = a.gauge.value := by
    cases hv : a.gauge.value with
    | none => rfl
    | some c => simp [wrapI64_of_I64 (hg c hv)]
  simp only [GaugeAdapter.handle, hs, hm, UpdateModifier.modify] at h
  match o with
  | .observed l m t =>
    simp [Observation.toUpdate] at h
    obtain ⟨⟨rfl, _⟩, _⟩ := h; exact ⟨by simp [deltasOnlyChange, Change.applyTo, hcur], rfl, rfl⟩
  | .observedOne l t =>
    simp [Observation.toUpdate] at h
    obtain ⟨⟨rfl, _⟩, _⟩ := h; exact ⟨by simp [deltasOnlyChange, Change.applyTo, hcur], rfl, rfl⟩
  | .observedOneValue l v t =>
    cases hf : f.accepts l
    · simp [Observation.label, hf] at h
      obtain ⟨⟨rfl, _⟩, _⟩ := h
      exact ⟨by cases v <;> simp [deltasOnlyChange, Change.applyTo, hcur, hf], rfl, rfl⟩
    · cases v with
      | changedBy d =>
        rw [if_pos (by exact hf)] at h
        simp only [Observation.toUpdate] at h
        have := GaugeAdapter.updateGauge_eq_some hg (by exact ho) h
        simpa [deltasOnlyChange, hf, Update.change] using this
      | _ =>
        simp [Observation.toUpdate, Observation.label, hf] at h
        obtain ⟨⟨rfl, _⟩, _⟩ := h
        exact ⟨by simp [deltasOnlyChange, Change.applyTo, hcur], rfl, rfl⟩

theorem handle_incDec (inc dec : LabelFilter L) (a a' : GaugeAdapter L) (o : Observation L) (n : Nat)
    (e : Env) (k k' : Nat) (hs : a.strategy = .incDecOnLabels inc dec) (_ : a.modifyUpdate = none)
    (hg : ∀ v ∈ a.gauge.value, I64 v) (_ : o.InRange) (h : a.handle o e k = some ((a', n), k')) :
    a'.gauge.value = ((incDecChange inc dec o).applyTo a.gauge.value).map wrapI64 ∧
    a'.strategy = a.strategy ∧ a'.modifyUpdate = a.modifyUpdate := by
  have hcur : a.gauge.value.map wrapI64 = a.gauge.value := by
    cases hv : a.gauge.value with
    | none => rfl
    | some c => simp [wrapI64_of_I64 (hg c hv)]
  simp only [GaugeAdapter.handle, hs] at h
  cases hi : inc.accepts o.label <;> simp only [hi, Bool.false_eq_true, if_false, if_true] at h
  · cases hd : dec.accepts o.label <;> simp only [hd, Bool.false_eq_true, if_false, if_true] at h
    · simp at h; obtain ⟨⟨rfl, _⟩, _⟩ := h
      exact ⟨by simp [incDecChange, hi, hd, Change.applyTo, hcur], rfl, rfl⟩
    · have := GaugeAdapter.updateGauge_eq_some hg (by simp [Update.InRange, ObservedValue.InRange]; decide) h
      simpa [incDecChange, hi, hd, Update.change] using this
  · have := GaugeAdapter.updateGauge_eq_some hg (by simp [Update.InRange, ObservedValue.InRange]; decide) h
    simpa [incDecChange, hi, Update.change] using this

/-- Changes without absolute values: the sum of the deltas, whatever their order. -/
theorem foldl_relative (cs : List Change) (x : Option Int) (h : ∀ c ∈ cs, c.isRelative = true) :
    cs.foldl Change.applyTo x =
      if ∀ c ∈ cs, c = .nothing then x else some (x.getD 0 + (cs.map Change.deltaOf).sum) := by
  induction cs generalizing x with
  | nil => simp
  | cons c cs ih =>
    have ih := fun x => ih x fun c hc => h c (List.mem_cons_of_mem _ hc)
    cases c with
    | absolute => simpa [Change.isRelative] using h _ (List.mem_cons_self)
    | delta d =>
      simp only [List.foldl_cons, ih, Change.applyTo]
      split
      · rename_i hall
        have h0 : (cs.map Change.deltaOf).sum = 0 := by
          rw [List.map_congr_left (g := fun _ => (0 : Int)) (fun c hc => by rw [hall c hc]; rfl)]
          simp
        simp [h0, Change.deltaOf]
      · simp [Change.deltaOf]; omega
    | nothing => simp [ih, Change.applyTo, Change.deltaOf]

/-- The number of observations that satisfy `p`. -/
def count (p : Observation L → Bool) (os : List (Observation L)) : Int := (os.filter p).length

/-- A gauge made with `deltas_only`: nothing but changes with accepted labels has an effect; the value is
the initial one plus their sum. -/
theorem C23_deltas_only {e : Env} {k k' : Nat} {a a' : GaugeAdapter L} {f : LabelFilter L}
    {log : List (Event (Observation L))} (h : History e k a log k' a') (ha : a = .deltasOnly f a.gauge)
    (hg : ∀ v ∈ a.gauge.value, I64 v) (hlog : ∀ o ∈ inputs log, o.InRange) :
    a'.gauge.value =
      if ∀ o ∈ inputs log, deltasOnlyChange f o = .nothing then a.gauge.value
      else some (wrapI64 (a.gauge.value.getD 0 +
        ((inputs log).map fun o => (deltasOnlyChange f o).deltaOf).sum)) := by
  have hcur : a.gauge.value.map wrapI64 = a.gauge.value := by
    cases hv : a.gauge.value with
    | none => rfl
    | some c => simp [wrapI64_of_I64 (hg c hv)]
  rw [adapter_history (.deltasOnly f) (deltasOnlyChange f) Observation.InRange
    (fun a a' o n e k k' => handle_deltasOnly f a a' o n e k k') h (by rw [ha]; rfl) (by rw [ha]; rfl)
    hg hlog, foldl_relative]
  · simp only [List.mem_map, forall_exists_index, and_imp, forall_apply_eq_imp_iff₂]
    split
    · exact hcur
    · simp [Function.comp_def]
  · intro c hc
    obtain ⟨o, _, rfl⟩ := List.mem_map.mp hc
    unfold deltasOnlyChange; split
    · split <;> rfl
    · rfl

/-- A gauge made with `inc_dec_on_labels`: the value is the initial one plus the number of observations
with an increment label minus the number of those with a decrement label only, whatever they carry. -/
theorem C23_inc_dec {e : Env} {k k' : Nat} {a a' : GaugeAdapter L} {inc dec : LabelFilter L}
    {log : List (Event (Observation L))} (h : History e k a log k' a') (ha : a = .incDecOn inc dec a.gauge)
    (hg : ∀ v ∈ a.gauge.value, I64 v) (hlog : ∀ o ∈ inputs log, o.InRange) :
    a'.gauge.value =
      if ∀ o ∈ inputs log, inc.accepts o.label = false ∧ dec.accepts o.label = false then a.gauge.value
      else some (wrapI64 (a.gauge.value.getD 0 +
        (count (fun o => inc.accepts o.label) (inputs log) -
          count (fun o => !inc.accepts o.label && dec.accepts o.label) (inputs log)))) := by
  have hcur : a.gauge.value.map wrapI64 = a.gauge.value := by
    cases hv : a.gauge.value with
    | none => rfl
    | some c => simp [wrapI64_of_I64 (hg c hv)]
  rw [adapter_history (.incDecOnLabels inc dec) (incDecChange inc dec) Observation.InRange
    (fun a a' o n e k k' => handle_incDec inc dec a a' o n e k k') h (by rw [ha]; rfl) (by rw [ha]; rfl)
    hg hlog, foldl_relative]
  · have h1 : (∀ c ∈ (inputs log).map (incDecChange inc dec), c = .nothing) ↔
        ∀ o ∈ inputs log, inc.accepts o.label = false ∧ dec.accepts o.label = false := by
      simp only [List.mem_map, forall_exists_index, and_imp, forall_apply_eq_imp_iff₂]
      refine forall_congr' fun o => imp_congr_right fun _ => ?_
      unfold incDecChange
      cases inc.accepts o.label <;> cases dec.accepts o.label <;> simp
    have h2 : (((inputs log).map (incDecChange inc dec)).map Change.deltaOf).sum =
        count (fun o => inc.accepts o.label) (inputs log) -
          count (fun o => !inc.accepts o.label && dec.accepts o.label) (inputs log) := by
      generalize inputs log = os
      induction os with
      | nil => rfl
      | cons o os ih =>
        simp only [List.map_cons, List.sum_cons, ih]
        unfold count
        cases hi : inc.accepts o.label <;> cases hd : dec.accepts o.label <;>
          simp [incDecChange, hi, hd, Change.deltaOf] <;> omega
    simp only [h1, h2]
    split
    · exact hcur
    · simp
  · intro c hc
    obtain ⟨o, _, rfl⟩ := List.mem_map.mp hc
    unfold incDecChange; split
    · rfl
    · split <;> rfl

/-- The order of the observations does not matter to either of them, even if it was another run at
another time, with snapshots in between or not. -/
theorem C23_order_irrelevant {e₁ e₂ : Env} {k₁ k₂ k₁' k₂' : Nat} {a a₁ a₂ : GaugeAdapter L}
    {log₁ log₂ : List (Event (Observation L))}
    (h₁ : History e₁ k₁ a log₁ k₁' a₁) (h₂ : History e₂ k₂ a log₂ k₂' a₂)
    (ha : (∃ f, a = .deltasOnly f a.gauge) ∨ ∃ inc dec, a = .incDecOn inc dec a.gauge)
    (hg : ∀ v ∈ a.gauge.value, I64 v) (hlog : ∀ o ∈ inputs log₁, o.InRange)
    (hp : (inputs log₁).Perm (inputs log₂)) : a₁.gauge.value = a₂.gauge.value := by
  have hlog₂ : ∀ o ∈ inputs log₂, o.InRange := fun o ho => hlog o (hp.mem_iff.mpr ho)
  rcases ha with ⟨f, ha⟩ | ⟨inc, dec, ha⟩
  · rw [C23_deltas_only h₁ ha hg hlog, C23_deltas_only h₂ ha hg hlog₂]
    simp only [hp.mem_iff, (hp.map _).sum_eq]
  · rw [C23_inc_dec h₁ ha hg hlog, C23_inc_dec h₂ ha hg hlog₂]
    unfold count
    simp only [hp.mem_iff, (hp.filter _).length_eq]

/-- Two increments (one of them with a payload), a decrement and a label without meaning. -/
example (e : Env) : ∃ log k' a', History (C := GaugeAdapter Nat) e 0
    (.incDecOn (.new 1) (.new 2) { name := "g" }) log k' a' ∧
    inputs log = [.observedOne 1 0, .observedOneValue 1 (.signedInteger 40) 0, .observed 2 9 0,
      .observedOne 3 0] ∧ a'.gauge.value = some 1 := by
  refine ⟨[⟨0, .input (.observedOne 1 0), .updated 1, 0⟩,
    ⟨0, .input (.observedOneValue 1 (.signedInteger 40) 0), .updated 1, 0⟩,
    ⟨0, .input (.observed 2 9 0), .updated 1, 0⟩,
    ⟨0, .input (.observedOne 3 0), .updated 0, 0⟩], 0,
    .incDecOn (.new 1) (.new 2) { name := "g", value := some 1 }, ?_, rfl, rfl⟩
  repeat' first
    | exact History.nil (by decide)
    | refine History.cons (by decide) rfl ?_

/-- A delta with the accepted label counts, an absolute value and another label do not. -/
example (e : Env) : ∃ log k' a', History (C := GaugeAdapter Nat) e 0
    (.deltasOnly (.new 1) { name := "g" }) log k' a' ∧
    inputs log = [.observedOneValue 1 (.changedBy 4) 0, .observedOneValue 1 (.signedInteger 40) 0,
      .observedOneValue 2 (.changedBy 7) 0] ∧ a'.gauge.value = some 4 := by
  refine ⟨[⟨0, .input (.observedOneValue 1 (.changedBy 4) 0), .updated 1, 0⟩,
    ⟨0, .input (.observedOneValue 1 (.signedInteger 40) 0), .updated 0, 0⟩,
    ⟨0, .input (.observedOneValue 2 (.changedBy 7) 0), .updated 0, 0⟩], 0,
    .deltasOnly (.new 1) { name := "g", value := some 4 }, ?_, rfl, rfl⟩
  repeat' first
    | exact History.nil (by decide)
    | refine History.cons (by decide) rfl ?_

/-- Observations with labels 1, 2 and 3 and a snapshot. -/
def labelledOps : List (Op (Observation Nat)) :=
  [.input (.observedOne 1 0), .input (.observedOneValue 1 (.changedBy 4) 0), .snapshot [] true, .input (.observedOne 2 0),
   .input (.observed 3 9 0)]

example := C23_deltas_only (played_history (e := ticking) (k := 0) (c := GaugeAdapter.deltasOnly (.one 1) { name := "g" })
  (ops := labelledOps) rfl) rfl nofun (by simp [inputs, Observation.InRange, Observation.content, Update.InRange, ObservedValue.InRange, I64, U64, i64Min, i64Max, u64Bound])
example := C23_inc_dec (played_history (e := ticking) (k := 0) (c := GaugeAdapter.incDecOn (.one 1) (.one 2) { name := "g" })
  (ops := labelledOps) rfl) rfl nofun (by simp [inputs, Observation.InRange, Observation.content, Update.InRange, ObservedValue.InRange, I64, U64, i64Min, i64Max, u64Bound])
example := C23_order_irrelevant
  (played_history (e := ticking) (k := 0) (c := GaugeAdapter.incDecOn (.one 1) (.one 2) { name := "g" }) (ops := labelledOps) rfl)
  (played_history (e := ticking) (k := 4) (c := GaugeAdapter.incDecOn (.one 1) (.one 2) { name := "g" })
    (ops := labelledOps.reverse) rfl)
  (.inr ⟨_, _, rfl⟩) nofun (by simp [inputs, Observation.InRange, Observation.content, Update.InRange, ObservedValue.InRange, I64, U64, i64Min, i64Max, u64Bound])
  (List.reverse_perm (α := Observation Nat) [.observed 3 9 0, .observedOne 2 0, .observedOneValue 1 (.changedBy 4) 0, .observedOne 1 0])

end Metrix
