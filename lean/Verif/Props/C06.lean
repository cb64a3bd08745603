import Verif.Props.C05
import Verif.Props.C23
import Verif.Proof.Parts

/-! # C06: changes of values survive any backlog -/

namespace Metrix
variable {σ L : Type}

/-- The strategy never drops changes of values. -/
def Strategy.KeepsDeltas : Strategy → Prop
  | .processAll => True
  | .dropAll => False
  | .dropOlderThan _ dropDeltas => dropDeltas = false

/-- All runs were made with such strategies. -/
def KeepDeltas (log : List (Called σ L)) : Prop :=
  ∀ c ∈ log, ∀ max strategy, c.call = .process max strategy → strategy.KeepsDeltas

/-- By how much the message changes a gauge that accepts labels by `f` and is behind panels with the filters `path`. -/
def Message.deltaFor [DecidableEq L] (path : List (LabelFilter L)) (f : LabelFilter L) : Message σ L → Option Int
  | .observation (.observedOneValue l (.changedBy d) _) =>
    if (∀ g ∈ path, g.accepts l = true) ∧ f.accepts l = true then some d else none
  | _ => none

variable [DecidableEq L] [Custom σ L]

/-- In a run with such a strategy no change of a value is dropped, however old it is. -/
theorem C06_run {p p' : Processor σ L} {max : Nat} {strategy : Strategy} {out : Outcome} {e : Env} {k k' : Nat}
    (h : p.process max strategy e k = some ((p', out), k')) (hs : strategy.KeepsDeltas) :
    ∃ ms, Took p.receiver.chan p'.receiver.chan (ms.map (·.1)) ∧ out.Accounts ms ∧
      ∀ o v, (Message.observation o, v) ∈ ms → o.ChangesValue → v.isDropped = false := by
  obtain ⟨ms, _, _, _, ht, hacc, _, hrule⟩ := C05_run h
  refine ⟨ms, ht, hacc, fun o v hm hd => (hrule o v hm).mpr ?_⟩
  cases strategy with
  | processAll => trivial
  | dropAll => exact hs.elim
  | dropOlderThan a d => exact .inr ⟨hd, hs⟩

/-- Neither in any sequence of runs. -/
theorem story_deltas {e : Env} {k k' : Nat} {s s' : ProcessorState σ L} {log : List (Called σ L)}
    {consumed : List (List (Message σ L × Verdict))} (h : Story e k s log consumed k' s') (hk : KeepDeltas log)
    {o : Observation L} {v : Verdict} (hm : (Message.observation o, v) ∈ consumed.flatten) (hd : o.ChangesValue) :
    v.isDropped = false := by
  induction h with
  | nil => simp at hm
  | @run k k₁ k₂ k₃ k₄ k' s s₁ s₂ s' max strategy out ms log consumed _ _ _ _ happ _ _ _ ih =>
    rw [List.flatten_cons, List.mem_append] at hm
    rcases hm with hm | hm
    · have hst := hk _ (List.mem_cons_self ..) max strategy rfl
      have := applies_verdict happ hm
      cases hv : v.isDropped with
      | false => rfl
      | true =>
        obtain ⟨o', ho, hn⟩ := this.mp hv
        cases ho
        refine (hn ?_).elim
        cases strategy with
        | processAll => trivial
        | dropAll => exact hst.elim
        | dropOlderThan a d => exact .inr ⟨hd, hst⟩
    · exact ih (fun c hc => hk c (List.mem_cons_of_mem _ hc)) hm
  | snapshot _ _ _ ih => exact ih (fun c hc => hk c (List.mem_cons_of_mem _ hc)) (by simpa using hm)
  | set _ _ _ _ ih => exact ih (fun c hc => hk c (List.mem_cons_of_mem _ hc)) (by simpa using hm)

omit [Custom σ L] in
theorem handle_filter_deltas (f : LabelFilter L) (a a' : GaugeAdapter L) (o : Observation L) (n : Nat)
    (e : Env) (k k' : Nat) (hs : a.strategy = .filter f) (hm : a.modifyUpdate = none)
    (hg : ∀ v ∈ a.gauge.value, I64 v) (ho : o.InRange ∧ (f.accepts o.label = true → o.ChangesValue))
    (h : a.handle o e k = some ((a', n), k')) :
    a'.gauge.value = ((deltasOnlyChange f o).applyTo a.gauge.value).map wrapI64 ∧
    a'.strategy = a.strategy ∧ a'.modifyUpdate = a.modifyUpdate := by
  have hcur : a.gauge.value.map wrapI64 = a.gauge.value := by
    cases hv : a.gauge.value with
    | none => rfl
    | some c => simp [wrapI64_of_I64 (hg c hv)]
  simp only [GaugeAdapter.handle, hs, hm, UpdateModifier.modify] at h
  by_cases hf : f.accepts o.label = true
  · rw [if_pos hf] at h
    obtain ⟨l, d, t, rfl⟩ := ho.2 hf
    have := GaugeAdapter.updateGauge_eq_some hg ho.1 h
    have hf : f.accepts l = true := hf
    simpa [deltasOnlyChange, hf, Update.change, Observation.toUpdate, Observation.content] using this
  · rw [if_neg hf] at h
    simp at h; obtain ⟨⟨rfl, _⟩, _⟩ := h
    refine ⟨?_, rfl, rfl⟩
    have : deltasOnlyChange f o = .nothing := by
      unfold deltasOnlyChange
      split
      · exact if_neg hf
      · rfl
    simp [this, Change.applyTo, hcur]

/-- A leaf that is a gauge has the history of that gauge. -/
theorem leaf_gauge {e : Env} {k k' : Nat} {a : GaugeAdapter L} {x : Leaf σ L} {log : List (Event (Observation L))}
    (h : History e k (Leaf.gauge a : Leaf σ L) log k' x) :
    ∃ a' log', x = .gauge a' ∧ History e k a log' k' a' ∧ inputs log' = inputs log := by
  let get : Leaf σ L → Option (GaugeAdapter L) := fun x => match x with
    | .gauge a => some a
    | _ => none
  have hget : ∀ {x a}, get x = some a → x = .gauge a := by
    intro x a h; cases x <;> simp [get] at h; rw [h]
  obtain ⟨log', a', h1, h2, h3⟩ := History.project get some (fun _ => True)
    (by
      intro x o x' n k k' a ht _ hx
      cases hget hx
      simp only [Component.take, Leaf.react, M.bind_eq_some, M.run_pure, Option.some.injEq, Prod.mk.injEq] at ht
      obtain ⟨⟨a', n'⟩, _, ht, ⟨rfl, rfl⟩, rfl⟩ := ht
      exact ⟨k, _, a', n', Nat.le_refl _, Nat.le_refl _, ht, rfl⟩)
    (by
      intro x s b x' s' k k' a ht hx
      cases hget hx
      simp only [Component.putSnapshot, Leaf.putSnapshot, M.bind_eq_some, M.run_pure, Option.some.injEq, Prod.mk.injEq] at ht
      obtain ⟨⟨a', n'⟩, _, ht, ⟨rfl, rfl⟩, rfl⟩ := ht
      exact .inr ⟨k, _, a', s, n', b, Nat.le_refl _, Nat.le_refl _, ht, rfl⟩)
    h (fun _ _ => trivial) (d := a) rfl
  exact ⟨a', log', hget h2, h1, by rw [h3]; simp⟩

theorem foldl_deltas (f : LabelFilter L) (os : List (Observation L)) (x : Option Int) :
    (os.map (deltasOnlyChange f)).foldl Change.applyTo x =
      if os.filterMap (fun o => (Message.observation o : Message σ L).deltaFor [] f) = [] then x
      else some (x.getD 0 + (os.filterMap fun o => (Message.observation o : Message σ L).deltaFor [] f).sum) := by
  induction os generalizing x with
  | nil => simp
  | cons o os ih =>
    have nothing : deltasOnlyChange f o = .nothing → (Message.observation o : Message σ L).deltaFor [] f = none →
        ((o :: os).map (deltasOnlyChange f)).foldl Change.applyTo x =
        if (o :: os).filterMap (fun o => (Message.observation o : Message σ L).deltaFor [] f) = [] then x
        else some (x.getD 0 + ((o :: os).filterMap fun o => (Message.observation o : Message σ L).deltaFor [] f).sum) := by
      intro h1 h2
      simp only [List.map_cons, List.foldl_cons, h1, Change.applyTo, List.filterMap_cons, h2]
      exact ih x
    match o with
    | .observed l n t => exact nothing rfl rfl
    | .observedOne l t => exact nothing rfl rfl
    | .observedOneValue l v t =>
      cases v with
      | changedBy d =>
        by_cases hf : f.accepts l = true
        · simp only [List.map_cons, List.foldl_cons, deltasOnlyChange, hf, if_true, Change.applyTo, List.filterMap_cons,
            Message.deltaFor, ih]
          simp only [List.not_mem_nil, false_implies, implies_true, true_and, hf, if_true]
          split
          · rename_i h0
            simp [h0]
          · simp; omega
        · exact nothing (by simp [deltasOnlyChange, hf]) (by simp [Message.deltaFor, hf])
      | _ => exact nothing rfl rfl

theorem gauge_story (hc : CustomForward σ L) {e : Env} {k k' : Nat} {p p' : Processor σ L} {log : List (Called σ L)}
    {consumed : List (List (Message σ L × Verdict))} (hst : Story e k p.state log consumed k' p'.state)
    (hkeep : KeepDeltas log) {place : Place} {path : List (LabelFilter L)}
    {a : GaugeAdapter L} {f : LabelFilter L} (hplace : p.state.leafAt place = some (path, .gauge a))
    (hs : a.strategy = .deltasOnly f ∨ a.strategy = .filter f) (hm : a.modifyUpdate = none)
    (hg : ∀ v ∈ a.gauge.value, I64 v) (hrem : ∀ m ∈ consumed.flatten, ¬ place.RemovedBy m.1)
    (hrange : ∀ m ∈ consumed.flatten, ∀ o, m.1 = .observation o → o.InRange)
    (hfed : a.strategy = .filter f → ∀ m ∈ consumed.flatten, ∀ o, m.1 = .observation o →
      (∀ g ∈ path, g.accepts o.label = true) → f.accepts o.label = true → o.ChangesValue) :
    ∃ a', p'.state.leafAt place = some (path, .gauge a') ∧
      (a'.gauge.value =
        let deltas := consumed.flatten.filterMap fun m => m.1.deltaFor path f
        if deltas = [] then a.gauge.value else some (wrapI64 (a.gauge.value.getD 0 + deltas.sum))) ∧
      ∃ log', History e k a log' k' a' := by
  obtain ⟨l₁, x, h1, h2, h3⟩ := Trail.leaf hc hst.trail hplace hrem
  obtain ⟨a', l₂, rfl, h4, h5⟩ := leaf_gauge h1
  refine ⟨a', h2, ?_, l₂, h4⟩
  rw [h3] at h5
  have hcur : a.gauge.value.map wrapI64 = a.gauge.value := by
    cases hv : a.gauge.value with
    | none => rfl
    | some c => simp [wrapI64_of_I64 (hg c hv)]
  have hmem : ∀ o ∈ inputs l₂, (∃ v, (Message.observation o, v) ∈ consumed.flatten) ∧ passes path o = true := by
    intro o ho
    rw [h5, List.mem_filter, List.mem_filterMap] at ho
    obtain ⟨⟨⟨m, v⟩, hmv, hp⟩, hpass⟩ := ho
    refine ⟨⟨v, ?_⟩, hpass⟩
    cases m with
    | observation o' => cases v <;> simp [processedObservation] at hp; subst hp; exact hmv
    | _ => simp [processedObservation] at hp
  have hval : a'.gauge.value = (((inputs l₂).map (deltasOnlyChange f)).foldl Change.applyTo a.gauge.value).map wrapI64 := by
    rcases hs with hs | hs
    · exact adapter_history (.deltasOnly f) (deltasOnlyChange f) Observation.InRange
        (fun a a' o n e k k' => handle_deltasOnly f a a' o n e k k') h4 hs hm hg
        (fun o ho => by obtain ⟨⟨v, hv⟩, _⟩ := hmem o ho; exact hrange _ hv o rfl)
    · exact adapter_history (.filter f) (deltasOnlyChange f)
        (fun o => o.InRange ∧ (f.accepts o.label = true → o.ChangesValue))
        (fun a a' o n e k k' => handle_filter_deltas f a a' o n e k k') h4 hs hm hg
        (fun o ho => by
          obtain ⟨⟨v, hv⟩, hpass⟩ := hmem o ho
          refine ⟨hrange _ hv o rfl, hfed hs _ hv o rfl ?_⟩
          simpa [passes] using hpass)
  rw [hval, foldl_deltas (σ := σ)]
  have hsame : (inputs l₂).filterMap (fun o => (Message.observation o : Message σ L).deltaFor [] f) =
      consumed.flatten.filterMap fun m => m.1.deltaFor path f := by
    rw [h5, List.filterMap_filter, List.filterMap_filterMap]
    apply List.filterMap_congr
    rintro ⟨m, v⟩ hmv
    cases m with
    | observation o =>
      cases o with
      | observedOneValue l w t =>
        cases w with
        | changedBy d =>
          have hv := story_deltas hst hkeep hmv ⟨l, d, t, rfl⟩
          cases v with
          | dropped => simp [Verdict.isDropped] at hv
          | processed n =>
            simp only [processedObservation, Option.bind_some, Message.deltaFor, passes, Observation.label,
              List.all_eq_true]
            by_cases hp : ∀ g ∈ path, g.accepts l = true
            · simp; rw [if_pos hp]; exact if_congr (and_iff_right hp).symm rfl rfl
            · simp [hp]
        | _ => cases v <;> simp [processedObservation, Message.deltaFor]
      | _ => cases v <;> simp [processedObservation, Message.deltaFor]
    | _ => simp [processedObservation, Message.deltaFor]
  rw [hsame]
  dsimp only
  split
  · exact hcur
  · simp

/-- A processor used in any way by its owner, while threads send by any schedule; all runs keep changes of values. Take a
gauge anywhere in it that accepts labels by `f` and is fed only by changes of values: it is made to ignore everything
else, or nothing else that it accepts is sent. Unless messages remove its cockpit or panel, it shows what it started with
plus all changes meant for it, of all messages consumed. (64-bit integers wrap around in release builds.) -/
theorem C06_gauge (hc : CustomForward σ L) {e : Env} {k k' : Nat} {p p' : Processor σ L} {log : List (Called σ L)}
    (h : Life e k p log k' p') (hkeep : KeepDeltas log) {place : Place} {path : List (LabelFilter L)}
    {a : GaugeAdapter L} {f : LabelFilter L} (hplace : p.state.leafAt place = some (path, .gauge a))
    (hs : a.strategy = .deltasOnly f ∨ a.strategy = .filter f) (hm : a.modifyUpdate = none)
    (hg : ∀ v ∈ a.gauge.value, I64 v) :
    ∃ consumed, Story e k p.state log consumed k' p'.state ∧
      Took p.receiver.chan p'.receiver.chan (consumed.flatten.map (·.1)) ∧
      ((∀ m ∈ consumed.flatten, ¬ place.RemovedBy m.1) →
       (∀ m ∈ consumed.flatten, ∀ o, m.1 = .observation o → o.InRange) →
       (a.strategy = .filter f → ∀ m ∈ consumed.flatten, ∀ o, m.1 = .observation o →
          (∀ g ∈ path, g.accepts o.label = true) → f.accepts o.label = true → o.ChangesValue) →
       ∃ a', p'.state.leafAt place = some (path, .gauge a') ∧
        a'.gauge.value =
          let deltas := consumed.flatten.filterMap fun m => m.1.deltaFor path f
          if deltas = [] then a.gauge.value else some (wrapI64 (a.gauge.value.getD 0 + deltas.sum))) := by
  obtain ⟨consumed, hst, ht⟩ := life_story h
  refine ⟨consumed, hst, ht, fun hrem hrange hfed => ?_⟩
  obtain ⟨a', h1, h2, -⟩ := gauge_story hc hst hkeep hplace hs hm hg hrem hrange hfed
  exact ⟨a', h1, h2⟩

theorem emptyForward : CustomForward Empty Nat := ⟨fun s => s.elim, fun s => s.elim, fun s => s.elim⟩

/-- The gauge of the example is a handler of its own: the old change of it counts, with the default strategy. -/
example : ∃ p' o k', Life ticking 1 exampleProcessor [⟨1, .process 4 .default, .outcome o⟩] k' p' ∧
    KeepDeltas (σ := Empty) (L := Nat) [⟨1, .process 4 .default, .outcome o⟩] ∧
    exampleProcessor.state.leafAt (.handler 1 0) = some ([], .gauge (.deltasOnly .acceptAll { name := "g" })) ∧
    p'.state.leafAt (.handler 1 0) = some ([], .gauge (.deltasOnly .acceptAll { name := "g", value := some 5 })) :=
  ⟨_, _, _, .cons (Nat.le_refl _) rfl (.nil (Nat.le_refl _)),
    fun c hc m s h => by simp at hc; subst hc; cases h; rfl, rfl, rfl⟩

example := C06_run (p := exampleProcessor) (max := 4) (strategy := .default) (e := ticking) (k := 1) rfl rfl
example := C06_gauge emptyForward (lived_life (e := ticking) (k := 1) (p := exampleProcessor) (cs := exampleCalls) rfl) (fun c hc m s h => by simp at hc; rcases hc with rfl | rfl | rfl <;> cases h <;> rfl)
  (place := .handler 1 0) rfl (.inl rfl) rfl (fun _ h => nomatch h)

end Metrix
