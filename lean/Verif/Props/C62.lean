import Verif.Proof.Delivery
import Verif.Props.C61

/-!
# C62 Nothing is shown that was not sent, and totals never go back

Whatever the queue loses, whatever is dropped because of its age, and at whatever moment one looks.
-/

namespace Metrix
variable {σ L : Type} [DecidableEq L] [Custom σ L]
variable {e : Env} {k k₁ k' : Nat} {p p₁ p' : Processor σ L} {log log₁ : List (Called σ L)}
  {programs : List (SendThread (Message σ L))}

theorem arrived_for {arrived : List (Observation L)} (h : arrived.Subperm (observationsOf programs))
    (path : List (LabelFilter L)) (f : LabelFilter L) :
    (arrived.filter fun o => meantFor path f o.label).Subperm (observationsFor path f programs) := by
  obtain ⟨l, h1, h2⟩ := h
  exact ⟨_, h1.filter _, h2.filter _⟩

theorem subperm_sum_le {α : Type} {f : α → Nat} {l l' : List α} (h : l.Subperm l') : (l.map f).sum ≤ (l'.map f).sum := by
  obtain ⟨m, h1, h2⟩ := h
  rw [← (h1.map f).sum_eq]
  clear h1
  induction h2 with
  | slnil => exact Nat.le_refl _
  | cons a _ ih => rw [List.map_cons, List.sum_cons]; omega
  | cons_cons a _ ih => rw [List.map_cons, List.sum_cons, List.map_cons, List.sum_cons]; omega

/-- A counter never shows more than what it started with and what the threads send for it. -/
theorem C62_counter (hc : CustomForward σ L) (h : UsedFrom e k p log k' p' programs)
    {place : Place} {path : List (LabelFilter L)} {f : LabelFilter L} {c : Counter}
    (hplace : p.state.leafAt place = some (path, .instrument ⟨f, .counter c, none⟩)) (hstays : place.Stays programs)
    (hcount : c.count + ((observationsFor path f programs).map Observation.occurrences).sum < 2 ^ 64) :
    ∃ c', p'.state.leafAt place = some (path, .instrument ⟨f, .counter c', none⟩) ∧ c.count ≤ c'.count ∧
      c'.count ≤ c.count + ((observationsFor path f programs).map Observation.occurrences).sum := by
  obtain ⟨arrived, hsub, hall, _⟩ := instrument_arrivals hc h
  obtain ⟨c', l, x1, x2, x3⟩ := hall .counter (fun _ _ => rfl) (fun _ _ _ => rfl) hplace hstays
  have e1 := (C21_counter_counts x2 (by omega)).1
  rw [x3, occurrences_content] at e1
  have hle := subperm_sum_le (f := Observation.occurrences) (arrived_for hsub path f)
  refine ⟨c', x1, ?_, ?_⟩ <;> omega

/-- What arrives at an instrument until some moment, and then until a later one. -/
theorem arrivals_twice (hc : CustomForward σ L) (h : UsedFrom e k p log k₁ p₁ programs) (h₁ : Life e k₁ p₁ log₁ k' p') :
    ∃ arrived arrived₁ : List (Observation L), (arrived ++ arrived₁).Subperm (observationsOf programs) ∧
      (∀ {I : Type} [IsInstrument I] (wrap : I → Instrument σ)
        (_ : ∀ i u, Instrument.update L (wrap i) u = (do let (i, n) ← IsInstrument.update i u; return (wrap i, n)))
        (_ : ∀ i s d, Instrument.putSnapshot L (wrap i) s d = (do let (i, n) ← IsInstrument.putSnapshot i s d; return (wrap i, n)))
        {place : Place} {path : List (LabelFilter L)} {f : LabelFilter L} {i : I},
        p.state.leafAt place = some (path, .instrument ⟨f, wrap i, none⟩) → place.Stays programs →
        ∃ i₁ i' l l₁, p₁.state.leafAt place = some (path, .instrument ⟨f, wrap i₁, none⟩) ∧
          p'.state.leafAt place = some (path, .instrument ⟨f, wrap i', none⟩) ∧
          History e k i l k₁ i₁ ∧ inputs l = (arrived.filter fun o => meantFor path f o.label).map Observation.content ∧
          History e k₁ i₁ l₁ k' i' ∧ inputs l₁ = (arrived₁.filter fun o => meantFor path f o.label).map Observation.content) := by
  obtain ⟨cap, useSend, hnew⟩ := h.fresh
  obtain ⟨ms, arrived, htook, hsub, hall⟩ := arrivals_from hc h.life
  obtain ⟨ms₁, arrived₁, htook₁, hsub₁, hall₁⟩ := arrivals_from hc h₁
  have hperm := (htook.trans htook₁).subperm hnew
  have conv : ∀ (path : List (LabelFilter L)) (f : LabelFilter L) (os : List (Observation L)),
      ((os.filter fun o => path.all (·.accepts o.label)).filter fun o => f.accepts o.label) =
      os.filter fun o => meantFor path f o.label := by
    intro path f os
    rw [List.filter_filter]
    refine List.filter_congr fun o _ => ?_
    rw [meantFor, Bool.and_comm]
  refine ⟨arrived, arrived₁, ?_, ?_⟩
  · refine (hsub.append hsub₁).subperm.trans ?_
    rw [← List.filterMap_append]
    obtain ⟨l, h1, h2⟩ := hperm
    exact ⟨_, h1.filterMap _, h2.filterMap _⟩
  · intro I _ mk hin hput place path f i hplace hstays
    have hstay : ∀ m ∈ ms ++ ms₁, ¬ place.RemovedBy m := by
      intro m hm
      obtain ⟨th, hth, hm⟩ := List.mem_flatMap.mp (hperm.subset hm)
      exact hstays th hth m hm
    obtain ⟨l, x, a1, a2, a3⟩ := hall place path _ hplace fun m hm => hstay m (List.mem_append_left _ hm)
    obtain ⟨c₁, l', rfl, b1, b2⟩ := leaf_instrument mk hin hput a1
    obtain ⟨l₂, x, a4, a5, a6⟩ := hall₁ place path _ a2 fun m hm => hstay m (List.mem_append_right _ hm)
    obtain ⟨c', l₂', rfl, b3, b4⟩ := leaf_instrument mk hin hput a4
    exact ⟨c₁, c', l', l₂', a2, a5, b1, by rw [b2, a3, conv], b3, by rw [b4, a6, conv]⟩

/-- Later it never shows less. -/
theorem C62_counter_never_back (hc : CustomForward σ L) (h : UsedFrom e k p log k₁ p₁ programs)
    (h₁ : Life e k₁ p₁ log₁ k' p') {place : Place} {path : List (LabelFilter L)} {f : LabelFilter L} {c : Counter}
    (hplace : p.state.leafAt place = some (path, .instrument ⟨f, .counter c, none⟩)) (hstays : place.Stays programs)
    (hcount : c.count + ((observationsFor path f programs).map Observation.occurrences).sum < 2 ^ 64) :
    ∃ c₁ c', p₁.state.leafAt place = some (path, .instrument ⟨f, .counter c₁, none⟩) ∧
      p'.state.leafAt place = some (path, .instrument ⟨f, .counter c', none⟩) ∧ c.count ≤ c₁.count ∧ c₁.count ≤ c'.count := by
  obtain ⟨arrived, arrived₁, both, hall⟩ := arrivals_twice hc h h₁
  obtain ⟨c₁, c', l, l₁, a1, a2, b1, b2, b3, b4⟩ := hall .counter (fun _ _ => rfl) (fun _ _ _ => rfl) hplace hstays
  have hle := subperm_sum_le (f := Observation.occurrences) (arrived_for both path f)
  have e1 := (C21_counter_counts b1 (by omega)).1
  have e2 := (C21_counter_counts b3 (by rw [e1]; exact Nat.mod_lt _ (by decide))).1
  rw [b2, occurrences_content] at e1
  rw [b4, occurrences_content] at e2
  rw [List.filter_append, List.map_append, List.sum_append] at hle
  refine ⟨c₁, c', a1, a2, ?_, ?_⟩ <;> omega

theorem Histogram.history_suffix {h h' : Histogram} {log : List (Event Update)} (hist : History e k h log k' h') :
    h'.inner <:+ h.inner ++ acceptedValues h.displayTimeUnit log := by
  by_cases hlim : h.maxInactivity = none ∨ h.resetAfterInactivity = false
  · rw [C32_no_limit hist hlim]; exact List.suffix_refl _
  · cases hd : h.maxInactivity with
    | none => exact absurd (.inl hd) hlim
    | some d =>
      have hres : h.resetAfterInactivity = true := by
        cases hr : h.resetAfterInactivity with
        | true => rfl
        | false => exact absurd (.inr hr) hlim
      rcases C32_cases e.clock h.displayTimeUnit d h.lastUpdate log with hno | ⟨before, ev, after, rfl, hgap, hno⟩
      · rw [C32_no_gap hist hd hno]; exact List.suffix_refl _
      · rw [C32_since_last_gap hist hd hres hgap hno]
        refine ⟨h.inner ++ acceptedValues h.displayTimeUnit before, ?_⟩
        rw [List.append_assoc]
        congr 1
        simp [acceptedValues, inputs_append]

/-- A histogram contains only values that it contained before or that the threads send for it, each at most as often. -/
theorem C62_histogram (hc : CustomForward σ L) (h : UsedFrom e k p log k' p' programs)
    {place : Place} {path : List (LabelFilter L)} {f : LabelFilter L} {i : Histogram}
    (hplace : p.state.leafAt place = some (path, .instrument ⟨f, .histogram i, none⟩)) (hstays : place.Stays programs) :
    ∃ i', p'.state.leafAt place = some (path, .instrument ⟨f, .histogram i', none⟩) ∧
      i'.inner.Subperm (i.inner ++
        (observationsFor path f programs).filterMap (Observation.inUnit i.displayTimeUnit)) := by
  obtain ⟨arrived, hsub, hall, _⟩ := instrument_arrivals hc h
  obtain ⟨i', l, x1, x2, x3⟩ := hall .histogram (fun _ _ => rfl) (fun _ _ _ => rfl) hplace hstays
  refine ⟨i', x1, (Histogram.history_suffix x2).sublist.subperm.trans ?_⟩
  rw [List.subperm_append_left]
  obtain ⟨m, h1, h2⟩ := arrived_for hsub path f
  refine ⟨_, (h1.filterMap (Observation.inUnit i.displayTimeUnit)).trans (List.Perm.of_eq ?_), h2.filterMap _⟩
  unfold acceptedValues
  rw [x3, List.filterMap_map]
  refine List.filterMap_congr fun o _ => ?_
  cases o with
  | observedOneValue l v t => cases v <;> rfl
  | _ => rfl

theorem counted_le (os : List (Observation L)) : 0 ≤ sumOf Update.counted (os.map Observation.content) ∧
    sumOf Update.counted (os.map Observation.content) ≤ ((os.map Observation.occurrences).sum : Nat) := by
  induction os with
  | nil => simp [sumOf]
  | cons o os ih =>
    have : o.content.occurrences = o.occurrences := by cases o <;> rfl
    have hcounted : 0 ≤ o.content.counted.getD 0 ∧ o.content.counted.getD 0 ≤ (o.occurrences : Int) := by
      unfold Update.counted
      rw [this]
      split
      · simp
      · simp
    simp only [sumOf, List.map_cons, List.sum_cons] at ih ⊢
    push_cast
    omega

/-- A meter has counted at most what the threads send for it. -/
theorem C62_meter (hc : CustomForward σ L) (h : UsedFrom e k p log k' p' programs)
    {place : Place} {path : List (LabelFilter L)} {f : LabelFilter L} {m : Meter}
    (hplace : p.state.leafAt place = some (path, .instrument ⟨f, .meter m, none⟩)) (hstays : place.Stays programs)
    (hcount : I64 m.inner.count)
    (hmax : m.inner.count + (((observationsFor path f programs).map Observation.occurrences).sum : Nat) ≤ i64Max) :
    ∃ m', p'.state.leafAt place = some (path, .instrument ⟨f, .meter m', none⟩) ∧ m.inner.count ≤ m'.inner.count ∧
      m'.inner.count ≤ m.inner.count + (((observationsFor path f programs).map Observation.occurrences).sum : Nat) := by
  obtain ⟨arrived, hsub, hall, _⟩ := instrument_arrivals hc h
  obtain ⟨m', l, x1, x2, x3⟩ := hall .meter (fun _ _ => rfl) (fun _ _ _ => rfl) hplace hstays
  have e1 := (Meter.history_count x2 hcount).1
  have hle := subperm_sum_le (f := Observation.occurrences) (arrived_for hsub path f)
  have hsum := counted_le (arrived.filter fun o => meantFor path f o.label)
  rw [← x3] at hsum
  have hfits : I64 (m.inner.count + sumOf Update.counted (inputs l)) := by
    unfold I64 at hcount ⊢
    omega
  rw [wrapI64_of_I64 hfits] at e1
  refine ⟨m', x1, ?_, ?_⟩ <;> omega

/-- Later it has never counted less, and shows no smaller count. -/
theorem C62_meter_never_back (hc : CustomForward σ L) (h : UsedFrom e k p log k₁ p₁ programs)
    (h₁ : Life e k₁ p₁ log₁ k' p') {place : Place} {path : List (LabelFilter L)} {f : LabelFilter L} {m : Meter}
    (hplace : p.state.leafAt place = some (path, .instrument ⟨f, .meter m, none⟩)) (hstays : place.Stays programs)
    (hcount : 0 ≤ m.inner.count)
    (hmax : m.inner.count + (((observationsFor path f programs).map Observation.occurrences).sum : Nat) ≤ i64Max) :
    ∃ m₁ m', p₁.state.leafAt place = some (path, .instrument ⟨f, .meter m₁, none⟩) ∧
      p'.state.leafAt place = some (path, .instrument ⟨f, .meter m', none⟩) ∧
      m.inner.count ≤ m₁.inner.count ∧ m₁.inner.count ≤ m'.inner.count ∧
      wrapU64 m₁.inner.count ≤ wrapU64 m'.inner.count := by
  obtain ⟨arrived, arrived₁, both, hall⟩ := arrivals_twice hc h h₁
  obtain ⟨m₁, m', l, l₁, a1, a2, b1, b2, b3, b4⟩ := hall .meter (fun _ _ => rfl) (fun _ _ _ => rfl) hplace hstays
  have hle := subperm_sum_le (f := Observation.occurrences) (arrived_for both path f)
  rw [List.filter_append, List.map_append, List.sum_append] at hle
  have hsum := counted_le (arrived.filter fun o => meantFor path f o.label)
  have hsum₁ := counted_le (arrived₁.filter fun o => meantFor path f o.label)
  rw [← b2] at hsum
  rw [← b4] at hsum₁
  have hi : I64 m.inner.count := by unfold I64 i64Min; omega
  have e1 := (Meter.history_count b1 hi).1
  rw [wrapI64_of_I64 (by unfold I64 at hi ⊢; omega)] at e1
  have hi₁ : I64 m₁.inner.count := by unfold I64 at hi ⊢; omega
  have e2 := (Meter.history_count b3 hi₁).1
  rw [wrapI64_of_I64 (by unfold I64 at hi ⊢; omega)] at e2
  refine ⟨m₁, m', a1, a2, by omega, by omega, ?_⟩
  unfold i64Max at hmax
  unfold wrapU64
  omega

/-! A histogram forgets after a second without values; it is resets that make it show less. -/

def forgetfulProcessor : Processor Empty Nat :=
  { lossyProcessor with
    state := { lossyProcessor.state with handlers := lossyProcessor.state.handlers ++ [.panel (.mk
      { labelFilter := .one 2, activity := ⟨0, none, true⟩,
        histogram := some (.new { name := "h", lastUpdate := 0, maxInactivity := some 1, inner := [7] }) } [] [] [])] } }

theorem forgetful_used : ∃ o k' p', UsedFrom ticking 1 forgetfulProcessor [⟨1, .process 3 .processAll, .outcome o⟩] k' p' lossyPrograms ∧
    (p'.state.leafAt (.handler 4 0)).map (fun x => match x.2 with
      | .instrument ⟨_, .histogram h, _⟩ => h.inner
      | _ => []) = some [5] := by
  refine ⟨_, _, _, ⟨.cons (Nat.le_refl _) rfl (.nil (Nat.le_refl _)), _, _, rfl⟩, ?_⟩
  decide +kernel

example : (forgetfulProcessor.state.leafAt (.handler 0 0)).isSome = true ∧
    (observationsFor [.many [1, 2]] .acceptAll lossyPrograms).map Observation.occurrences = [1, 1, 1, 1] := by decide +kernel

example : ∃ p' : Processor Empty Nat,
    (∃ c, p'.state.leafAt (.handler 0 0) = some ([.many [1, 2]], .instrument ⟨.acceptAll, .counter c, none⟩) ∧
      10 ≤ c.count ∧ c.count ≤ 10 + 4) ∧
    ∃ i, p'.state.leafAt (.handler 4 0) = some ([.one 2], .instrument ⟨.acceptAll, .histogram i, none⟩) ∧
      i.inner.Subperm [7, 5] := by
  obtain ⟨o, k', p', h, -⟩ := forgetful_used
  refine ⟨p', ?_, ?_⟩
  · exact C62_counter emptyForward h (place := .handler 0 0) rfl (fun _ _ _ _ h => h) (by decide)
  · exact C62_histogram emptyForward h (place := .handler 4 0) rfl (fun _ _ _ _ h => h)

/-- The processor with the meter is used, and then used again. -/
example : ∃ p₁ p' : Processor Empty Nat,
    (∃ c₁ c', p₁.state.leafAt (.handler 0 0) = some ([.one 1], .instrument ⟨.acceptAll, .counter c₁, none⟩) ∧
      p'.state.leafAt (.handler 0 0) = some ([.one 1], .instrument ⟨.acceptAll, .counter c', none⟩) ∧
      10 ≤ c₁.count ∧ c₁.count ≤ c'.count) ∧
    (∃ m₁ m', p₁.state.leafAt (.handler 2 0) = some ([.predicate (· < 2)], .instrument ⟨.one 1, .meter m₁, none⟩) ∧
      p'.state.leafAt (.handler 2 0) = some ([.predicate (· < 2)], .instrument ⟨.one 1, .meter m', none⟩) ∧
      0 ≤ m₁.inner.count ∧ m₁.inner.count ≤ m'.inner.count ∧ wrapU64 m₁.inner.count ≤ wrapU64 m'.inner.count) ∧
    ∃ m', p'.state.leafAt (.handler 2 0) = some ([.predicate (· < 2)], .instrument ⟨.one 1, .meter m', none⟩) ∧
      0 ≤ m'.inner.count ∧ m'.inner.count ≤ 0 + 3 := by
  obtain ⟨⟨p₁, rs⟩, k₁, h₁, hs⟩ := Processor.tot_calls (e := ticking) (safe := fun _ => False) rfl ticking_custom
    [.process 1 .processAll] (by simp [Call.Safe, Strategy.Safe]) meteringProcessor metering_safe 1
  obtain ⟨log, hl, -⟩ := Life.of_calls h₁
  obtain ⟨log₁, k', p', hl', -⟩ := exists_life (e := ticking) (safe := fun _ => False) rfl ticking_custom hs
    [.process 2 .processAll] (by simp [Call.Safe, Strategy.Safe]) k₁
  have hu : UsedFrom ticking 1 meteringProcessor log k₁ p₁ lossyPrograms := ⟨hl, _, _, rfl⟩
  have hu' : UsedFrom ticking 1 meteringProcessor (log ++ log₁) k' p' lossyPrograms := ⟨hl.trans hl', _, _, rfl⟩
  refine ⟨p₁, p', ?_, ?_, ?_⟩
  · exact C62_counter_never_back emptyForward hu hl' (place := .handler 0 0) rfl (fun _ _ _ _ h => h) (by decide)
  · exact C62_meter_never_back emptyForward hu hl' (place := .handler 2 0) rfl (fun _ _ _ _ h => h) (by decide) (by decide)
  · exact C62_meter emptyForward hu' (place := .handler 2 0) rfl (fun _ _ _ _ h => h) (by decide) (by decide)

end Metrix
