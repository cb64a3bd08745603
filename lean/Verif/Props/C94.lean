import Verif.Proof.Strict
import Verif.Props.C62

/-!
# C94 A stricter strategy only drops more

`Strategy.AsStrictAs` (in `Verif.Spec.Strict`) compares strategies, `Called.AsStrictAs` compares the calls of two uses of the same processor: the
same calls, but in the first use the runs have stricter strategies and begin later.
-/

namespace Metrix
variable {σ L : Type}

/-- What a strategy keeps, a less strict one keeps too, the more if the run begins earlier. -/
theorem C94_rule {a b : Strategy} (h : a.AsStrictAs b) {start start' : Int} (hstart : start' ≤ start) (o : Observation L)
    (hk : a.Keeps start o) : b.Keeps start' o := h.keeps hstart hk

/-- There is no other way in which one strategy is always stricter than another. -/
theorem C94_order (l : L) (a b : Strategy) :
    a.AsStrictAs b ↔ ∀ (start : Int) (o : Observation L), a.Keeps start o → b.Keeps start o := by
  refine ⟨fun h start o => h.keeps (Int.le_refl _), fun h => ?_⟩
  cases a with
  | dropAll => exact True.intro
  | processAll =>
    cases b with
    | processAll => exact True.intro
    | dropAll => exact h 0 (.observedOne l 0) True.intro
    | dropOlderThan age deltas =>
      rcases (h 0 (.observedOne l (-age - 1)) True.intro : _ ∨ _) with h | ⟨⟨_, _, _, h⟩, _⟩
      · simp only [Observation.madeAt] at h
        omega
      · cases h
  | dropOlderThan age deltas =>
    cases b with
    | processAll => exact True.intro
    | dropAll => exact h 0 (.observedOne l 0) (.inl (by simp only [Observation.madeAt]; omega))
    | dropOlderThan age' deltas' =>
      refine ⟨?_, fun hd => ?_⟩
      · rcases (h 0 (.observedOne l (-age)) (.inl (by simp only [Observation.madeAt]; omega)) : _ ∨ _) with h | ⟨⟨_, _, _, h⟩, _⟩
        · simp only [Observation.madeAt] at h
          omega
        · cases h
      · rcases (h 0 (.observedOneValue l (.changedBy 0) (-age' - 1)) (.inr ⟨⟨_, _, _, rfl⟩, hd⟩) : _ ∨ _) with h | ⟨_, h⟩
        · simp only [Observation.madeAt] at h
          omega
        · exact h

section
variable [DecidableEq L] [Custom σ L]

/-- One run, with two strategies. The stricter one processes no more and drops no less. Both consume the same. -/
theorem C94_run {p p₁ p₂ : Processor σ L} {max : Nat} {a b : Strategy} {o₁ o₂ : Outcome} {e₁ e₂ : Env} {k₁ k₁' k₂ k₂' : Nat}
    (h₁ : p.process max a e₁ k₁ = some ((p₁, o₁), k₁')) (h₂ : p.process max b e₂ k₂ = some ((p₂, o₂), k₂'))
    (hab : a.AsStrictAs b) (hclock : e₂.clock k₂ ≤ e₁.clock k₁) : o₁.AsStrictAs o₂ ∧ p₁.receiver = p₂.receiver :=
  ⟨process_more h₁ h₂ rfl rfl hab hclock, (process_same h₁ h₂ rfl rfl).1⟩

variable {e₁ e₂ : Env} {k₁ k₁' k₂ k₂' : Nat} {p p₁ p₂ : Processor σ L} {log₁ log₂ : List (Called σ L)}
  {programs : List (SendThread (Message σ L))}

/-- Two uses of a processor, in which it gets the same. In the first the strategies are stricter. Everywhere some of what arrives in the second
arrives in the first, in the same order, and nothing else. -/
theorem C94_arrivals (hc : CustomForward σ L) (h₁ : UsedFrom e₁ k₁ p log₁ k₁' p₁ programs) (h₂ : UsedFrom e₂ k₂ p log₂ k₂' p₂ programs)
    (hlog : List.Forall₂ (Called.AsStrictAs e₁ e₂) log₁ log₂) :
    ∃ arrived₁ arrived₂ : List (Observation L), arrived₁.Sublist arrived₂ ∧ arrived₂.Subperm (observationsOf programs) ∧
      ∀ place path leaf, p.state.leafAt place = some (path, leaf) → place.Stays programs →
        ∃ l₁ l₂ leaf₁ leaf₂, History e₁ k₁ leaf l₁ k₁' leaf₁ ∧ p₁.state.leafAt place = some (path, leaf₁) ∧
          inputs l₁ = arrived₁.filter (fun o => path.all (·.accepts o.label)) ∧
          History e₂ k₂ leaf l₂ k₂' leaf₂ ∧ p₂.state.leafAt place = some (path, leaf₂) ∧
          inputs l₂ = arrived₂.filter (fun o => path.all (·.accepts o.label)) := by
  obtain ⟨cap, useSend, hnew⟩ := h₁.fresh
  obtain ⟨_, _, consumed₁, consumed₂, hs₁, hs₂, htook, hm⟩ := lives_more hlog h₁.life h₂.life rfl rfl
  have hsame := DroppedMore.messages hm
  have hperm := htook.subperm hnew
  refine ⟨_, _, DroppedMore.processed hm, ?_, fun place path leaf hplace hstays => ?_⟩
  · rw [hsame] at hperm
    obtain ⟨l, x1, x2⟩ := hperm
    exact (processed_sublist _).subperm.trans ⟨_, x1.filterMap _, x2.filterMap _⟩
  · have hstay : ∀ m ∈ consumed₁.flatten.map (·.1), ¬ place.RemovedBy m := by
      intro m hm
      obtain ⟨th, hth, hm⟩ := List.mem_flatMap.mp (hperm.subset hm)
      exact hstays th hth m hm
    obtain ⟨l₁, leaf₁, x1, x2, x3⟩ := Trail.leaf hc hs₁.trail hplace fun m hm => hstay m.1 (List.mem_map_of_mem hm)
    obtain ⟨l₂, leaf₂, y1, y2, y3⟩ := Trail.leaf hc hs₂.trail hplace fun m hm => hstay m.1 (hsame ▸ List.mem_map_of_mem hm)
    exact ⟨l₁, l₂, leaf₁, leaf₂, x1, x2, x3, y1, y2, y3⟩

/-- The same for instruments. -/
theorem strict_arrivals (hc : CustomForward σ L) (h₁ : UsedFrom e₁ k₁ p log₁ k₁' p₁ programs) (h₂ : UsedFrom e₂ k₂ p log₂ k₂' p₂ programs)
    (hlog : List.Forall₂ (Called.AsStrictAs e₁ e₂) log₁ log₂) {I : Type} [IsInstrument I] (wrap : I → Instrument σ)
    (hup : ∀ i u, Instrument.update L (wrap i) u = (do let (i, n) ← IsInstrument.update i u; return (wrap i, n)))
    (hput : ∀ i s d, Instrument.putSnapshot L (wrap i) s d = (do let (i, n) ← IsInstrument.putSnapshot i s d; return (wrap i, n)))
    {place : Place} {path : List (LabelFilter L)} {f : LabelFilter L} {i : I}
    (hplace : p.state.leafAt place = some (path, .instrument ⟨f, wrap i, none⟩)) (hstays : place.Stays programs) :
    ∃ (i₁ i₂ : I) (l₁ l₂ : List (Event Update)) (os₁ os₂ : List (Observation L)), os₁.Sublist os₂ ∧
      os₂.Subperm (observationsFor path f programs) ∧
      p₁.state.leafAt place = some (path, .instrument ⟨f, wrap i₁, none⟩) ∧ History e₁ k₁ i l₁ k₁' i₁ ∧
      inputs l₁ = os₁.map Observation.content ∧
      p₂.state.leafAt place = some (path, .instrument ⟨f, wrap i₂, none⟩) ∧ History e₂ k₂ i l₂ k₂' i₂ ∧
      inputs l₂ = os₂.map Observation.content := by
  obtain ⟨arrived₁, arrived₂, hsub, hin, hall⟩ := C94_arrivals hc h₁ h₂ hlog
  obtain ⟨l₁, l₂, x₁, x₂, a1, a2, a3, b1, b2, b3⟩ := hall place path _ hplace hstays
  obtain ⟨i₁, l₁', rfl, a4, a5⟩ := leaf_instrument wrap hup hput a1
  obtain ⟨i₂, l₂', rfl, b4, b5⟩ := leaf_instrument wrap hup hput b1
  have conv : ∀ os : List (Observation L), ((os.filter fun o => path.all (·.accepts o.label)).filter fun o => f.accepts o.label) =
      os.filter fun o => meantFor path f o.label := by
    intro os
    rw [List.filter_filter]
    exact List.filter_congr fun o _ => by rw [meantFor, Bool.and_comm]
  exact ⟨i₁, i₂, l₁', l₂', _, _, hsub.filter _, arrived_for hin path f, a2, a4, by rw [a5, a3, conv], b2, b4, by rw [b5, b3, conv]⟩

/-- A counter shows at most what it would show with less strict strategies. -/
theorem C94_counter (hc : CustomForward σ L) (h₁ : UsedFrom e₁ k₁ p log₁ k₁' p₁ programs) (h₂ : UsedFrom e₂ k₂ p log₂ k₂' p₂ programs)
    (hlog : List.Forall₂ (Called.AsStrictAs e₁ e₂) log₁ log₂)
    {place : Place} {path : List (LabelFilter L)} {f : LabelFilter L} {c : Counter}
    (hplace : p.state.leafAt place = some (path, .instrument ⟨f, .counter c, none⟩)) (hstays : place.Stays programs)
    (hcount : c.count + ((observationsFor path f programs).map Observation.occurrences).sum < 2 ^ 64) :
    ∃ c₁ c₂, p₁.state.leafAt place = some (path, .instrument ⟨f, .counter c₁, none⟩) ∧
      p₂.state.leafAt place = some (path, .instrument ⟨f, .counter c₂, none⟩) ∧ c₁.count ≤ c₂.count := by
  obtain ⟨c₁, c₂, l₁, l₂, os₁, os₂, hsub, hin, a1, a2, a3, b1, b2, b3⟩ :=
    strict_arrivals hc h₁ h₂ hlog .counter (fun _ _ => rfl) (fun _ _ _ => rfl) hplace hstays
  have e1 := (C21_counter_counts a2 (by omega)).1
  have e2 := (C21_counter_counts b2 (by omega)).1
  rw [a3, occurrences_content] at e1
  rw [b3, occurrences_content] at e2
  have hle := subperm_sum_le (f := Observation.occurrences) hsub.subperm
  have hle' := subperm_sum_le (f := Observation.occurrences) hin
  exact ⟨c₁, c₂, a1, b1, by omega⟩

theorem counted_sublist {os₁ os₂ : List (Observation L)} (h : os₁.Sublist os₂) :
    sumOf Update.counted (os₁.map Observation.content) ≤ sumOf Update.counted (os₂.map Observation.content) := by
  induction h with
  | slnil => exact Int.le_refl _
  | @cons os₁ os₂ o _ ih =>
    have := (counted_le [o]).1
    simp only [sumOf, List.map_cons, List.sum_cons, List.map_nil, List.sum_nil] at this ih ⊢
    omega
  | @cons_cons os₁ os₂ o _ ih =>
    simp only [sumOf, List.map_cons, List.sum_cons] at ih ⊢
    omega

/-- A meter has counted at most what it would have counted with less strict strategies. -/
theorem C94_meter (hc : CustomForward σ L) (h₁ : UsedFrom e₁ k₁ p log₁ k₁' p₁ programs) (h₂ : UsedFrom e₂ k₂ p log₂ k₂' p₂ programs)
    (hlog : List.Forall₂ (Called.AsStrictAs e₁ e₂) log₁ log₂)
    {place : Place} {path : List (LabelFilter L)} {f : LabelFilter L} {m : Meter}
    (hplace : p.state.leafAt place = some (path, .instrument ⟨f, .meter m, none⟩)) (hstays : place.Stays programs)
    (hcount : I64 m.inner.count)
    (hmax : m.inner.count + (((observationsFor path f programs).map Observation.occurrences).sum : Nat) ≤ i64Max) :
    ∃ m₁ m₂, p₁.state.leafAt place = some (path, .instrument ⟨f, .meter m₁, none⟩) ∧
      p₂.state.leafAt place = some (path, .instrument ⟨f, .meter m₂, none⟩) ∧ m₁.inner.count ≤ m₂.inner.count := by
  obtain ⟨m₁, m₂, l₁, l₂, os₁, os₂, hsub, hin, a1, a2, a3, b1, b2, b3⟩ :=
    strict_arrivals hc h₁ h₂ hlog .meter (fun _ _ => rfl) (fun _ _ _ => rfl) hplace hstays
  have e1 := (Meter.history_count a2 hcount).1
  have e2 := (Meter.history_count b2 hcount).1
  have hle := subperm_sum_le (f := Observation.occurrences) hin
  have s1 := counted_le os₁
  have s2 := counted_le os₂
  have s3 := counted_sublist hsub
  rw [← a3, ← b3] at s3
  rw [← a3] at s1
  rw [← b3] at s2
  unfold I64 at hcount
  rw [wrapI64_of_I64 (by unfold I64; omega)] at e1 e2
  exact ⟨m₁, m₂, a1, b1, by omega⟩

/-- A histogram that is not reset contains no value that it would not contain with less strict strategies. -/
theorem C94_histogram (hc : CustomForward σ L) (h₁ : UsedFrom e₁ k₁ p log₁ k₁' p₁ programs) (h₂ : UsedFrom e₂ k₂ p log₂ k₂' p₂ programs)
    (hlog : List.Forall₂ (Called.AsStrictAs e₁ e₂) log₁ log₂)
    {place : Place} {path : List (LabelFilter L)} {f : LabelFilter L} {i : Histogram}
    (hplace : p.state.leafAt place = some (path, .instrument ⟨f, .histogram i, none⟩)) (hstays : place.Stays programs)
    (hlim : i.maxInactivity = none ∨ i.resetAfterInactivity = false) :
    ∃ i₁ i₂, p₁.state.leafAt place = some (path, .instrument ⟨f, .histogram i₁, none⟩) ∧
      p₂.state.leafAt place = some (path, .instrument ⟨f, .histogram i₂, none⟩) ∧ i₁.inner.Sublist i₂.inner := by
  obtain ⟨i₁, i₂, l₁, l₂, os₁, os₂, hsub, hin, a1, a2, a3, b1, b2, b3⟩ :=
    strict_arrivals hc h₁ h₂ hlog .histogram (fun _ _ => rfl) (fun _ _ _ => rfl) hplace hstays
  refine ⟨i₁, i₂, a1, b1, ?_⟩
  rw [C32_no_limit a2 hlim, C32_no_limit b2 hlim]
  refine List.Sublist.append_left ?_ _
  unfold acceptedValues
  rw [a3, b3]
  exact (hsub.map _).filterMap _

end

/-! ## Examples -/

/-- An old value and a fresh one, an old change and something else that is old. -/
def strictMessages : List (Message Empty Nat) :=
  [.observation (.observedOneValue 1 (.signedInteger 5) (-60000000000)), .observation (.observedOneValue 2 (.signedInteger 6) 0),
   .observation (.observedOneValue 1 (.changedBy (-4)) (-60000000000)), .observation (.observedOne 2 (-60000000000))]

/-- A counter, a gauge and a histogram. -/
def strictProcessor : Processor Empty Nat where
  state := { activity := ⟨0, none, true⟩
             handlers := [counting .acceptAll 10,
               .panel (.mk { labelFilter := .acceptAll, activity := ⟨0, none, true⟩,
                             histogram := some (.new { name := "h", lastUpdate := 0, inner := [7] })
                             gauge := some (.accept .acceptAll { name := "g" }) } [] [] [])] }
  receiver := { chan := .fresh (some 10) true [{ todo := strictMessages }], ahead := [[0, 0], [], [0], [0], [0]] }

section
variable [DecidableEq L] [Custom σ L]

/-- What comes out if a processor is used by the given calls, which begin when the clock has been read so many times. -/
def livedAt (e : Env) : Nat → Processor σ L → List (Nat × Call σ L) → Option (List (Called σ L) × Nat × Processor σ L)
  | k, p, [] => some ([], k, p)
  | k, p, (j, c) :: cs =>
    if k ≤ j then do
      let ((p₁, r), k₁) ← p.call c e j
      let (log, k', p') ← livedAt e k₁ p₁ cs
      return (⟨j, c, r⟩ :: log, k', p')
    else none

theorem livedAt_life {e : Env} {k k' : Nat} {p p' : Processor σ L} {cs : List (Nat × Call σ L)} {log : List (Called σ L)}
    (h : livedAt e k p cs = some (log, k', p')) : Life e k p log k' p' ∧ log.map (fun c => (c.start, c.call)) = cs := by
  induction cs generalizing k p log with
  | nil =>
    simp only [livedAt, Option.some.injEq, Prod.mk.injEq] at h
    obtain ⟨rfl, rfl, rfl⟩ := h
    exact ⟨.nil (Nat.le_refl _), rfl⟩
  | cons c cs ih =>
    obtain ⟨j, c⟩ := c
    simp only [livedAt] at h
    split at h
    · rename_i hk
      simp only [Option.bind_eq_bind, Option.bind_eq_some_iff, Option.pure_def, Option.some.injEq, Prod.mk.injEq] at h
      obtain ⟨⟨⟨p₁, r⟩, k₁⟩, h1, ⟨log', k'', p''⟩, h2, rfl, rfl, rfl⟩ := h
      exact ⟨.cons hk h1 (ih h2).1, by rw [List.map_cons, (ih h2).2]⟩
    · cases h

end

/-- How it is used: two runs, and in between a snapshot and a setting. -/
def strictCalls (a b : Strategy) (t : Nat) : List (Nat × Call Empty Nat) :=
  [(t, .process 2 a), (t + 20, .snapshot [] true), (t + 40, .setName "p"), (t + 60, .process 2 b)]

/-- What the counter, the gauge and the histogram have. -/
def strictShown (s : ProcessorState Empty Nat) : Nat × Option Int × List Int :=
  (match s.leafAt (.handler 0 0) with
    | some (_, .instrument ⟨_, .counter c, _⟩) => c.count
    | _ => 0,
   match s.leafAt (.handler 1 0) with
    | some (_, .gauge a) => a.gauge.value
    | _ => none,
   match s.leafAt (.handler 1 1) with
    | some (_, .instrument ⟨_, .histogram h, _⟩) => h.inner
    | _ => [])

theorem strict_log {a b a' b' : Strategy} {t t' : Nat} {log₁ log₂ : List (Called Empty Nat)}
    (h₁ : log₁.map (fun c => (c.start, c.call)) = strictCalls a b t) (h₂ : log₂.map (fun c => (c.start, c.call)) = strictCalls a' b' t')
    (ha : a.AsStrictAs a') (hb : b.AsStrictAs b') (ht : t' ≤ t) : List.Forall₂ (Called.AsStrictAs ticking ticking) log₁ log₂ := by
  have hclock : ∀ j j' : Nat, j' ≤ j → ticking.clock j' ≤ ticking.clock j := fun j j' h => ticking_mono j' j h
  match log₁, log₂, h₁, h₂ with
  | [⟨_, _, _⟩, ⟨_, _, _⟩, ⟨_, _, _⟩, ⟨_, _, _⟩], [⟨_, _, _⟩, ⟨_, _, _⟩, ⟨_, _, _⟩, ⟨_, _, _⟩], h₁, h₂ =>
    simp only [strictCalls, List.map_cons, List.map_nil, List.cons.injEq, Prod.mk.injEq, and_true] at h₁ h₂
    obtain ⟨⟨rfl, rfl⟩, ⟨rfl, rfl⟩, ⟨rfl, rfl⟩, rfl, rfl⟩ := h₁
    obtain ⟨⟨rfl, rfl⟩, ⟨rfl, rfl⟩, ⟨rfl, rfl⟩, rfl, rfl⟩ := h₂
    exact .cons (.run _ _ _ _ _ _ _ ha (hclock _ _ ht)) (.cons (.other _ _ _ _ _ nofun) (.cons (.other _ _ _ _ _ nofun)
      (.cons (.run _ _ _ _ _ _ _ hb (hclock _ _ (by omega))) .nil)))

/-- The first time everything that is older than half a minute is dropped. The second time nothing is dropped in the first run, and changes of
values are kept in the second. -/
theorem strict_used : ∃ log₁ log₂ k₁ k₂ p₁ p₂,
    UsedFrom ticking 3 strictProcessor log₁ k₁ p₁ [{ todo := strictMessages }] ∧
    UsedFrom ticking 1 strictProcessor log₂ k₂ p₂ [{ todo := strictMessages }] ∧
    List.Forall₂ (Called.AsStrictAs ticking ticking) log₁ log₂ ∧
    strictShown p₁.state = (11, some 6, [7, 6]) ∧ strictShown p₂.state = (13, some 2, [7, 5, 6]) := by
  have e1 : (livedAt ticking 3 strictProcessor (strictCalls (.dropOlderThan 30000000000 true) (.dropOlderThan 30000000000 true) 3)).map
      (fun x => strictShown x.2.2.state) = some (11, some 6, [7, 6]) := by decide +kernel
  have e2 : (livedAt ticking 1 strictProcessor (strictCalls .processAll .default 1)).map
      (fun x => strictShown x.2.2.state) = some (13, some 2, [7, 5, 6]) := by decide +kernel
  obtain ⟨⟨log₁, k₁, p₁⟩, h₁, x1⟩ := Option.map_eq_some_iff.1 e1
  obtain ⟨⟨log₂, k₂, p₂⟩, h₂, x2⟩ := Option.map_eq_some_iff.1 e2
  obtain ⟨l1, m1⟩ := livedAt_life h₁
  obtain ⟨l2, m2⟩ := livedAt_life h₂
  exact ⟨log₁, log₂, k₁, k₂, p₁, p₂, ⟨l1, _, _, rfl⟩, ⟨l2, _, _, rfl⟩, strict_log m1 m2 True.intro ⟨Nat.le_refl _, nofun⟩ (by decide), x1, x2⟩

/-- The theorems speak about these uses. -/
example : ∃ p₁ p₂ : Processor Empty Nat, strictShown p₁.state = (11, some 6, [7, 6]) ∧ strictShown p₂.state = (13, some 2, [7, 5, 6]) ∧
    (∃ c₁ c₂, p₁.state.leafAt (.handler 0 0) = some ([.acceptAll], .instrument ⟨.acceptAll, .counter c₁, none⟩) ∧
      p₂.state.leafAt (.handler 0 0) = some ([.acceptAll], .instrument ⟨.acceptAll, .counter c₂, none⟩) ∧ c₁.count ≤ c₂.count) ∧
    ∃ i₁ i₂, p₁.state.leafAt (.handler 1 1) = some ([.acceptAll], .instrument ⟨.acceptAll, .histogram i₁, none⟩) ∧
      p₂.state.leafAt (.handler 1 1) = some ([.acceptAll], .instrument ⟨.acceptAll, .histogram i₂, none⟩) ∧ i₁.inner.Sublist i₂.inner := by
  obtain ⟨log₁, log₂, k₁, k₂, p₁, p₂, h₁, h₂, hlog, x1, x2⟩ := strict_used
  refine ⟨p₁, p₂, x1, x2, ?_, ?_⟩
  · exact C94_counter emptyForward h₁ h₂ hlog (place := .handler 0 0) rfl (fun _ _ _ _ h => h) (by decide)
  · exact C94_histogram emptyForward h₁ h₂ hlog (place := .handler 1 1) rfl (fun _ _ _ _ h => h) (.inl rfl)

/-- A single run, with two strategies. -/
example : ∃ o₁ o₂ : Outcome, o₁ = ⟨1, 1, 3, 1⟩ ∧ o₂ = ⟨2, 0, 6, 1⟩ ∧ o₁.AsStrictAs o₂ :=
  ⟨_, _, rfl, rfl, (C94_run (p := strictProcessor) (max := 2) (a := .default) (b := .processAll) (e₁ := ticking) (e₂ := ticking)
    (k₁ := 1) (k₂ := 1) rfl rfl True.intro (Int.le_refl _)).1⟩

/-- A processor with a meter makes one run. -/
theorem strict_metering (s : Strategy) (hs : Call.Safe (σ := Empty) (L := Nat) ticking (fun _ => False) (.process 3 s)) :
    ∃ r k' p', UsedFrom ticking 1 meteringProcessor [⟨1, .process 3 s, r⟩] k' p' lossyPrograms := by
  obtain ⟨⟨p', rs⟩, k', h, _⟩ := Processor.tot_calls (e := ticking) (safe := fun _ => False) rfl ticking_custom [.process 3 s]
    (by simpa using hs) meteringProcessor metering_safe 1
  obtain ⟨⟨p₁, r⟩, k₁, h1, h⟩ := M.bind_eq_some.mp h
  exact ⟨r, k₁, p₁, .cons (Nat.le_refl _) h1 (.nil (Nat.le_refl _)), _, _, rfl⟩

example : ∃ p₁ p₂ : Processor Empty Nat, ∃ m₁ m₂,
    p₁.state.leafAt (.handler 2 0) = some ([.predicate (· < 2)], .instrument ⟨.one 1, .meter m₁, none⟩) ∧
    p₂.state.leafAt (.handler 2 0) = some ([.predicate (· < 2)], .instrument ⟨.one 1, .meter m₂, none⟩) ∧
    m₁.inner.count ≤ m₂.inner.count := by
  obtain ⟨_, _, p₁, h₁⟩ := strict_metering .dropAll (by simp [Call.Safe, Strategy.Safe])
  obtain ⟨_, _, p₂, h₂⟩ := strict_metering .processAll (by simp [Call.Safe, Strategy.Safe])
  exact ⟨p₁, p₂, C94_meter emptyForward h₁ h₂ (.cons (.run _ _ _ _ _ _ _ True.intro (Int.le_refl _)) .nil) (place := .handler 2 0) rfl
    (fun _ _ _ _ h => h) (by decide) (by decide)⟩

/-- A gauge may show more with a stricter strategy: what lowers it is dropped. -/
theorem C94_finding_gauge : ∃ log₁ log₂ k₁ k₂ p₁ p₂ a₁ a₂,
    UsedFrom ticking 3 strictProcessor log₁ k₁ p₁ [{ todo := strictMessages }] ∧
    UsedFrom ticking 1 strictProcessor log₂ k₂ p₂ [{ todo := strictMessages }] ∧
    List.Forall₂ (Called.AsStrictAs ticking ticking) log₁ log₂ ∧
    p₁.state.leafAt (.handler 1 0) = some ([.acceptAll], .gauge a₁) ∧ p₂.state.leafAt (.handler 1 0) = some ([.acceptAll], .gauge a₂) ∧
    a₁.gauge.value = some 6 ∧ a₂.gauge.value = some 2 := by
  obtain ⟨log₁, log₂, k₁, k₂, p₁, p₂, h₁, h₂, hlog, x1, x2⟩ := strict_used
  obtain ⟨_, _, _, _, hall⟩ := C94_arrivals emptyForward h₁ h₂ hlog
  obtain ⟨l₁, l₂, y₁, y₂, g1, g2, _, g3, g4, _⟩ := hall (.handler 1 0) _ _ rfl (fun _ _ _ _ h => h)
  obtain ⟨a₁, _, rfl, _, _⟩ := leaf_gauge g1
  obtain ⟨a₂, _, rfl, _, _⟩ := leaf_gauge g3
  refine ⟨log₁, log₂, k₁, k₂, p₁, p₂, a₁, a₂, h₁, h₂, hlog, g2, g4, ?_, ?_⟩
  · simp only [strictShown, g2, Prod.mk.injEq] at x1
    exact x1.2.1
  · simp only [strictShown, g4, Prod.mk.injEq] at x2
    exact x2.2.1

/-- A less strict run may panic where a stricter one does not: if the age is so high that no `Instant` is that long ago. -/
theorem C94_finding_panic : Strategy.AsStrictAs .dropAll (.dropOlderThan (10 ^ 21) false) ∧
    (strictProcessor.process 4 .dropAll ticking 1).isSome = true ∧
    strictProcessor.process 4 (.dropOlderThan (10 ^ 21) false) ticking 1 = none :=
  ⟨True.intro, by decide +kernel, rfl⟩

end Metrix
