import Verif.Spec.Build
import Verif.Proof.History
import Verif.Props.C01

/-! # C63: an instrument reacts to exactly the labels it was made for -/

namespace Metrix
variable {L I : Type} [DecidableEq L] [IsInstrument I]

theorem Labels.toFilter_accepts (labels : Labels L) (l : L) : labels.toFilter.accepts l = true ↔ labels.Meant l := by
  cases labels with
  | label a => exact (C01_constructors a a a a a l [] fun _ => true).1
  | wrapped a => exact (C01_constructors a a a a a l [] fun _ => true).1
  | acceptOneLabel a => exact (C01_constructors a a a a a l [] fun _ => true).1
  | acceptAllLabels => simp [toFilter, Meant, LabelFilter.accepts]
  | acceptNoLabel => simp [toFilter, Meant, LabelFilter.accepts]
  | labelPredicate p => simp [toFilter, Meant, LabelFilter.accepts]
  | lp p => simp [toFilter, Meant, LabelFilter.accepts]
  | list ls => exact (C01_constructors l l l l l l ls fun _ => true).2.1
  | pair a b => exact (C01_constructors a b a a a l [] fun _ => true).2.2.1
  | triple a b c => exact (C01_constructors a b c a a l [] fun _ => true).2.2.2.1
  | quad a b c d => exact (C01_constructors a b c d a l [] fun _ => true).2.2.2.2.1
  | quint a b c d e => exact (C01_constructors a b c d e l [] fun _ => true).2.2.2.2.2.1
  | filter f => rfl

/-- The general rule behind all of the following. -/
theorem hears_of (P : L → Prop) [DecidablePred P] (f : L → Update → Update) (a : InstrumentAdapter L I)
    (hP : ∀ l, a.labelFilter.accepts l = true ↔ P l) (hf : ∀ l u, a.modifyUpdate.modify l u = f l u) :
    Hears a a.instrument (onLabelsModified P f) := by
  intro e k k' a' log h
  induction h with
  | nil hk => exact ⟨.nil hk, by simp [IgnoredSilently]⟩
  | @cons k k₁ k₂ k' a a₁ a' op out log hk hs hr ih =>
    cases op with
    | input o =>
      obtain ⟨n, rfl, ht⟩ := step_input_eq_some.mp hs
      simp only [Component.take, InstrumentAdapter.handle] at ht
      by_cases hacc : a.labelFilter.accepts o.label = true
      · simp only [hacc, if_true, M.bind_eq_some, M.run_pure, Option.some.injEq, Prod.mk.injEq] at ht
        obtain ⟨⟨i₁, m⟩, j, hu, ⟨rfl, rfl⟩, rfl⟩ := ht
        obtain ⟨ih₁, ih₂⟩ := ih hP hf
        have hsel : onLabelsModified P f o = some (f o.label o.toUpdate) := by
          simp [onLabelsModified, (hP _).mp hacc, o.toUpdate_eq]
        refine ⟨?_, ?_⟩
        · simp only [List.filterMap_cons, heard, hsel, Option.map_some]
          exact .cons hk (step_input_eq_some.mpr ⟨_, rfl, by rw [← hf]; exact hu⟩) ih₁
        · intro ev hev o' ho' hn
          rcases List.mem_cons.mp hev with rfl | hev
          · simp only [Op.input.injEq] at ho'; subst ho'; rw [hsel] at hn; cases hn
          · exact ih₂ ev hev o' ho' hn
      · simp only [hacc, Bool.false_eq_true, if_false, M.run_pure, Option.some.injEq, Prod.mk.injEq] at ht
        obtain ⟨⟨rfl, rfl⟩, rfl⟩ := ht
        obtain ⟨ih₁, ih₂⟩ := ih hP hf
        have hsel : onLabelsModified P f o = none := by
          simp only [onLabelsModified, if_neg (fun h => hacc ((hP _).mpr h))]
        refine ⟨?_, ?_⟩
        · simp only [List.filterMap_cons, heard, hsel, Option.map_none]
          exact History.append (l₁ := []) (.nil hk) ih₁
        · intro ev hev o' ho' hn
          rcases List.mem_cons.mp hev with rfl | hev
          · rfl
          · exact ih₂ ev hev o' ho' hn
    | snapshot s d =>
      obtain ⟨s', rfl, ht⟩ := step_snapshot_eq_some.mp hs
      simp only [Component.putSnapshot, InstrumentAdapter.putSnapshot, M.bind_eq_some, M.run_pure, Option.some.injEq,
        Prod.mk.injEq] at ht
      obtain ⟨⟨i₁, m⟩, j, hu, ⟨rfl, rfl⟩, rfl⟩ := ht
      obtain ⟨ih₁, ih₂⟩ := ih hP hf
      refine ⟨?_, ?_⟩
      · simp only [List.filterMap_cons, heard]
        exact .cons hk (step_snapshot_eq_some.mpr ⟨_, rfl, hu⟩) ih₁
      · intro ev hev o' ho' hn
        rcases List.mem_cons.mp hev with rfl | hev
        · cases ho'
        · exact ih₂ ev hev o' ho' hn

theorem hears_plain (P : L → Prop) [DecidablePred P] (a : InstrumentAdapter L I)
    (hP : ∀ l, a.labelFilter.accepts l = true ↔ P l) (hf : a.modifyUpdate = none) : Hears a a.instrument (onLabels P) :=
  hears_of P (fun _ u => u) a hP (by rw [hf]; intros; rfl)

/-- Each of the functions that put an instrument behind an adapter lets it hear exactly what its name says. -/
theorem C63_instruments (i : I) (labels : Labels L) (l : L) (ls : List L) (p : L → Bool) :
    Hears (.accepting labels i) i (onLabels labels.Meant) ∧
    Hears (.forLabel l i) i (onLabels (· = l)) ∧
    Hears (.forLabels ls i) i (onLabels (· ∈ ls)) ∧
    Hears (.forAllLabels i) i (onLabels fun _ : L => True) ∧
    Hears (.forLabelsByPredicate p i) i (onLabels (p · = true)) ∧
    Hears (.adapter i) i (onLabels fun _ : L => False) ∧
    Hears (.new i) i (onLabels fun _ : L => True) :=
  ⟨hears_plain _ (.accepting labels i) labels.toFilter_accepts rfl,
    hears_plain _ (.forLabel l i) (Labels.toFilter_accepts (.label l)) rfl,
    hears_plain _ (.forLabels ls i) (Labels.toFilter_accepts (.list ls)) rfl,
    hears_plain _ (.forAllLabels i) (Labels.toFilter_accepts .acceptAllLabels) rfl,
    hears_plain _ (.forLabelsByPredicate p i) (Labels.toFilter_accepts (.labelPredicate p)) rfl,
    hears_plain _ (.adapter i) (Labels.toFilter_accepts .acceptNoLabel) rfl,
    hears_plain _ (.new i) (Labels.toFilter_accepts .acceptAllLabels) rfl⟩

/-- A filter that was set later replaces the one before, and a modification applies to what is let through. -/
theorem C63_changed_later (i : I) (labels : Labels L) (f : L → Update → Update) :
    Hears (InstrumentAdapter.accepting labels i).acceptNoLabels i (onLabels fun _ : L => False) ∧
    Hears (InstrumentAdapter.accepting labels i).acceptAllLabels i (onLabels fun _ : L => True) ∧
    Hears ((InstrumentAdapter.accepting labels i).modifyWith f) i (onLabelsModified labels.Meant f) ∧
    Hears ((InstrumentAdapter.accepting labels i).modifyWith f).acceptAllLabels i
      (onLabelsModified (fun _ : L => True) f) :=
  ⟨hears_plain _ (InstrumentAdapter.accepting labels i).acceptNoLabels (Labels.toFilter_accepts .acceptNoLabel) rfl,
    hears_plain _ (InstrumentAdapter.accepting labels i).acceptAllLabels (Labels.toFilter_accepts .acceptAllLabels) rfl,
    hears_of _ f ((InstrumentAdapter.accepting labels i).modifyWith f) labels.toFilter_accepts fun _ _ => rfl,
    hears_of _ f ((InstrumentAdapter.accepting labels i).modifyWith f).acceptAllLabels
      (Labels.toFilter_accepts .acceptAllLabels) fun _ _ => rfl⟩

/-! ## Gauges -/

/-- What an adapter of a gauge gives to its gauge. -/
def GaugeAdapter.gives (a : GaugeAdapter L) (sel : Observation L → Option Update) : Prop :=
  ∀ o, a.handle o = match sel o with
    | some u => a.updateGauge u
    | none => pure (a, 0)

theorem gauge_hears (st : GaugeUpdateStrategy L) (sel : Observation L → Option Update)
    (hg : ∀ g : Gauge, GaugeAdapter.gives { strategy := st, gauge := g } sel) (g : Gauge) :
    GaugeHears { strategy := st, gauge := g } g sel := by
  intro e k k' a' log h
  generalize ha : ({ strategy := st, gauge := g } : GaugeAdapter L) = a at h
  induction h generalizing g with
  | nil hk => subst ha; exact ⟨.nil hk, by simp [IgnoredSilently]⟩
  | @cons k k₁ k₂ k' a a₁ a' op out log hk hs hr ih =>
    subst ha
    cases op with
    | input o =>
      obtain ⟨n, rfl, ht⟩ := step_input_eq_some.mp hs
      simp only [Component.take] at ht
      rw [hg g o] at ht
      cases hsel : sel o with
      | some u =>
        simp only [hsel, GaugeAdapter.updateGauge, M.bind_eq_some, M.run_pure, Option.some.injEq, Prod.mk.injEq] at ht
        obtain ⟨⟨i₁, m⟩, j, hu, ⟨rfl, rfl⟩, rfl⟩ := ht
        obtain ⟨ih₁, ih₂⟩ := ih i₁ rfl
        refine ⟨?_, ?_⟩
        · simp only [List.filterMap_cons, heard, hsel, Option.map_some]
          exact .cons hk (step_input_eq_some.mpr ⟨_, rfl, hu⟩) ih₁
        · intro ev hev o' ho' hn
          rcases List.mem_cons.mp hev with rfl | hev
          · simp only [Op.input.injEq] at ho'; subst ho'; rw [hsel] at hn; cases hn
          · exact ih₂ ev hev o' ho' hn
      | none =>
        simp only [hsel, M.run_pure, Option.some.injEq, Prod.mk.injEq] at ht
        obtain ⟨⟨rfl, rfl⟩, rfl⟩ := ht
        obtain ⟨ih₁, ih₂⟩ := ih g rfl
        refine ⟨?_, ?_⟩
        · simp only [List.filterMap_cons, heard, hsel, Option.map_none]
          exact History.append (l₁ := []) (.nil hk) ih₁
        · intro ev hev o' ho' hn
          rcases List.mem_cons.mp hev with rfl | hev
          · rfl
          · exact ih₂ ev hev o' ho' hn
    | snapshot s d =>
      obtain ⟨s', rfl, ht⟩ := step_snapshot_eq_some.mp hs
      simp only [Component.putSnapshot, GaugeAdapter.putSnapshot, M.bind_eq_some, M.run_pure, Option.some.injEq,
        Prod.mk.injEq] at ht
      obtain ⟨⟨i₁, m⟩, j, hu, ⟨rfl, rfl⟩, rfl⟩ := ht
      obtain ⟨ih₁, ih₂⟩ := ih i₁ rfl
      refine ⟨?_, ?_⟩
      · simp only [List.filterMap_cons, heard]
        exact .cons hk (step_snapshot_eq_some.mpr ⟨_, rfl, hu⟩) ih₁
      · intro ev hev o' ho' hn
        rcases List.mem_cons.mp hev with rfl | hev
        · cases ho'
        · exact ih₂ ev hev o' ho' hn

theorem gauge_filter (labels : Labels L) (g : Gauge) : GaugeHears (.accepting labels g) g (onLabels labels.Meant) := by
  refine gauge_hears (.filter labels.toFilter) _ (fun g o => ?_) g
  by_cases h : labels.Meant o.label
  · simp [GaugeAdapter.handle, onLabels, h, labels.toFilter_accepts, UpdateModifier.modify, o.toUpdate_eq]
  · simp [GaugeAdapter.handle, onLabels, h, labels.toFilter_accepts]

theorem gauge_changes (labels : Labels L) (g : Gauge) :
    GaugeHears (.deltasOnlyFor labels g) g (changesOn labels.Meant) := by
  refine gauge_hears (.deltasOnly labels.toFilter) _ (fun g o => ?_) g
  by_cases h : labels.Meant o.label
  · cases o with
    | observedOneValue l v t =>
      cases v <;> simp_all [GaugeAdapter.handle, changesOn, labels.toFilter_accepts, UpdateModifier.modify,
        Observation.toUpdate, Observation.label]
    | _ => simp [GaugeAdapter.handle, changesOn, UpdateModifier.modify, Observation.toUpdate]
  · cases o with
    | observedOneValue l v t =>
      cases v <;> simp_all [GaugeAdapter.handle, changesOn, labels.toFilter_accepts, Observation.label]
    | _ => simp [GaugeAdapter.handle, changesOn, h, labels.toFilter_accepts]

theorem gauge_up_and_down (incr decr : Labels L) (g : Gauge) :
    GaugeHears (.incDecFor incr decr g) g (upAndDownOn incr.Meant decr.Meant) := by
  refine gauge_hears (.incDecOnLabels incr.toFilter decr.toFilter) _ (fun g o => ?_) g
  by_cases h : incr.Meant o.label
  · simp [GaugeAdapter.handle, upAndDownOn, h, Labels.toFilter_accepts, o.timestamp_eq]
  · by_cases h' : decr.Meant o.label <;> simp [GaugeAdapter.handle, upAndDownOn, h, h', Labels.toFilter_accepts, o.timestamp_eq]

/-- Gauges that hear everything with their labels. -/
theorem C63_gauges (g : Gauge) (labels : Labels L) (l : L) (ls : List L) (p : L → Bool) :
    GaugeHears (.accepting labels g) g (onLabels labels.Meant) ∧
    GaugeHears (.forLabel l g) g (onLabels (· = l)) ∧
    GaugeHears (.forLabels ls g) g (onLabels (· ∈ ls)) ∧
    GaugeHears (.forAllLabels g) g (onLabels fun _ : L => True) ∧
    GaugeHears (.forLabelsByPredicate p g) g (onLabels (p · = true)) ∧
    GaugeHears (.adapter g) g (onLabels fun _ : L => False) ∧
    GaugeHears (.new g) g (onLabels fun _ : L => True) :=
  ⟨gauge_filter labels g, gauge_filter (.label l) g, gauge_filter (.list ls) g, gauge_filter .acceptAllLabels g,
    gauge_filter (.labelPredicate p) g, gauge_filter .acceptNoLabel g, gauge_filter .acceptAllLabels g⟩

/-- Gauges that hear only changes. -/
theorem C63_delta_gauges (g : Gauge) (labels : Labels L) (l : L) (ls : List L) (p : L → Bool) :
    GaugeHears (.deltasOnlyFor labels g) g (changesOn labels.Meant) ∧
    GaugeHears (.forLabelDeltasOnly l g) g (changesOn (· = l)) ∧
    GaugeHears (.forLabelsDeltasOnly ls g) g (changesOn (· ∈ ls)) ∧
    GaugeHears (.forLabelsDeltasOnlyByPredicate p g) g (changesOn (p · = true)) :=
  ⟨gauge_changes labels g, gauge_changes (.label l) g, gauge_changes (.list ls) g, gauge_changes (.labelPredicate p) g⟩

/-- Gauges that go up and down by one with the labels. -/
theorem C63_up_and_down_gauges (g : Gauge) (incr decr : Labels L) (is ds : List L) (p q : L → Bool) :
    GaugeHears (.incDecFor incr decr g) g (upAndDownOn incr.Meant decr.Meant) ∧
    GaugeHears (.incDecOnMany is ds g) g (upAndDownOn (· ∈ is) (· ∈ ds)) ∧
    GaugeHears (.incDecByPredicates p q g) g (upAndDownOn (p · = true) (q · = true)) :=
  ⟨gauge_up_and_down incr decr g, gauge_up_and_down (.list is) (.list ds) g,
    gauge_up_and_down (.labelPredicate p) (.labelPredicate q) g⟩

/-! ## Panels -/

variable {σ : Type}

/-- A panel lets exactly the labels in that it was made for, also after anything was added to it. By C17 the others
change nothing in it, by C18 each instrument in it whose own filter accepts the label gets the observation. -/
theorem C63_panels (labels : Labels L) (name : String) (e : Env) (k : Nat) :
    ∃ p q : Panel σ L, Panel.accepting labels e k = some (p, k + 1) ∧ p.name = none ∧
      Panel.acceptingNamed labels name e k = some (q, k + 1) ∧ q.name = some name ∧
      (∀ l, p.acceptsLabel l = true ↔ labels.Meant l) ∧ (∀ l, q.acceptsLabel l = true ↔ labels.Meant l) ∧
      (∀ (c : InstrumentAdapter L Counter) (g : GaugeAdapter L) (m : InstrumentAdapter L Meter)
        (h : InstrumentAdapter L Histogram) (i : Instrument σ) (sub : Panel σ L) (x : Handler σ L) (s : Snapshooter σ L)
        (r : Panel σ L),
        (∀ l, r.acceptsLabel l = true ↔ labels.Meant l) →
        ∀ r' ∈ [r.addCounter c, r.addGauge g, r.addMeter m, r.addHistogram h, r.addInstrument i, r.addPanel sub,
          r.addHandler x, r.addSnapshooter s], ∀ l, r'.acceptsLabel l = true ↔ labels.Meant l) := by
  refine ⟨_, _, rfl, rfl, rfl, rfl, labels.toFilter_accepts, labels.toFilter_accepts, ?_⟩
  intro c g m h i sub x s r hr r' hr' l
  rw [← hr l]
  obtain ⟨hd, ps, hs, ss⟩ := r
  simp only [List.mem_cons, List.not_mem_nil, or_false] at hr'
  rcases hr' with rfl | rfl | rfl | rfl | rfl | rfl | rfl | rfl
  · simp only [Panel.addCounter]; split <;> rfl
  · simp only [Panel.addGauge]; split <;> rfl
  · simp only [Panel.addMeter]; split <;> rfl
  · simp only [Panel.addHistogram]; split <;> rfl
  all_goals rfl

/-- An instrument that is added to a panel without saying for which labels hears all observations that come into the panel. -/
theorem C63_added_instrument (p : Panel σ L) (i : Instrument σ) :
    ∃ a : InstrumentAdapter L (Instrument σ), (p.addInstrument i).handlers = p.handlers ++ [.instrument a] ∧
      a.instrument = i ∧ a.modifyUpdate = none ∧ ∀ l, a.labelFilter.accepts l = true := by
  obtain ⟨hd, ps, hs, ss⟩ := p
  exact ⟨InstrumentAdapter.new i, rfl, rfl, rfl, fun _ => rfl⟩

/-- The panels for all labels. -/
theorem C63_panels_for_all (name : String) (e : Env) (k : Nat) :
    ∃ p q : Panel σ L, Panel.acceptAll e k = some (p, k + 1) ∧ p.name = none ∧
      Panel.acceptAllNamed name e k = some (q, k + 1) ∧ q.name = some name ∧
      (∀ l, p.acceptsLabel l = true) ∧ (∀ l, q.acceptsLabel l = true) :=
  ⟨_, _, rfl, rfl, rfl, rfl, fun _ => rfl, fun _ => rfl⟩

/-- A counter for the labels 1 and 4: it hears two of three observations. -/
def hearingLog : List (Event (Observation Nat)) :=
  [⟨0, .input (.observedOne 1 0), .updated 1, 0⟩, ⟨0, .input (.observed 2 7 0), .updated 0, 0⟩,
    ⟨0, .input (.observed 4 5 0), .updated 1, 0⟩, ⟨0, .snapshot [] false, .snapshot [("c", .uint 6)], 0⟩]

example (e : Env) : History e 0 (InstrumentAdapter.accepting (.pair 1 4) ({ name := "c", count := 0 } : Counter)) hearingLog 0
    (.accepting (.pair 1 4) { name := "c", count := 6 }) :=
  .cons (by decide) rfl (.cons (by decide) rfl (.cons (by decide) rfl (.cons (by decide) rfl (.nil (by decide)))))

example : hearingLog.filterMap (heard (onLabels (Labels.pair 1 4).Meant)) =
    [⟨0, .input (.observation 0), .updated 1, 0⟩, ⟨0, .input (.observations 5 0), .updated 1, 0⟩,
      ⟨0, .snapshot [] false, .snapshot [("c", .uint 6)], 0⟩] := rfl

/-- A gauge that goes up with 1 or 2 and down with 2 or 3: the label 2 only makes it go up. -/
example : ([.observedOne 1 0, .observedOne 2 0, .observed 3 9 0, .observedOne 4 0] : List (Observation Nat)).map
      (upAndDownOn (· ∈ [1, 2]) (· ∈ [2, 3])) =
    [some (.withValue (.changedBy 1) 0), some (.withValue (.changedBy 1) 0), some (.withValue (.changedBy (-1)) 0),
      none] := rfl

end Metrix
