import Verif.Proof.Arrivals
import Verif.Props.C60
import Verif.Props.C32

/-!
# C61 Instruments that are meant for the same observations never disagree

Whatever the queue loses, whatever is dropped because of its age, and at whatever moment a snapshot is taken: an observation
reaches all the instruments that are meant for it, or none.
-/

namespace Metrix
variable {σ L : Type} [DecidableEq L] [Custom σ L]

/-- An observation with this label is meant for an instrument that is behind panels with the filters `path` and has the filter
`f` itself. -/
def meantFor (path : List (LabelFilter L)) (f : LabelFilter L) (l : L) : Bool := path.all (·.accepts l) && f.accepts l

/-- A processor with a new channel was used in any way, by any strategy, while the threads sent by any schedule. The queue may
have lost messages, and there may be some left. -/
structure UsedFrom (e : Env) (k : Nat) (p : Processor σ L) (log : List (Called σ L)) (k' : Nat) (p' : Processor σ L)
    (programs : List (SendThread (Message σ L))) : Prop where
  life : Life e k p log k' p'
  fresh : ∃ cap useSend, p.receiver.chan = .fresh cap useSend programs

variable {e : Env} {k k' : Nat} {p p' : Processor σ L} {log : List (Called σ L)} {programs : List (SendThread (Message σ L))}

/-- There is one list of observations, some of those that the threads send, each at most as often as it was sent. What arrives at
any place that stays are those of them that pass the filters in front of it, in that order. -/
theorem C61_arrivals (hc : CustomForward σ L) (h : UsedFrom e k p log k' p' programs) :
    ∃ arrived : List (Observation L), arrived.Subperm (observationsOf programs) ∧
      ∀ place path leaf, p.state.leafAt place = some (path, leaf) → place.Stays programs →
        ∃ log' leaf', History e k leaf log' k' leaf' ∧ p'.state.leafAt place = some (path, leaf') ∧
          inputs log' = arrived.filter fun o => path.all (·.accepts o.label) := by
  obtain ⟨cap, useSend, hnew⟩ := h.fresh
  obtain ⟨ms, arrived, htook, hsub, hall⟩ := arrivals_from hc h.life
  have hperm := htook.subperm hnew
  refine ⟨arrived, hsub.subperm.trans ?_, fun place path leaf hplace hstays => hall place path leaf hplace ?_⟩
  · obtain ⟨l, h1, h2⟩ := hperm
    exact ⟨_, h1.filterMap _, h2.filterMap _⟩
  · intro m hm
    obtain ⟨th, hth, hm⟩ := List.mem_flatMap.mp (hperm.subset hm)
    exact hstays th hth m hm

/-- The same for instruments. -/
theorem instrument_arrivals (hc : CustomForward σ L) (h : UsedFrom e k p log k' p' programs) :
    ∃ arrived : List (Observation L), arrived.Subperm (observationsOf programs) ∧
      (∀ {I : Type} [IsInstrument I] (wrap : I → Instrument σ)
        (_ : ∀ i u, Instrument.update L (wrap i) u = (do let (i, n) ← IsInstrument.update i u; return (wrap i, n)))
        (_ : ∀ i s d, Instrument.putSnapshot L (wrap i) s d = (do let (i, n) ← IsInstrument.putSnapshot i s d; return (wrap i, n)))
        {place : Place} {path : List (LabelFilter L)} {f : LabelFilter L} {i : I},
        p.state.leafAt place = some (path, .instrument ⟨f, wrap i, none⟩) → place.Stays programs →
        ∃ i' log', p'.state.leafAt place = some (path, .instrument ⟨f, wrap i', none⟩) ∧ History e k i log' k' i' ∧
          inputs log' = (arrived.filter fun o => meantFor path f o.label).map Observation.content) ∧
      (∀ {place : Place} {path : List (LabelFilter L)} {a : GaugeAdapter L},
        p.state.leafAt place = some (path, .gauge a) → place.Stays programs →
        ∃ a' log', p'.state.leafAt place = some (path, .gauge a') ∧ History e k a log' k' a' ∧
          inputs log' = arrived.filter fun o => path.all (·.accepts o.label)) := by
  obtain ⟨arrived, hsub, hall⟩ := C61_arrivals hc h
  refine ⟨arrived, hsub, ?_, ?_⟩
  · intro I _ wrap hup hput place path f i hplace hstays
    obtain ⟨l₁, x, h1, h2, h3⟩ := hall place path _ hplace hstays
    obtain ⟨i', l₂, rfl, h4, h5⟩ := leaf_instrument wrap hup hput h1
    refine ⟨i', l₂, h2, h4, ?_⟩
    rw [h5, h3, List.filter_filter]
    congr 1
    refine List.filter_congr fun o _ => ?_
    rw [meantFor, Bool.and_comm]
  · intro place path a hplace hstays
    obtain ⟨l₁, x, h1, h2, h3⟩ := hall place path _ hplace hstays
    obtain ⟨a', l₂, rfl, h4, h5⟩ := leaf_gauge h1
    exact ⟨a', l₂, h2, h4, h5.trans h3⟩

theorem occurrences_content (os : List (Observation L)) :
    ((os.map Observation.content).map Update.occurrences).sum = (os.map Observation.occurrences).sum := by
  rw [List.map_map]
  congr 1
  refine List.map_congr_left fun o _ => ?_
  cases o <;> rfl

/-- Two counters that are meant for the same labels: whatever they show, both were raised by the same (in 64 bits). -/
theorem C61_counters (hc : CustomForward σ L) (h : UsedFrom e k p log k' p' programs)
    {place₁ place₂ : Place} {path₁ path₂ : List (LabelFilter L)} {f₁ f₂ : LabelFilter L} {c₁ c₂ : Counter}
    (h₁ : p.state.leafAt place₁ = some (path₁, .instrument ⟨f₁, .counter c₁, none⟩)) (hstays₁ : place₁.Stays programs)
    (h₂ : p.state.leafAt place₂ = some (path₂, .instrument ⟨f₂, .counter c₂, none⟩)) (hstays₂ : place₂.Stays programs)
    (hcount₁ : c₁.count < 2 ^ 64) (hcount₂ : c₂.count < 2 ^ 64) (hsame : ∀ l, meantFor path₁ f₁ l = meantFor path₂ f₂ l) :
    ∃ c₁' c₂', p'.state.leafAt place₁ = some (path₁, .instrument ⟨f₁, .counter c₁', none⟩) ∧
      p'.state.leafAt place₂ = some (path₂, .instrument ⟨f₂, .counter c₂', none⟩) ∧
      (c₁'.count - c₁.count : Int) % 2 ^ 64 = (c₂'.count - c₂.count : Int) % 2 ^ 64 ∧
      (c₁.count = c₂.count → c₁'.count = c₂'.count) := by
  obtain ⟨arrived, _, hall, _⟩ := instrument_arrivals hc h
  obtain ⟨c₁', l₁, x1, x2, x3⟩ := hall .counter (fun _ _ => rfl) (fun _ _ _ => rfl) h₁ hstays₁
  obtain ⟨c₂', l₂, y1, y2, y3⟩ := hall .counter (fun _ _ => rfl) (fun _ _ _ => rfl) h₂ hstays₂
  have e1 := (C21_counter_counts x2 hcount₁).1
  have e2 := (C21_counter_counts y2 hcount₂).1
  rw [x3, occurrences_content] at e1
  rw [y3, occurrences_content, ← List.filter_congr fun o _ => hsame o.label] at e2
  refine ⟨c₁', c₂', x1, y1, ?_, ?_⟩
  · rw [e1, e2]; omega
  · rw [e1, e2]; intro h; rw [h]

theorem sum_split {q₀ q₁ q₂ : Observation L → Bool} (hboth : ∀ o, q₀ o = (q₁ o || q₂ o))
    (hnone : ∀ o, ¬ (q₁ o = true ∧ q₂ o = true)) (os : List (Observation L)) :
    ((os.filter q₀).map Observation.occurrences).sum =
      ((os.filter q₁).map Observation.occurrences).sum + ((os.filter q₂).map Observation.occurrences).sum := by
  induction os with
  | nil => rfl
  | cons o os ih =>
    have b := hboth o
    have n := hnone o
    simp only [List.filter_cons]
    cases h1 : q₁ o <;> cases h2 : q₂ o <;>
      simp only [h1, h2, Bool.or_false, Bool.or_true, and_self, not_true_eq_false] at b n <;>
      simp only [b, if_true, Bool.false_eq_true, if_false, List.map_cons, List.sum_cons] <;> omega

theorem wrapI64_emod (x : Int) : wrapI64 x % 2 ^ 64 = x % 2 ^ 64 := Int.bmod_emod ..

/-- A counter that is meant for what either of two others is meant for shows their sum. -/
theorem C61_sum (hc : CustomForward σ L) (h : UsedFrom e k p log k' p' programs)
    {place₀ place₁ place₂ : Place} {path₀ path₁ path₂ : List (LabelFilter L)} {f₀ f₁ f₂ : LabelFilter L} {c₀ c₁ c₂ : Counter}
    (h₀ : p.state.leafAt place₀ = some (path₀, .instrument ⟨f₀, .counter c₀, none⟩)) (hstays₀ : place₀.Stays programs)
    (h₁ : p.state.leafAt place₁ = some (path₁, .instrument ⟨f₁, .counter c₁, none⟩)) (hstays₁ : place₁.Stays programs)
    (h₂ : p.state.leafAt place₂ = some (path₂, .instrument ⟨f₂, .counter c₂, none⟩)) (hstays₂ : place₂.Stays programs)
    (hcount₀ : c₀.count < 2 ^ 64) (hcount₁ : c₁.count < 2 ^ 64) (hcount₂ : c₂.count < 2 ^ 64)
    (hboth : ∀ l, meantFor path₀ f₀ l = (meantFor path₁ f₁ l || meantFor path₂ f₂ l))
    (hnone : ∀ l, ¬ (meantFor path₁ f₁ l = true ∧ meantFor path₂ f₂ l = true)) :
    ∃ c₀' c₁' c₂', p'.state.leafAt place₀ = some (path₀, .instrument ⟨f₀, .counter c₀', none⟩) ∧
      p'.state.leafAt place₁ = some (path₁, .instrument ⟨f₁, .counter c₁', none⟩) ∧
      p'.state.leafAt place₂ = some (path₂, .instrument ⟨f₂, .counter c₂', none⟩) ∧
      (c₀'.count - c₀.count : Int) % 2 ^ 64 = ((c₁'.count - c₁.count) + (c₂'.count - c₂.count) : Int) % 2 ^ 64 := by
  obtain ⟨arrived, _, hall, _⟩ := instrument_arrivals hc h
  obtain ⟨c₀', l₀, z1, z2, z3⟩ := hall .counter (fun _ _ => rfl) (fun _ _ _ => rfl) h₀ hstays₀
  obtain ⟨c₁', l₁, x1, x2, x3⟩ := hall .counter (fun _ _ => rfl) (fun _ _ _ => rfl) h₁ hstays₁
  obtain ⟨c₂', l₂, y1, y2, y3⟩ := hall .counter (fun _ _ => rfl) (fun _ _ _ => rfl) h₂ hstays₂
  have e0 := (C21_counter_counts z2 hcount₀).1
  have e1 := (C21_counter_counts x2 hcount₁).1
  have e2 := (C21_counter_counts y2 hcount₂).1
  rw [z3, occurrences_content] at e0
  rw [x3, occurrences_content] at e1
  rw [y3, occurrences_content] at e2
  have hsum : ((arrived.filter fun o => meantFor path₀ f₀ o.label).map Observation.occurrences).sum =
      ((arrived.filter fun o => meantFor path₁ f₁ o.label).map Observation.occurrences).sum +
      ((arrived.filter fun o => meantFor path₂ f₂ o.label).map Observation.occurrences).sum :=
    sum_split (fun o => hboth o.label) (fun o => hnone o.label) arrived
  refine ⟨c₀', c₁', c₂', z1, x1, y1, ?_⟩
  rw [e0, e1, e2]
  omega

/-- A meter has counted what a counter for the same labels shows, if nothing stands for more than `i64::MAX` occurrences. -/
theorem C61_meter (hc : CustomForward σ L) (h : UsedFrom e k p log k' p' programs)
    {place₁ place₂ : Place} {path₁ path₂ : List (LabelFilter L)} {f₁ f₂ : LabelFilter L} {c : Counter} {m : Meter}
    (h₁ : p.state.leafAt place₁ = some (path₁, .instrument ⟨f₁, .counter c, none⟩)) (hstays₁ : place₁.Stays programs)
    (h₂ : p.state.leafAt place₂ = some (path₂, .instrument ⟨f₂, .meter m, none⟩)) (hstays₂ : place₂.Stays programs)
    (hcount₁ : c.count < 2 ^ 64) (hcount₂ : I64 m.inner.count) (hsame : ∀ l, meantFor path₁ f₁ l = meantFor path₂ f₂ l)
    (hsmall : ∀ o ∈ observationsOf programs, (o.occurrences : Int) ≤ i64Max) :
    ∃ c' m', p'.state.leafAt place₁ = some (path₁, .instrument ⟨f₁, .counter c', none⟩) ∧
      p'.state.leafAt place₂ = some (path₂, .instrument ⟨f₂, .meter m', none⟩) ∧
      (m'.inner.count - m.inner.count) % 2 ^ 64 = (c'.count - c.count : Int) % 2 ^ 64 := by
  obtain ⟨arrived, hsub, hall, _⟩ := instrument_arrivals hc h
  obtain ⟨c', l₁, x1, x2, x3⟩ := hall .counter (fun _ _ => rfl) (fun _ _ _ => rfl) h₁ hstays₁
  obtain ⟨m', l₂, y1, y2, y3⟩ := hall .meter (fun _ _ => rfl) (fun _ _ _ => rfl) h₂ hstays₂
  have e1 := (C21_counter_counts x2 hcount₁).1
  have e2 := (Meter.history_count y2 hcount₂).1
  rw [x3, occurrences_content] at e1
  have hsum : sumOf Update.counted (inputs l₂) =
      (((arrived.filter fun o => meantFor path₁ f₁ o.label).map Observation.occurrences).sum : Nat) := by
    rw [y3, ← List.filter_congr fun o _ => hsame o.label]
    have hin : ∀ o ∈ arrived.filter fun o => meantFor path₁ f₁ o.label, (o.occurrences : Int) ≤ i64Max :=
      fun o ho => hsmall o (hsub.subset (List.mem_filter.mp ho).1)
    generalize arrived.filter (fun o => meantFor path₁ f₁ o.label) = os at hin
    induction os with
    | nil => rfl
    | cons o os ih =>
      have ho := hin o (by simp)
      have : o.content.occurrences = o.occurrences := by cases o <;> rfl
      have hcounted : o.content.counted.getD 0 = (o.occurrences : Int) := by
        unfold Update.counted
        rw [this]
        split
        · rename_i h
          rcases h with h | h
          · rw [h]; rfl
          · omega
        · rfl
      simp only [sumOf, List.map_cons, List.sum_cons] at ih ⊢
      rw [ih fun o ho => hin o (List.mem_cons_of_mem _ ho), hcounted]
      push_cast; rfl
  refine ⟨c', m', x1, y1, ?_⟩
  have hw := wrapI64_emod (m.inner.count + sumOf Update.counted (inputs l₂))
  rw [← e2, hsum] at hw
  rw [e1]
  omega

theorem perm_split {q₀ q₁ q₂ : Observation L → Bool} (hboth : ∀ o, q₀ o = (q₁ o || q₂ o))
    (hnone : ∀ o, ¬ (q₁ o = true ∧ q₂ o = true)) (os : List (Observation L)) :
    (os.filter q₀).Perm (os.filter q₁ ++ os.filter q₂) := by
  induction os with
  | nil => exact .nil
  | cons o os ih =>
    have b := hboth o
    have n := hnone o
    simp only [List.filter_cons]
    cases h1 : q₁ o <;> cases h2 : q₂ o <;>
      simp only [h1, h2, Bool.or_false, Bool.or_true, and_self, not_true_eq_false] at b n <;>
      simp only [b, if_true, Bool.false_eq_true, if_false]
    · exact ih
    · exact (ih.cons o).trans List.perm_middle.symm
    · exact ih.cons o

/-- A histogram is never reset. -/
def Histogram.NeverReset (h : Histogram) : Prop := h.maxInactivity = none ∨ h.resetAfterInactivity = false

/-- Two histograms that are meant for the same labels and display durations in the same unit get the same values in the same
order. -/
theorem C61_histograms (hc : CustomForward σ L) (h : UsedFrom e k p log k' p' programs)
    {place₁ place₂ : Place} {path₁ path₂ : List (LabelFilter L)} {f₁ f₂ : LabelFilter L} {i₁ i₂ : Histogram}
    (h₁ : p.state.leafAt place₁ = some (path₁, .instrument ⟨f₁, .histogram i₁, none⟩)) (hstays₁ : place₁.Stays programs)
    (h₂ : p.state.leafAt place₂ = some (path₂, .instrument ⟨f₂, .histogram i₂, none⟩)) (hstays₂ : place₂.Stays programs)
    (hreset₁ : i₁.NeverReset) (hreset₂ : i₂.NeverReset) (hunit : i₁.displayTimeUnit = i₂.displayTimeUnit)
    (hsame : ∀ l, meantFor path₁ f₁ l = meantFor path₂ f₂ l) :
    ∃ i₁' i₂' added, p'.state.leafAt place₁ = some (path₁, .instrument ⟨f₁, .histogram i₁', none⟩) ∧
      p'.state.leafAt place₂ = some (path₂, .instrument ⟨f₂, .histogram i₂', none⟩) ∧
      i₁'.inner = i₁.inner ++ added ∧ i₂'.inner = i₂.inner ++ added := by
  obtain ⟨arrived, _, hall, _⟩ := instrument_arrivals hc h
  obtain ⟨i₁', l₁, x1, x2, x3⟩ := hall .histogram (fun _ _ => rfl) (fun _ _ _ => rfl) h₁ hstays₁
  obtain ⟨i₂', l₂, y1, y2, y3⟩ := hall .histogram (fun _ _ => rfl) (fun _ _ _ => rfl) h₂ hstays₂
  refine ⟨i₁', i₂', _, x1, y1, C32_no_limit x2 hreset₁, ?_⟩
  rw [C32_no_limit y2 hreset₂, acceptedValues, acceptedValues, x3, y3, hunit, ← List.filter_congr fun o _ => hsame o.label]

/-- A histogram that is meant for what either of two others is meant for gets exactly the values that these get, each of them as
often as they get it together. -/
theorem C61_histogram_sum (hc : CustomForward σ L) (h : UsedFrom e k p log k' p' programs)
    {place₀ place₁ place₂ : Place} {path₀ path₁ path₂ : List (LabelFilter L)} {f₀ f₁ f₂ : LabelFilter L} {i₀ i₁ i₂ : Histogram}
    (h₀ : p.state.leafAt place₀ = some (path₀, .instrument ⟨f₀, .histogram i₀, none⟩)) (hstays₀ : place₀.Stays programs)
    (h₁ : p.state.leafAt place₁ = some (path₁, .instrument ⟨f₁, .histogram i₁, none⟩)) (hstays₁ : place₁.Stays programs)
    (h₂ : p.state.leafAt place₂ = some (path₂, .instrument ⟨f₂, .histogram i₂, none⟩)) (hstays₂ : place₂.Stays programs)
    (hreset₀ : i₀.NeverReset) (hreset₁ : i₁.NeverReset) (hreset₂ : i₂.NeverReset)
    (hunit₁ : i₁.displayTimeUnit = i₀.displayTimeUnit) (hunit₂ : i₂.displayTimeUnit = i₀.displayTimeUnit)
    (hboth : ∀ l, meantFor path₀ f₀ l = (meantFor path₁ f₁ l || meantFor path₂ f₂ l))
    (hnone : ∀ l, ¬ (meantFor path₁ f₁ l = true ∧ meantFor path₂ f₂ l = true)) :
    ∃ i₀' i₁' i₂' added₀ added₁ added₂, p'.state.leafAt place₀ = some (path₀, .instrument ⟨f₀, .histogram i₀', none⟩) ∧
      p'.state.leafAt place₁ = some (path₁, .instrument ⟨f₁, .histogram i₁', none⟩) ∧
      p'.state.leafAt place₂ = some (path₂, .instrument ⟨f₂, .histogram i₂', none⟩) ∧
      i₀'.inner = i₀.inner ++ added₀ ∧ i₁'.inner = i₁.inner ++ added₁ ∧ i₂'.inner = i₂.inner ++ added₂ ∧
      added₀.Perm (added₁ ++ added₂) := by
  obtain ⟨arrived, _, hall, _⟩ := instrument_arrivals hc h
  obtain ⟨i₀', l₀, z1, z2, z3⟩ := hall .histogram (fun _ _ => rfl) (fun _ _ _ => rfl) h₀ hstays₀
  obtain ⟨i₁', l₁, x1, x2, x3⟩ := hall .histogram (fun _ _ => rfl) (fun _ _ _ => rfl) h₁ hstays₁
  obtain ⟨i₂', l₂, y1, y2, y3⟩ := hall .histogram (fun _ _ => rfl) (fun _ _ _ => rfl) h₂ hstays₂
  refine ⟨i₀', i₁', i₂', _, _, _, z1, x1, y1, C32_no_limit z2 hreset₀, C32_no_limit x2 hreset₁, C32_no_limit y2 hreset₂, ?_⟩
  rw [acceptedValues, acceptedValues, acceptedValues, z3, x3, y3, hunit₁, hunit₂, ← List.filterMap_append, ← List.map_append]
  exact ((perm_split (fun o => hboth o.label) (fun o => hnone o.label) arrived).map _).filterMap _

/-- A meter of values has counted the sum of the values that a histogram for the same labels got. -/
theorem C61_value_meter (hc : CustomForward σ L) (h : UsedFrom e k p log k' p' programs)
    {place₁ place₂ : Place} {path₁ path₂ : List (LabelFilter L)} {f₁ f₂ : LabelFilter L} {i : Histogram} {m : ValueMeter}
    (h₁ : p.state.leafAt place₁ = some (path₁, .instrument ⟨f₁, .histogram i, none⟩)) (hstays₁ : place₁.Stays programs)
    (h₂ : p.state.leafAt place₂ = some (path₂, .instrument ⟨f₂, .valueMeter m, none⟩)) (hstays₂ : place₂.Stays programs)
    (hreset : i.NeverReset) (hcount : I64 m.meter.inner.count) (hunit : i.displayTimeUnit = m.displayTimeUnit)
    (hsame : ∀ l, meantFor path₁ f₁ l = meantFor path₂ f₂ l) :
    ∃ i' m' added, p'.state.leafAt place₁ = some (path₁, .instrument ⟨f₁, .histogram i', none⟩) ∧
      p'.state.leafAt place₂ = some (path₂, .instrument ⟨f₂, .valueMeter m', none⟩) ∧
      i'.inner = i.inner ++ added ∧ (m'.meter.inner.count - m.meter.inner.count) % 2 ^ 64 = added.sum % 2 ^ 64 := by
  obtain ⟨arrived, _, hall, _⟩ := instrument_arrivals hc h
  obtain ⟨i', l₁, x1, x2, x3⟩ := hall .histogram (fun _ _ => rfl) (fun _ _ _ => rfl) h₁ hstays₁
  obtain ⟨m', l₂, y1, y2, y3⟩ := hall .valueMeter (fun _ _ => rfl) (fun _ _ _ => rfl) h₂ hstays₂
  refine ⟨i', m', _, x1, y1, C32_no_limit x2 hreset, ?_⟩
  have hsum : sumOf (Update.metered m.displayTimeUnit) (inputs l₂) = (acceptedValues i.displayTimeUnit l₁).sum := by
    rw [acceptedValues, x3, y3, hunit, ← List.filter_congr fun o _ => hsame o.label]
    generalize (arrived.filter fun o => meantFor path₁ f₁ o.label).map Observation.content = us
    induction us with
    | nil => rfl
    | cons u us ih =>
      unfold sumOf at ih ⊢
      rw [List.map_cons, List.sum_cons, ih, List.filterMap_cons]
      cases u.metered m.displayTimeUnit with
      | none => simp
      | some v => simp
  have hw := wrapI64_emod (m.meter.inner.count + sumOf (Update.metered m.displayTimeUnit) (inputs l₂))
  rw [← (ValueMeter.history_count y2 hcount).1, hsum] at hw
  omega

/-- Started, finished and in flight: a gauge that is incremented on the labels of one counter and decremented on the labels of
another shows the difference of both, if every observation stands for one occurrence. -/
theorem C61_in_flight (hc : CustomForward σ L) (h : UsedFrom e k p log k' p' programs)
    {place₀ place₁ place₂ : Place} {path₀ path₁ path₂ : List (LabelFilter L)} {inc dec f₁ f₂ : LabelFilter L} {g : Gauge}
    {c₁ c₂ : Counter}
    (h₀ : p.state.leafAt place₀ = some (path₀, .gauge (.incDecOn inc dec g))) (hstays₀ : place₀.Stays programs)
    (h₁ : p.state.leafAt place₁ = some (path₁, .instrument ⟨f₁, .counter c₁, none⟩)) (hstays₁ : place₁.Stays programs)
    (h₂ : p.state.leafAt place₂ = some (path₂, .instrument ⟨f₂, .counter c₂, none⟩)) (hstays₂ : place₂.Stays programs)
    (hg : ∀ v ∈ g.value, I64 v) (hcount₁ : c₁.count < 2 ^ 64) (hcount₂ : c₂.count < 2 ^ 64)
    (hinc : ∀ l, meantFor path₁ f₁ l = meantFor path₀ inc l) (hdec : ∀ l, meantFor path₂ f₂ l = meantFor path₀ dec l)
    (hnone : ∀ l, ¬ (inc.accepts l = true ∧ dec.accepts l = true))
    (hrange : ∀ o ∈ observationsOf programs, o.InRange) (hone : ∀ o ∈ observationsOf programs, o.occurrences = 1) :
    ∃ a c₁' c₂', p'.state.leafAt place₀ = some (path₀, .gauge a) ∧
      p'.state.leafAt place₁ = some (path₁, .instrument ⟨f₁, .counter c₁', none⟩) ∧
      p'.state.leafAt place₂ = some (path₂, .instrument ⟨f₂, .counter c₂', none⟩) ∧
      (a.gauge.value.getD 0 - g.value.getD 0) % 2 ^ 64 =
        ((c₁'.count - c₁.count) - (c₂'.count - c₂.count) : Int) % 2 ^ 64 := by
  obtain ⟨arrived, hsub, hall, hgauge⟩ := instrument_arrivals hc h
  obtain ⟨a, l₀, z1, z2, z3⟩ := hgauge h₀ hstays₀
  obtain ⟨c₁', l₁, x1, x2, x3⟩ := hall .counter (fun _ _ => rfl) (fun _ _ _ => rfl) h₁ hstays₁
  obtain ⟨c₂', l₂, y1, y2, y3⟩ := hall .counter (fun _ _ => rfl) (fun _ _ _ => rfl) h₂ hstays₂
  have e1 := (C21_counter_counts x2 hcount₁).1
  have e2 := (C21_counter_counts y2 hcount₂).1
  rw [x3, occurrences_content] at e1
  rw [y3, occurrences_content] at e2
  have hlen : ∀ q : Observation L → Bool, ((arrived.filter q).map Observation.occurrences).sum = (arrived.filter q).length := by
    intro q
    have hin : ∀ o ∈ arrived.filter q, o.occurrences = 1 := fun o ho => hone o (hsub.subset (List.mem_filter.mp ho).1)
    generalize arrived.filter q = os at hin
    induction os with
    | nil => rfl
    | cons o os ih =>
      rw [List.map_cons, List.sum_cons, ih fun o ho => hin o (List.mem_cons_of_mem _ ho), hin o (by simp), List.length_cons]
      omega
  rw [hlen] at e1 e2
  have hv := C23_inc_dec z2 rfl hg fun o ho => by
    rw [z3] at ho
    exact hrange o (hsub.subset (List.mem_filter.mp ho).1)
  have k1 : (inputs l₀).filter (fun o => inc.accepts o.label) = arrived.filter fun o => meantFor path₁ f₁ o.label := by
    rw [z3, List.filter_filter]
    refine List.filter_congr fun o _ => ?_
    rw [hinc, meantFor, Bool.and_comm]
  have k2 : (inputs l₀).filter (fun o => !inc.accepts o.label && dec.accepts o.label) =
      arrived.filter fun o => meantFor path₂ f₂ o.label := by
    rw [z3, List.filter_filter]
    refine List.filter_congr fun o _ => ?_
    rw [hdec, meantFor, Bool.and_comm]
    have := hnone o.label
    cases h1 : inc.accepts o.label <;> cases h2 : dec.accepts o.label <;> simp_all
  refine ⟨a, c₁', c₂', z1, x1, y1, ?_⟩
  rw [hv]
  split
  · rename_i hno
    have n1 : (inputs l₀).filter (fun o => inc.accepts o.label) = [] :=
      List.filter_eq_nil_iff.mpr fun o ho => by simp [(hno o ho).1]
    have n2 : (inputs l₀).filter (fun o => !inc.accepts o.label && dec.accepts o.label) = [] :=
      List.filter_eq_nil_iff.mpr fun o ho => by simp [(hno o ho).2]
    rw [← k1, n1] at e1
    rw [← k2, n2] at e2
    rw [e1, e2]
    simp only [List.length_nil, GaugeAdapter.incDecOn]
    omega
  · unfold count
    rw [k1, k2, e1, e2]
    simp only [Option.getD_some, GaugeAdapter.incDecOn]
    generalize (arrived.filter fun o => meantFor path₁ f₁ o.label).length = n₁
    generalize (arrived.filter fun o => meantFor path₂ f₂ o.label).length = n₂
    have hw := wrapI64_emod (g.value.getD 0 + (n₁ - n₂ : Int))
    omega

/-! A queue for one message that loses what does not fit; counters for the labels 1 and 2, for 1, and for 2, and a gauge that
goes up on 1 and down on 2. -/

def lossyPrograms : List (SendThread (Message Empty Nat)) :=
  [{ todo := [.observation (.observedOne 1 0), .observation (.observedOne 1 0)] },
   { todo := [.observation (.observedOne 1 0), .observation (.observedOneValue 2 (.signedInteger 5) 0)] }]

def counting (f : LabelFilter Nat) (n : Nat) : Handler Empty Nat :=
  .panel (.mk { labelFilter := f, activity := ⟨0, none, true⟩, counter := some (.new { name := "c", count := n }) } [] [] [])

def lossyProcessor : Processor Empty Nat where
  state := { activity := ⟨0, none, true⟩
             handlers := [counting (.many [1, 2]) 10, counting (.one 1) 2, counting (.one 2) 3,
               .panel (.mk { labelFilter := .acceptAll, activity := ⟨0, none, true⟩,
                             gauge := some (.incDecOn (.one 1) (.one 2) { name := "g" }) } [] [] [])] }
  receiver := { chan := .fresh (some 1) false lossyPrograms, ahead := [[0, 1], [1, 0], [0, 1], [1, 0]] }

theorem lossy_used : ∃ o k' p', UsedFrom ticking 1 lossyProcessor [⟨1, .process 3 .processAll, .outcome o⟩] k' p' lossyPrograms ∧
    p'.receiver.chan.taken.map (·.1) = [0, 1] ∧
    p'.state.handlers.flatMap (fun h => h.leaves.map fun x => match x.2 with
      | .instrument ⟨_, .counter c, _⟩ => (c.count : Int)
      | .gauge g => g.gauge.value.getD 0
      | _ => 0) = [12, 3, 4, 0] := by
  refine ⟨_, _, _, ⟨.cons (Nat.le_refl _) rfl (.nil (Nat.le_refl _)), _, _, rfl⟩, ?_, ?_⟩
  · decide +kernel
  · decide +kernel

example (l : Nat) : meantFor [.many [1, 2]] .acceptAll l = (meantFor [.one 1] .acceptAll l || meantFor [.one 2] .acceptAll l) := by
  simp [meantFor, LabelFilter.accepts, InstrumentAdapter.new]

example : (lossyProcessor.state.leafAt (.handler 3 0)).isSome = true ∧ (Place.handler 3 0).Stays lossyPrograms ∧
    ∀ o ∈ observationsOf lossyPrograms, o.occurrences = 1 :=
  ⟨by decide +kernel, fun _ _ _ _ h => h, by decide⟩

theorem lossy_range : ∀ o ∈ observationsOf lossyPrograms, o.InRange := by
  intro o ho
  simp [observationsOf, lossyPrograms, Message.observation?] at ho
  rcases ho with rfl | rfl <;>
    simp [Observation.InRange, Observation.content, Update.InRange, ObservedValue.InRange, I64, i64Min, i64Max]

/-- The theorems speak about this run, in which two of the four observations are lost. -/
example : ∃ p' : Processor Empty Nat, p'.receiver.chan.taken.map (·.1) = [0, 1] ∧
    (∃ c₀ c₁ c₂, p'.state.leafAt (.handler 0 0) = some ([.many [1, 2]], .instrument ⟨.acceptAll, .counter c₀, none⟩) ∧
      p'.state.leafAt (.handler 1 0) = some ([.one 1], .instrument ⟨.acceptAll, .counter c₁, none⟩) ∧
      p'.state.leafAt (.handler 2 0) = some ([.one 2], .instrument ⟨.acceptAll, .counter c₂, none⟩) ∧
      (c₀.count - (10 : Nat) : Int) % 2 ^ 64 = ((c₁.count - (2 : Nat)) + (c₂.count - (3 : Nat)) : Int) % 2 ^ 64) ∧
    ∃ a c₁ c₂, p'.state.leafAt (.handler 3 0) = some ([.acceptAll], .gauge a) ∧
      p'.state.leafAt (.handler 1 0) = some ([.one 1], .instrument ⟨.acceptAll, .counter c₁, none⟩) ∧
      p'.state.leafAt (.handler 2 0) = some ([.one 2], .instrument ⟨.acceptAll, .counter c₂, none⟩) ∧
      (a.gauge.value.getD 0 - 0) % 2 ^ 64 = ((c₁.count - (2 : Nat)) - (c₂.count - (3 : Nat)) : Int) % 2 ^ 64 := by
  obtain ⟨o, k', p', h, htaken, -⟩ := lossy_used
  refine ⟨p', htaken, ?_, ?_⟩
  · obtain ⟨c₀, c₁, c₂, x⟩ := C61_sum emptyForward h (place₀ := .handler 0 0) (place₁ := .handler 1 0) (place₂ := .handler 2 0)
      rfl (fun _ _ _ _ h => h) rfl (fun _ _ _ _ h => h) rfl (fun _ _ _ _ h => h) (by decide) (by decide) (by decide)
      (by intro l; simp [meantFor, LabelFilter.accepts, InstrumentAdapter.new])
      (by intro l; simp [meantFor, LabelFilter.accepts, InstrumentAdapter.new]; rintro rfl; decide)
    exact ⟨c₀, c₁, c₂, x⟩
  · obtain ⟨a, c₁, c₂, x⟩ := C61_in_flight emptyForward h (place₀ := .handler 3 0) (place₁ := .handler 1 0) (place₂ := .handler 2 0)
      rfl (fun _ _ _ _ h => h) rfl (fun _ _ _ _ h => h) rfl (fun _ _ _ _ h => h) (by intro v hv; cases hv) (by decide) (by decide)
      (by intro l; simp [meantFor, LabelFilter.accepts, InstrumentAdapter.new]) (by intro l; simp [meantFor, LabelFilter.accepts, InstrumentAdapter.new])
      (by intro l; simp [LabelFilter.accepts]; rintro rfl; decide) lossy_range (by decide)
    exact ⟨a, c₁, c₂, x⟩

/-- Two counters and a meter for the same labels. -/
def meteringProcessor : Processor Empty Nat where
  state := {
    activity := ⟨0, none, true⟩
    handlers := [counting (.one 1) 10, counting (.many [1]) 20,
      .panel (.mk { labelFilter := .predicate (· < 2), activity := ⟨0, none, true⟩, meter := some ⟨.one 1, newMeter, none⟩ } [] [] [])] }
  receiver := { chan := .fresh (some 1) false lossyPrograms, ahead := [[0, 1], [1, 0], [0, 1], [1, 0]] }

theorem metering_safe : AllSafe ticking (fun _ => False) meteringProcessor.instruments := by
  simp only [Processor.allSafe, ProcessorState.allSafe, meteringProcessor, counting, instrumentsOfHandlers, instrumentsOfCockpits,
    instrumentsOfSnapshooters, instrumentsOfPanels, Handler.instruments, Panel.instruments, PanelHead.allSafe,
    AllSafe.append, AllSafe.nil, InstrumentAdapter.new, and_true]
  refine ⟨by simp, fun m hm => ?_⟩
  simp [Channel.pending, Channel.fresh, lossyPrograms] at hm
  rcases hm with rfl | rfl <;> exact AllSafe.nil

theorem metering_used : ∃ log k' p', UsedFrom ticking 1 meteringProcessor log k' p' lossyPrograms ∧
    log.map (·.call) = [.process 3 .processAll] := by
  obtain ⟨log, k', p', h, hm⟩ := exists_life (e := ticking) (safe := fun _ => False) rfl ticking_custom metering_safe
    [.process 3 .processAll] (by simp [Call.Safe, Strategy.Safe]) 1
  exact ⟨log, k', p', ⟨h, _, _, rfl⟩, hm⟩

example : ∃ p' : Processor Empty Nat,
    (∃ c₁ c₂, p'.state.leafAt (.handler 0 0) = some ([.one 1], .instrument ⟨.acceptAll, .counter c₁, none⟩) ∧
      p'.state.leafAt (.handler 1 0) = some ([.many [1]], .instrument ⟨.acceptAll, .counter c₂, none⟩) ∧
      (c₁.count - (10 : Nat) : Int) % 2 ^ 64 = (c₂.count - (20 : Nat) : Int) % 2 ^ 64) ∧
    ∃ c m, p'.state.leafAt (.handler 0 0) = some ([.one 1], .instrument ⟨.acceptAll, .counter c, none⟩) ∧
      p'.state.leafAt (.handler 2 0) = some ([.predicate (· < 2)], .instrument ⟨.one 1, .meter m, none⟩) ∧
      (m.inner.count - 0) % 2 ^ 64 = (c.count - (10 : Nat) : Int) % 2 ^ 64 := by
  obtain ⟨log, k', p', h, -⟩ := metering_used
  refine ⟨p', ?_, ?_⟩
  · obtain ⟨c₁, c₂, x, y, z, -⟩ := C61_counters emptyForward h (place₁ := .handler 0 0) (place₂ := .handler 1 0)
      rfl (fun _ _ _ _ h => h) rfl (fun _ _ _ _ h => h) (by decide) (by decide)
      (by intro l; simp [meantFor, LabelFilter.accepts, InstrumentAdapter.new])
    exact ⟨c₁, c₂, x, y, z⟩
  · obtain ⟨c, m, x⟩ := C61_meter emptyForward h (place₁ := .handler 0 0) (place₂ := .handler 2 0)
      rfl (fun _ _ _ _ h => h) rfl (fun _ _ _ _ h => h) (by decide) (by decide)
      (by intro l; simp [meantFor, LabelFilter.accepts, InstrumentAdapter.new]; rintro rfl; decide) (by decide)
    exact ⟨c, m, x⟩

/-! Histograms for the labels 1 and 2, for 1 and for 2, and a meter of values for both. -/

def measuring (f : LabelFilter Nat) (vs : List Int) : Handler Empty Nat :=
  .panel (.mk { labelFilter := f, activity := ⟨0, none, true⟩,
                histogram := some (.new { name := "h", inner := vs, lastUpdate := 0 }) } [] [] [])

def valuePrograms : List (SendThread (Message Empty Nat)) :=
  [{ todo := [.observation (.observedOneValue 1 (.signedInteger 7) 0), .observation (.observedOneValue 1 (.signedInteger 8) 0)] },
   { todo := [.observation (.observedOneValue 2 (.signedInteger 5) 0), .observation (.observedOne 2 0)] }]

def measuringProcessor : Processor Empty Nat where
  state := { activity := ⟨0, none, true⟩
             handlers := [measuring (.many [1, 2]) [3], measuring (.one 1) [], measuring (.one 2) [], measuring (.many [2, 1]) []] }
  receiver := { chan := .fresh (some 2) false valuePrograms, ahead := [[0, 1], [1, 0], [0, 1], [1, 0]] }

theorem measuring_used : ∃ o k' p', UsedFrom ticking 1 measuringProcessor [⟨1, .process 3 .processAll, .outcome o⟩] k' p' valuePrograms ∧
    p'.state.handlers.flatMap (fun h => h.leaves.map fun x => match x.2 with
      | .instrument ⟨_, .histogram c, _⟩ => c.inner
      | _ => []) = [[3, 7, 5], [7], [5], [7, 5]] := by
  refine ⟨_, _, _, ⟨.cons (Nat.le_refl _) rfl (.nil (Nat.le_refl _)), _, _, rfl⟩, ?_⟩
  decide +kernel

example : ∃ p' : Processor Empty Nat,
    (∃ i₀ i₁ i₂ added₀ added₁ added₂,
      p'.state.leafAt (.handler 0 0) = some ([.many [1, 2]], .instrument ⟨.acceptAll, .histogram i₀, none⟩) ∧
      p'.state.leafAt (.handler 1 0) = some ([.one 1], .instrument ⟨.acceptAll, .histogram i₁, none⟩) ∧
      p'.state.leafAt (.handler 2 0) = some ([.one 2], .instrument ⟨.acceptAll, .histogram i₂, none⟩) ∧
      i₀.inner = [3] ++ added₀ ∧ i₁.inner = [] ++ added₁ ∧ i₂.inner = [] ++ added₂ ∧ added₀.Perm (added₁ ++ added₂)) ∧
    ∃ i₁ i₂ added, p'.state.leafAt (.handler 0 0) = some ([.many [1, 2]], .instrument ⟨.acceptAll, .histogram i₁, none⟩) ∧
      p'.state.leafAt (.handler 3 0) = some ([.many [2, 1]], .instrument ⟨.acceptAll, .histogram i₂, none⟩) ∧
      i₁.inner = [3] ++ added ∧ i₂.inner = [] ++ added := by
  obtain ⟨o, k', p', h, -⟩ := measuring_used
  refine ⟨p', ?_, ?_⟩
  · exact C61_histogram_sum emptyForward h (place₀ := .handler 0 0) (place₁ := .handler 1 0) (place₂ := .handler 2 0)
      rfl (fun _ _ _ _ h => h) rfl (fun _ _ _ _ h => h) rfl (fun _ _ _ _ h => h) (.inl rfl) (.inl rfl) (.inl rfl) rfl rfl
      (by intro l; simp [meantFor, LabelFilter.accepts, InstrumentAdapter.new])
      (by intro l; simp [meantFor, LabelFilter.accepts, InstrumentAdapter.new]; rintro rfl; decide)
  · exact C61_histograms emptyForward h (place₁ := .handler 0 0) (place₂ := .handler 3 0)
      rfl (fun _ _ _ _ h => h) rfl (fun _ _ _ _ h => h) (.inl rfl) (.inl rfl) rfl
      (by intro l; simp [meantFor, LabelFilter.accepts, InstrumentAdapter.new, or_comm])

/-- A histogram and a meter of values for the same labels. -/
def pricedProcessor : Processor Empty Nat where
  state := {
    activity := ⟨0, none, true⟩
    handlers := [measuring (.one 1) [3],
      .panel (.mk { labelFilter := .predicate (· < 2), activity := ⟨0, none, true⟩ } []
        [.instrument ⟨.one 1, .valueMeter { meter := newMeter }, none⟩] [])] }
  receiver := { chan := .fresh (some 2) false valuePrograms, ahead := [[0, 1], [1, 0], [0, 1], [1, 0]] }

theorem priced_safe : AllSafe ticking (fun _ => False) pricedProcessor.instruments := by
  simp only [Processor.allSafe, ProcessorState.allSafe, pricedProcessor, measuring, instrumentsOfHandlers, instrumentsOfCockpits,
    instrumentsOfSnapshooters, instrumentsOfPanels, Handler.instruments, Panel.instruments, PanelHead.allSafe,
    AllSafe.append, AllSafe.nil, InstrumentAdapter.new, and_true]
  refine ⟨by simp [AllSafe, Instrument.Safe], fun m hm => ?_⟩
  simp [Channel.pending, Channel.fresh, valuePrograms] at hm
  rcases hm with rfl | rfl | rfl | rfl <;> exact AllSafe.nil

example : ∃ (p' : Processor Empty Nat) (i : Histogram) (m : ValueMeter) (added : List Int),
    p'.state.leafAt (.handler 0 0) = some ([.one 1], .instrument ⟨.acceptAll, .histogram i, none⟩) ∧
    p'.state.leafAt (.handler 1 0) = some ([.predicate (· < 2)], .instrument ⟨.one 1, .valueMeter m, none⟩) ∧
    i.inner = [3] ++ added ∧ (m.meter.inner.count - 0) % 2 ^ 64 = added.sum % 2 ^ 64 := by
  obtain ⟨log, k', p', h, -⟩ := exists_life (e := ticking) (safe := fun _ => False) rfl ticking_custom priced_safe
    [.process 3 .processAll] (by simp [Call.Safe, Strategy.Safe]) 1
  exact ⟨p', C61_value_meter emptyForward ⟨h, _, _, rfl⟩ (place₁ := .handler 0 0) (place₂ := .handler 1 0)
    rfl (fun _ _ _ _ h => h) rfl (fun _ _ _ _ h => h) (.inl rfl) (by decide) rfl
    (by intro l; simp [meantFor, LabelFilter.accepts, InstrumentAdapter.new]; rintro rfl; decide)⟩

end Metrix
