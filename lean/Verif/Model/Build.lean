import Verif.Model.Tree

/-!
# Making instruments listen to labels

Everything in the crate that can be turned into a `LabelFilter` (`src/instruments/label_filter.rs`), and the functions
that put an instrument behind an adapter. Each instrument has its own copy of these functions; the copies are equal up to
the type of the instrument.
-/

namespace Metrix

/-- What implements `Into<LabelFilter<L>>`: the `From` implementations `src/instruments/label_filter.rs:56-181`, the wrappers
`src/instruments/label_filter.rs:49-54`, and a filter itself (the reflexive `Into` of Rust's standard library). -/
inductive Labels (L : Type)
  | label (a : L)
  | wrapped (a : L)
  | acceptOneLabel (a : L)
  | acceptAllLabels
  | acceptNoLabel
  | labelPredicate (p : L → Bool)
  | lp (p : L → Bool)
  | list (ls : List L)
  | pair (a b : L)
  | triple (a b c : L)
  | quad (a b c d : L)
  | quint (a b c d e : L)
  | filter (f : LabelFilter L)

namespace Labels
variable {L : Type} [DecidableEq L]

/-- `.into()`, by `src/instruments/label_filter.rs`: 56-63 `label`, 65-72 `acceptAllLabels`, 74-81 `acceptNoLabel`, 83-91
`labelPredicate`, 93-101 `lp`, 103-110 `wrapped`, 111-118 `acceptOneLabel`, 120-131 `list`, 133-181 the tuples. -/
def toFilter : Labels L → LabelFilter L
  | .label a => .new a
  | .wrapped a => .new a
  | .acceptOneLabel a => .new a
  | .acceptAllLabels => .acceptAll
  | .acceptNoLabel => .acceptNone
  | .labelPredicate p => .predicate p
  | .lp p => .predicate p
  | .list ls => .ofList ls
  | .pair a b => .ofPair a b
  | .triple a b c => .ofTriple a b c
  | .quad a b c d => .ofQuad a b c d
  | .quint a b c d e => .ofQuint a b c d e
  | .filter f => f

end Labels

namespace InstrumentAdapter
variable {L I : Type} [DecidableEq L]

/-- `src/instruments/instrument_adapter.rs:39-45` (`accept`), and `accept` of the instruments: `src/instruments/counter.rs:94-99`,
`src/instruments/meter.rs:141-146`, `src/instruments/histogram.rs:139-144`,
`src/instruments/other_instruments/value_meter.rs:146-151`, `src/instruments/other_instruments/display.rs:121-126`,
`src/instruments/other_instruments/last_occurrence_tracker.rs:119-124`, `src/instruments/switches/flag.rs:118-123`,
`src/instruments/switches/staircase_timer.rs:164-169`, `src/instruments/switches/occurrence_indicator.rs:161-166`,
`src/instruments/switches/non_occurrence_indicator.rs:166-171`. -/
def accepting (labels : Labels L) (i : I) : InstrumentAdapter L I := accept labels.toFilter i

/-- `src/instruments/instrument_adapter.rs:47-49` (`for_label`), and `for_label` of the instruments:
`src/instruments/counter.rs:103-105`, `src/instruments/meter.rs:150-152`, `src/instruments/histogram.rs:148-150`,
`src/instruments/other_instruments/value_meter.rs:155-157`, `src/instruments/other_instruments/display.rs:130-132`,
`src/instruments/other_instruments/last_occurrence_tracker.rs:128-130`, `src/instruments/switches/flag.rs:127-129`,
`src/instruments/switches/staircase_timer.rs:173-175`, `src/instruments/switches/occurrence_indicator.rs:170-172`,
`src/instruments/switches/non_occurrence_indicator.rs:175-177`. -/
def forLabel (label : L) (i : I) : InstrumentAdapter L I := accepting (.label label) i

/-- `src/instruments/instrument_adapter.rs:51-53` (`for_labels`), and `for_labels` of the instruments:
`src/instruments/counter.rs:111-113`, `src/instruments/meter.rs:158-160`, `src/instruments/histogram.rs:156-158`,
`src/instruments/other_instruments/value_meter.rs:163-165`, `src/instruments/other_instruments/display.rs:138-140`,
`src/instruments/other_instruments/last_occurrence_tracker.rs:136-138`, `src/instruments/switches/flag.rs:135-137`,
`src/instruments/switches/staircase_timer.rs:181-183`, `src/instruments/switches/occurrence_indicator.rs:178-180`,
`src/instruments/switches/non_occurrence_indicator.rs:183-185`. -/
def forLabels (labels : List L) (i : I) : InstrumentAdapter L I := accepting (.list labels) i

/-- `for_all_labels` of the instruments: `src/instruments/counter.rs:117-119`, `src/instruments/meter.rs:164-166`,
`src/instruments/histogram.rs:162-164`, `src/instruments/other_instruments/value_meter.rs:169-171`,
`src/instruments/other_instruments/display.rs:144-146`,
`src/instruments/other_instruments/last_occurrence_tracker.rs:142-144`, `src/instruments/switches/flag.rs:141-143`,
`src/instruments/switches/staircase_timer.rs:187-189`, `src/instruments/switches/occurrence_indicator.rs:184-186`,
`src/instruments/switches/non_occurrence_indicator.rs:189-191`. -/
def forAllLabels (i : I) : InstrumentAdapter L I := accepting .acceptAllLabels i

/-- `src/instruments/instrument_adapter.rs:55-60` (`by_predicate`), and `for_labels_by_predicate` of the instruments:
`src/instruments/counter.rs:123-129`, `src/instruments/meter.rs:170-176`, `src/instruments/histogram.rs:168-174`,
`src/instruments/other_instruments/value_meter.rs:175-181`, `src/instruments/other_instruments/display.rs:150-156`,
`src/instruments/other_instruments/last_occurrence_tracker.rs:148-154`, `src/instruments/switches/flag.rs:147-153`,
`src/instruments/switches/staircase_timer.rs:193-199`, `src/instruments/switches/occurrence_indicator.rs:190-196`,
`src/instruments/switches/non_occurrence_indicator.rs:195-201`. -/
def forLabelsByPredicate (p : L → Bool) (i : I) : InstrumentAdapter L I := accepting (.labelPredicate p) i

omit [DecidableEq L] in
/-- `adapter` of the instruments: `src/instruments/counter.rs:133-135`, `src/instruments/meter.rs:180-182`,
`src/instruments/histogram.rs:178-180`, `src/instruments/other_instruments/value_meter.rs:185-187`,
`src/instruments/other_instruments/display.rs:160-162`,
`src/instruments/other_instruments/last_occurrence_tracker.rs:158-160`, `src/instruments/switches/flag.rs:157-159`,
`src/instruments/switches/staircase_timer.rs:203-205`, `src/instruments/switches/occurrence_indicator.rs:200-202`,
`src/instruments/switches/non_occurrence_indicator.rs:205-207`. -/
def adapter (i : I) : InstrumentAdapter L I := deaf i

end InstrumentAdapter

namespace GaugeAdapter
variable {L : Type} [DecidableEq L]

/-- `src/instruments/gauge/gauge_adapter.rs:26-32` (`accept`) and `src/instruments/gauge/mod.rs:182-187`. -/
def accepting (labels : Labels L) (g : Gauge) : GaugeAdapter L := accept labels.toFilter g

/-- `src/instruments/gauge/gauge_adapter.rs:36-38` (`for_label`) and `src/instruments/gauge/mod.rs:191-193`. -/
def forLabel (label : L) (g : Gauge) : GaugeAdapter L := accepting (.label label) g

/-- `src/instruments/gauge/gauge_adapter.rs:44-46` (`for_labels`) and `src/instruments/gauge/mod.rs:199-201`. -/
def forLabels (labels : List L) (g : Gauge) : GaugeAdapter L := accepting (.list labels) g

/-- `src/instruments/gauge/mod.rs:205-207` (`for_all_labels`). -/
def forAllLabels (g : Gauge) : GaugeAdapter L := accepting .acceptAllLabels g

/-- `src/instruments/gauge/gauge_adapter.rs:50-55` (`for_labels_by_predicate`) and `src/instruments/gauge/mod.rs:211-217`. -/
def forLabelsByPredicate (p : L → Bool) (g : Gauge) : GaugeAdapter L := accepting (.labelPredicate p) g

omit [DecidableEq L] in
/-- `src/instruments/gauge/mod.rs:221-223` (`adapter`). -/
def adapter (g : Gauge) : GaugeAdapter L := deaf g

/-- `src/instruments/gauge/gauge_adapter.rs:57-63` (`deltas_only`) and `src/instruments/gauge/mod.rs:225-230`. -/
def deltasOnlyFor (labels : Labels L) (g : Gauge) : GaugeAdapter L := deltasOnly labels.toFilter g

/-- `src/instruments/gauge/gauge_adapter.rs:70-72` (`for_label_deltas_only`) and `src/instruments/gauge/mod.rs:237-239`. -/
def forLabelDeltasOnly (label : L) (g : Gauge) : GaugeAdapter L := deltasOnlyFor (.label label) g

/-- `src/instruments/gauge/gauge_adapter.rs:81-83` (`for_labels_deltas_only`) and `src/instruments/gauge/mod.rs:248-250`. -/
def forLabelsDeltasOnly (labels : List L) (g : Gauge) : GaugeAdapter L := deltasOnlyFor (.list labels) g

/-- `src/instruments/gauge/gauge_adapter.rs:87-92` (`for_labels_deltas_only_by_predicate`) and
`src/instruments/gauge/mod.rs:252-258`. -/
def forLabelsDeltasOnlyByPredicate (p : L → Bool) (g : Gauge) : GaugeAdapter L := deltasOnlyFor (.labelPredicate p) g

/-- `src/instruments/gauge/gauge_adapter.rs:103-113` (`inc_dec_on`) and `src/instruments/gauge/mod.rs:269-279`. -/
def incDecFor (incr decr : Labels L) (g : Gauge) : GaugeAdapter L := incDecOn incr.toFilter decr.toFilter g

/-- `src/instruments/gauge/gauge_adapter.rs:124-126` (`inc_dec_on_many`) and `src/instruments/gauge/mod.rs:290-296`. -/
def incDecOnMany (incr decr : List L) (g : Gauge) : GaugeAdapter L := incDecFor (.list incr) (.list decr) g

/-- `src/instruments/gauge/gauge_adapter.rs:130-144` (`inc_dec_by_predicates`) and `src/instruments/gauge/mod.rs:298-312`. -/
def incDecByPredicates (incr decr : L → Bool) (g : Gauge) : GaugeAdapter L :=
  incDecFor (.labelPredicate incr) (.labelPredicate decr) g

end GaugeAdapter

namespace Panel
variable {σ L : Type} [DecidableEq L]

/-- `src/instruments/panel.rs:73-90, 102-104` (`new`, `accept`). -/
def accepting (labels : Labels L) : M (Panel σ L) := new labels.toFilter

/-- `src/instruments/panel.rs:94-98, 108-110` (`named`, `accept_named`). -/
def acceptingNamed (labels : Labels L) (name : String) : M (Panel σ L) := named labels.toFilter name

/-- `src/instruments/panel.rs:114-116` (`accept_all_named`). -/
def acceptAllNamed (name : String) : M (Panel σ L) := acceptingNamed .acceptAllLabels name

/-- `src/instruments/panel.rs:120-122` (`accept_all`). -/
def acceptAll : M (Panel σ L) := accepting .acceptAllLabels

end Panel
end Metrix
