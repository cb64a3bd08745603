{"id": "C01", "title": "A label filter is exactly the set it was built from", "statement": "A LabelFilter built by new/From (label, Vec, tuple, predicate, accept-all, accept-none) and then extended by any sequence of accept_another(l) accepts a label x iff the starting filter accepted x or x is one of the added labels. Accept-all stays accept-all, accept-none plus labels is exactly those labels.", "quantifier": "every label type with decidable equality, every starting filter, every finite sequence of added labels, every queried label", "why_tests_cant": "The filter changes representation at 0,1,2,3,4,5 and 6+ labels and for predicates; tests can only probe a few label lists, not arbitrary sequences across every representation change.", "anchors": ["src/instruments/label_filter.rs: LabelFilter, LabelFilter::accept_another, LabelFilter::accepts, LabelFilterInternal::add_label, From impls"]}
{"id": "C02", "title": "Integer conversion of observed values never invents a number", "statement": "ObservedValue::convert_to_i64 / convert_to_u64 return Some(n) only with n in range; for integer inputs n is the input itself and None is returned exactly when the input is outside the target range; a float converts to its nearest integer (halves away from zero) whenever that integer is in the target range; NaN and positive infinity never convert; a float above 2^63 (2^64 for u64) does not convert, and any other float outside the target range becomes the nearer bound of the range. convert_to_bool is 'non-zero'.", "quantifier": "every ObservedValue: every i64, u64, every float including NaN and infinities, bools, durations, deltas", "why_tests_cant": "The domain has 2^64 values per variant; boundary behaviour at 2^63/2^64 and for floats cannot be settled by samples.", "anchors": ["src/observation.rs: ObservedValue::convert_to_i64, convert_to_u64, convert_to_bool"]}
{"id": "C03", "title": "Duration values are displayed in the chosen unit, rounded down", "statement": "A duration observed as (value, unit) and displayed in another unit is the exact duration rounded down to the display unit, for all 16 unit pairs, as long as the result fits into 64 bits; converting up and back loses less than one unit; the conversion is monotone. Observing a std Duration in a unit rounds down likewise.", "quantifier": "every 64-bit value, every pair of time units, every std::time::Duration", "why_tests_cant": "16 hand-written factor cases over a 64-bit domain; tests check a handful of constants.", "anchors": ["src/instruments/mod.rs: duration_to_display_value", "src/observation.rs: From<Duration>, From<(Duration, TimeUnit)>, TimeUnit"]}
{"id": "C04", "title": "Increment/Decrement/ChangeBy observations are deltas, everything else is not", "statement": "An observation is treated as a delta (never to be skipped) iff it was made with Increment, Decrement, IncrementBy, DecrementBy or ChangeBy, and the delta carried is +1, -1, +n, -n, n respectively, never overflowing.", "quantifier": "every observation and every payload value", "why_tests_cant": "The delta flag decides whether an old observation may be dropped; it has to be right for all payloads, including extreme ones.", "anchors": ["src/observation.rs: ObservedValue::is_delta, ObservationLike::is_delta, From<Increment> .. From<ChangeBy>", "src/lib.rs: Increment, Decrement, IncrementBy, DecrementBy, ChangeBy"]}
{"id": "C05", "title": "Staleness rule", "statement": "With DropOlderThan{max_age, drop_deltas}, an observation is processed iff its timestamp is at most max_age before the start of the processing run, or it is a delta and drop_deltas is false. ProcessAll processes every observation, DropAll none.", "quantifier": "every strategy, every clock reading, every observation timestamp (also in the future)", "why_tests_cant": "Depends on the clock at run start versus per-observation timestamps; tests cannot range over all time relations nor the exact boundary.", "anchors": ["src/processor.rs: ProcessingStrategy, ProcessingStrategy::decider, ProcessingDecider::should_be_processed"]}
{"id": "C06", "title": "Deltas survive any backlog", "statement": "Unless the strategy is DropAll or drop_deltas is set, no delta observation is ever dropped however old it is: after any sequence of processing runs and any interleaving of transmissions, a gauge fed only by deltas shows the sum of all deltas consumed so far.", "quantifier": "every strategy that keeps deltas, every interleaving of transmissions and processing runs, every backlog length and age", "why_tests_cant": "Requires unbounded histories with arbitrarily old observations and arbitrary interleavings.", "anchors": ["src/processor.rs: TelemetryProcessor::process, ProcessingDecider::should_be_processed", "src/instruments/gauge/mod.rs: Gauge"]}
{"id": "C07", "title": "Processing outcome accounting", "statement": "A processing run of a TelemetryProcessor consumes at most max messages, reports processed + dropped equal to the number of messages consumed, reports as dropped exactly the observations refused by the staleness rule, reports instruments_updated as the sum over the processed observations of what the components reported, and observations_enqueued as the queue length at the end of the run.", "quantifier": "every max, every queue content, every strategy, every behaviour of concurrently sending threads during the run", "why_tests_cant": "Messages arrive concurrently while the run polls the queue; tests cannot enumerate the interleavings.", "anchors": ["src/processor.rs: TelemetryProcessor::process, ProcessingOutcome"]}
{"id": "C08", "title": "Exactly-once, in-order consumption", "statement": "Over any sequence of processing runs interleaved with any transmissions from any number of transmitters, the messages consumed by the processor are a prefix of the messages accepted by the queue, in acceptance order, each consumed exactly once, and the remaining ones are still queued: nothing accepted is lost, duplicated or reordered.", "quantifier": "every number of transmitters, every schedule of sends and processing runs, every queue bound", "why_tests_cant": "A statement over all schedules and unbounded histories.", "anchors": ["src/processor.rs: TelemetryProcessor::process, TelemetryMessage", "src/lib.rs: TelemetryTransmitter::send"]}
{"id": "C09", "title": "Configuration messages and observations take effect in the order sent", "statement": "The state of the processor after consuming messages is the state obtained by applying them one by one in order: an added cockpit/handler/panel sees every later processed observation and no earlier one, a removed one sees no later one; configuration messages are never dropped, not even with DropAll or when old.", "quantifier": "every message sequence, every split of it into processing runs with arbitrary max, every strategy", "why_tests_cant": "The split into runs and the relative order are determined at run time by thread schedules.", "anchors": ["src/processor.rs: TelemetryProcessor::process, TelemetryMessage::{AddCockpit,RemoveCockpit,AddHandler,AddPanelToCockpit,RemovePanelFromCockpit}"]}
{"id": "C10", "title": "Dropped observations leave no trace in any metric", "statement": "An observation that is dropped changes no cockpit, panel, handler or instrument; a run that drops everything leaves all metrics as they were.", "quantifier": "every component tree, every observation, every strategy that drops it", "why_tests_cant": "Quantifies over all component trees and all observation sequences.", "anchors": ["src/processor.rs: TelemetryProcessor::process"]}
{"id": "C11", "title": "Disconnect drains first and is final", "statement": "When all transmitters are gone the processor still consumes every message accepted before it stops; it reports Disconnected only once the queue is empty, and from then on every processing run is a no-op with an empty outcome while snapshots keep working.", "quantifier": "every queue content at the time the last transmitter is dropped, every later sequence of runs", "why_tests_cant": "The disconnect can happen at any point of any run.", "anchors": ["src/processor.rs: TelemetryProcessor::process, is_disconnected"]}
{"id": "C12", "title": "Queue bounds", "statement": "A bounded pair never holds more than cap messages; a non-blocking transmitter never waits and loses exactly the messages it transmits while the queue is full (or the processor is gone), leaving the queue unchanged; a blocking transmitter (use_send) loses no message while the processor is alive; an unbounded pair loses nothing while the processor is alive. queue_size/is_queue_empty/is_queue_full/queue_capacity report exactly this queue.", "quantifier": "every capacity, every number of transmitters, every schedule", "why_tests_cant": "Loss depends on the schedule of producers and consumer.", "anchors": ["src/lib.rs: TelemetryTransmitter::send, queue_size, queue_capacity, is_queue_empty, is_queue_full", "src/processor.rs: new_pair, new_pair_bounded, create"]}
{"id": "C13", "title": "Per-transmitter order with concurrent transmitters", "statement": "Messages sent by one transmitter thread are consumed in the order that thread sent them, whatever other threads do; with blocking transmitters and a processor that keeps polling every thread finishes and everything sent is consumed.", "quantifier": "every number of threads, every program of sends per thread, every schedule", "why_tests_cant": "All interleavings of arbitrarily many threads.", "anchors": ["src/lib.rs: TelemetryTransmitter", "src/processor.rs: TelemetryProcessor::process"]}
{"id": "C14", "title": "Named cockpits are unique in a processor", "statement": "At any time no two cockpits of a TelemetryProcessor have the same name; adding a cockpit whose name is taken changes nothing (the first one wins), adding an unnamed cockpit always appends it; removing a name removes exactly the cockpit with that name and keeps the order of the rest; unnamed cockpits cannot be removed by name.", "quantifier": "every sequence of add/remove calls and messages, interleaved with processing", "why_tests_cant": "An invariant over all operation sequences.", "anchors": ["src/processor.rs: TelemetryProcessor::add_cockpit, remove_cockpit"]}
{"id": "C15", "title": "Named panels are unique in a cockpit", "statement": "Starting from an empty cockpit, after any sequence of add_panel/remove_panel no two panels have the same name; duplicates are ignored, unnamed panels are always added, removal removes exactly the named panel. This can be broken only through get_panels_mut.", "quantifier": "every sequence of add/remove calls", "why_tests_cant": "An invariant over all operation sequences.", "anchors": ["src/cockpit.rs: Cockpit::add_panel, remove_panel, get_panels_mut"]}
{"id": "C16", "title": "Panel messages address one cockpit", "statement": "AddPanelToCockpit / RemovePanelFromCockpit change only the cockpit with the given name (adding/removing by the cockpit's own rules), never any other cockpit, handler or snapshooter, and change nothing if there is no such cockpit.", "quantifier": "every processor state and every message", "why_tests_cant": "Quantifies over all states.", "anchors": ["src/processor.rs: TelemetryProcessor::process, TelemetryMessage::AddPanelToCockpit, RemovePanelFromCockpit"]}
{"id": "C17", "title": "A rejected label changes nothing", "statement": "A panel or adapter whose filter does not accept the label of an observation is unchanged by it, including everything nested inside, and reports 0 updated instruments.", "quantifier": "every panel/adapter with arbitrarily nested content, every observation", "why_tests_cant": "Unbounded nesting and arbitrary filters.", "anchors": ["src/instruments/panel.rs: Panel::handle_observation", "src/instruments/instrument_adapter.rs: InstrumentAdapter::handle_observation", "src/instruments/gauge/gauge_adapter.rs: GaugeAdapter::handle_observation"]}
{"id": "C18", "title": "Dispatch reaches exactly the instruments whose whole path accepts", "statement": "Handling an observation updates exactly those instruments for which every filter on the path (all enclosing panels and the adapter itself) accepts its label, each exactly once, leaves every other instrument unchanged, and does not add, remove or reorder instruments.", "quantifier": "every component tree of cockpits, panels, nested panels, adapters and handlers of any depth and width, every observation", "why_tests_cant": "Unbounded trees; a test fixes one tree.", "anchors": ["src/cockpit.rs: Cockpit::handle_observation", "src/instruments/panel.rs: Panel::handle_observation", "src/instruments/instrument_adapter.rs"]}
{"id": "C19", "title": "instruments_updated is the number of instruments that report an update", "statement": "The number returned for an observation is the sum of the values reported by the instruments reached, over the whole tree; it is at most the number of reached instruments for the built-in instruments.", "quantifier": "every component tree, every observation", "why_tests_cant": "Unbounded trees.", "anchors": ["src/cockpit.rs: Cockpit::handle_observation", "src/instruments/panel.rs: Panel::handle_observation"]}
{"id": "C20", "title": "Adding several instruments of a kind loses none", "statement": "add_counter/add_gauge/add_meter/add_histogram/add_handler/add_panel/add_instrument on a panel keep all instruments already there and make the new one react to later observations accepted by the panel and by the instrument's own filter, also when the dedicated slot is already taken.", "quantifier": "every panel, every sequence of add calls", "why_tests_cant": "All sequences of additions.", "anchors": ["src/instruments/panel.rs: Panel::add_counter, add_gauge, add_meter, add_histogram, add_handler, add_panel, add_instrument"]}
{"id": "C21", "title": "A counter counts every occurrence", "statement": "After any sequence of updates a counter shows its initial value plus the sum of occurrences: 1 for a single observation with or without a value, n for an observation of n occurrences, exact as long as the total fits 64 bits (beyond: panic in debug builds, wrap-around modulo 2^64 in release builds). Every update reports 1.", "quantifier": "every finite sequence of updates", "why_tests_cant": "Unbounded histories and the 64-bit overflow boundary.", "anchors": ["src/instruments/counter.rs: Counter::update, inc, inc_by, get"]}
{"id": "C22", "title": "A gauge shows the last value set plus later deltas", "statement": "After any sequence of updates a gauge shows nothing if no convertible value was ever observed, otherwise the last absolute value plus all deltas after it (deltas before any value start from zero); values that do not convert (bools, NaN, too large) and plain occurrences do not change the shown value; exact unless 64-bit overflow happens (panic in debug, wrap in release).", "quantifier": "every finite sequence of updates, every display unit", "why_tests_cant": "Unbounded mixes of absolute values, deltas, durations and ignored updates.", "anchors": ["src/instruments/gauge/mod.rs: Gauge::set, next_value, update, get"]}
{"id": "C23", "title": "Delta-only and increment/decrement gauges", "statement": "A gauge created with deltas_only reacts to nothing but deltas with accepted labels and never to absolute values; a gauge created with inc_dec_on_labels increments by one on every observation of the increment label, decrements by one on every observation of the decrement label regardless of payload, and ignores all others; its value is #increments - #decrements. The result does not depend on the order of the observations.", "quantifier": "every sequence of observations, also permutations of it", "why_tests_cant": "All sequences and all their permutations.", "anchors": ["src/instruments/gauge/gauge_adapter.rs: GaugeAdapter, GaugeUpdateStrategy", "src/instruments/gauge/mod.rs: deltas_only, inc_dec_on"]}
{"id": "C24", "title": "Tracked gauge statistics cover exactly the tracked window", "statement": "For a gauge tracking n seconds, at snapshot time the values considered are exactly those recorded in the current second and the n-1 preceding seconds (seconds counted from the creation of the tracking), however irregularly updates and snapshots happened and however long the gaps were; peak is their maximum, bottom their minimum, avg their mean, peak_min the least per-second maximum, bottom_max the greatest per-second minimum.", "quantifier": "every n >= 1, every monotone sequence of update and snapshot times, every values", "why_tests_cant": "The ring buffer is advanced lazily at irregular times; only a proof covers all gap lengths and wrap-arounds.", "anchors": ["src/instruments/fundamentals/buckets.rs: SecondsBuckets::tick, current_mut, iter", "src/instruments/gauge/tracking.rs: Bucket, BucketsStats::from_buckets", "src/instruments/gauge/mod.rs: put_values_into_snapshot"]}
{"id": "C25", "title": "The ring of seconds buckets behaves like a sliding list of seconds", "statement": "The buckets always number n; iterating yields, newest first, one entry per second of the window; each entry is what was written in that second and default if nothing was; with no panic and no index out of bounds for any monotone clock.", "quantifier": "every n >= 1, every entry type, every sequence of writes and ticks at monotone times", "why_tests_cant": "Index arithmetic modulo n with lazy shifts over arbitrary gaps.", "anchors": ["src/instruments/fundamentals/buckets.rs: SecondsBuckets, BucketIterator"]}
{"id": "C26", "title": "Writing to a past second reaches that second's bucket", "statement": "get_at_mut(t) for a past moment t within the window gives access to the bucket of the second t lies in, gives nothing for moments outside the window or in the future.", "quantifier": "every n, every bucket state, every t", "why_tests_cant": "Boundary behaviour at sub-second offsets.", "anchors": ["src/instruments/fundamentals/buckets.rs: SecondsBuckets::get_at_mut"]}
{"id": "C27", "title": "Order of tracked statistics", "statement": "bottom <= bottom_max, peak_min <= peak, bottom <= avg <= peak, bottom_max <= peak, bottom <= peak_min, and with nothing recorded all of them equal the current value. peak_avg lies between peak_min and peak, bottom_avg between bottom and bottom_max.", "quantifier": "every non-empty history of recorded values", "why_tests_cant": "All value distributions over the window, including seconds without values.", "anchors": ["src/instruments/gauge/tracking.rs: BucketsStats::from_buckets"]}
{"id": "C28", "title": "A meter counts every occurrence", "statement": "After any sequence of updates at any times a meter's count is the sum of occurrences, where observations of 0 or of more than i64::MAX occurrences are not counted; a ValueMeter's count is the sum of the observed values and durations (in the display unit); snapshots never change the count.", "quantifier": "every sequence of updates and snapshots", "why_tests_cant": "Unbounded histories.", "anchors": ["src/instruments/meter.rs: Meter::update", "src/instruments/other_instruments/value_meter.rs: ValueMeter::update", "src/instruments/fundamentals/metrics_meter.rs: StdMeter::mark"]}
{"id": "C29", "title": "Meter rates depend only on what happened per 5-second interval", "statement": "The reported 1/5/15-minute rates are the exponentially weighted moving average over the complete 5-second intervals since creation, each interval weighing exactly the occurrences marked within it: no interval is lost, counted twice or shifted, regardless of when and how often the meter was updated or snapshotted.", "quantifier": "every monotone schedule of updates and snapshots with arbitrary gaps", "why_tests_cant": "The ticks are caught up lazily; all schedules have to give the same rates.", "anchors": ["src/instruments/fundamentals/metrics_meter.rs: StdMeter::mark, tick_inner, snapshot, EWMA", "src/instruments/meter.rs: get_snapshot, update"]}
{"id": "C30", "title": "Meter rates are sane", "statement": "For non-negative occurrences rates are never negative, never exceed the highest 5-second interval rate seen, and without new occurrences never increase and decay geometrically by (1-alpha) per 5 seconds.", "quantifier": "every history of interval counts, every alpha in [0,1]", "why_tests_cant": "Numeric recurrences over unbounded histories.", "anchors": ["src/instruments/fundamentals/metrics_meter.rs: EWMA::tick, EWMA::update, EWMA::rate"]}
{"id": "C31", "title": "Meter snapshot shows exactly the enabled rates and applies the cutoff", "statement": "A meter snapshot contains count and exactly the enabled rates, a rate below lower_cutoff is shown as 0, any other unchanged.", "quantifier": "every configuration, every state, every cutoff", "why_tests_cant": "All configurations times all rates.", "anchors": ["src/instruments/meter.rs: get_snapshot, MeterSnapshot::put_snapshot"]}
{"id": "C32", "title": "A histogram records exactly the value observations since its last reset", "statement": "Without an inactivity limit a histogram's count is the number of updates that carried a convertible value or a duration (in display units), others are ignored and report 0. With an inactivity limit and reset it contains exactly the values since the last gap longer than the limit.", "quantifier": "every sequence of updates at every times", "why_tests_cant": "Unbounded histories with arbitrary gaps.", "anchors": ["src/instruments/histogram.rs: Histogram::update, put_values_into_snapshot"]}
{"id": "C33", "title": "Histogram inactivity display", "statement": "With an inactivity limit a histogram shows its values iff the last accepted update (before the first one: its creation) is less than the limit ago; when shown, exactly one of _active/_inactive is true; without a limit the values are always shown.", "quantifier": "every state and every clock reading", "why_tests_cant": "Time boundaries.", "anchors": ["src/instruments/histogram.rs: put_values_into_snapshot"]}
{"id": "C34", "title": "A flag shows the last boolean-like value", "statement": "A Flag shows its initial state until a bool or integer value is observed and from then on the last one (non-zero = true); other updates are ignored and report 0; with show_inverted the second item is always the negation of the first.", "quantifier": "every sequence of updates", "why_tests_cant": "Unbounded histories.", "anchors": ["src/instruments/switches/flag.rs: Flag::update, put_snapshot"]}
{"id": "C35", "title": "A staircase timer is on exactly for the configured time after the last tap", "statement": "A StaircaseTimer is on at a moment t iff some update happened and t is not later than the last update plus switch_off_after; tapping again never shortens the time it stays on; invert negates.", "quantifier": "every monotone sequence of taps, every query time, every duration that does not overflow the clock", "why_tests_cant": "All time relations, including the exact boundary.", "anchors": ["src/instruments/switches/staircase_timer.rs: StaircaseTimer::state, update"]}
{"id": "C36", "title": "Occurrence and non-occurrence indicators are complementary time windows", "statement": "An OccurrenceIndicator is on iff the last update is less than happened_within ago; a NonOccurrenceIndicator is on iff no update happened within its window; for equal windows and the same updates exactly one of the two is on at any moment after the first update.", "quantifier": "every monotone sequence of updates, every query time, every window", "why_tests_cant": "All time relations, including the exact boundary.", "anchors": ["src/instruments/switches/occurrence_indicator.rs", "src/instruments/switches/non_occurrence_indicator.rs"]}
{"id": "C37", "title": "Inverted item is the negation of the plain item", "statement": "If a timed switch (StaircaseTimer, OccurrenceIndicator, NonOccurrenceIndicator) is configured with show_inverted, the inverted item in a snapshot is the negation of the plain item of the same snapshot.", "quantifier": "every switch state and all clock readings taken while the snapshot is made", "why_tests_cant": "The two items are computed from two clock readings; the boundary may fall between them.", "anchors": ["src/instruments/switches/staircase_timer.rs: put_snapshot", "src/instruments/switches/occurrence_indicator.rs: put_snapshot", "src/instruments/switches/non_occurrence_indicator.rs: put_snapshot"]}
{"id": "C38", "title": "A data display shows the last value, or the reset value after the timeout", "statement": "A DataDisplay shows the last observed displayable value; with reset_after set it shows the reset value once the timeout since the last accepted update has passed; updates without displayable value are ignored and report 0.", "quantifier": "every sequence of updates and query times", "why_tests_cant": "Unbounded histories and time boundaries.", "anchors": ["src/instruments/other_instruments/display.rs: DataDisplay::update, value, put_snapshot"]}
{"id": "C39", "title": "Last occurrence tracker shows whole seconds since the last update", "statement": "A LastOccurrenceTracker shows the whole seconds elapsed since the last update, nothing (or 0 if so configured) before the first update, and never a larger value right after a later update.", "quantifier": "every sequence of updates and query times, every configuration", "why_tests_cant": "Unbounded histories.", "anchors": ["src/instruments/other_instruments/last_occurrence_tracker.rs"]}
{"id": "C40", "title": "Time measurement", "statement": "measure_time(label, from) transmits the elapsed time since from if from is not in the future and transmits nothing otherwise; the observed duration is exact in nanoseconds.", "quantifier": "every from and every clock reading", "why_tests_cant": "Clock relations.", "anchors": ["src/lib.rs: TransmitsTelemetryData::measure_time, observed_duration"]}
{"id": "C41", "title": "Path lookup in snapshots", "statement": "Snapshot::find(path) ignores leading, trailing and repeated separators, follows one item per segment taking the first item with the segment's name, returns NotFound for an empty path or a missing segment, and returns the value reached at the first non-snapshot item. Looking further in what was found (FindItem::find) finds v exactly if the first path leads to a group and the second path leads from there to v; what is found in two steps is also found by the joined path. find_item does the same from any item with given segments, ignoring empty ones.", "quantifier": "every snapshot tree, every path string, every separator", "why_tests_cant": "All trees and all path strings.", "anchors": ["src/snapshot.rs: Snapshot::find_with_separator, find, find_item, FindItem"]}
{"id": "C42", "title": "Every item of a snapshot can be found by its path", "statement": "If names along the way are unique, non-empty and free of the separator, find of the joined names returns exactly that item; lookups compose: finding a/b equals finding b inside the snapshot found at a.", "quantifier": "every snapshot tree with unique names, every path to an item in it", "why_tests_cant": "All trees.", "anchors": ["src/snapshot.rs: Snapshot::find, Found::find"]}
{"id": "C43", "title": "JSON export keeps every item", "statement": "to_json_value yields an object with, for every item name, the converted value, nested snapshots converted recursively, booleans as 1/0 iff make_booleans_ints; with unique names no item is lost and order is kept. JSON export and find agree on the value of every name.", "quantifier": "every snapshot tree, both settings", "why_tests_cant": "All trees, including duplicate names.", "anchors": ["src/snapshot.rs: Snapshot::to_json_value, ItemKind::to_json_value"]}
{"id": "C44", "title": "Snapshot values as durations", "statement": "to_duration_* on a found integer yields exactly that many units as a Duration for non-negative values, and an error for non-integers and missing items.", "quantifier": "every found item", "why_tests_cant": "All values including negative ones.", "anchors": ["src/snapshot.rs: FindItem/Found to_duration_nanoseconds .. to_duration_seconds"]}
{"id": "C45", "title": "Snapshots only append", "statement": "Putting a snapshot of any built-in component into an existing snapshot keeps all items already there, in order, in front; named panels, cockpits, processors and mounts contribute exactly one item with their name holding what the unnamed variant would have put inline into an empty snapshot.", "quantifier": "every component tree, every existing snapshot, every clock reading", "why_tests_cant": "Unbounded trees and arbitrary existing content.", "anchors": ["src/lib.rs: PutsSnapshot", "src/instruments/panel.rs: put_snapshot", "src/cockpit.rs: put_snapshot", "src/processor.rs: put_snapshot", "src/instruments/mod.rs: Instrument (put_snapshot of every instrument)"]}
{"id": "C46", "title": "Descriptive texts never get in the way of values", "statement": "A non-descriptive snapshot contains no titles/descriptions contributed by components; a descriptive one contains the same value items in the same order plus titles/descriptions; a title or description never replaces or duplicates an existing item label.", "quantifier": "every component tree, every existing snapshot", "why_tests_cant": "Unbounded trees.", "anchors": ["src/util.rs: put_default_descriptives, put_postfixed_descriptives, put_descriptives"]}
{"id": "C47", "title": "Taking a snapshot does not change what is measured", "statement": "Taking snapshots at any moments in between does not change any value a later snapshot shows: running the same updates at the same times with or without intermediate snapshots gives the same later snapshots.", "quantifier": "every instrument, panel, cockpit, processor and mount, every schedule of updates, runs and snapshots", "why_tests_cant": "Snapshots lazily tick buckets and meters; all interleavings matter.", "anchors": ["src/instruments/gauge/mod.rs", "src/instruments/meter.rs", "src/instruments/fundamentals/buckets.rs: SecondsBuckets"]}
{"id": "C48", "title": "Cockpit/processor/mount inactivity", "statement": "With an inactivity limit set, a snapshot of a cockpit, processor or mount taken longer than the limit after the last activity shows no values but _inactive=true/_active=false, otherwise all values and _inactive=false/_active=true; any later activity re-activates it.", "quantifier": "every component, every monotone sequence of observations and snapshot times", "why_tests_cant": "Time boundaries and unbounded histories.", "anchors": ["src/cockpit.rs: put_values_into_snapshot, handle_observation", "src/processor.rs: put_values_into_snapshot, process, ProcessorMount"]}
{"id": "C49", "title": "Panel inactivity", "statement": "With an inactivity limit set, a panel that keeps receiving accepted observations more often than the limit shows its values in every snapshot.", "quantifier": "every panel, every sequence of observations and snapshot times", "why_tests_cant": "Needs the relation of all observation times and snapshot times.", "anchors": ["src/instruments/panel.rs: Panel::handle_observation, put_values_into_snapshot, set_inactivity_limit"]}
{"id": "C50", "title": "Mount outcome is the sum of its processors", "statement": "Processing a ProcessorMount (or a driver run) processes every contained processor exactly once in order, each with the full message budget, and its outcome is the component-wise sum; no processor can starve another.", "quantifier": "every tree of mounts and processors, every max, every strategy", "why_tests_cant": "Unbounded trees.", "anchors": ["src/processor.rs: ProcessorMount::process", "src/driver.rs: do_a_run"]}
{"id": "C51", "title": "Attached mounts deliver everything attached", "statement": "Every processor or snapshooter attached through an AttachedMount handle is, in the order attached, part of the mount after the next processing run, also when the handle was dropped in between, and newly attached processors are processed in that same run.", "quantifier": "every sequence of attach calls and processing runs, every time of dropping the handle", "why_tests_cant": "Schedules of attach calls and processing.", "anchors": ["src/attached_mount.rs: AttachedMount, InternalAttachedMount::process"]}
{"id": "C52", "title": "Driver handles requests one by one in order", "statement": "Messages to a driver are handled in the order sent, one per loop iteration; a snapshot request is answered with a snapshot reflecting every processor/snapshooter added before it and none added after it; each handled request is answered exactly once.", "quantifier": "every sequence of driver calls from any number of handles, every loop schedule", "why_tests_cant": "All schedules of callers and the driver loop.", "anchors": ["src/driver.rs: telemetry_loop, DriverMessage, TelemetryDriver::snapshot"]}
{"id": "C53", "title": "Pause stops processing, nothing else", "statement": "After pause was handled and until resume is handled no processor is run and no metric changes, while snapshot requests, additions and strategy changes are still handled; after resume processing continues with nothing lost. A changed strategy applies from the next run on.", "quantifier": "every sequence of driver messages, every number of loop iterations", "why_tests_cant": "All schedules.", "anchors": ["src/driver.rs: telemetry_loop, pause, resume, change_processing_stragtegy"]}
{"id": "C54", "title": "A driver runs as long as a handle exists and answers or fails every snapshot call", "statement": "The driver thread keeps running while any TelemetryDriver handle is alive; after the last handle is dropped it stops within one iteration once it sees that, and at the latest when all messages in its queue are handled (the flag is read with relaxed ordering, so it may be seen late); if the thread has ended (stopped or panicked) snapshot calls return an error instead of hanging.", "quantifier": "every sequence of clone/drop/snapshot calls, every loop schedule", "why_tests_cant": "All schedules, including drop in the middle of a run.", "anchors": ["src/driver.rs: DropGuard, TelemetryDriver::snapshot, snapshot_async, start_telemetry_loop, telemetry_loop"]}
{"id": "C55", "title": "Driver metrics add up", "statement": "If driver metrics are enabled the _metrix entry shows totals that add up over all runs: processed/dropped/received counts are the sums of the outcomes of all runs since start.", "quantifier": "every sequence of runs and snapshots", "why_tests_cant": "Unbounded histories.", "anchors": ["src/driver.rs: DriverInstruments, DriverMetrics, update_post_collection, put_snapshot"]}
{"id": "C56", "title": "Inactivity alarm of the driver", "statement": "The driver's inactivity indicator turns on when no observations arrived for its window.", "quantifier": "every sequence of runs", "why_tests_cant": "Histories over time.", "anchors": ["src/driver.rs: DriverInstruments::update_post_collection, inactivity_alarm"]}
{"id": "C57", "title": "Release builds do not panic on any observation sequence", "statement": "In a release build handling observations and taking snapshots never panics, for any observations, unless a configured duration exceeds the range of the platform clock.", "quantifier": "every component tree of built-in components, every observation sequence, every clock", "why_tests_cant": "All inputs, including overflow boundaries.", "anchors": ["src/instruments/mod.rs: Instrument, Updates (every instrument)", "src/cockpit.rs", "src/processor.rs"]}
{"id": "C58", "title": "Mounting drivers in each other", "statement": "Snapshots of drivers mounted into each other's hierarchies are answered as long as the mount relation has no cycle.", "quantifier": "every mount relation of drivers, every schedule", "why_tests_cant": "Deadlocks depend on structure and schedule.", "anchors": ["src/driver.rs: impl PutsSnapshot for TelemetryDriver, TelemetryDriver::snapshot"]}
{"id": "C59", "title": "A snapshot shows every instrument in the group of the containers around it", "statement": "A snapshot of a panel, cockpit, processor, mount or driver contains the values of every instrument, handler and snapshooter in it, no matter how deeply nested, in the group that is made of the names of the named containers around it (containers without a name make no group), unless a container around it is inactive and shows that. Without descriptive texts a snapshot contains nothing else but the groups of the containers and the activity flags.", "quantifier": "every tree of panels, cockpits, handlers, snapshooters, processors, mounts and drivers, every clock, every snapshot that the values are added to", "why_tests_cant": "Trees are unbounded in depth and width, and each kind of container can be forgotten, shown twice or put in the wrong group in its own way.", "anchors": ["src/instruments/panel.rs: Panel::put_values_into_snapshot", "src/cockpit.rs: Cockpit::put_values_into_snapshot", "src/processor.rs: TelemetryProcessor::put_values_into_snapshot, ProcessorMount::put_values_into_snapshot", "src/driver.rs: put_values_into_snapshot, add_snapshot_values", "src/instruments/polled.rs: PollingInstrument::put_snapshot"]}
{"id": "C60", "title": "Totals do not depend on the schedule", "statement": "When any number of threads send observations to a processor whose queue has no limit or makes senders wait, and the owner goes on processing until everything was processed, then every counter, meter, value meter, histogram and gauge that is fed by changes or by increments and decrements shows the total of all observations of all threads that are meant for it. The total depends only on what the threads send: not on how the threads interleave, how many messages are processed per run, how large the queue is, when snapshots are taken or what the clock shows.", "quantifier": "any number of threads with any programs, every schedule, every capacity of the queue, every sequence of processing runs, snapshots and settings, every tree of panels and cockpits, every clock", "why_tests_cant": "The number of interleavings grows exponentially with the number of messages, and a lost or doubled observation may show only in one of them.", "anchors": ["src/processor.rs: TelemetryProcessor::process", "src/cockpit.rs: Cockpit::handle_observation", "src/instruments/panel.rs: Panel::handle_observation", "src/instruments/instrument_adapter.rs: InstrumentAdapter", "src/instruments/mod.rs: Update", "src/instruments/counter.rs: Counter::update", "src/instruments/meter.rs: Meter::update", "src/instruments/other_instruments/value_meter.rs: ValueMeter::update", "src/instruments/histogram.rs: Histogram::update", "src/instruments/gauge/mod.rs: GaugeAdapter"]}
{"id": "C61", "title": "Instruments that are meant for the same observations never disagree", "statement": "Whatever the queue loses, whatever is dropped because of its age and at whatever moment a snapshot is taken: an observation reaches all instruments that are meant for it, or none. So two counters for the same labels are always raised by the same amount, a counter for several labels shows the sum of counters for each of them, a histogram for several labels (without resets) contains the values of the histograms for each of them, each value as often as these together, a meter has counted what a counter shows, a meter of values has counted the sum of the values in a histogram, and a gauge that goes up and down on labels shows the difference of the counters for these labels.", "quantifier": "any number of threads, every schedule, every queue (bounded or not, blocking or losing), every strategy, every sequence of runs, snapshots and settings, every tree of panels and cockpits, every clock", "why_tests_cant": "A disagreement may depend on one particular interleaving, on which message was lost, or on where in the tree the instruments are.", "anchors": ["src/processor.rs: TelemetryProcessor::process", "src/cockpit.rs: Cockpit::handle_observation", "src/instruments/panel.rs: Panel::handle_observation", "src/instruments/counter.rs: Counter::update", "src/instruments/meter.rs: Meter::update", "src/instruments/gauge/gauge_adapter.rs: GaugeAdapter::inc_dec_on", "src/instruments/histogram.rs: Histogram::update"]}
{"id": "C62", "title": "Nothing is shown that was not sent, and totals never go back", "statement": "A counter or meter never shows more than what it started with plus everything that the threads send for it, and never less than it showed before; a histogram contains only values that were sent for it (or that it contained before), each at most as often as it was sent.", "quantifier": "any number of threads, every schedule, every queue, every strategy, every sequence of runs, snapshots and settings, every tree of panels and cockpits, every clock", "why_tests_cant": "An observation that is processed twice, or that reaches the wrong instrument, may need a particular interleaving or a particular tree.", "anchors": ["src/processor.rs: TelemetryProcessor::process", "src/instruments/counter.rs: Counter::update", "src/instruments/meter.rs: Meter::update", "src/instruments/histogram.rs: Histogram::update"]}
{"id": "C63", "title": "An instrument reacts to exactly the labels it was made for", "statement": "An instrument made with `accept`, `for_label`, `for_labels`, `for_all_labels`, `for_labels_by_predicate` or `adapter` is updated by exactly the observations whose labels these name, in order, and by no other; every other observation leaves it as it is. A gauge made for changes only takes only the changes, a gauge made with `inc_dec_on_..` goes up and down by one with the labels named and ignores their values. A panel lets in exactly the labels it was made for, whatever is added to it.", "quantifier": "every instrument, every way of naming labels (one, several, tuples, predicates, all, none), every history of observations and snapshots, every clock", "why_tests_cant": "A filter that lets one label too many through is only seen with that label; the set of labels and the histories are unbounded.", "anchors": ["src/instruments/instrument_adapter.rs: InstrumentAdapter", "src/instruments/gauge/gauge_adapter.rs: GaugeAdapter", "src/instruments/label_filter.rs: LabelFilter", "src/instruments/panel.rs: Panel::accept"]}
{"id": "C64", "title": "Of each setting the last one counts, and settings do not disturb what was measured", "statement": "After any sequence of builder and setter calls on an instrument, every setting has the value of the last call for it, whatever was set in between, and settings that were never made have the value they had. What the instrument measured is not touched, except where a setting replaces it: the value of a gauge or flag, the window of a gauge when tracking is set again, the displayed value when the reset value of a display is set, and the last occurrence when the time of an occurrence indicator is set.", "quantifier": "every instrument in every state, every finite sequence of settings in any order, every clock", "why_tests_cant": "The number of sequences of settings is unbounded; a setter that writes the wrong field only shows in combination with another one.", "anchors": ["src/instruments/counter.rs: Counter", "src/instruments/gauge/mod.rs: Gauge", "src/instruments/meter.rs: Meter", "src/instruments/histogram.rs: Histogram", "src/instruments/other_instruments/value_meter.rs: ValueMeter", "src/instruments/other_instruments/display.rs: DataDisplay", "src/instruments/other_instruments/last_occurrence_tracker.rs: LastOccurrenceTracker", "src/instruments/switches/flag.rs: Flag", "src/instruments/switches/staircase_timer.rs: StaircaseTimer", "src/instruments/switches/occurrence_indicator.rs: OccurrenceIndicator", "src/instruments/switches/non_occurrence_indicator.rs: NonOccurrenceIndicator"]}
{"id": "C65", "title": "What was sent arrives in the snapshots of the driver", "statement": "A processor that is added to a driver, on its own or within mounts of any depth, is run once in each run of the driver from then on, with at most 1000 messages and the strategy in force, and keeps its place. If its queue loses nothing, observations are not dropped because of their age and the driver has run often enough for the number of messages, then each snapshot the driver makes shows everything that was sent: a counter shows its initial value plus all occurrences that were meant for it, under its name in the group made of the names of the driver, the mounts, the processor, the cockpit and the panels around it.", "quantifier": "every driver, every sequence of messages to it (pauses, snapshots, other processors added), every depth of mounts, every processor, every number of sending threads, every schedule and every clock", "why_tests_cant": "It joins sender, queue, processor, mounts, driver and snapshot: the interleavings and the shapes of the tree are unbounded, and a test sees one of them.", "anchors": ["src/driver.rs: telemetry_loop, do_a_run, put_values_into_snapshot", "src/processor.rs: ProcessorMount::process, TelemetryProcessor::process", "src/attached_mount.rs: AttachedMount::process", "src/cockpit.rs: Cockpit::handle_observation, put_snapshot", "src/instruments/counter.rs: Counter"]}
{"id": "C66", "title": "What is attached to a running driver is driven and shown", "statement": "An attached mount is added to a driver, on its own or within other mounts, and its handles are used later by any threads. Every processor a handle attaches arrives: once the handle has done its calls and the driver has run again, the processor is part of the mount. This also holds via further attached mounts that are themselves attached. From the run of its arrival on the processor is run once in each run of the driver, with at most 1000 messages and the strategy in force. If its queue loses nothing and the driver has run often enough since then, each snapshot of the driver shows the totals of everything that was sent to it, also of what was sent before it arrived, in the group made of the names of the driver, all mounts on the way, the processor and its containers.", "quantifier": "every driver, every sequence of messages to it, every nesting of mounts and attached mounts, every time of attaching, every use of the handles by any number of threads, every schedule and every clock", "why_tests_cant": "It joins two kinds of channels (handle to mount, transmitter to processor) with the driver loop and the snapshot; a test sees one schedule, one nesting and one moment of attaching.", "anchors": ["src/attached_mount.rs: AttachedMount, InternalAttachedMount::process", "src/driver.rs: telemetry_loop, TelemetryDriver", "src/processor.rs: ProcessorMount::process, TelemetryProcessor::process"]}
{"id": "C67", "title": "Only configuration changes the configuration", "statement": "Names, titles, descriptions, label filters, units, limits, the number of tracked seconds and which component is where in a processor are determined by what its owner configures and by the configuration messages it receives, in the order of both. Observations and snapshots never change any of it: if nobody configures the processor it shows the same things in the same groups for ever, whatever is observed, dropped and shown, and a gauge that tracks never uses more buckets than at the beginning. This also holds for a processor within mounts in a driver.", "quantifier": "every processor with every tree of components, every sequence of runs, snapshots, settings and messages, every schedule of the sending threads, every strategy and every clock", "why_tests_cant": "It is about every instrument and container at every depth and after every history; a test sees a few observations and a few fields.", "anchors": ["src/processor.rs: TelemetryProcessor::process, put_snapshot", "src/instruments/panel.rs: Panel", "src/cockpit.rs: Cockpit", "src/instruments/fundamentals/buckets.rs: SecondsBuckets", "src/instruments/gauge/mod.rs: Gauge"]}
{"id": "C68", "title": "Every kind of instrument is complete in the snapshots of the driver", "statement": "A processor that is added to a driver, or attached later to something that was, ends up with everything that was sent to it once the driver has run often enough, and each snapshot of the driver then shows the totals: the counts of meters and value meters, the number of values in histograms and the difference of increments and decrements of a gauge on labels. A gauge that is fed by changes of values shows their exact sum under every strategy that keeps changes, as the default strategy does, even if all of them were too old when the driver got to them.", "quantifier": "every driver with every history of messages, pauses and strategies, every route of mounts and attached mounts to the processor, every place in the processor, all programs of the sending threads and every schedule, every clock", "why_tests_cant": "It depends on how the threads interleave with the driver and on how late it is; a test sees a few schedules and hardly ever a backlog older than the limit.", "anchors": ["src/driver.rs: start_telemetry_loop, do_a_run", "src/processor.rs: ProcessingStrategy, TelemetryProcessor::process", "src/instruments/meter.rs: Meter", "src/instruments/histogram.rs: Histogram", "src/instruments/gauge/gauge_adapter.rs: GaugeAdapter", "src/instruments/other_instruments/value_meter.rs: ValueMeter"]}
{"id": "C69", "title": "What is built is what the steps of its construction say", "statement": "Panels, cockpits, processors, mounts, polling instruments, constants and drivers are put together by any sequence of setters, builder methods and adders. Of each setting (name, title, description, inactivity limit, visibility of the activity, grouping, strategy, driver metrics, modification of updates) the last one counts and what was never set keeps its documented default. Nothing that was added is lost, doubled or reordered, and no setting touches what was added. Under a name a cockpit or processor holds the first panel or cockpit that was added since the name was last removed. A driver that was built answers in a group of its last name, with its last texts first and its own metrics last unless they are disabled.", "quantifier": "every sequence of setters and adders in every order, every component they are applied to, every later history of the driver", "why_tests_cant": "There are as many orders of construction as there are programs; a test tries each setter once on a fresh component.", "anchors": ["src/instruments/panel.rs: Panel::add_counter .. show_activity_state", "src/cockpit.rs: Cockpit::set_name .. snapshooter", "src/processor.rs: TelemetryProcessor::add_cockpit .. show_activity_state, ProcessorMount::set_name, ProcessorMount::set_inactivity_limit", "src/instruments/polled.rs: PollingInstrument, ConstantValue", "src/driver.rs: DriverBuilder", "src/instruments/instrument_adapter.rs: InstrumentAdapter::modify_with"]}
{"id": "C70", "title": "Snapshots keep to a fixed schema", "statement": "Which keys a component may show, in which order, in which groups, of which kinds of values, which of them may be missing and which are missing together is determined by its configuration alone. Whatever is observed or dropped, and whenever and by whomever snapshots are taken, every snapshot of an instrument, panel, cockpit, processor, mount or driver (with or without its own metrics, with or without descriptions) fits this schema, as long as nobody reconfigures what is in it. There is never another key, never a key twice that is once in the schema, and never a value of another kind.", "quantifier": "every configuration and tree, every history of observations and snapshots, every schedule of the threads that send, every life of a driver and every answer it gives, both kinds of snapshots (descriptive or not)", "why_tests_cant": "Consumers parse the snapshots of a running system; a test sees the snapshots after a few histories, not those after all of them.", "anchors": ["src/instruments/mod.rs: Instrument (put_snapshot of every instrument)", "src/cockpit.rs: put_snapshot", "src/processor.rs: put_snapshot", "src/driver.rs: put_values_into_snapshot, add_snapshot_values, DriverInstruments::put_snapshot", "src/util.rs: put_default_descriptives, put_postfixed_descriptives"]}
{"id": "C71", "title": "A number stays the same number on its way", "statement": "A value of any integer type (i8 to i64, u8 to u64, usize, isize) that is put into a snapshot is shown as exactly this number, as a signed integer iff its type is signed, and is exactly this number in JSON. Observed with a transmitter it arrives as this number: a data display shows it (until the time to reset has passed), a gauge, meter or histogram takes it if it is an i64 and ignores it otherwise (a gauge then shows what it would show without it), a flag is on iff it is not zero. The changes users request (Increment, Decrement, IncrementBy, DecrementBy, ChangeBy) are the changes that arrive.", "quantifier": "every integer type, every value of it, every history of a component before and after the observation", "why_tests_cant": "The casts must be right at all values of ten types, after every history; tests try a few values.", "anchors": ["src/observation.rs: From impls for ObservedValue, convert_to_i64, convert_to_u64, convert_to_bool, to_item_kind", "src/snapshot.rs: From impls for ItemKind, From<ObservedValue> for Option<ItemKind>", "src/instruments/other_instruments/display.rs: update", "src/instruments/gauge/mod.rs: update", "src/instruments/switches/flag.rs: update"]}
{"id": "C72", "title": "Statistics of the allocator are complete or absent", "statement": "JemallocStats shows what the allocator answers, in order, up to the first error: the six statistics together in the group stats or not at all, then the number of arenas in a group arenas, then max_background_threads, each only if everything before was answered; every number is the one that was answered. After an error nothing more is asked. Whatever the allocator answers, what was in the snapshot before stays, nothing panics, and what is shown keeps to one schema; it can be a snapshooter anywhere in a tree without invalidating what holds for trees.", "quantifier": "every sequence of answers and errors of the allocator, every snapshot it is put into, every position in a tree", "why_tests_cant": "Errors of the allocator cannot be provoked in a test, let alone all combinations of them.", "anchors": ["src/instruments/jemalloc.rs: JemallocStats::put_snapshot"]}
{"id": "C73", "title": "Without name clashes in the configuration nothing in a snapshot is hidden", "statement": "If no group that the configuration of a processor or driver describes uses a name for two items that may be there at the same time, then in every snapshot every item is the only one with its path: find with the joined names returns exactly it, and the JSON has its value at that path. In particular, whoever asks a driver for a snapshot after the observations were processed and looks up the path of a counter (driver, mounts, processor, cockpit, panels, name) gets the number of occurrences that were sent and meant for it.", "quantifier": "every configuration without clashing names, every history of observations and runs that does not reconfigure, every snapshot and every item in it", "why_tests_cant": "Whether something hides something else depends on which optional items are there at the moment of the snapshot, in combination with all names of a tree.", "anchors": ["src/snapshot.rs: Snapshot::find", "src/snapshot.rs: Snapshot::to_json", "src/driver.rs: DriverBuilder", "src/processor.rs: put_snapshot"]}
{"id": "C74", "title": "What was accepted is shown after the runs that its backlog needs", "statement": "Messages that wait in the queue of a processor are consumed by the next runs, in order and before everything that is sent later: n waiting messages need no more than n polls. So after a driver has made r runs, everything that a processor had accepted before them is in its snapshots if at most 1000*r messages were waiting, whatever other threads send meanwhile; a counter then shows at least the occurrences in it, and never more than those in everything that was accepted.", "quantifier": "every processor in a driver, on its own or within mounts, every schedule of senders, every backlog, every moment", "why_tests_cant": "Senders and the driver run concurrently; that nobody can overtake or starve a waiting message must hold for all schedules and amounts.", "anchors": ["src/processor.rs: TelemetryProcessor::process", "src/driver.rs: do_a_run", "src/driver.rs: DriverBuilder"]}
{"id": "C75", "title": "Sending waits only where it was asked for, and only for the processor", "statement": "With the default queue, which has no limit, and with a queue that drops messages if it is full, every call that sends completes in one step: a thread that could take n steps has sent its first n messages, whatever the processor and the other threads do. With a queue that blocks if it is full a call waits if and only if the queue is full and the processor exists: as soon as the processor takes a message or is dropped, the next thread that takes a step has sent its message. While a driver is paused nothing is taken, so senders to a full blocking queue wait until it is resumed.", "quantifier": "every number of threads, every program of each thread, every schedule, every capacity, every life of a driver", "why_tests_cant": "Whether a thread can be held up depends on the interleaving of all threads with the processor and driver; no test covers all of them.", "anchors": ["src/lib.rs: TelemetryTransmitter::send", "src/processor.rs: TelemetryProcessor::new_pair", "src/processor.rs: TelemetryProcessor::new_pair_bounded", "src/driver.rs: telemetry_loop"]}
{"id": "C76", "title": "Each call of a transmitter reports exactly what it says", "statement": "Every call of a transmitter succeeds and hands over at most one message. A call that reports something hands over exactly one observation with the label, the number of occurrences, the value and the moment given to the call; calls without a timestamp use the moment of the call, calls with a duration report it in nanoseconds without loss (up to 584 years), and measuring time from an instant reports the time that has passed since, or nothing if the instant is in the future. A call that changes the configuration sends exactly one message, whose effect on the processor is the one the call names, in every processing strategy. So, if nothing is lost, a counter shows what it started with plus the occurrences given to all calls of all threads with labels it is meant for. Making an observation first (Observation::observed_now and so on) and then transmitting it hands over the same as the transmitter's function with that name.", "quantifier": "every sequence of calls in every thread, every label, value, duration and clock, every state of the receiving processor, every schedule", "why_tests_cant": "There are fifteen calls with unbounded arguments, any number of threads and every interleaving with the processor; a swapped argument or a dropped count shows up only for some values.", "anchors": ["src/lib.rs: TransmitsTelemetryData", "src/lib.rs: TelemetryTransmitter", "src/processor.rs: TelemetryMessage", "src/processor.rs: TelemetryProcessor::process", "src/observation.rs: Observation::observed, observed_now, observed_one, observed_one_now, observed_one_value, observed_one_value_now"]}
{"id": "C77", "title": "A driver shows which share of its time it spends on processing", "statement": "With metrics, every snapshot of a driver shows in iteration_update_ratio_per_mille the share measured in the last iteration in which it was measured: the time from just before the run to just after it, divided by the time from the beginning of the iteration to the end of the break after the run, in thousandths, rounded down (with f64 off by at most 1); it shows no value if it was never measured. It is measured in exactly those iterations with a run in which nothing was dropped, no more than 100 observations were processed and some time passed; the histogram with the same name counts them. The number is always between 0 and 1000, 0 if the run took no time, 1000 if it took all the time, and it does not shrink if the run takes longer.", "quantifier": "every life of a driver with any processors, threads and schedules, every monotone clock with iterations shorter than 2^53 seconds, every rounding that is monotone and exact on small integers", "why_tests_cant": "The share depends on all clock readings of an iteration and on floating point division of rounded durations; that it never exceeds 1000 must hold for all of them.", "anchors": ["src/driver.rs: telemetry_loop", "src/driver.rs: report_elapsed_stats", "src/driver.rs: DriverMetrics::update_run_ratio", "src/driver.rs: DriverInstruments"]}
{"id": "C78", "title": "A meter shows a steady rate as it is and approaches it after every change", "statement": "If the same was counted in every complete interval of 5 seconds, then all rates a meter shows are exactly the rate of one interval: averaging adds no error of its own, however many intervals there were. The shown rate never undercuts the lowest rate of all complete intervals. When what is counted per interval changes and then stays the same, the shown rate moves towards the new rate with every interval, never away from it and never beyond it; its distance shrinks by the factor 1 - alpha per interval, up to a rounding error that grows at most linearly with the number of intervals.", "quantifier": "every history of a meter, every number of intervals and count, every weight up to 1/4, every rounding of floating point operations that is monotone, odd, idempotent and at most doubles", "why_tests_cant": "Rounding errors could add up over any number of intervals or push the average beyond the rate it approaches; that they do not must hold for all counts, weights and lengths.", "anchors": ["src/instruments/meter.rs: Meter", "src/instruments/other_instruments/value_meter.rs: ValueMeter", "src/instruments/fundamentals/metrics_meter.rs: StdMeter, EWMA::tick, EWMA::rate"]}
{"id": "C79", "title": "A driver rests when there is little to do, and only then", "statement": "After a run in which observations were dropped or more than 100 were processed a driver goes on at once. After any other run it rests until 10 milliseconds have passed since that run began, and not at all if they have passed already. A paused driver rests for 50 milliseconds in each iteration, and only a paused one does. No rest is longer than that, so calls are looked at after at most 10 or 50 milliseconds plus the time of the work itself. Consequently a driver does not use up a processor: from any iteration to any later one at least 10 milliseconds pass for each iteration in between with little to do, and 50 for each one while paused.", "quantifier": "every life of a driver with any processors, threads and schedules; for the pace every monotone clock, and sleeps that last at least as long as asked for", "why_tests_cant": "The length of each rest is the difference of clock readings around arbitrary work; a difference the wrong way round would panic or sleep forever only in rare timings, and a missing rest is seen only as load.", "anchors": ["src/driver.rs: telemetry_loop", "src/driver.rs: TelemetryDriver::pause", "src/driver.rs: do_a_run"]}
{"id": "C80", "title": "The rates of meters are numbers of limited size", "statement": "Every rate that a Meter or ValueMeter shows is a finite number from 0 to 2^65 per second, whatever it was told before (also negative values) and whenever: never NaN, never infinite, never negative. No float operation inside the averages overflows. Finding: the bound is nearly reached, a ValueMeter that observed only -1 shows a rate of (2^64 - 1) / 5 per second.", "quantifier": "every history of updates and snapshots at monotone times, every rounding like that of f64, all weights up to 1/4, every configuration and cutoff", "why_tests_cant": "Overflow or NaN would need particular sequences of amounts and times; tests see a few of them. The bound must hold for all, including wrapped negative amounts.", "anchors": ["src/instruments/fundamentals/metrics_meter.rs: EWMA::tick, EWMA::rate, StdMeter::mark", "src/instruments/meter.rs: Meter::get_snapshot", "src/instruments/other_instruments/value_meter.rs: ValueMeter::get_snapshot"]}
{"id": "C81", "title": "Builds with and without checks for overflow show the same", "statement": "Whatever a build with overflow checks (debug) does without panicking, a build without them (release) does in exactly the same way: the same results, snapshots, answers and outcomes. This goes for instruments, panels, cockpits, processors, mounts and the thread of a driver; up to a panic the driver does the same in both. What panics without checks panics with them, too.", "quantifier": "every history of every component (any tree of panels, cockpits, processors, mounts and drivers, any user-defined parts that keep to it themselves), every schedule of other threads, every clock", "why_tests_cant": "Tests run in one of the two builds, usually the one with checks, while the other one goes into production. That both agree must hold for every history.", "anchors": ["src/instruments/counter.rs: Counter::inc_by", "src/instruments/gauge/mod.rs: Gauge::next_value", "src/instruments/gauge/tracking.rs: Bucket::update, BucketsStats::from_buckets", "src/instruments/fundamentals/metrics_meter.rs: StdMeter::mark", "src/observation.rs: From<Duration>", "src/driver.rs: telemetry_loop", "Cargo.toml: (no profile overrides)"]}
{"id": "C82", "title": "Below a limit no build panics", "statement": "As long as everything that is observed adds up to little enough, no build panics, not even one with checks for overflow: no sequence of observations and snapshots makes a panel, cockpit or handler panic, no sequence of runs and snapshots a processor or mount, and the thread of a driver ends only when all handles are gone and answers every request until then. Little enough means: fewer than 2^63 occurrences in total, and the number of observations times the largest value a gauge can show (the largest observed number, plus all changes, plus one per observation) is below 2^63. A billion observations of numbers up to five billion with changes of up to a billion in total are little enough. A driver with metrics about itself also adds up what its runs report. For it, little enough also means: the number of iterations times the sum of that number and the most a run can report is below 2^63. A run reports at most, for each message that is sent to a processor, one message and the updates of all instruments of the processor; the share of time in thousandths, at most 1000, counts as well. With at most a thousand reported per run, a billion iterations are little enough. The limit is needed: two values of 2^62 within a second make a gauge that tracks its values panic in a build with checks.", "quantifier": "every tree of panels, cockpits, processors and mounts with instruments within their limits (new ones are), every sequence of operations, every schedule of other threads, every clock with room for the configured durations, both builds; user-defined parts are assumed not to panic themselves; for a driver with metrics the clock is monotone, the program runs for less than 584 years, and user-defined parts report a limited number of updates at once", "why_tests_cant": "Overflows need a lot of data over a long time. That all sums and counts, also those only computed in snapshots, stay in range needs a bound that holds in every reachable state.", "anchors": ["src/instruments/counter.rs: Counter::inc_by", "src/instruments/gauge/mod.rs: Gauge::set, next_value", "src/instruments/gauge/tracking.rs: Bucket::update, BucketsStats::from_buckets", "src/instruments/fundamentals/metrics_meter.rs: StdMeter::mark", "src/instruments/meter.rs: Meter::update", "src/processor.rs: TelemetryProcessor::process", "src/driver.rs: telemetry_loop", "src/driver.rs: DriverInstruments"]}
{"id": "C83", "title": "Nobody waits for a driver that has ended", "statement": "When the thread of a driver ends, because all handles were dropped or by a panic, every processor that was given to the driver is dropped: those it runs, on their own or within mounts of any depth, the one it was about to add, those in its queue, those attached to its attached mounts whether they had arrived or not, and those given to it by handles afterwards. From then on no thread that sends to one of them waits, also if its queue is full and blocks: each call of send completes in one step and the message is lost. As long as the driver runs, no processor that was added to it is dropped.", "quantifier": "every driver, every sequence of messages to it, every way its thread ends, every nesting of mounts and attached mounts, every number of sending threads, every capacity and every schedule before and after the end", "why_tests_cant": "The end may come at any point: between any two messages, with any processors still on their way, while any threads wait.", "anchors": ["src/driver.rs: telemetry_loop, start_telemetry_loop, TelemetryDriver::add_processor, DropGuard", "src/attached_mount.rs: InternalAttachedMount, AttachedMount::put_processor", "src/lib.rs: TelemetryTransmitter::send", "src/processor.rs: TelemetryProcessor, ProcessorMount"]}
{"id": "C84", "title": "A thread that uses several processors", "statement": "A thread may have transmitters of several processors and use them in any order. What each processor gets is what it could also get if the others did not exist. The calls of a thread are completed in their order, across all processors: when a processor has got a message of a thread, everything the thread sent earlier to any processor was sent. If another processor, whose queue loses nothing, is asked afterwards as often as it has messages, it has got all of this too, in order. Queues that block do not block each other: if each processor is asked now and then and each thread gets its turn, all threads get done. But a snapshot made in between may show what a thread sent later to one processor without what it sent earlier to another.", "quantifier": "every number of processors and threads, every program of each thread, all capacities and whether sending blocks, every interleaving of calls and of what the processors do, including the drop of any of them", "why_tests_cant": "Which calls fall between the turns of two processors depends on the scheduler. A test sees few of the interleavings, and a deadlock or a wrong order needs a particular one.", "anchors": ["src/lib.rs: TelemetryTransmitter::send", "src/processor.rs: TelemetryProcessor::process, TelemetryProcessor::create", "src/driver.rs: telemetry_loop, do_a_run"]}
{"id": "C85", "title": "What a mounted driver shows is passed on", "statement": "A driver can be mounted in another driver, directly or within mounts of any depth, and that one again in another. Each snapshot of the outer driver has everything the mounted driver answered, in the order of the answer, in the group formed by the names of the outer driver and the mounts around the mounted one. The mounted driver keeps its place for as long as the outer driver runs. It is asked exactly once for each request for a snapshot, or not at all if a mount around it hides its contents because of inactivity, and never in a run. If it cannot answer, nothing of it is shown, and everything else is shown as usual. So a counter in the innermost driver shows, in the snapshot of the outermost one, all occurrences that were sent to it.", "quantifier": "all drivers, mounts and nesting depths, all snapshots and answers, and all histories of the outer driver", "why_tests_cant": "A test has a fixed nesting, a fixed number of requests and one moment at which the inner driver stops answering.", "anchors": ["src/driver.rs: impl PutsSnapshot for TelemetryDriver, impl ProcessesTelemetryMessages for TelemetryDriver, TelemetryDriver::snapshot, put_values_into_snapshot", "src/processor.rs: ProcessorMount::put_snapshot", "src/attached_mount.rs: InternalAttachedMount"]}
{"id": "C86", "title": "Labels matter only to what is asked about them", "statement": "Labels have no effect other than through label filters, modifiers of updates and the user's own handlers. Replace the labels of a program by others, of any type, such that each filter, modifier and handler treats each new label as it treated the old one. Then all processors, mounts and drivers return the same outcomes and the same snapshots as before, panic if and only if they did before, and a driver sleeps equally long. In particular: if different labels get different new names, in observations and filters alike, nothing changes. Two filters that accept the same labels are interchangeable, whether they are a list or a predicate. And a processor does not notice that others beside it have labels of another type.", "quantifier": "all trees of panels, cockpits, processors and mounts, all messages and schedules, all mappings of labels, all sequences of runs and snapshots, and any number of iterations of a driver", "why_tests_cant": "Tests use a few label types and a few filters. They cannot compare all programs that differ in their labels only.", "anchors": ["src/instruments/label_filter.rs: LabelFilter::accepts", "src/instruments/instrument_adapter.rs: InstrumentAdapter::handle_observation", "src/instruments/gauge/gauge_adapter.rs: GaugeAdapter::handle_observation", "src/instruments/panel.rs: Panel::handle_observation", "src/processor.rs: TelemetryProcessor::process, ProcessorMount", "src/driver.rs: telemetry_loop"]}
{"id": "C87", "title": "Only the time that passes matters", "statement": "It does not matter when a program is started. Let all clock readings, all timestamps of observations and all start times that are given to measure_time be later by the same duration, or earlier. Then each instrument, processor, mount and driver does the same: it returns the same outcomes, shows the same snapshots, sleeps equally long and reads the clock equally often, and it panics if and only if it did before, provided that the limits of Instant are later by this duration as well. Wherever these limits are, the results are the same if neither program panics. The user's own types and modifiers of updates may use times, if they only compare them.", "quantifier": "all durations, all trees of panels, cockpits, processors and mounts with any moments stored in them, all clocks (also those that go back), all messages and schedules, all sequences of runs and snapshots, and any number of iterations of a driver", "why_tests_cant": "A test runs at one time. It cannot compare the runs of all programs at all times.", "anchors": ["src/instruments/meter.rs: Meter", "src/instruments/gauge/mod.rs: Gauge", "src/instruments/fundamentals/buckets.rs: SecondsBuckets", "src/instruments/histogram.rs: Histogram", "src/instruments/other_instruments/display.rs: DataDisplay", "src/lib.rs: TelemetryTransmitter::measure_time", "src/processor.rs: ProcessingStrategy::DropOlderThan, TelemetryProcessor::process", "src/driver.rs: telemetry_loop", "src/instruments/switches/staircase_timer.rs: StaircaseTimer", "src/instruments/switches/occurrence_indicator.rs: OccurrenceIndicator", "src/instruments/switches/non_occurrence_indicator.rs: NonOccurrenceIndicator"]}
{"id": "C88", "title": "What is printed can be told apart and read back", "statement": "An integer that was found in a snapshot is printed in decimal, so that it is read back as the same number. Two integers have the same text exactly if they are the same number, whether they are signed or not. Numbers, truth values and snapshots are never printed alike, snapshots only if they have equally many items. The text for an item that was not found is not that of a number, a truth value, a snapshot or a duration. Hence each number in a snapshot can be read from what is printed for its path. Texts are printed as they are, so they may look like anything.", "quantifier": "all items, all snapshots and paths, and all ways in which the standard library may print floats and durations", "why_tests_cant": "Tests print some numbers. They cannot compare the texts of all pairs of items.", "anchors": ["src/snapshot.rs: Display for ItemKind, Display for FindItem, Display for FindDurationItem", "src/snapshot.rs: Snapshot::find_with_separator"]}
{"id": "C89", "title": "It does not matter how the messages are divided into runs", "statement": "Two processors with the same contents to which the same happens show the same in all later snapshots, and the numbers in the outcomes of their runs add up to the same. What happens to a processor is that it handles certain messages in a certain order, each at a certain moment with a certain strategy, and is configured by its owner. It does not matter how many messages each run handles, how many runs find nothing to do, how the queue is bounded, who sends, and how many snapshots are taken in between. In particular, messages that wait in the queue can be handled by one run or by any number of runs at the same moment.", "quantifier": "all processors, all sequences of messages and configurations, all pairs of ways to divide them into calls, all later snapshots", "why_tests_cant": "The ways to divide a sequence of messages into runs are exponentially many, and each kind of instrument, filter and strategy could react to where a run begins.", "anchors": ["src/processor.rs: TelemetryProcessor::process", "src/processor.rs: TelemetryProcessor::put_values_into_snapshot", "src/driver.rs: do_a_run"]}
{"id": "C90", "title": "The timestamp of an observation decides only whether it is dropped", "statement": "The timestamp that the user passes with an observation has no influence on what any instrument measures or shows. It is only compared with the age limit of a processor that drops old observations. Two processors with the same contents to which the same happens, except that observations carry other timestamps which lead to the same decision to keep or to drop, show the same in all later snapshots, and the numbers in the outcomes of their runs add up to the same. If everything is processed, timestamps do not matter at all. The user's own modifiers, handlers and instruments must not look at the timestamp.", "quantifier": "all processors, all sequences of messages and configurations, all timestamps, all strategies, all later snapshots", "why_tests_cant": "Every kind of instrument that depends on time (gauge with tracking, meters, staircase timer, indicators, trackers) could use the timestamp instead of the current time; a test with timestamps taken from the clock shows no difference.", "anchors": ["src/processor.rs: ProcessingDecider::should_be_processed", "src/instruments/mod.rs: Update", "src/instruments/gauge/gauge_adapter.rs: GaugeAdapter::handle_observation", "src/instruments/instrument_adapter.rs: UpdateModifier::modify", "src/observation.rs: Observation"]}
{"id": "C91", "title": "What is added elsewhere does not change what the rest shows", "statement": "Instruments, panels, handlers, snapshooters and cockpits do not interfere. If to one processor further instruments, panels, handlers, snapshooters or cockpits are added, at any places and at any time, and otherwise the same happens to it as to another processor, then everything that the other one shows is shown by it, too: the same names and values, in the same order and in the same groups. Its runs report the same numbers of processed and dropped messages and at least as many updates. The further cockpits and panels must not have names that messages use to find, replace or remove cockpits and panels.", "quantifier": "all processors, all additions at all places, all sequences of messages, calls and clock readings, all later snapshots without descriptions", "why_tests_cant": "An instrument could consume an observation, a group could be opened twice or replaced by another of the same name, and the position of what is added could matter; a test can only try some combinations.", "anchors": ["src/instruments/panel.rs: Panel::handle_observation, Panel::put_snapshot", "src/cockpit.rs: Cockpit::handle_observation, Cockpit::put_snapshot", "src/processor.rs: TelemetryProcessor::process, TelemetryProcessor::put_snapshot, TelemetryProcessor::add_cockpit, TelemetryProcessor::add_handler, TelemetryProcessor::add_snapshooter", "src/snapshot.rs: Snapshot"]}
{"id": "C92", "title": "Reporting occurrences together or one by one makes no difference", "statement": "Reporting n occurrences of a label together (observed with the number n, n > 0) and reporting them one by one (observed_one, n times) have the same effect if they are processed at the same moment: all later snapshots show exactly the same. The runs report at least as many processed messages, dropped messages and updates when the occurrences come one by one. This holds unless a modifier changes occurrences of that label or a gauge is incremented or decremented at that label. An observation with the number zero, however, is still taken for an occurrence by switches and indicators, and a gauge that is incremented at a label counts reports, not occurrences.", "quantifier": "all processors, all numbers of occurrences up to 2^63 - 1, all messages and calls before, between and after, all later snapshots", "why_tests_cant": "Every instrument treats the two kinds of observations in its own branch; the number of occurrences and what instruments went through before are unbounded.", "anchors": ["src/lib.rs: TransmitsTelemetryData::observed, TransmitsTelemetryData::observed_one", "src/observation.rs: Observation, Update", "src/instruments/counter.rs: Counter::update", "src/instruments/meter.rs: Meter::update", "src/instruments/histogram.rs: Histogram::update", "src/instruments/gauge/gauge_adapter.rs: GaugeAdapter::handle_observation", "src/instruments/instrument_adapter.rs: InstrumentAdapter::handle_observation"]}
{"id": "C93", "title": "The order in which simultaneous observations are handled does not matter", "statement": "Observations sent by several threads arrive in an order that nobody controls. If they are handled at the same moment, the order makes no difference: all later snapshots show exactly the same and the runs report the same totals. This holds for counters, meters, value meters, staircase timers, the indicators, last occurrence trackers and gauges that get changes or are incremented and decremented, also when numbers overflow in a release build. It does not hold for flags, data displays and gauges that get values (the last one decides), for gauges that track their highest and lowest value, or for histograms.", "quantifier": "all processors made of such instruments, all observations and all orders of them, all strategies, all messages and calls before and after, all later snapshots", "why_tests_cant": "The number of orders grows with the factorial of the number of observations, and the instruments can be in any state and be nested at will.", "anchors": ["src/lib.rs: TransmitsTelemetryData", "src/processor.rs: TelemetryProcessor::process", "src/observation.rs: Observation, Update", "src/instruments/counter.rs: Counter::update", "src/instruments/meter.rs: Meter::update", "src/instruments/gauge/mod.rs: Gauge::set", "src/instruments/gauge/gauge_adapter.rs: GaugeAdapter::handle_observation", "src/instruments/panel.rs: Panel::handle_observation"]}
{"id": "C94", "title": "A stricter strategy only drops more", "statement": "Strategies can be compared: dropping everything is the strictest one, processing everything the least strict one, and of two age limits the lower one is stricter, also if it makes no exception for changes of values. There is no other case in which one strategy always keeps less than another. If a processor that gets the same is used in the same way, once with stricter strategies or with runs that begin later, every run consumes the same, processes no more and drops no less. Every instrument then gets some of what it gets otherwise, in the same order, and nothing else. So counters and meters have counted no more, and histograms that are not reset contain no other values. A gauge may nevertheless show more: what lowers it may be dropped.", "quantifier": "all pairs of strategies, all processors, all schedules of the sending threads, all sequences of calls with two strategies for each run, all moments at which the runs begin, all places of instruments that are not removed", "why_tests_cant": "It compares two whole histories, for all of them: any backlog, any ages, any tree of panels and any sequence of runs.", "anchors": ["src/processor.rs: ProcessingStrategy, ProcessingStrategy::decider, ProcessingDecider::should_be_processed, TelemetryProcessor::process, ProcessingOutcome", "src/driver.rs: TelemetryDriver::change_processing_stragtegy", "src/instruments/counter.rs: Counter::update", "src/instruments/meter.rs: Meter::update", "src/instruments/histogram.rs: Histogram::update"]}
{"id": "C95", "title": "The log accounts for what was dropped", "statement": "With the feature `log` a driver writes a warning about dropped observations. Each warning tells a positive number, which is exactly what was dropped by the runs since the warning before, or since the creation of the driver, so that the warnings together never tell more than what was dropped, and without drops there are none. More than five seconds are between two warnings. A warning is written by a run; then everything dropped so far has been told. If the last warning is more than five seconds ago, or there was none, everything dropped so far has been told after the next run, even if this run drops nothing. What was dropped after the last warning is never told if the driver ends.", "quantifier": "all drivers with their settings and metrics, all processors, all schedules of the threads that use the handles and send observations, all sequences of iterations with pauses and changes of the strategy, all clocks that do not go backwards", "why_tests_cant": "It adds up drops over arbitrarily long histories and depends on the moments of all runs. Tests can neither control the clock nor wait for all patterns of drops.", "anchors": ["src/driver.rs: telemetry_loop, log_outcome, do_a_run, TelemetryDriver::pause, TelemetryDriver::resume, TelemetryDriver::change_processing_stragtegy", "src/processor.rs: ProcessingOutcome"]}
{"id": "C96", "title": "Rates are weighted averages whose errors do not grow", "statement": "The rates a meter shows are weighted averages of what was counted in the complete 5-second intervals since its start: the newest interval counts with the weight of the rate, each older one by the same factor less, and all weights together are 1. Because a float is rounded after every operation, a shown rate is off this average, but by no more than a fixed amount that depends on the most that was counted in a single interval only, not on how long the meter has been running. Hence if a meter counts in every interval what two other meters count together, its rates are the sums of their rates up to three such amounts, and if a meter never counts less than another one, its rates are not lower by more than two such amounts, and if two meters count the same from some interval on, what they counted before loses its influence by the same factor with every interval.", "quantifier": "all meters and value meters, all sequences of updates and snapshots at all moments, all clocks that do not go backwards, all numbers of intervals, all roundings with a bounded relative and absolute error, binary64 among them", "why_tests_cant": "Whether rounding errors build up shows only after months of intervals, and depends on the values of all of them; a test can follow only a few.", "anchors": ["src/instruments/fundamentals/metrics_meter.rs: StdMeter::mark, tick_inner, snapshot, EWMA::tick, EWMA::rate", "src/instruments/meter.rs: Meter::get_snapshot, Meter::update", "src/instruments/other_instruments/value_meter.rs: ValueMeter"]}
{"id": "C97", "title": "A longer tracking period only sees more, and every one sees the current value", "statement": "The current value of a gauge that tracks its values always lies between the bottom and the peak it shows. Had the gauge been told to track its values for a longer period, then with the same use a snapshot at the same moment would show the same current value, a peak that is not lower and a bottom that is not higher. If there were values within the shorter period, then the longer one also shows no higher lowest peak and no lower highest bottom.", "quantifier": "all gauges, all pairs of tracking periods of whole seconds, all sequences of updates and snapshots at all moments, all clocks that do not go backwards", "why_tests_cant": "Whether the current value is within the statistics depends on when it was set, when tracking was switched on and when seconds end; there are unboundedly many such patterns.", "anchors": ["src/instruments/gauge/tracking.rs: BucketsStats::from_buckets, Bucket::update", "src/instruments/gauge/mod.rs: Gauge::set_tracking, update, put_snapshot", "src/instruments/fundamentals/buckets.rs: SecondsBuckets"]}
{"id": "C98", "title": "The order in which parts are added only changes the order in which they are shown", "statement": "The order of instruments, panels, handlers, snapshooters and cockpits has no influence on what they do. If two processors have the same parts in different orders, at any depth, and the same happens to them, except that parts which are added one after the other may be added in another order, then at any time both show the same values, equally often and in the same groups, only in another order, and their runs report the same numbers of processed and dropped messages and of updated instruments. Panels and cockpits that are made by the same additions in different orders are such parts. Parts that compete for a name are excepted: of two cockpits, or two panels in a cockpit, with the same name the first one wins.", "quantifier": "all processors, all orders of their parts at all depths, all sequences of messages, calls and clock readings, all later snapshots without descriptions", "why_tests_cant": "A part could consume an observation so that later parts do not see it, depend on what others already put into the snapshot, or be found in place of another one; a test can only try some orders.", "anchors": ["src/instruments/panel.rs: Panel::handle_observation, Panel::put_snapshot, Panel::add_counter, Panel::add_gauge, Panel::add_meter, Panel::add_histogram, Panel::add_instrument, Panel::add_panel, Panel::add_handler, Panel::add_snapshooter", "src/cockpit.rs: Cockpit::handle_observation, Cockpit::put_snapshot, Cockpit::add_panel, Cockpit::add_handler, Cockpit::add_snapshooter", "src/processor.rs: TelemetryProcessor::process, TelemetryProcessor::put_snapshot, TelemetryProcessor::add_cockpit, TelemetryProcessor::add_handler, TelemetryProcessor::add_snapshooter", "src/snapshot.rs: Snapshot"]}
{"id": "C99", "title": "What a part puts into a snapshot does not depend on what is in it", "statement": "To put the snapshot of a component into a snapshot that has items already is the same as to take its snapshot alone and to append it: the same items in the same order, the same state of the component afterwards, as many readings of the clock, and a panic only if there is one in an empty snapshot. The one exception are titles and descriptions, which are left out if the snapshot has an item with that name. So without descriptions several mounted components show together exactly what each shows alone, one after the other.", "quantifier": "every instrument, handler, panel, cockpit, snapshooter, processor, mount, attached mount and mounted driver, in every state, every snapshot with any items, with and without descriptions, every clock", "why_tests_cant": "It compares every content a snapshot may have before with an empty one, for unbounded trees of components in any state.", "anchors": ["src/lib.rs: PutsSnapshot", "src/util.rs: put_default_descriptives, put_postfixed_descriptives", "src/instruments/panel.rs: put_snapshot", "src/cockpit.rs: put_snapshot", "src/processor.rs: put_snapshot", "src/attached_mount.rs: put_snapshot", "src/driver.rs: put_snapshot"]}
{"id": "C100", "title": "Names only name, and texts only describe", "statement": "Take two programs that differ in names and in titles and descriptions only: each panel, cockpit, processor, mount and driver with name n in the one has name r(n) in the other, also in the messages that add or remove panels and cockpits by name, where r gives different names to different names; instruments, polled values and constants have any other names. Then both return the same outcomes, sleep equally long, read the clock equally often and panic at the same points, and their snapshots without descriptions have the same values in the same groups and the same order. So no name has a special meaning, two instruments with the same name in one place do not disturb each other's values, and renaming something changes nothing but the name it is shown under.", "quantifier": "every panel, processor, mount, attached mount and mounted driver in every state with any messages under way, every driver thread with any messages under way, every injective renaming, every sequence of calls, every clock", "why_tests_cant": "It compares a program with every renamed version of it, over all states, names, messages and schedules.", "anchors": ["src/processor.rs: add_cockpit, remove_cockpit, process, put_snapshot", "src/cockpit.rs: add_panel, remove_panel, put_snapshot", "src/instruments/panel.rs: put_snapshot, handle_observation", "src/instruments/polled.rs: put_snapshot", "src/instruments/switches/mod.rs: adjust_name", "src/driver.rs: telemetry_loop, put_values_into_snapshot", "src/attached_mount.rs: process"]}
{"id": "C101", "title": "Groups without a name only organise", "statement": "Instruments, panels and handlers may be put into a panel that has no name and no inactivity limit and accepts all labels, and this panel added to a panel, a cockpit or a processor; or they may be added there directly. This makes no difference but for the order in which values are shown: whatever messages are processed and calls are made afterwards, both programs update the same instruments, report the same numbers in total, panic at the same points, and their snapshots have the same values in the same groups. Inside another panel this also holds for snapshooters and for a group that has the same label filter as the panel around it. A cockpit without name, limit and snapshooters that is added as a handler is such a group, too. And a panel inside a panel may be added with add_panel or with add_handler.", "quantifier": "every panel, cockpit and processor, every list of parts, every nesting of such groups, every sequence of observations, messages and calls, every clock that does not run backwards", "why_tests_cant": "It compares each program with all programs that have such groups at any places and depths, over all histories.", "anchors": ["src/instruments/panel.rs: accept_all, add_counter, add_gauge, add_meter, add_histogram, add_panel, add_handler, add_snapshooter, handle_observation, put_snapshot, put_values_into_snapshot", "src/cockpit.rs: without_name, add_handler, handle_observation, put_snapshot, put_values_into_snapshot", "src/processor.rs: add_handler, process, put_snapshot"]}
{"id": "C102", "title": "Processors can be arranged in mounts in any way", "statement": "Processors, mounts and snapshooters may be added to a mount in any order, and some of them may first be put into a mount of their own, if that one has neither a name nor an inactivity limit. This makes no difference but for the order in which values are shown: whatever runs and snapshots are made afterwards, at the same moments, with both mounts, every run reports the same outcome, every snapshot has the same values in the same groups, and a panic comes at the same call or not at all. The processors in them may also be built in another way in the sense of C98 and C101.", "quantifier": "every mount, every list of processors, mounts and snapshooters added to it, every nesting of such mounts, every sequence of runs with any limits and strategies and of snapshots without descriptions, every clock that does not run backwards", "why_tests_cant": "It compares each program with all programs that arrange the same processors in another way, over all messages and all sequences of runs and snapshots.", "anchors": ["src/processor.rs: ProcessorMount, add_processor, add_snapshooter, process, put_snapshot, put_values_into_snapshot, ProcessingOutcome::combine_with", "src/attached_mount.rs: process, put_snapshot"]}
{"id": "C103", "title": "Where labels are filtered does not matter", "statement": "An observation gets to an instrument if its label is accepted by the filters of all panels around the instrument and by that of the instrument itself. Only the labels that get through matter, not which of the filters keeps the others away: two programs that differ in their filters only, such that the same labels get through to each instrument, report the same outcomes and show the same snapshots, with or without descriptions, whatever is sent to them and done with them; if one panics, so does the other. For a gauge that is incremented on some labels and decremented on others, the same labels have to increment and decrement it, where a label that is meant for both increments. In particular a panel may accept all labels and leave the filtering to the instruments, gauges and panels in it, and a filter that accepts everything its panel lets through may accept everything. A panel without name and inactivity limit only organises, whatever it filters: its parts may as well be narrowed by its filter and be added to the processor itself, which then shows the same in another order.", "quantifier": "every processor, mount and driver, every nesting of panels and all filters in it, including predicates, every message and schedule of the senders, every sequence of runs and snapshots, every clock, all user defined parts", "why_tests_cant": "It compares every program with all programs that distribute the same filtering over their panels and instruments in another way, for all labels and over all histories.", "anchors": ["src/instruments/panel.rs: accepts_label, handle_observation", "src/instruments/instrument_adapter.rs: handle_observation", "src/instruments/gauge/gauge_adapter.rs: handle_observation", "src/instruments/label_filter.rs: LabelFilter, accepts", "src/cockpit.rs: handle_observation"]}
{"id": "C104", "title": "A processor can be split into several that get the same observations", "statement": "Instead of one processor with many parts, a program may use several processors without name and inactivity limit, which have these parts between them, in a mount with the name of the one processor. If each of them takes the same observations from its queue as the one does, at the same moments and with the same strategy, then each of them reports as many observations as processed and dropped as the one does, the numbers of updated instruments add up to what the one reports, and the mount shows the same snapshot without descriptions as the one processor, in another order; if one of them cannot be shown without a panic, neither can the other. It does not matter which part goes to which processor.", "quantifier": "every processor without inactivity limit, every way to distribute its cockpits, handlers and snapshooters to any number of processors, every sequence of observations, runs and snapshots, every clock that does not go back, every processing strategy", "why_tests_cant": "It compares every processor with all distributions of its parts, over all histories.", "anchors": ["src/processor.rs: TelemetryProcessor, ProcessorMount, process, put_snapshot", "src/cockpit.rs: handle_observation", "src/instruments/panel.rs: handle_observation"]}
