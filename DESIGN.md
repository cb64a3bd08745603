# Formal model of metrix: design

This file says what is modelled, how, what is proved about it and what is trusted.
`properties.jsonl` holds the properties in English, `MANIFEST.json` maps them to theorem names.

## Modelling decisions

* **Language.** Lean 4.33.0, modules under `lean/Verif/`. Everything is a total, computable function.
* **Function by function.** Every definition cites the file and lines in `/repo` it models.
* **Panics and the clock.** Code that may panic or that reads the clock is written in the monad
  `M a = Env -> Nat -> Option (a x Nat)`. `none` is a panic of the running thread. The `Nat` is the number of
  clock readings made so far and `Env.clock : Nat -> Int` gives the k-th reading in nanoseconds. So *each*
  `Instant::now()` in the code is its own reading and theorems quantify over every clock.
  Monotonicity of the clock is an explicit hypothesis where it is needed.
* **Integers.** `u64`/`i64`/`usize` are `Nat`/`Int` with explicit 64-bit operations. `Env.profile` selects debug
  (overflow panics) or release (wrap-around) semantics; both are covered by theorems that quantify over `Env`.
* **Instants.** `Int` nanoseconds. `Instant - Duration` and `Instant + Duration` panic outside the platform range
  `Env.instMin .. Env.instMax`. `duration_since` saturates at zero (Rust >= 1.60).
* **Floats.** A float is NaN, an infinity or a rational; comparison, `round` and the `as` casts are exact on these.
  `-0.0` is not distinguished from `0.0`. Rounded arithmetic (EWMA, averages, ratios) applies a rounding function
  `Env.rnd : Rat -> Rat` after every operation; what is assumed of it is proved of IEEE binary64 rounding to nearest,
  ties to even, with gradual underflow (`Spec/Binary64`). Overflow of finite arithmetic to infinity is not modelled;
  `C80_no_overflow` proves for the moving averages that there is none.
* **Trait objects.** `Box<dyn HandlesObservations>` etc. are a closed inductive type of the crate's own implementors
  plus `custom s` for user code, with `s` from an arbitrary type and its behaviour given by an arbitrary
  interpretation (`class Custom`). All user-defined types together form one sum type, so one type parameter is enough.
* **Labels.** One label type `L` with decidable equality. Processors over different label types in the same mount are
  covered by taking `L` to be the sum of the label types (`C86_two_label_types`).
* **Concurrency.** The driver thread is the only reader of channels. Between any two channel operations of it an
  arbitrary finite list of actions of other threads (send, try_send, drop of transmitters ...) happens; theorems
  quantify over this environment. Channels are FIFO queues with capacity and sender count
  (the documented behaviour of crossbeam channels, trusted).
* **External crates.** `exponential_decay_histogram` is represented by the list of values fed into it; its statistics
  are an arbitrary function of that list (`Env.histStats`). The `json` crate's object is an association list where
  assignment overwrites in place. Logging has no effect.

## Trusted base

* Lean's kernel and the axioms `propext`, `Classical.choice`, `Quot.sound`. No theorem uses any other axiom. Per theorem of the
  manifest (`#print axioms`):

  * no axioms (21 theorems): C05_rule, C15_new, C15_finding_set_name, C17_adapter, C25_empty_panics, C33_exclusive, C38_reset_value, C48_new, C49_new, C63_added_instrument, C63_panels_for_all, C87_observations, C87_new_groups, C90_all, C92_finding_zero, C93_any_order, C101_panel_as_handler, C101_new_panel, C101_new_cockpit, C101_settings, C102_default
  * `propext` (50 theorems): C03_monotone, C03_exact, C03_finding_duration_overflow, C04_delta_iff, C12_send, C12_lossless, C12_finding_unbounded_not_empty, C14_unnamed_stay, C21_shown, C29_snapshots_do_not_matter, C34_reports, C37_switches, C39_finding_invert_ignored, C43_values, C44_finding_negative, C48_reactivated, C64_counter, C64_meter, C64_value_meter, C64_histogram, C64_flag, C64_staircase, C64_non_occurrence, C64_display, C64_last_occurrence, C64_last_occurrence_invert_ignored, C69_mount, C71_same_item, C75_step, C75_all_wait, C76_made, C86_filter, C90_age, C91_groups, C91_items, C93_finding_flag, C98_values, C98_groups, C98_panel_built, C99_exactly, C101_in_panel, C101_in_processor, C101_in_cockpit, C101_cockpit_in_processor, C101_cockpit_in_cockpit, C102_order, C102_grouped, C102_inside, C103_opened, C103_redundant
  * `Quot.sound`, `propext` (66 theorems): C02_bool, C03_displayed_rounded_down, C03_overflow, C03_of_duration, C03_of_duration_exact, C04_not_delta, C05_decision, C05_future, C12_bounded, C12_finding_capacity_zero, C14_remove, C15_remove, C15_unique_remove, C20_add_handler, C20_add_panel, C20_add_snapshooter, C20_add_instrument, C20_add_counter, C20_add_gauge, C20_add_meter, C20_add_histogram, C21_reports_one, C21_history_exists, C26_whole_seconds, C26_other_moments, C28_exact, C31_no_cutoff, C34_last_value, C35_never_shortened, C35_update, C36_occurrence_new, C36_occurrence_set_window, C36_non_occurrence_new, C36_complementary, C37_no_change_partial, C37_when_staircase, C37_when_occurrence, C37_when_non_occurrence, C37_direction, C39_reports, C40_measured, C40_future, C40_iff, C43_unique, C44_exact, C44_errors, C48_created, C49_created, C58_cycle, C58_mounted_in_itself, C64_occurrence, C69_panel, C70_display, C70_keys, C72_nothing, C72_harmless, C73_unique, C76_succeeds, C76_told, C76_threads, C82_enough, C83_never_waits, C87_modifier, C94_rule, C98_cockpit_built, C101_cockpit_in_panel
  * `Classical.choice`, `Quot.sound`, `propext` (490 theorems): all others

* The faithfulness of the model to the Rust source as cited in the comments. As evidence for it `Verif/Tests` repeats the unit tests
  of the crate (71 of 73), the tests in its documentation and `examples/panel.rs` on the model; all of them pass. Left out are
  `empty_bucket_returns_none` (the model has no statistics without a current value, nor has the crate outside of its tests) and
  `the_telemetry_transmitter_is_sync` (a statement about types). The tests were generated from the text of `/repo`, with the
  numbers in them unchanged. They check the model, and are no proof of any property.
* The behaviour of what is not part of `/repo`: the assumptions on external crates above, `std::time::Instant` (monotone where a
  theorem says so), and threads that interleave in arbitrary order.

## What is modelled

| file of `/repo` | model |
| --- | --- |
| `src/instruments/jemalloc.rs` | `Model/Jemalloc` |
| `src/observation.rs`, `src/snapshot.rs` (conversions from primitive types; `usize` and `isize` have 64 bits) | `Model/Convert` |
| `src/lib.rs` (label filter, observations, updates, transmitters) | `Model/LabelFilter`, `Model/Observation`, `Model/Made`, `Model/Transmitter`, `Model/Channel`, `Model/World` |
| `src/util.rs` | `Model/Util` |
| `src/snapshot.rs` | `Model/Snapshot`, `Model/Display` |
| `src/instruments/counter.rs` | `Model/Counter` |
| `src/instruments/gauge/`, `fundamentals/buckets.rs` | `Model/Gauge`, `Model/Buckets`, `Model/Adapter` |
| `src/instruments/meter.rs`, `fundamentals/metrics_meter.rs`, `other_instruments/value_meter.rs` | `Model/Meter` |
| `src/instruments/histogram.rs` | `Model/Histogram` |
| `src/instruments/switches/` | `Model/Switches` |
| `src/instruments/other_instruments/display.rs`, `last_occurrence_tracker.rs` | `Model/Others` |
| `src/instruments/mod.rs`, `instrument_adapter.rs` | `Model/Adapter` |
| `src/instruments/panel.rs`, `polled.rs`, `src/cockpit.rs` | `Model/Tree` |
| `src/processor.rs` | `Model/Processor`, `Model/Mount` |
| `src/attached_mount.rs` | `Model/Attached`, `Model/Mount` |
| `src/driver.rs` | `Model/Driver`, `Model/Fleet`, `Model/Shutdown` |
| constructors of adapters and panels, conversions into label filters | `Model/Build` |
| setters and builder functions of instruments | `Model/Settings` |
| setters, adders and builder functions of panels, cockpits, processors, mounts, polled values, drivers | `Model/Building` |

`Spec/` holds the small definitions in which the properties are stated, `Proof/` the lemmas, `Props/Cnn.lean` the theorems of
property Cnn with examples that meet their hypotheses.

## Simplifications

* All processors below a mount have one label type (the sum of the real ones). `C86_two_label_types` shows that a processor does the same with its labels seen as those of the sum.
* Interior mutability: `put_snapshot(&self)` returns the component, too. `RefCell`s and mutexes are only used by one thread at a
  time, so `try_borrow_mut` and `try_lock` succeed.
* C47 compares runs in which each operation sees one time for all its clock readings. Otherwise an operation could straddle the
  end of a second, and the number of readings would differ between the runs that are compared.
* Driver: `is_running` is read with `Relaxed`, so the thread of the model may see an older value in any iteration (`Loop.blind`). Dropping a handle (guard and sender) is one step.
  An iteration tells when it sleeps and for how long; that sleeping takes that long is a hypothesis (`SleepsTake`). Of the log only the warnings about dropped observations are modelled. The channel is unbounded. If the receiver is dropped, so are the messages in the
  queue and with them the back channels of snapshot requests (`crossbeam_channel` 0.5). How callers wait for answers is in
  `Model/Fleet`, without the contents of the snapshots.
* C55 speaks about sums below 2^63, since the counters wrap there.
* Sums of numbers of updated instruments and of outcomes (`usize`) are exact.

## Not modelled

* `src/instruments/other_instruments/multi_meter.rs`: commented out of the module tree, not compiled.
* What `jemalloc_ctl` answers (`src/instruments/jemalloc.rs`): the answers are arbitrary.
* Log output, thread names.
* `Debug`/`Error` impls, how the standard library prints floats and durations, JSON text rendering (done by the `json` crate).

## Findings

Where the code does not do what a user would expect, there is a theorem with a concrete witness.

* **C49** `Panel::last_update` is never refreshed. With an inactivity limit a panel stops showing values once the limit has passed
  since it was made, whatever it receives (`C49_violated`).
* **C56** The inactivity alarm of a driver is reset by every run, also by runs without observations (`C56_violated`).
* **C48** With `set_show_activity_state(false)` the inactivity limit has no effect at all (`C48_hidden_cockpit`,
  `C48_hidden_processor`).
* **C27** `peak_avg` and `bottom_avg` divide by the length of the window, not by the number of seconds with values
  (`C27_finding_peak_avg`).
* **C26** `get_at_mut` counts whole elapsed seconds, so a moment may reach the bucket of the neighbouring second
  (`C26_finding_wrong_second`).
* **C37** Timed switches read the clock once for the plain and once for the inverted item: both can be true
  (`C37_finding_both_true`).
* **C43** With duplicate names `find` takes the first item and JSON keeps the last (`C43_finding_duplicates_disagree`).
* **C46** An unnamed driver that is mounted duplicates the `_title` of its parent (`C46_driver_duplicates`).
* **C58** Drivers mounted in each other in a cycle block for ever (`C58_cycle`, `C58_mounted_in_itself`).
* **C57** A duration beyond the range of the clock (`max_age`, windows of the switches) makes processing or snapshots panic
  (`C57_duration_out_of_range`, `C57_max_age_out_of_range`). The thread of a new driver panics at once if the clock cannot go
  back 60 seconds (`C57_finding_start`).
* **C92** An observation with the number zero switches a staircase timer on (`C92_finding_zero`). A gauge that is incremented at
  some labels counts reports, not occurrences (`C92_finding_increment`).
* **C93** The order of simultaneous observations is visible in a flag (`C93_finding_flag`) and in a gauge that tracks its highest
  value (`C93_finding_peak`).
* **C94** With a stricter strategy a gauge may show more (`C94_finding_gauge`), and a less strict one may panic where a stricter one
  does not (`C94_finding_panic`).
* **C95** The warnings in the log leave out what was dropped after the last warning, if the driver ends (`C95_finding_end`): when the loop is
  left, nothing is written.
* **C02** Floats outside of the range saturate; negative floats become `Some(0)` as `u64` (`C02_finding_floats_saturate`).
* **C03** A `Duration` of more than 2^64 ns overflows (`C03_finding_duration_overflow`).
* **C12** The documentation says that `is_queue_empty` is always true for an unbounded queue; it tells whether the queue is empty
  (`C12_finding_unbounded_not_empty`). A capacity of 0 is allowed: non-blocking transmitters then lose everything
  (`C12_finding_capacity_zero`).
* **C15** Names can clash after renaming a panel through `get_panels_mut` (`C15_finding_set_name`).
* **C22** A value that does not convert still reports one updated instrument (`C22_finding_ignored_value_reports_update`).
* **C28**, **C80** Negative values of a `ValueMeter` show as a huge count and huge rates (`C28_finding_negative_values`,
  `C80_finding_negative_values`).
* **C32, C33** An ignored update can reset a histogram; the limit of the display and of the reset differ by the boundary case.
* **C39** `set_invert` of `LastOccurrenceTracker` has no effect (`C39_finding_invert_ignored`).
* **C44** Negative values become huge durations (`C44_finding_negative`).
* **C64** `OccurrenceIndicator::set_if_happened_within` forgets what happened before (`C64_occurrence`). `Gauge::set_tracking(0)` is
  ignored, and setting it again forgets the window (`C64_gauge`). `DataDisplay` has no default of 60 seconds for `reset_after`,
  and `set_reset_value` replaces the displayed value (`C64_display`).
* **C70** A `LastOccurrenceTracker` with `make_none_zero` shows the zero as `Int` and the seconds as `UInt` (example in C70).
* **C73** Instruments with different names can show items of the same name, one of which is then hidden
  (`C73_finding_derived_names`); groups of the same name are not merged (`C73_finding_groups_not_merged`).
* **C74** A driver answers requests for snapshots before it runs its processors, so a snapshot may lack observations that were
  accepted before it was requested (`C74_finding_not_at_once`). After the runs that the backlog needs it has them.
* **C75** A paused driver takes nothing from the queues of its processors, so senders to a blocking queue that is full wait until
  it is resumed (`C75_finding_pause`).
* **C84** A snapshot may show what a thread sent later to one processor without what it sent earlier to another one
  (`C84_finding_effect_without_cause`). In the next run the other one catches up (`C84_caught_up`).
* Labels of descriptive texts are prefixed (`_title_name`), the documentation says suffixed.

## Seeded bugs

`seeded/LOG.jsonl` lists wrong programs: edits of model definitions made in a scratch copy. For each of them the properties that
it breaks were rebuilt, and failing proofs were replaced by `sorry` until everything built. `failed` are the theorems whose
`#print axioms` then shows `sorryAx`, that is, which are not proved any more. `tightened` are theorems that were changed or added in
`/verif` because a wrong program got through.
Lines with `breaks` empty and `generated` in `edit` come from a random sample of mechanical edits over all model definitions (another
number, operator, branch or a dropped update); those that survived are explained in `note`.

## Plan per property

* **C01 A label filter is exactly the set it was built from** — LabelFilter modelled representation by representation; induction over the list of added labels; refinement to membership.
* **C02 Integer conversion of observed values never invents a number** — f64 as nan/±inf/finite rational; exact case analysis of the conversions; nearest-integer specification separate.
* **C03 Duration values are displayed in the chosen unit, rounded down** — 16-case table over Nat with explicit 64-bit overflow; compared with floor division of nanoseconds.
* **C04 Increment/Decrement/ChangeBy observations are deltas, everything else is not** — Case analysis over constructors; payload ranges shown to stay in i64.
* **C05 Staleness rule** — Decider as function of the clock reading at run start; iff-characterisation.
* **C06 Deltas survive any backlog** — C05 + induction over consumed messages + gauge refinement (C22).
* **C07 Processing outcome accounting** — process loop as recursion over the poll budget with an arbitrary environment acting between polls; induction on the budget.
* **C08 Exactly-once, in-order consumption** — Channel with history log; invariant accepted = delivered ++ queue over all transitions.
* **C09 Configuration messages and observations take effect in the order sent** — process = monadic fold of single-message semantics over the consumed messages; fold append law for splitting.
* **C10 Dropped observations leave no trace in any metric** — Single-message semantics on a refused observation is the identity on the components.
* **C11 Disconnect drains first and is final** — Channel model: Disconnected only if empty and no sender; loop lemma; final no-op lemma.
* **C12 Queue bounds** — Channel operations with capacity; invariants over all traces.
* **C13 Per-transmitter order with concurrent transmitters** — Transition system with n producer threads and a consumer; per-thread subsequence invariant; termination measure for completion.
* **C14 Named cockpits are unique in a processor** — Invariant over operation sequences, preserved also by message processing.
* **C15 Named panels are unique in a cockpit** — Invariant over operation sequences; negation witness through get_panels_mut.
* **C16 Panel messages address one cockpit** — Case analysis of the message semantics; pointwise preservation.
* **C17 A rejected label changes nothing** — Mutual induction not needed: by definition of the guards, all nested content equal.
* **C18 Dispatch reaches exactly the instruments whose whole path accepts** — Flattening of the component tree to (path of filters, instrument); Forall2 relation between before/after by mutual induction over the tree.
* **C19 instruments_updated is the number of instruments that report an update** — Same induction, with the sum of reported numbers.
* **C20 Adding several instruments of a kind loses none** — Flattened instruments of the extended panel = old ones plus the new one.
* **C21 A counter counts every occurrence** — Induction over updates, 64-bit add with build profile (debug panics, release wraps).
* **C22 A gauge shows the last value set plus later deltas** — Induction over updates; separate specification of the shown value.
* **C23 Delta-only and increment/decrement gauges** — Adapter modelled; induction; permutation invariance of sums.
* **C24 Tracked gauge statistics cover exactly the tracked window** — Refinement of bucket ring + Bucket to the multiset of (second, value) records.
* **C25 The ring of seconds buckets behaves like a sliding list of seconds** — Refinement invariant between ring and the log of writes per second.
* **C26 Writing to a past second reaches that second's bucket** — Characterisation of get_at_mut relative to the ring's second boundaries; negation witness for sub-second offsets.
* **C27 Order of tracked statistics** — Order lemmas on folds; negation witness for peak_avg/bottom_avg with empty seconds and partial theorem for full windows.
* **C28 A meter counts every occurrence** — Induction over schedules.
* **C29 Meter rates depend only on what happened per 5-second interval** — Catch-up loop by well-founded recursion; invariant relating state to the list of per-interval counts.
* **C30 Meter rates are sane** — EWMA over rationals with an arbitrary monotone rounding function; induction.
* **C31 Meter snapshot shows exactly the enabled rates and applies the cutoff** — Direct characterisation of the snapshot items.
* **C32 A histogram records exactly the value observations since its last reset** — Reservoir modelled by its input history; induction over updates; negation witness for reset by ignored updates.
* **C33 Histogram inactivity display** — Characterisation of the snapshot items from clock reading.
* **C34 A flag shows the last boolean-like value** — Induction over updates.
* **C35 A staircase timer is on exactly for the configured time after the last tap** — Induction over taps with clock.
* **C36 Occurrence and non-occurrence indicators are complementary time windows** — Same, complementarity theorem.
* **C37 Inverted item is the negation of the plain item** — Negation witness with two clock readings; partial theorem for equal readings (and for Flag).
* **C38 A data display shows the last value, or the reset value after the timeout** — Induction over updates.
* **C39 Last occurrence tracker shows whole seconds since the last update** — Induction over updates; `invert` without effect recorded as finding.
* **C40 Time measurement** — Case analysis on clock reading.
* **C41 Path lookup in snapshots** — find modelled on characters; specification by segments.
* **C42 Every item of a snapshot can be found by its path** — Induction over the path.
* **C43 JSON export keeps every item** — Objects as association lists with overwrite; negation witness for duplicates, theorem for unique names.
* **C44 Snapshot values as durations** — Case analysis; wrap of negative Int recorded as finding.
* **C45 Snapshots only append** — Mutual induction over the component tree.
* **C46 Descriptive texts never get in the way of values** — Mutual induction over the component tree.
* **C47 Taking a snapshot does not change what is measured** — Ticking commutes/idempotence lemmas; induction over schedules.
* **C48 Cockpit/processor/mount inactivity** — Characterisation of the items; last-activity invariant; show_activity_state=false finding.
* **C49 Panel inactivity** — Negation witness (last_update is never refreshed); partial theorem.
* **C50 Mount outcome is the sum of its processors** — Recursion over mounts; sum lemma.
* **C51 Attached mounts deliver everything attached** — Attach channel in the world state; drain lemma.
* **C52 Driver handles requests one by one in order** — Driver loop iteration as step function; FIFO invariant.
* **C53 Pause stops processing, nothing else** — Driver loop invariant.
* **C54 A driver runs as long as a handle exists and answers or fails every snapshot call** — Handle count transition system; thread end = channel closed = error reply.
* **C55 Driver metrics add up** — Induction over runs, via C21.
* **C56 Inactivity alarm of the driver** — Negation witness (updated on every collection).
* **C57 Release builds do not panic on any observation sequence** — No-panic theorem by mutual induction over the tree for release profile.
* **C58 Mounting drivers in each other** — Wait-for graph of drivers; progress for acyclic graphs, deadlock witness for a self mount.
* **C59 A snapshot shows every instrument in the group of the containers around it** — Spec: list of the things in a tree with their groups; mutual induction over the tree.
* **C60 Totals do not depend on the schedule** — C13 + the observations that reach an instrument are a permutation of what the threads send; sums over permutations.
* **C61 Instruments that are meant for the same observations never disagree** — one list of arriving observations for all places of a processor (trail of C08/C18), sums over filters of it.
* **C62 Nothing is shown that was not sent, and totals never go back** — what arrives is a sub-multiset of what the threads send (C61), also over two consecutive periods.
* **C63 An instrument reacts to exactly the labels it was made for** — `Model/Build` models the constructors and the conversions into label filters, `Spec/Build` says which labels each way of naming them means and which updates an instrument should hear. A history of the adapter is shown to be a history of the bare instrument that got exactly the heard updates.
* **C64 Of each setting the last one counts, and settings do not disturb what was measured** — `Model/Settings` has one constructor per setting and applies it; `Spec/Settings` defines the last setting of a kind. Induction over the sequence of settings.
* **C65 What was sent arrives in the snapshots of the driver** — `Spec/Delivery` describes a place below a driver by positions in mounts and the group of a leaf by names. Each step of the driver loop is shown to keep the processor at its place with one run per run of the driver (`Proof/Delivery`), the groups of leaves are shown to be constant (`Proof/LeafGroups`); then C60 gives the totals and C59 says where they are shown.
* **C66 What is attached to a running driver is driven and shown** — `Spec/Routes` generalises places to routes whose steps may lead to what arrives at an attached mount in a later run. Each run is shown to bring what is on a route one run nearer or to run it if it is there (`Proof/Routes`), each snapshot to keep the route; the driver part of C65 is shared (`StepWise`). C51 links routes to the channel of the handles.
* **C67 Only configuration changes the configuration** — `Spec/Layout` defines `bare`, which replaces what was measured by fixed values. `Proof/Layout` shows for each operation of each component that `bare` of the result is that of the original (`M.Post`), and that adding and removing commute with `bare`; then induction over the story of a processor. C65 gives the driver part.
* **C68 Every kind of instrument is complete in the snapshots of the driver** — C66 gives the life of the processor in the driver and where it is shown; C60 and C06 give what its instruments measured; C22, C28 and C32 give the items.
* **C69 What is built is what the steps of its construction say** — Each step is a value and is folded over the component; closed forms by induction on the list of steps; the collections with names by an invariant on each name; C52 gives the answers of the driver.
* **C70 Snapshots keep to a fixed schema** — Verif.Spec.Schema defines schemas and what fits them; for each put function the items appended fit the schema (Post conditions); the schema only depends on the bare component, which by C67 does not change; for drivers an invariant on the loop, with the metrics, and C52's FromMessages.
* **C71 A number stays the same number on its way** — Verif.Model.Convert models the conversions type by type with their casts; Verif.Spec.Numbers says which number a value is; range lemmas per type, then the history theorems of C22, C34, C38, C43 and C69.
* **C72 Statistics of the allocator are complete or absent** — Verif.Model.Jemalloc models put_snapshot in continuation passing style with an arbitrary allocator; Verif.Spec.Jemalloc says which items a list of answers amounts to; case analysis on the first error.
* **C73 Without name clashes in the configuration nothing in a snapshot is hidden** — Verif.Spec.Distinct says when a schema (C70) has no clash; by induction over the derivation of conformance the names in every group are different, then C42 and C43 apply; C65 and C70 give the items.
* **C74 What was accepted is shown after the runs that its backlog needs** — Each poll of a non-empty queue takes a message (induction over the receive loop, then over the calls), the channel is first in first out (invariant over all actions); with C65 for the runs of a driver.
* **C75 Sending waits only where it was asked for, and only for the processor** — Case analysis of one step of the channel, invariant that threads with messages hold their transmitter, induction over all events; the pause with C65 (calls of a processor in a driver).
* **C76 Each call of a transmitter reports exactly what it says** — Case analysis over the calls against a separate table of what each is to report; induction over the calls of a thread and over the threads; composition with C60.
* **C77 A driver shows which share of its time it spends on processing** — Invariant for the two instruments through all iterations (begin, work, snapshots); monotony of seconds as f64 from the axioms of rounding; induction over the timeline.
* **C78 A meter shows a steady rate as it is and approaches it after every change** — Induction over the intervals with the abstract averaging step (up, down) of C30; a bound for the rounding error of one step; together with the rates of C29 for what is shown.
* **C79 A driver rests when there is little to do, and only then** — An iteration of the model tells its call of thread::sleep; analysis of one iteration, then induction over the timeline.
* **C80 The rates of meters are numbers of limited size** — C29 and C30 bound a shown rate by the rate of one interval; an interval's count is a 64-bit number and rounding at most doubles.
* **C81 Builds with and without checks for overflow show the same** — A predicate on computations: where they succeed they succeed with the same result in the same surroundings with the release profile. It is closed under sequencing and holds of 64-bit arithmetic; go through all functions of the model, then through histories by induction.
* **C82 Below a limit no build panics** — Each observation has a load (one observation, its occurrences, its change). Every instrument is within bounds given by the load so far (for gauges: values, and sums, counts and extremes over all buckets). Updates keep this with the load added, snapshots keep it as it is; below the limit no arithmetic is out of range. Processors carry the load of all observations that are still waiting or going to be sent. For a driver with metrics the most that a run can report is computed from the messages that are pending and the instruments there are (`Verif.Spec.Busy`); it never grows, and each iteration adds at most that much to each of the driver's own instruments.
* **C83 Nobody waits for a driver that has ended** — Drop glue as a function from components, messages and the loop to the channels that lose their receiver. Conservation: what was sent to the driver was handled, is being handled, is in the queue or was rejected; what was handled is still in the driver by the route invariant of C66. Then induction over the schedule of the senders without receiver.
* **C84 A thread that uses several processors** — A transition system of all channels and threads, where a thread has one position in its program and a waiting call holds it up. Projection to single channels by recursion on the events, which also gives the schedule of each receiver that the other theorems quantify over. Order by an invariant: one number of completed calls per thread explains what all channels have got from it. Progress by a measure that each round decreases. The finding is a concrete run of a driver.
* **C85 What a mounted driver shows is passed on** — A lemma that groups can be concatenated gives the items of the answer from the one fact about the snapshot of a driver (`C59_driver`). That the mounted driver keeps its place and is asked at most once per request is an induction over the life of the outer driver (`DriverLife.asked`). Nesting is an inductive relation `PassedOn`, one step per driver.
* **C86 Labels matter only to what is asked about them** — `Spec/Relabel.lean` defines when two programs differ in their labels only, part by part, and the renaming of a program. That this is kept by each operation, with equal results, is shown for each function of the model, by mutual induction over the trees and by following the channel step by step (`Proof/Relabel.lean`).
* **C87 Only the time that passes matters** — `Spec/Later.lean` gives the later version of each part of a program: all moments in it are shifted. `Proof/Later.lean`, `LaterTree.lean` and `LaterDriver.lean` follow each function of the model and show that it commutes with the shift.
* **C88 What is printed can be told apart and read back** — `Model/Display.lean` models the implementations of Display. Two texts of different kinds differ in their first characters; the texts of integers are read back by the decimal reader of Lean's library.
* **C89 It does not matter how the messages are divided into runs** — `Spec/Happening.lean` describes what happens to a processor without saying by which calls. Every run is equal to handling its messages one by one, up to how far rings and meters have been ticked (the relation `Alike` of C47).
* **C90 The timestamp of an observation decides only whether it is dropped** — `Spec/Timeless.lean` changes timestamps. Equality of all handling functions by induction over the tree; the modifiers in the tree never change (by the layout of C70's model); then the theorem of C89 about playing happenings one by one.
* **C91 What is added elsewhere does not change what the rest shows** — `Spec/Within.lean` says when one tree is part of another one. A simulation: whatever the larger tree does, the smaller one does, too (`M.Covers`); by induction over the tree for handling and for putting, then over what happens.
* **C92 Reporting occurrences together or one by one makes no difference** — By induction on the number: one occurrence is handled by the same branch, and `n` followed by one more is the same as `n + 1` (`Joins`), for each instrument, then over the tree, then over what happens.
* **C93 The order in which simultaneous observations are handled does not matter** — In the release profile no arithmetic fails, and two updates at one moment commute (`Swaps`), for each instrument, then over the tree, where a filter may let only one of them pass. What ends without a panic with overflow checks ends with the same in the release profile. Any permutation consists of swaps of neighbours.
* **C94 A stricter strategy only drops more** — What the receiving loop does to the queue does not depend on the decider (induction over the loop). So two lives with the same calls consume the same messages; where the less strict one drops, the stricter one drops too. What arrives is a sublist (stories of C08), the counts are sums over it.
* **C95 The log accounts for what was dropped** — The warnings are recorded in the state of the loop; nothing depends on them. Invariant over the iterations: the counter is what was dropped since the last warning, the stored time is that of the last warning or a minute before the creation.
* **C96 Rates are weighted averages whose errors do not grow** — A step of averaging shrinks an error by the factor 1 - alpha and adds a fixed one, so the total error stays below the fixed one divided by alpha (induction over intervals). The exact recursion is a weighted sum (induction); sums are additive and monotone.
* **C97 A longer tracking period only sees more, and every one sees the current value** — By C24 the statistics are those of the values recorded in a window. The window of the shorter period is part of that of the longer one. Recordings are sorted by time and the last one is the current value, so it is in the window if anything is (induction over the use).
* **C98 The order in which parts are added only changes the order in which they are shown** — `Spec/Reorder.lean` says when two trees have the same parts in different orders. Both trees do the same (`M.Sync`): by induction over the relation, where two parts that change places are run in either order, since neither depends on the number of clock readings or on what is already in the snapshot; then over what happens.
* **C99 What a part puts into a snapshot does not depend on what is in it** — A relation between two executions of put_snapshot from the same clock: both panic or both read the clock as often, leave the same component behind, and the first snapshot is the old content followed by the second one, except for titles and descriptions. By induction over the component tree. Named components write to an empty level and are covered by the lemmas of C45. An equation for the case without descriptions, and from it that a list of components shows the concatenation of what each shows alone.
* **C100 Names only name, and texts only describe** — A relation between two programs for each kind of component (same structure, settings and values, names related by the renaming). A simulation from the same clock: handling, processing and iterations of the driver give equal results and related states, and putting snapshots gives equal snapshots once all names are erased. By induction over the component tree, the messages and the iterations, as for C86.
* **C101 Groups without a name only organise** — Extend the relation of C98 by the rules that a group that only organises may be dissolved in the panel or the list of handlers where it is, and that a panel in a panel may be one of its handlers. Handling and putting respect these rules since such a group adds no level, no flags and no values of its own and passes on each observation. Then the constructions with and without the group are related, by induction over the list of parts.
* **C102 Processors can be arranged in mounts in any way** — A relation on processors and mounts with rules for swapping neighbours and for dissolving a mount that only groups. Runs: outcomes are added up, which can be done in any order. Snapshots: what a part puts there does not depend on what is there. Both are transported over sequences of calls with the relation of C47, because a snapshot may tick rings.
* **C103 Where labels are filtered does not matter** — A relation on the parts of a program, indexed by the labels that get to the part in the one and in the other program. The panel's filter narrows both sets for its parts. By induction on the tree: handling an observation only if it gets there gives related results and the same number of updates, even if one program stops it earlier; snapshots do not look at filters. Then up to the driver as for C86.
* **C104 A processor can be split into several that get the same observations** — What happens to a processor can be replayed message by message on its state (C91). Show that an observation does to the gathered parts what it does to the parts of each share, with the numbers added up, and so for a list of observations. For snapshots: each list of parts adds the same to any snapshot up to order; parts of several shares after each other add this for each share; then exchange the order of cockpits, handlers and snapshooters of the shares.
