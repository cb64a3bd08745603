{
 "claims": [
  {
   "property": "C01",
   "status": "proved",
   "theorems": [
    "Metrix.C01_accept_another",
    "Metrix.C01_filter_is_the_set",
    "Metrix.C01_constructors",
    "Metrix.C01_accept_all_and_none"
   ],
   "note": ""
  },
  {
   "property": "C02",
   "status": "proved",
   "theorems": [
    "Metrix.C02_converted_is_in_range",
    "Metrix.C02_integers",
    "Metrix.C02_float_nearest",
    "Metrix.C02_no_number",
    "Metrix.C02_bool",
    "Metrix.C02_float_outside",
    "Metrix.C02_finding_floats_saturate"
   ],
   "note": "Floats: nearest integer as long as it is in range; C02_finding_floats_saturate shows the code saturates (negative floats become Some(0) as u64)."
  },
  {
   "property": "C03",
   "status": "proved",
   "theorems": [
    "Metrix.C03_displayed_rounded_down",
    "Metrix.C03_overflow",
    "Metrix.C03_monotone",
    "Metrix.C03_exact",
    "Metrix.C03_there_and_back",
    "Metrix.C03_of_duration",
    "Metrix.C03_of_duration_exact",
    "Metrix.C03_finding_duration_overflow"
   ],
   "note": "C03_finding_duration_overflow: converting a std Duration beyond 2^64 ns overflows."
  },
  {
   "property": "C04",
   "status": "proved",
   "theorems": [
    "Metrix.C04_delta_iff",
    "Metrix.C04_carried",
    "Metrix.C04_not_delta"
   ],
   "note": ""
  },
  {
   "property": "C05",
   "status": "proved",
   "theorems": [
    "Metrix.C05_rule",
    "Metrix.C05_run",
    "Metrix.C05_decision",
    "Metrix.C05_future"
   ],
   "note": ""
  },
  {
   "property": "C06",
   "status": "proved",
   "theorems": [
    "Metrix.C06_run",
    "Metrix.C06_gauge"
   ],
   "note": ""
  },
  {
   "property": "C07",
   "status": "proved",
   "theorems": [
    "Metrix.C07_outcome",
    "Metrix.C07_updated",
    "Metrix.C07_disconnected"
   ],
   "note": ""
  },
  {
   "property": "C08",
   "status": "proved",
   "theorems": [
    "Metrix.C08_consumed",
    "Metrix.C08_accepted_grows"
   ],
   "note": ""
  },
  {
   "property": "C09",
   "status": "proved",
   "theorems": [
    "Metrix.C09_order",
    "Metrix.C09_config_never_dropped",
    "Metrix.C09_handler",
    "Metrix.C09_cockpit",
    "Metrix.C09_panel",
    "Metrix.C09_removed_cockpit",
    "Metrix.C09_removed_panel"
   ],
   "note": ""
  },
  {
   "property": "C10",
   "status": "proved",
   "theorems": [
    "Metrix.C10_message",
    "Metrix.C10_run",
    "Metrix.C10_never_sent",
    "Metrix.C10_leaf"
   ],
   "note": ""
  },
  {
   "property": "C11",
   "status": "proved",
   "theorems": [
    "Metrix.C11_final",
    "Metrix.C11_final_life",
    "Metrix.C11_snapshots",
    "Metrix.C11_drained",
    "Metrix.C11_not_before",
    "Metrix.C11_drains",
    "Metrix.C11_disconnects"
   ],
   "note": ""
  },
  {
   "property": "C12",
   "status": "proved",
   "theorems": [
    "Metrix.C12_bounded",
    "Metrix.C12_processor",
    "Metrix.C12_send",
    "Metrix.C12_full",
    "Metrix.C12_reports",
    "Metrix.C12_lossless",
    "Metrix.C12_never_waits",
    "Metrix.C12_finding_capacity_zero",
    "Metrix.C12_finding_unbounded_not_empty"
   ],
   "note": ""
  },
  {
   "property": "C13",
   "status": "proved",
   "theorems": [
    "Metrix.C13_order",
    "Metrix.C13_everything"
   ],
   "note": ""
  },
  {
   "property": "C14",
   "status": "proved",
   "theorems": [
    "Metrix.C14_add",
    "Metrix.C14_add_unnamed",
    "Metrix.C14_remove",
    "Metrix.C14_unnamed_stay",
    "Metrix.C14_messages",
    "Metrix.C14_unique",
    "Metrix.C14_unique_always"
   ],
   "note": ""
  },
  {
   "property": "C15",
   "status": "proved",
   "theorems": [
    "Metrix.C15_add",
    "Metrix.C15_remove",
    "Metrix.C15_unique_add",
    "Metrix.C15_unique_remove",
    "Metrix.C15_unique",
    "Metrix.C15_new",
    "Metrix.C15_finding_set_name"
   ],
   "note": "C15_finding_set_name: renaming through get_panels_mut breaks uniqueness, as the statement says."
  },
  {
   "property": "C16",
   "status": "proved",
   "theorems": [
    "Metrix.C16_add",
    "Metrix.C16_remove",
    "Metrix.C16_processed"
   ],
   "note": ""
  },
  {
   "property": "C17",
   "status": "proved",
   "theorems": [
    "Metrix.C17_panel",
    "Metrix.C17_adapter",
    "Metrix.C17_boxed_adapter",
    "Metrix.C17_gauge_adapter"
   ],
   "note": ""
  },
  {
   "property": "C18",
   "status": "proved",
   "theorems": [
    "Metrix.C18_panel",
    "Metrix.C18_handler",
    "Metrix.C18_cockpit",
    "Metrix.C18_processor",
    "Metrix.C18_panics",
    "Metrix.C18_reached_instrument"
   ],
   "note": ""
  },
  {
   "property": "C19",
   "status": "proved",
   "theorems": [
    "Metrix.C19_sum",
    "Metrix.C19_sum_panel",
    "Metrix.C19_at_most_reached",
    "Metrix.C19_at_most_reached_panel"
   ],
   "note": ""
  },
  {
   "property": "C20",
   "status": "proved",
   "theorems": [
    "Metrix.C20_add_handler",
    "Metrix.C20_add_panel",
    "Metrix.C20_add_snapshooter",
    "Metrix.C20_add_instrument",
    "Metrix.C20_add_counter",
    "Metrix.C20_add_gauge",
    "Metrix.C20_add_meter",
    "Metrix.C20_add_histogram",
    "Metrix.C20_all_react",
    "Metrix.C20_reacts"
   ],
   "note": ""
  },
  {
   "property": "C21",
   "status": "proved",
   "theorems": [
    "Metrix.C21_counter_counts",
    "Metrix.C21_reports_one",
    "Metrix.C21_history_exists",
    "Metrix.C21_shown"
   ],
   "note": ""
  },
  {
   "property": "C22",
   "status": "proved",
   "theorems": [
    "Metrix.C22_gauge_value",
    "Metrix.C22_gauge_value_exact",
    "Metrix.C22_ignored",
    "Metrix.C22_debug_overflow_panics",
    "Metrix.C22_shown",
    "Metrix.C22_finding_ignored_value_reports_update"
   ],
   "note": "C22_finding_ignored_value_reports_update: an unconvertible value still reports one updated instrument."
  },
  {
   "property": "C23",
   "status": "proved",
   "theorems": [
    "Metrix.C23_deltas_only",
    "Metrix.C23_inc_dec",
    "Metrix.C23_order_irrelevant"
   ],
   "note": ""
  },
  {
   "property": "C24",
   "status": "proved",
   "theorems": [
    "Metrix.C24_window"
   ],
   "note": ""
  },
  {
   "property": "C25",
   "status": "proved",
   "theorems": [
    "Metrix.C25_sliding_list",
    "Metrix.C25_length",
    "Metrix.C25_no_panic",
    "Metrix.C25_empty_panics"
   ],
   "note": ""
  },
  {
   "property": "C26",
   "status": "partial",
   "theorems": [
    "Metrix.C26_past_second_partial",
    "Metrix.C26_whole_seconds",
    "Metrix.C26_other_moments",
    "Metrix.C26_finding_wrong_second",
    "Metrix.C26_finding_current_second_refused"
   ],
   "note": "As stated the property is false of the code: get_at_mut computes offsets in whole elapsed seconds, so a moment in a past second can reach the bucket of the neighbouring second (findings). Proved: what it does for all moments, and the property for offsets of whole seconds."
  },
  {
   "property": "C27",
   "status": "partial",
   "theorems": [
    "Metrix.C27_order",
    "Metrix.C27_empty",
    "Metrix.C27_avg_partial",
    "Metrix.C27_peak_avg_partial",
    "Metrix.C27_peak_avg_zero",
    "Metrix.C27_shown",
    "Metrix.C27_binary64",
    "Metrix.C27_finding_peak_avg",
    "Metrix.C27_finding_avg_overflow"
   ],
   "note": "The claims about peak_avg and bottom_avg are false of the code (they divide by the window length, not by the number of seconds with values): findings. Proved if every second of the window has values (C27_peak_avg_partial); in general they are within the bounds extended to 0 (C27_peak_avg_zero). All other inequalities are proved fully. C27_shown states them for what snapshots show; C27_binary64 proves the assumption about rounding for IEEE binary64."
  },
  {
   "property": "C28",
   "status": "proved",
   "theorems": [
    "Metrix.C28_meter_count",
    "Metrix.C28_value_meter_count",
    "Metrix.C28_new",
    "Metrix.C28_exact",
    "Metrix.C28_reports",
    "Metrix.C28_finding_negative_values"
   ],
   "note": "C28_finding_negative_values: negative values of a ValueMeter show as a huge count."
  },
  {
   "property": "C29",
   "status": "proved",
   "theorems": [
    "Metrix.C29_meter_rates",
    "Metrix.C29_value_meter_rates",
    "Metrix.C29_new",
    "Metrix.C29_snapshots_do_not_matter"
   ],
   "note": ""
  },
  {
   "property": "C30",
   "status": "proved",
   "theorems": [
    "Metrix.C30_nonneg",
    "Metrix.C30_nonneg_exact",
    "Metrix.C30_highest",
    "Metrix.C30_highest_exact",
    "Metrix.C30_idle",
    "Metrix.C30_geometric_exact",
    "Metrix.C30_geometric_rounded",
    "Metrix.C30_binary64",
    "Metrix.C30_shown",
    "Metrix.C30_value_meter_shown",
    "Metrix.C30_shown_idle",
    "Metrix.C30_value_meter_shown_idle"
   ],
   "note": "Exact arithmetic for all alpha in [0,1]; with float rounding for alpha up to 1/4 and the decay with an explicit error bound. C30_shown, C30_shown_idle and the same for value meters state it for what snapshots show; C30_binary64 proves the assumptions about rounding for IEEE binary64."
  },
  {
   "property": "C31",
   "status": "proved",
   "theorems": [
    "Metrix.C31_items",
    "Metrix.C31_value_meter_items",
    "Metrix.C31_cutoff",
    "Metrix.C31_no_cutoff",
    "Metrix.C31_keeps"
   ],
   "note": ""
  },
  {
   "property": "C32",
   "status": "proved",
   "theorems": [
    "Metrix.C32_no_limit",
    "Metrix.C32_no_gap",
    "Metrix.C32_since_last_gap",
    "Metrix.C32_cases",
    "Metrix.C32_reports",
    "Metrix.C32_count"
   ],
   "note": ""
  },
  {
   "property": "C33",
   "status": "proved",
   "theorems": [
    "Metrix.C33_with_limit",
    "Metrix.C33_new",
    "Metrix.C33_exclusive",
    "Metrix.C33_without_limit"
   ],
   "note": ""
  },
  {
   "property": "C34",
   "status": "proved",
   "theorems": [
    "Metrix.C34_last_value",
    "Metrix.C34_reports"
   ],
   "note": ""
  },
  {
   "property": "C35",
   "status": "proved",
   "theorems": [
    "Metrix.C35_on_off",
    "Metrix.C35_never_shortened",
    "Metrix.C35_update"
   ],
   "note": ""
  },
  {
   "property": "C36",
   "status": "proved",
   "theorems": [
    "Metrix.C36_occurrence",
    "Metrix.C36_occurrence_new",
    "Metrix.C36_occurrence_set_window",
    "Metrix.C36_non_occurrence",
    "Metrix.C36_non_occurrence_new",
    "Metrix.C36_non_occurrence_set_window",
    "Metrix.C36_complementary",
    "Metrix.C36_same_updates",
    "Metrix.C36_exactly_one"
   ],
   "note": ""
  },
  {
   "property": "C37",
   "status": "partial",
   "theorems": [
    "Metrix.C37_no_change_partial",
    "Metrix.C37_switches",
    "Metrix.C37_when_staircase",
    "Metrix.C37_when_occurrence",
    "Metrix.C37_when_non_occurrence",
    "Metrix.C37_direction",
    "Metrix.C37_finding_both_true"
   ],
   "note": "As stated the property is false of the code: timed switches read the clock twice and may change in between (C37_finding_both_true). Proved: it holds whenever the state is the same at both readings; the direction of the possible inconsistency; for flags it always holds (C34_last_value)."
  },
  {
   "property": "C38",
   "status": "proved",
   "theorems": [
    "Metrix.C38_shown",
    "Metrix.C38_reset_value",
    "Metrix.C38_reports"
   ],
   "note": ""
  },
  {
   "property": "C39",
   "status": "proved",
   "theorems": [
    "Metrix.C39_shown",
    "Metrix.C39_later_update",
    "Metrix.C39_reports",
    "Metrix.C39_finding_invert_ignored"
   ],
   "note": "C39_finding_invert_ignored: set_invert has no effect."
  },
  {
   "property": "C40",
   "status": "proved",
   "theorems": [
    "Metrix.C40_measured",
    "Metrix.C40_future",
    "Metrix.C40_iff"
   ],
   "note": ""
  },
  {
   "property": "C41",
   "status": "proved",
   "theorems": [
    "Metrix.C41_find",
    "Metrix.C41_unique",
    "Metrix.C41_slash",
    "Metrix.C41_empty",
    "Metrix.C41_missing",
    "Metrix.C41_further",
    "Metrix.C41_joined",
    "Metrix.C41_find_item"
   ],
   "note": ""
  },
  {
   "property": "C42",
   "status": "proved",
   "theorems": [
    "Metrix.C42_found",
    "Metrix.C42_compose"
   ],
   "note": ""
  },
  {
   "property": "C43",
   "status": "partial",
   "theorems": [
    "Metrix.C43_unique",
    "Metrix.C43_values",
    "Metrix.C43_last_wins",
    "Metrix.C43_agrees_with_find_partial",
    "Metrix.C43_path",
    "Metrix.C43_agrees_on_path_partial",
    "Metrix.C43_finding_duplicates_disagree"
   ],
   "note": "The last sentence is false of the code for duplicate names: find takes the first, JSON keeps the last (C43_finding_duplicates_disagree). Proved for every path whose names are not repeated on their level (C43_agrees_on_path_partial, C43_agrees_with_find_partial); C43_path says for every snapshot what is at a path of its JSON. All other parts are proved fully."
  },
  {
   "property": "C44",
   "status": "proved",
   "theorems": [
    "Metrix.C44_exact",
    "Metrix.C44_errors",
    "Metrix.C44_finding_negative"
   ],
   "note": "C44_finding_negative: negative values, outside the statement, become huge durations."
  },
  {
   "property": "C45",
   "status": "proved",
   "theorems": [
    "Metrix.C45_instrument",
    "Metrix.C45_handler",
    "Metrix.C45_panel",
    "Metrix.C45_cockpit",
    "Metrix.C45_snapshooter",
    "Metrix.C45_node",
    "Metrix.C45_named_panel",
    "Metrix.C45_named_cockpit",
    "Metrix.C45_named_cockpit_handler",
    "Metrix.C45_named_processor",
    "Metrix.C45_named_mount",
    "Metrix.C45_named_attached"
   ],
   "note": ""
  },
  {
   "property": "C46",
   "status": "partial",
   "theorems": [
    "Metrix.C46_instrument",
    "Metrix.C46_handler",
    "Metrix.C46_panel",
    "Metrix.C46_cockpit",
    "Metrix.C46_snapshooter",
    "Metrix.C46_processor",
    "Metrix.C46_node_partial",
    "Metrix.C46_driver_partial",
    "Metrix.C46_node_values",
    "Metrix.C46_driver_values",
    "Metrix.C46_driver_answers",
    "Metrix.C46_instrument_texts",
    "Metrix.C46_panel_texts",
    "Metrix.C46_cockpit_texts",
    "Metrix.C46_processor_texts",
    "Metrix.C46_mount_texts",
    "Metrix.C46_driver_texts",
    "Metrix.C46_driver_duplicates"
   ],
   "note": "Proved for instruments, handlers, panels, cockpits, snapshooters and processors; for nodes containing mounted drivers only if every mounted driver is named (C46_node_partial). C46_driver_duplicates: an unnamed mounted driver duplicates the _title of its parent, so the full statement is false of the code. C46_node_values and C46_driver_values prove the rest of the statement with any drivers mounted anywhere: the same values in the same order, only texts are added. C46_driver_answers: what is asked of mounted drivers is what drivers do."
  },
  {
   "property": "C47",
   "status": "proved",
   "theorems": [
    "Metrix.C47_instrument",
    "Metrix.C47_handler",
    "Metrix.C47_panel",
    "Metrix.C47_cockpit",
    "Metrix.C47_processor",
    "Metrix.C47_mount",
    "Metrix.C47_new_ring"
   ],
   "note": ""
  },
  {
   "property": "C48",
   "status": "partial",
   "theorems": [
    "Metrix.C48_cockpit_partial",
    "Metrix.C48_nested_same",
    "Metrix.C48_nested_partial",
    "Metrix.C48_processor_partial",
    "Metrix.C48_mount",
    "Metrix.C48_reactivated",
    "Metrix.C48_new",
    "Metrix.C48_created",
    "Metrix.C48_hidden_cockpit",
    "Metrix.C48_hidden_processor"
   ],
   "note": "Mounts: full. Cockpits and processors: only if their activity state is shown (the default). C48_hidden_cockpit and C48_hidden_processor prove that with set_show_activity_state(false) the limit has no effect on snapshots, so the full statement is false of the code."
  },
  {
   "property": "C49",
   "status": "partial",
   "theorems": [
    "Metrix.C49_partial",
    "Metrix.C49_new",
    "Metrix.C49_created",
    "Metrix.C49_violated"
   ],
   "note": "The property is false of the code: C49_violated is a witness (Panel::last_update is never refreshed). C49_partial proves the exact rule the code follows: values are shown up to the limit after the panel was made, never later."
  },
  {
   "property": "C50",
   "status": "proved",
   "theorems": [
    "Metrix.C50_once",
    "Metrix.C50_mount",
    "Metrix.C50_tree",
    "Metrix.C50_run"
   ],
   "note": ""
  },
  {
   "property": "C51",
   "status": "proved",
   "theorems": [
    "Metrix.C51_handles",
    "Metrix.C51_dropped",
    "Metrix.C51_run",
    "Metrix.C51_everything"
   ],
   "note": ""
  },
  {
   "property": "C52",
   "status": "proved",
   "theorems": [
    "Metrix.C52_order",
    "Metrix.C52_next",
    "Metrix.C52_answered",
    "Metrix.C52_contents"
   ],
   "note": ""
  },
  {
   "property": "C53",
   "status": "proved",
   "theorems": [
    "Metrix.C53_runs",
    "Metrix.C53_run",
    "Metrix.C53_paused",
    "Metrix.C53_paused_handles",
    "Metrix.C53_every_run"
   ],
   "note": ""
  },
  {
   "property": "C54",
   "status": "proved",
   "theorems": [
    "Metrix.C54_runs",
    "Metrix.C54_stops",
    "Metrix.C54_drained",
    "Metrix.C54_dropped",
    "Metrix.C54_no_more",
    "Metrix.C54_ended",
    "Metrix.C54_running",
    "Metrix.C54_answered"
   ],
   "note": ""
  },
  {
   "property": "C55",
   "status": "proved",
   "theorems": [
    "Metrix.C55_totals",
    "Metrix.C55_dropped_alarm"
   ],
   "note": "The sums are compared below 2^63, where the counters wrap. C55_dropped_alarm adds what the alarm for dropped observations shows."
  },
  {
   "property": "C56",
   "status": "partial",
   "theorems": [
    "Metrix.C56_partial",
    "Metrix.C56_violated"
   ],
   "note": "The property is violated (C56_violated): the alarm is reset by every run of the loop, also by runs without observations (src/driver.rs:729). C56_partial says what the alarm does show: whether there was a run within the last 60 seconds."
  },
  {
   "property": "C57",
   "status": "proved",
   "theorems": [
    "Metrix.C57_panel",
    "Metrix.C57_cockpit",
    "Metrix.C57_handler",
    "Metrix.C57_tracking",
    "Metrix.C57_processor",
    "Metrix.C57_mount",
    "Metrix.C57_new_driver",
    "Metrix.C57_driver",
    "Metrix.C57_duration_out_of_range",
    "Metrix.C57_finding_start",
    "Metrix.C57_max_age_out_of_range"
   ],
   "note": "Panels, cockpits, handlers, processors, mounts (plain and attached) and the thread of a driver, in release builds, for all inputs and schedules. Hypotheses: all configured durations and the strategy's max_age fit into the range of the clock; user defined components do not panic. C57_duration_out_of_range and C57_max_age_out_of_range show that the limits on durations are needed."
  },
  {
   "property": "C58",
   "status": "proved",
   "theorems": [
    "Metrix.C58_answered",
    "Metrix.C58_snapshot",
    "Metrix.C58_cycle",
    "Metrix.C58_mounted_in_itself"
   ],
   "note": "Liveness under every fair schedule, for any number of drivers, with calls, mounts and ends of threads interleaved arbitrarily. The code does not prevent cycles: C58_mounted_in_itself and C58_cycle show that drivers mounted in each other in a cycle then block for ever."
  },
  {
   "property": "C59",
   "status": "proved",
   "theorems": [
    "Metrix.C59_panel",
    "Metrix.C59_handler",
    "Metrix.C59_snapshooter",
    "Metrix.C59_cockpit",
    "Metrix.C59_processor",
    "Metrix.C59_node",
    "Metrix.C59_driver",
    "Metrix.C59_counter"
   ],
   "note": "Spec/Exhibits lists what is in a tree with the groups around it; Displays says that a snapshot shows each thing with the items it put during the snapshot, and, without descriptive texts, nothing else. User defined components must append to the snapshot."
  },
  {
   "property": "C60",
   "status": "proved",
   "theorems": [
    "Metrix.C60_arrival",
    "Metrix.C60_counter",
    "Metrix.C60_meter",
    "Metrix.C60_value_meter",
    "Metrix.C60_histogram",
    "Metrix.C60_gauge_deltas",
    "Metrix.C60_gauge_inc_dec",
    "Metrix.C60_same"
   ],
   "note": "End to end: threads, channel, processing runs, tree, instrument. The threads must all get a chance between polls (fairness) and the strategy must keep everything. Observations of more than i64::MAX occurrences are not counted by meters (see C27)."
  },
  {
   "property": "C61",
   "status": "proved",
   "theorems": [
    "Metrix.C61_arrivals",
    "Metrix.C61_counters",
    "Metrix.C61_sum",
    "Metrix.C61_meter",
    "Metrix.C61_histograms",
    "Metrix.C61_histogram_sum",
    "Metrix.C61_value_meter",
    "Metrix.C61_in_flight"
   ],
   "note": "C61_arrivals gives one list of observations for all places at once, whatever was lost or dropped; the other theorems compare what instruments make of it. Counts are compared in 64 bits, as the code wraps in release builds. Histograms are compared by the values they got (C32), when they are never reset."
  },
  {
   "property": "C62",
   "status": "proved",
   "theorems": [
    "Metrix.C62_counter",
    "Metrix.C62_counter_never_back",
    "Metrix.C62_histogram",
    "Metrix.C62_meter",
    "Metrix.C62_meter_never_back"
   ],
   "note": "As long as the totals fit in 64 bits (counters) and i64 (meters); beyond, release builds wrap around (C21, C28)."
  },
  {
   "property": "C63",
   "status": "proved",
   "theorems": [
    "Metrix.C63_instruments",
    "Metrix.C63_changed_later",
    "Metrix.C63_gauges",
    "Metrix.C63_delta_gauges",
    "Metrix.C63_up_and_down_gauges",
    "Metrix.C63_panels",
    "Metrix.C63_added_instrument",
    "Metrix.C63_panels_for_all"
   ],
   "note": "C63_instruments, C63_changed_later: all instruments, all constructors, and acceptance changed afterwards; C63_gauges, C63_delta_gauges, C63_up_and_down_gauges: gauges; C63_panels, C63_panels_for_all: panels."
  },
  {
   "property": "C64",
   "status": "proved",
   "theorems": [
    "Metrix.C64_counter",
    "Metrix.C64_meter",
    "Metrix.C64_value_meter",
    "Metrix.C64_histogram",
    "Metrix.C64_flag",
    "Metrix.C64_staircase",
    "Metrix.C64_non_occurrence",
    "Metrix.C64_occurrence",
    "Metrix.C64_display",
    "Metrix.C64_last_occurrence",
    "Metrix.C64_last_occurrence_invert_ignored",
    "Metrix.C64_gauge"
   ],
   "note": "One theorem per instrument. C64_last_occurrence_invert_ignored: inverting a LastOccurrenceTracker has no effect."
  },
  {
   "property": "C65",
   "status": "proved",
   "theorems": [
    "Metrix.C65_life",
    "Metrix.C65_complete",
    "Metrix.C65_shown",
    "Metrix.C65_counter",
    "Metrix.C65_answer"
   ],
   "note": "C65_life: the calls that a processor gets from a driver; C65_complete: everything is processed; C65_shown: everything in the processor got exactly what was meant for it and is shown in its group; C65_counter: the value shown for a counter; C65_answer: the same for the answer to a snapshot request. Containers that hide their contents because of inactivity are excluded."
  },
  {
   "property": "C66",
   "status": "proved",
   "theorems": [
    "Metrix.C66_life",
    "Metrix.C66_complete",
    "Metrix.C66_shown",
    "Metrix.C66_answer",
    "Metrix.C66_arrives"
   ],
   "note": "C66_arrives: what a handle attaches is on a route to the mount; C66_life: the calls that a processor on a route gets from a driver; C66_complete: everything is processed; C66_shown: everything in the processor got exactly what was meant for it and is shown in its group; C66_answer: the value shown for a counter in an answer to a snapshot request. Containers that hide their contents because of inactivity are excluded."
  },
  {
   "property": "C67",
   "status": "proved",
   "theorems": [
    "Metrix.C67_life",
    "Metrix.C67_unchanged",
    "Metrix.C67_shows",
    "Metrix.C67_tracking",
    "Metrix.C67_driven"
   ],
   "note": "C67_life: the configuration after any use of a processor; C67_unchanged: without settings nothing changes; C67_shows: the same things in the same groups; C67_tracking: the number of buckets; C67_driven: a processor in a driver. The inner state of user defined components is not considered."
  },
  {
   "property": "C68",
   "status": "proved",
   "theorems": [
    "Metrix.C68_seen",
    "Metrix.C68_seen_complete",
    "Metrix.C68_meter",
    "Metrix.C68_value_meter",
    "Metrix.C68_histogram",
    "Metrix.C68_gauge_inc_dec",
    "Metrix.C68_gauge_changes"
   ],
   "note": "C68_seen: everything is taken and what is at a place is shown, whatever the strategies; C68_seen_complete: the same if nothing is dropped; C68_meter, C68_value_meter, C68_histogram, C68_gauge_inc_dec: the totals; C68_gauge_changes: the sum of changes under strategies that keep changes. The queue must lose nothing (blocking or unbounded, handles kept) and the schedule be fair, as in C13; histograms without a limit of inactivity; sums in 64 bits."
  },
  {
   "property": "C69",
   "status": "proved",
   "theorems": [
    "Metrix.C69_panel",
    "Metrix.C69_cockpit",
    "Metrix.C69_processor",
    "Metrix.C69_mount",
    "Metrix.C69_polling",
    "Metrix.C69_constant",
    "Metrix.C69_driver",
    "Metrix.C69_driver_answers",
    "Metrix.C69_modify"
   ],
   "note": "C69_panel (the leaves that react and the things that are shown are exactly the old ones and those added, as multisets; settings by latestName, latestDescr, latestActivity), C69_cockpit and C69_processor (Collected: who holds each name, the unnamed ones, the order), C69_mount, C69_polling and C69_constant (what is put into a snapshot), C69_driver (a NewDriver with the last settings and the documented defaults, so that all other theorems on drivers apply), C69_driver_answers, C69_modify."
  },
  {
   "property": "C70",
   "status": "proved",
   "theorems": [
    "Metrix.C70_handler",
    "Metrix.C70_display",
    "Metrix.C70_processor",
    "Metrix.C70_driver",
    "Metrix.C70_keys"
   ],
   "note": "C70_handler, C70_display, C70_processor, C70_driver; C70_keys says what fitting a schema means for the keys. User defined components are assumed to keep to a schema of their own. A LastOccurrenceTracker with make_none_zero changes the kind of its value with the first occurrence (Int 0 before, UInt afterwards): its slot admits both, and an example shows it."
  },
  {
   "property": "C71",
   "status": "proved",
   "theorems": [
    "Metrix.C71_item",
    "Metrix.C71_observed",
    "Metrix.C71_same_item",
    "Metrix.C71_change",
    "Metrix.C71_display",
    "Metrix.C71_gauge",
    "Metrix.C71_flag",
    "Metrix.C71_metered",
    "Metrix.C71_constant",
    "Metrix.C71_bounds"
   ],
   "note": "C71_item, C71_observed, C71_change, C71_same_item for the conversions; C71_display, C71_gauge, C71_flag, C71_metered, C71_constant from the observation to the snapshot. usize and isize have 64 bits. isize cannot be observed (there is no conversion)."
  },
  {
   "property": "C72",
   "status": "proved",
   "theorems": [
    "Metrix.C72_contents",
    "Metrix.C72_complete",
    "Metrix.C72_nothing",
    "Metrix.C72_harmless"
   ],
   "note": "C72_contents (everything put and everything asked), C72_complete, C72_nothing, C72_harmless (the assumptions about user defined components made by the theorems on trees hold for it)."
  },
  {
   "property": "C73",
   "status": "proved",
   "theorems": [
    "Metrix.C73_unique",
    "Metrix.C73_visible",
    "Metrix.C73_processor",
    "Metrix.C73_driver",
    "Metrix.C73_counter",
    "Metrix.C73_finding_derived_names",
    "Metrix.C73_finding_groups_not_merged"
   ],
   "note": "C73_unique and C73_visible for every snapshot that fits a schema without clashes, C73_processor and C73_driver for all snapshots of a processor or driver, C73_counter from the observation to the lookup. Findings: C73_finding_derived_names (instruments with different names can clash: gauge a with tracking and counter a_peak), C73_finding_groups_not_merged (groups with the same name hide each other)."
  },
  {
   "property": "C74",
   "status": "proved",
   "theorems": [
    "Metrix.C74_processor",
    "Metrix.C74_accepted",
    "Metrix.C74_driver",
    "Metrix.C74_counter",
    "Metrix.C74_finding_not_at_once"
   ],
   "note": "C74_processor (any use of a processor), C74_accepted (everything accepted before), C74_driver (1000 per run), C74_counter (in the snapshots of the driver). Finding: C74_finding_not_at_once: a driver answers a request before it runs its processors, so a snapshot may lack what was accepted before it was requested."
  },
  {
   "property": "C75",
   "status": "proved",
   "theorems": [
    "Metrix.C75_step",
    "Metrix.C75_never_waits",
    "Metrix.C75_all_wait",
    "Metrix.C75_released",
    "Metrix.C75_finding_pause"
   ],
   "note": "C75_never_waits (default and dropping queues: exactly one step per message), C75_step (when a step waits, iff), C75_all_wait (a full blocking queue: nobody gets in), C75_released (next step after a message is taken or the processor is dropped). Finding C75_finding_pause: a paused driver takes nothing, so senders to full blocking queues wait."
  },
  {
   "property": "C76",
   "status": "proved",
   "theorems": [
    "Metrix.C76_succeeds",
    "Metrix.C76_told",
    "Metrix.C76_made",
    "Metrix.C76_configures",
    "Metrix.C76_threads",
    "Metrix.C76_counter"
   ],
   "note": "C76_succeeds (at most one message), C76_told (exactly what the call says), C76_configures (effect of configuration calls on the processor), C76_threads (all calls of all threads), C76_counter (from the calls to the number a counter shows)."
  },
  {
   "property": "C77",
   "status": "proved",
   "theorems": [
    "Metrix.C77_shown",
    "Metrix.C77_range",
    "Metrix.C77_share",
    "Metrix.C77_share_rounded",
    "Metrix.C77_share_binary64"
   ],
   "note": "C77_shown (what the snapshots show, against the relation RatioAfter), C77_range (between 0 and 1000), C77_share (what the number means: exact without rounding; ends and monotony with rounding). C77_share_rounded and C77_share_binary64: with f64 the number is off by at most 1."
  },
  {
   "property": "C78",
   "status": "proved",
   "theorems": [
    "Metrix.C78_lowest",
    "Metrix.C78_steady",
    "Metrix.C78_steady_exact",
    "Metrix.C78_approach",
    "Metrix.C78_approach_exact",
    "Metrix.C78_approach_rounded",
    "Metrix.C78_shown_steady",
    "Metrix.C78_value_meter_shown_steady",
    "Metrix.C78_shown_approach",
    "Metrix.C78_value_meter_shown_approach"
   ],
   "note": "C78_steady (and C78_steady_exact), C78_lowest, C78_approach (direction, no overshooting, with rounding), C78_approach_exact and C78_approach_rounded (the distance), C78_shown_steady, C78_shown_approach and C78_value_meter_shown_approach (what the snapshot of a meter shows after any history)."
  },
  {
   "property": "C79",
   "status": "proved",
   "theorems": [
    "Metrix.C79_rest",
    "Metrix.C79_short",
    "Metrix.C79_pace",
    "Metrix.C79_paused"
   ],
   "note": "C79_rest (when and for how long, for each iteration), C79_short (bounds), C79_paused (50 milliseconds exactly while paused, in terms of the messages handled), C79_pace (time between any two iterations)."
  },
  {
   "property": "C80",
   "status": "proved",
   "theorems": [
    "Metrix.C80_meter",
    "Metrix.C80_value_meter",
    "Metrix.C80_no_overflow",
    "Metrix.C80_finding_negative_values"
   ],
   "note": "C80_no_overflow bounds the exact result of every float operation of the averages, so that leaving out overflow to infinity in the model is justified there. The finding shows how a negative amount looks."
  },
  {
   "property": "C81",
   "status": "proved",
   "theorems": [
    "Metrix.C81_instrument",
    "Metrix.C81_handlers",
    "Metrix.C81_processor",
    "Metrix.C81_mount",
    "Metrix.C81_new_driver",
    "Metrix.C81_driver",
    "Metrix.C81_running_driver",
    "Metrix.C81_panics"
   ],
   "note": "C81_driver covers lives that end in a panic of the build with checks; C81_running_driver those that do not. C81_panics is the converse for panics."
  },
  {
   "property": "C82",
   "status": "proved",
   "theorems": [
    "Metrix.C82_panel",
    "Metrix.C82_cockpit",
    "Metrix.C82_handler",
    "Metrix.C82_new",
    "Metrix.C82_enough",
    "Metrix.C82_processor",
    "Metrix.C82_mount",
    "Metrix.C82_driver",
    "Metrix.C82_metrics",
    "Metrix.C82_too_much"
   ],
   "note": "C82_driver is for drivers without metrics about themselves and needs less; C82_metrics is for both."
  },
  {
   "property": "C83",
   "status": "proved",
   "theorems": [
    "Metrix.C83_never_waits",
    "Metrix.C83_kept",
    "Metrix.C83_running",
    "Metrix.C83_dropped",
    "Metrix.C83_nobody_waits"
   ],
   "note": "Dropping is modelled for the receivers of processors: Rust drops what a thread owns when it ends. Receivers in user-defined components are not modelled. If the thread panics the processors are taken as they were before the iteration, which makes no difference to what senders see."
  },
  {
   "property": "C84",
   "status": "proved",
   "theorems": [
    "Metrix.C84_alone",
    "Metrix.C84_order",
    "Metrix.C84_before",
    "Metrix.C84_caught_up",
    "Metrix.C84_schedule",
    "Metrix.C84_all_done",
    "Metrix.C84_finding_effect_without_cause"
   ],
   "note": "The negative last sentence is C84_finding_effect_without_cause. A blocking channel of capacity 0 is excluded from C84_all_done; see Model/Channel."
  },
  {
   "property": "C85",
   "status": "proved",
   "theorems": [
    "Metrix.C85_passed_on",
    "Metrix.C85_no_answer",
    "Metrix.C85_asked",
    "Metrix.C85_life",
    "Metrix.C85_nested",
    "Metrix.C85_counter"
   ],
   "note": "C85_passed_on, C85_no_answer: one snapshot; C85_asked: when it is asked; C85_life: in the whole life of the outer driver; C85_nested, C85_counter: any nesting. What the inner driver answers is given by the list of its answers; C65 and C58 say what these are and that they come."
  },
  {
   "property": "C86",
   "status": "proved",
   "theorems": [
    "Metrix.C86_results",
    "Metrix.C86_driver",
    "Metrix.C86_filter",
    "Metrix.C86_renamed",
    "Metrix.C86_driver_renamed",
    "Metrix.C86_same_filters",
    "Metrix.C86_two_label_types"
   ],
   "note": "C86_results, C86_driver: programs that differ in their labels only; C86_filter, C86_renamed, C86_driver_renamed: consistent renaming; C86_same_filters; C86_two_label_types, which also justifies that the model has one label type per mount."
  },
  {
   "property": "C87",
   "status": "proved",
   "theorems": [
    "Metrix.C87_update",
    "Metrix.C87_put",
    "Metrix.C87_results",
    "Metrix.C87_results_limits",
    "Metrix.C87_driver",
    "Metrix.C87_driver_limits",
    "Metrix.C87_transmit",
    "Metrix.C87_observations",
    "Metrix.C87_new_instruments",
    "Metrix.C87_new_groups",
    "Metrix.C87_new_driver",
    "Metrix.C87_modifier"
   ],
   "note": "C87_update, C87_put: instruments; C87_results, C87_results_limits: processors and mounts; C87_driver, C87_driver_limits: drivers; C87_transmit, C87_observations: calls of transmitters; C87_new_instruments, C87_new_groups, C87_new_driver: what is created later is the later version; C87_modifier. What an external histogram crate computes from its samples is an input of the model; it is taken to be the same in both programs."
  },
  {
   "property": "C88",
   "status": "proved",
   "theorems": [
    "Metrix.C88_number",
    "Metrix.C88_integers",
    "Metrix.C88_told_apart",
    "Metrix.C88_not_found",
    "Metrix.C88_duration",
    "Metrix.C88_path"
   ],
   "note": "C88_number: read back; C88_integers, C88_told_apart; C88_not_found; C88_duration; C88_path. How the standard library prints floats and durations is a parameter."
  },
  {
   "property": "C89",
   "status": "proved",
   "theorems": [
    "Metrix.C89_happens",
    "Metrix.C89_calls",
    "Metrix.C89_snapshots",
    "Metrix.C89_totals",
    "Metrix.C89_split"
   ],
   "note": "C89_snapshots and C89_totals for everything that can happen to a processor; C89_split for waiting messages; C89_happens and C89_calls: the description by happenings is complete. Each call happens at one moment (as in C47): time that passes while a run is going on belongs to the messages, not to the run."
  },
  {
   "property": "C90",
   "status": "proved",
   "theorems": [
    "Metrix.C90_handled",
    "Metrix.C90_snapshots",
    "Metrix.C90_totals",
    "Metrix.C90_all",
    "Metrix.C90_age"
   ],
   "note": "C90_handled: exact equality for one observation at any time; C90_snapshots and C90_totals for everything that can happen to a processor; C90_all and C90_age say which changes of timestamps lead to the same decision."
  },
  {
   "property": "C91",
   "status": "proved",
   "theorems": [
    "Metrix.C91_snapshots",
    "Metrix.C91_totals",
    "Metrix.C91_groups",
    "Metrix.C91_items"
   ],
   "note": "C91_snapshots is the statement, C91_groups and C91_items spell out what it means for groups and values. C91_totals is about the outcomes. Without descriptions, because a description is left out when the group already has an item of its name; C46 says what descriptions change. Both processors get the same messages, since a message more would count as activity."
  },
  {
   "property": "C92",
   "status": "proved",
   "theorems": [
    "Metrix.C92_instrument",
    "Metrix.C92_snapshots",
    "Metrix.C92_totals",
    "Metrix.C92_finding_zero",
    "Metrix.C92_finding_increment"
   ],
   "note": "C92_snapshots is the statement, C92_instrument says it for a single instrument, C92_totals is about the outcomes. C92_finding_zero and C92_finding_increment show the two exceptions. Custom instruments and handlers must behave in this way themselves (CustomCounts). Reported more than 2^63 - 1 at once a meter ignores all of them."
  },
  {
   "property": "C93",
   "status": "proved",
   "theorems": [
    "Metrix.C93_instrument",
    "Metrix.C93_snapshots",
    "Metrix.C93_totals",
    "Metrix.C93_any_order",
    "Metrix.C93_finding_flag",
    "Metrix.C93_finding_peak"
   ],
   "note": "C93_snapshots and C93_totals are the statement, C93_any_order says that any permutation is covered, C93_instrument says it for two updates of one instrument. C93_finding_flag and C93_finding_peak show two of the exceptions. Both orders have to be handled without a panic; with overflow checks one order may panic where the other does not. Custom instruments and handlers must behave in this way themselves (CustomForgets, CustomStill, CustomAgrees)."
  },
  {
   "property": "C94",
   "status": "proved",
   "theorems": [
    "Metrix.C94_rule",
    "Metrix.C94_order",
    "Metrix.C94_run",
    "Metrix.C94_arrivals",
    "Metrix.C94_counter",
    "Metrix.C94_meter",
    "Metrix.C94_histogram",
    "Metrix.C94_finding_gauge",
    "Metrix.C94_finding_panic"
   ],
   "note": "C94_order says that the comparison of strategies is the right one. C94_run is about the outcomes, C94_arrivals about all instruments, C94_counter, C94_meter and C94_histogram about what they have then. C94_finding_gauge and C94_finding_panic: a gauge may show more, and a less strict strategy may panic, if its age limit is longer ago than any Instant."
  },
  {
   "property": "C95",
   "status": "proved",
   "theorems": [
    "Metrix.C95_told",
    "Metrix.C95_no_more",
    "Metrix.C95_apart",
    "Metrix.C95_when",
    "Metrix.C95_prompt",
    "Metrix.C95_finding_end"
   ],
   "note": "C95_told and C95_no_more: the numbers. C95_apart: the distance. C95_when and C95_prompt: which iterations write a warning. C95_finding_end: drops shortly before the end are never told. Warnings of an iteration that panics afterwards are not modelled."
  },
  {
   "property": "C96",
   "status": "proved",
   "theorems": [
    "Metrix.C96_weights_nonneg",
    "Metrix.C96_weights_sum",
    "Metrix.C96_average",
    "Metrix.C96_error",
    "Metrix.C96_add_average",
    "Metrix.C96_mono_average",
    "Metrix.C96_add",
    "Metrix.C96_add_exact",
    "Metrix.C96_mono",
    "Metrix.C96_forget_average",
    "Metrix.C96_forget",
    "Metrix.C96_shown",
    "Metrix.C96_value_meter_shown"
   ],
   "note": "C96_average: without rounding a rate is the weighted average; C96_weights_nonneg and C96_weights_sum: the weights. C96_error: the bound with rounding; C96_shown and C96_value_meter_shown: for snapshots. C96_add, C96_add_exact, C96_add_average: sums; C96_mono, C96_mono_average: comparison. For weights up to 1/4 and counts that are at least 0 and fit 64 bits. C96_forget and C96_forget_average: the past loses its influence."
  },
  {
   "property": "C97",
   "status": "proved",
   "theorems": [
    "Metrix.C97_current",
    "Metrix.C97_longer"
   ],
   "note": "C97_current: the current value. C97_longer: two periods compared, for what snapshots show."
  },
  {
   "property": "C98",
   "status": "proved",
   "theorems": [
    "Metrix.C98_snapshots",
    "Metrix.C98_totals",
    "Metrix.C98_panel_handles",
    "Metrix.C98_panel_shows",
    "Metrix.C98_values",
    "Metrix.C98_groups",
    "Metrix.C98_panel_built",
    "Metrix.C98_cockpit_built"
   ],
   "note": "C98_snapshots and C98_totals are the statement for processors, C98_values and C98_groups spell out what reordered snapshots have in common. C98_panel_built and C98_cockpit_built: additions in any order make reordered parts. C98_panel_handles and C98_panel_shows are about one panel alone. Without descriptions, for the same reason as in C91. The place that a panel has for its first counter, gauge, meter and histogram is as good as one among its handlers, so additions of instruments are covered."
  },
  {
   "property": "C99",
   "status": "proved",
   "theorems": [
    "Metrix.C99_instrument",
    "Metrix.C99_handler",
    "Metrix.C99_panel",
    "Metrix.C99_cockpit",
    "Metrix.C99_snapshooter",
    "Metrix.C99_processor",
    "Metrix.C99_mounted",
    "Metrix.C99_exactly",
    "Metrix.C99_mounted_together",
    "Metrix.C99_cockpits_together"
   ],
   "note": "User defined components and processors are assumed to put their own as well (CustomOwn, CustomProcessorOwn; shown for an example). A mounted driver answers with a snapshot of its own. Spared says which titles and descriptions may be missing: only those with a name that was in the snapshot."
  },
  {
   "property": "C100",
   "status": "proved",
   "theorems": [
    "Metrix.C100_results",
    "Metrix.C100_driver",
    "Metrix.C100_observation"
   ],
   "note": "Snapshots without descriptions: with descriptions the titles and descriptions themselves are items, and one is left out if there is an item with its name. User defined components and processors are the same in both programs; what they put must not depend on what is in the snapshot (CustomFrames, CustomProcessorFrames). An example shows why the renaming must be injective."
  },
  {
   "property": "C101",
   "status": "proved",
   "theorems": [
    "Metrix.C101_in_panel",
    "Metrix.C101_panel_as_handler",
    "Metrix.C101_in_processor",
    "Metrix.C101_in_cockpit",
    "Metrix.C101_cockpit_in_processor",
    "Metrix.C101_cockpit_in_cockpit",
    "Metrix.C101_cockpit_in_panel",
    "Metrix.C101_snapshots",
    "Metrix.C101_new_panel",
    "Metrix.C101_new_cockpit",
    "Metrix.C101_settings"
   ],
   "note": "C101_in_panel, C101_in_cockpit, C101_in_processor, C101_cockpit_in_panel/_in_cockpit/_in_processor and C101_panel_as_handler show that the two constructions are reorderings of each other in the sense of C98, whose theorems C98_snapshots, C98_totals, C98_panel_handles and C98_panel_shows say what reorderings have in common; C101_snapshots spells it out for a group in a processor. C101_new_panel and C101_new_cockpit: new panels and cockpits are such groups. Snapshots without descriptions. As in C98 the clock stands still within a call, and user defined parts do not depend on how often the clock was read or on what is in the snapshot."
  },
  {
   "property": "C102",
   "status": "proved",
   "theorems": [
    "Metrix.C102_mounts",
    "Metrix.C102_order",
    "Metrix.C102_grouped",
    "Metrix.C102_inside",
    "Metrix.C102_order_runs",
    "Metrix.C102_grouped_runs",
    "Metrix.C102_default"
   ],
   "note": "C102_mounts for all mounts that are rearrangements of each other (Spec/Arranged), C102_order, C102_grouped and C102_inside show that adding in another order, adding in a mount without name and limit, and other arrangements within the parts are such rearrangements; C102_order_runs and C102_grouped_runs spell both out. C102_default: a new mount only groups. As in C47 the clock stands still within a call, there is no driver mounted below, and user defined parts and processors do not depend on how often the clock was read or on what is in the snapshot."
  },
  {
   "property": "C103",
   "status": "proved",
   "theorems": [
    "Metrix.C103_results",
    "Metrix.C103_driver",
    "Metrix.C103_panel",
    "Metrix.C103_opened",
    "Metrix.C103_redundant",
    "Metrix.C103_opened_results",
    "Metrix.C103_groups"
   ],
   "note": "C103_results for all processors and mounts that are related by Spec/Filtered, C103_driver for drivers, C103_panel for a panel alone. C103_opened: a panel may leave the filtering to its parts, if these are instruments, gauges and panels; C103_opened_results spells that out for a processor. C103_groups: groups that filter, under the assumptions of C101. C103_redundant: filters that accept all or none of what gets to them. Except for C103_groups without assumptions on the clock or on user defined parts. Cockpits and the user's own handlers have no filter, so the same labels have to get to them."
  },
  {
   "property": "C104",
   "status": "proved",
   "theorems": [
    "Metrix.C104_totals",
    "Metrix.C104_snapshots"
   ],
   "note": "C104_totals for the numbers, C104_snapshots for the snapshots. Distributed (gather in Spec/Split): the parts of all shares after each other are those of the one processor, in any order as in C98. Assumptions as in C98: clock readings within a run or snapshot are the same, user defined parts depend only on the observation and the moment and append what they show. The messages are observations only: a part that is added later would have to go to one of the shares. Whether a snapshot was taken in between, and how the observations are split into runs, may differ."
  }
 ]
}