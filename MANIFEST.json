{
 "claims": [
  {
   "property": "C01",
   "status": "proved",
   "theorems": [
    "Jq.c01_heap_refines_bag",
    "Jq.c01_pop_delivers_least",
    "Jq.c01_pop_empty_iff",
    "Jq.c01_top_and_empty",
    "Jq.c01_no_loss_no_duplicate",
    "Jq.c01_keys_distinct",
    "Jq.c01_drain_in_order"
   ],
   "note": "proved on the array algorithm of heapq"
  },
  {
   "property": "C02",
   "status": "proved",
   "theorems": [
    "Jq.c02_linearizable",
    "Jq.c02_quiescent_state",
    "Jq.c02_mutual_exclusion",
    "Jq.c02_no_loss_no_duplicate"
   ],
   "note": ""
  },
  {
   "property": "C03",
   "status": "proved",
   "theorems": [
    "Jq.c03_never_early",
    "Jq.c03_strategy_dt"
   ],
   "note": ""
  },
  {
   "property": "C04",
   "status": "proved",
   "theorems": [
    "Jq.c04_no_lost_wakeup",
    "Jq.c04_due_message_fires"
   ],
   "note": ""
  },
  {
   "property": "C05",
   "status": "proved",
   "theorems": [
    "Jq.c05_fires_in_order",
    "Jq.c05_strategy_dt_monotone",
    "Jq.c05_each_source_in_sequence",
    "Jq.c05_normal_end_complete",
    "Jq.c05_no_overtaking",
    "Jq.c05_clock_independent"
   ],
   "note": "sources are their event sequences; that run_daily sources are sorted is part of C07"
  },
  {
   "property": "C06",
   "status": "proved",
   "theorems": [
    "Jq.c06_nothing_after_stop",
    "Jq.c06_signal_stops",
    "Jq.c06_callback_error_surfaces",
    "Jq.c06_callback_stop_stops",
    "Jq.c06_raises_only_callback_errors",
    "Jq.c06_stop_ends_loop",
    "Jq.c06_halts_only_when_stopping"
   ],
   "note": ""
  },
  {
   "property": "C07",
   "status": "proved",
   "theorems": [
    "Jq.c07_daily_with_end",
    "Jq.c07_added_entry_starts_over",
    "Jq.c07_day_events_meaning",
    "Jq.c07_events_in_order",
    "Jq.c07_single_task"
   ],
   "note": ""
  },
  {
   "property": "C08",
   "status": "partial",
   "theorems": [
    "Jq.c08_first_window_partial",
    "Jq.c08_last_day_repeats_refuted",
    "Jq.c08_live_windows_partial",
    "Jq.c08_once_per_day_partial",
    "Jq.c08_default_config_witness"
   ],
   "note": "the statement is false: when the 365-day window is used up, the last day is generated again; proved for the first window and, for every clock, the sequence of windows"
  },
  {
   "property": "C09",
   "status": "partial",
   "theorems": [
    "Jq.c09_base_alone",
    "Jq.c09_offset_is_sum_partial",
    "Jq.c09_exact_partial",
    "Jq.c09_repeated_unit_refuted",
    "Jq.c09_trailing_newline_refuted",
    "Jq.c09_named_times",
    "Jq.c09_only_these_names"
   ],
   "note": "false for a repeated unit and for a trailing newline; what every text means is proved exactly"
  },
  {
   "property": "C10",
   "status": "partial",
   "theorems": [
    "Jq.c10_clock_hms",
    "Jq.c10_clock_hm",
    "Jq.c10_accepted_in_range_partial",
    "Jq.c10_extra_fields_refuted"
   ],
   "note": "a text with more than three fields is not refused: those after the third are ignored (c10_extra_fields_refuted); proved for two or three fields, and what the first three have to be"
  },
  {
   "property": "C11",
   "status": "proved",
   "theorems": [
    "Jq.c11_every_minute",
    "Jq.c11_steps_meaning",
    "Jq.c11_whole_seconds"
   ],
   "note": ""
  },
  {
   "property": "C15",
   "status": "partial",
   "theorems": [
    "Jq.c15_returns_partial",
    "Jq.c15_strategy_sources_return",
    "Jq.c15_empty_source_refuted",
    "Jq.c15_with_end_returns"
   ],
   "note": "false for a source without entries in live mode"
  },
  {
   "property": "C54",
   "status": "partial",
   "theorems": [
    "Jq.c54_no_period_times",
    "Jq.c54_with_periods",
    "Jq.c54_events_partial",
    "Jq.c54_mornings_missed_refuted",
    "Jq.c54_late_start_hangs_refuted",
    "Jq.c54_zero_interval_refuted"
   ],
   "note": "the statement is false; the exact times are proved"
  },
  {
   "property": "C12",
   "status": "proved",
   "theorems": [
    "Jq.c12_own_callback",
    "Jq.c12_class_names_distinct",
    "Jq.c12_priorities",
    "Jq.c12_keeps_classes"
   ],
   "note": ""
  },
  {
   "property": "C13",
   "status": "proved",
   "theorems": [
    "Jq.c13_outside_refused",
    "Jq.c13_tasks_are_the_calls",
    "Jq.c13_inside_accepted"
   ],
   "note": ""
  },
  {
   "property": "C14",
   "status": "proved",
   "theorems": [
    "Jq.c14_emit",
    "Jq.c14_order_meaning",
    "Jq.c14_unregister_removes"
   ],
   "note": "the bus is not changed while it emits"
  },
  {
   "property": "C16",
   "status": "partial",
   "theorems": [
    "Jq.c16_never_returns_refuted",
    "Jq.c16_unscheduled_never_returns_refuted",
    "Jq.c16_unscheduled_returns_partial",
    "Jq.c16_ends_at_failing_peek",
    "Jq.c16_unschedule_silences",
    "Jq.c16_unschedule_leaves_others",
    "Jq.c16_delivers_in_order",
    "Jq.c16_message_time"
   ],
   "note": "the statement is false: the loop over the callbacks never ends; proved for unscheduled sources"
  },
  {
   "property": "C59",
   "status": "partial",
   "theorems": [
    "Jq.c59_runs_function_partial",
    "Jq.c59_by_name_refuted"
   ],
   "note": "false when the function is not found under its own name"
  },
  {
   "property": "C17",
   "status": "proved",
   "theorems": [
    "Jq.c17_accepts_valid",
    "Jq.c17_invalid_refused",
    "Jq.c17_reaches_only_valid"
   ],
   "note": "isdigit() beyond ASCII is an arbitrary predicate"
  },
  {
   "property": "C20",
   "status": "proved",
   "theorems": [
    "Jq.c20_order_registered",
    "Jq.c20_get_orders_shows"
   ],
   "note": "for every trade gate"
  },
  {
   "property": "C22",
   "status": "proved",
   "theorems": [
    "Jq.c22_order_returns",
    "Jq.c22_failing_order_none",
    "Jq.c22_others_return",
    "Jq.c22_api_raises_only_invalid"
   ],
   "note": "for every trade gate"
  },
  {
   "property": "C24",
   "status": "proved",
   "theorems": [
    "Jq.c24_batch_is_sequence",
    "Jq.c24_one_result_each",
    "Jq.c24_bad_entry_isolated"
   ],
   "note": ""
  },
  {
   "property": "C25",
   "status": "partial",
   "theorems": [
    "Jq.c25_exactly_matching",
    "Jq.c25_succeeds_partial",
    "Jq.c25_order_without_status_refuted"
   ],
   "note": "what is returned is exactly right; that it returns is proved if every order has a status: an order reported without one makes a status filter raise (c25_order_without_status_refuted)"
  },
  {
   "property": "C55",
   "status": "partial",
   "theorems": [
    "Jq.c55_refused_partial",
    "Jq.c55_changes_nothing",
    "Jq.c55_in_use",
    "Jq.c55_switch",
    "Jq.c55_account_exists_partial",
    "Jq.c55_new_account",
    "Jq.c55_caught_failure_witness",
    "Jq.c55_batch_not_refused_refuted"
   ],
   "note": "false for the batch functions, which swallow or never reach the refusal"
  },
  {
   "property": "C26",
   "status": "proved",
   "theorems": [
    "Jq.c26_positions_are_reported",
    "Jq.c26_position_codes",
    "Jq.c26_failure_changes_nothing",
    "Jq.c26_malformed_prefix",
    "Jq.c26_missing_side_refuted"
   ],
   "note": "malformed reports are outside the statement; their effect is characterised"
  },
  {
   "property": "C27",
   "status": "partial",
   "theorems": [
    "Jq.c27_cash_partial",
    "Jq.c27_cash_iff",
    "Jq.c27_zero_ignored_refuted",
    "Jq.c27_spent_cash_witness"
   ],
   "note": "false: a reported zero is ignored"
  },
  {
   "property": "C28",
   "status": "partial",
   "theorems": [
    "Jq.c28_closeable_partial",
    "Jq.c28_created_own_side",
    "Jq.c28_never_negative",
    "Jq.c28_short_unchanged",
    "Jq.c28_short_side_refuted"
   ],
   "note": "false for the short side, which sell orders never touch; proved for long positions over all histories"
  },
  {
   "property": "C32",
   "status": "proved",
   "theorems": [
    "Jq.c32_live_until_sync",
    "Jq.c32_frozen_after_sync",
    "Jq.c32_missing_is_zero"
   ],
   "note": ""
  },
  {
   "property": "C58",
   "status": "partial",
   "theorems": [
    "Jq.c58_position_value_refuted",
    "Jq.c58_no_positions_partial"
   ],
   "note": "false as soon as there is a position"
  },
  {
   "property": "C29",
   "status": "proved",
   "theorems": [
    "Jq.c29_reported_present",
    "Jq.c29_others_unchanged",
    "Jq.c29_none_disappears",
    "Jq.c29_nothing_new",
    "Jq.c29_second_sync"
   ],
   "note": ""
  },
  {
   "property": "C30",
   "status": "proved",
   "theorems": [
    "Jq.c30_nothing_after_final",
    "Jq.c30_at_most_one_final",
    "Jq.c30_told_exactly",
    "Jq.c30_reopened_witness",
    "Jq.c30_nan_told_again_witness"
   ],
   "note": "the conditions on the reports are in the statement; without them: c30_reopened_witness, c30_nan_told_again_witness"
  },
  {
   "property": "C31",
   "status": "proved",
   "theorems": [
    "Jq.c31_snapshot"
   ],
   "note": ""
  },
  {
   "property": "C33",
   "status": "partial",
   "theorems": [
    "Jq.c33_round_trip",
    "Jq.c33_exact",
    "Jq.c33_json_total",
    "Jq.c33_new_orders",
    "Jq.c33_loaded_style_price",
    "Jq.c33_year_999_refuted",
    "Jq.c33_style_price_refuted",
    "Jq.c33_reads_fraction",
    "Jq.c33_reads_seconds"
   ],
   "note": "proved for years 1000-9999; refuted for earlier years (strftime %Y is not padded); c33_exact says exactly which orders come back as they were"
  },
  {
   "property": "C56",
   "status": "partial",
   "theorems": [
    "Jq.c56_fresh_ids_partial",
    "Jq.c56_all_present_partial",
    "Jq.c56_collision_refuted"
   ],
   "note": "false when the 32-bit random id collides; proved for distinct ids"
  },
  {
   "property": "C34",
   "status": "proved",
   "theorems": [
    "Jq.c34_encoded",
    "Jq.c34_decoded",
    "Jq.c34_round_trip",
    "Jq.c34_injective",
    "Jq.c34_other_codes_witness"
   ],
   "note": "codes of broker form; other separators are C35"
  },
  {
   "property": "C36",
   "status": "proved",
   "theorems": [
    "Jq.c36_chunks_equal_whole",
    "Jq.c36_results_chunks_equal_whole",
    "Jq.c36_shows_last_update",
    "Jq.c36_file_of_records",
    "Jq.c36_reading_again",
    "Jq.c36_asking_again",
    "Jq.c36_asking_again_other_faults"
   ],
   "note": "for both files, every cutting at line ends, and what the orders then show"
  },
  {
   "property": "C37",
   "status": "partial",
   "theorems": [
    "Jq.c37_half_line_partial",
    "Jq.c37_half_line_unknown_order_partial",
    "Jq.c37_every_late_cut_refuted",
    "Jq.c37_cut_in_last_field_refuted",
    "Jq.c37_cut_in_header_refuted",
    "Jq.c37_cut_in_line_end_refuted"
   ],
   "note": "the statement is false for a cut in the last field, in the header and inside a Windows line end; the first two theorems give the cuts that lose nothing, and every late cut of a line of a known order is shown to block the file"
  },
  {
   "property": "C38",
   "status": "proved",
   "theorems": [
    "Jq.c38_bad_line_skipped",
    "Jq.c38_raises_again",
    "Jq.c38_ignoring_never_raises",
    "Jq.c38_short_line_blocks",
    "Jq.c38_blank_line_hides"
   ],
   "note": ""
  },
  {
   "property": "C39",
   "status": "partial",
   "theorems": [
    "Jq.c39_no_change_partial",
    "Jq.c39_confined",
    "Jq.c39_status_changed_refuted",
    "Jq.c39_witness"
   ],
   "note": "the statement is false when a field after the status cannot be parsed; proved for a wrong field count or status; in every case other orders are untouched and each field of the named order is its old value or that of the line"
  },
  {
   "property": "C42",
   "status": "partial",
   "theorems": [
    "Jq.c42_each_order_partial",
    "Jq.c42_restarts_invisible_partial",
    "Jq.c42_same_orders",
    "Jq.c42_restart_shows_update_refuted",
    "Jq.c42_refused_after_update_refuted"
   ],
   "note": "false for an order that is both updated and refused (after a restart it always shows its last update); proved for every other order, whatever happens to the rest"
  },
  {
   "property": "C43",
   "status": "partial",
   "theorems": [
    "Jq.c43_updates_missed_refuted",
    "Jq.c43_witness",
    "Jq.c43_after_offset_partial",
    "Jq.c43_blocked_refuted",
    "Jq.c43_results_blocked_refuted",
    "Jq.c43_from_line_partial",
    "Jq.c43_results_from_line_partial",
    "Jq.c43_every_offset"
   ],
   "note": "the statement is false: offsets are kept over midnight; an offset behind the first comma of a line of the new file blocks this file for good, one before it skips the lines before; c43_every_offset: there is no third case inside the file"
  },
  {
   "property": "C60",
   "status": "proved",
   "theorems": [
    "Jq.c60_status_codes",
    "Jq.c60_other_codes",
    "Jq.c60_codes_distinct",
    "Jq.c60_documented_names",
    "Jq.c60_names_round_trip",
    "Jq.c60_other_names"
   ],
   "note": ""
  },
  {
   "property": "C45",
   "status": "partial",
   "theorems": [
    "Jq.c45_result",
    "Jq.c45_negative",
    "Jq.c45_same_options",
    "Jq.c45_never_fewer",
    "Jq.c45_after_set_options_partial",
    "Jq.c45_attempts_multiply_refuted",
    "Jq.c45_default_witness"
   ],
   "note": "calls and result proved; false after a second set_options, which multiplies the attempts"
  },
  {
   "property": "C46",
   "status": "partial",
   "theorems": [
    "Jq.c46_truncated_refused_partial",
    "Jq.c46_complete_read",
    "Jq.c46_accepted_iff",
    "Jq.c46_read_has_closing_row",
    "Jq.c46_retries",
    "Jq.c46_first_complete",
    "Jq.c46_missing_reported",
    "Jq.c46_last_error",
    "Jq.c46_account_unchanged",
    "Jq.c46_empty_first_field_refuted"
   ],
   "note": "proved when every row begins with a number; false when a row may begin with an empty field"
  },
  {
   "property": "C47",
   "status": "partial",
   "theorems": [
    "Jq.c47_report",
    "Jq.c47_from_files",
    "Jq.c47_other_accounts_partial",
    "Jq.c47_other_accounts_refuted"
   ],
   "note": "the report itself is proved; that other accounts' rows make no difference is false, because pandas chooses the type of a column by all its cells: a cell of another account that is no number makes int() of '200.0' raise; proved as long as the types of the converted columns stay the same"
  },
  {
   "property": "C52",
   "status": "partial",
   "theorems": [
    "Jq.c52_sets_named_partial",
    "Jq.c52_never_set_refuted",
    "Jq.c52_scheduler_options_witness",
    "Jq.c52_account_options_witness",
    "Jq.c52_others_ignored"
   ],
   "note": "false: lstrip removes a character set, so most options cannot be set; exact characterisation proved"
  },
  {
   "property": "C53",
   "status": "partial",
   "theorems": [
    "Jq.c53_whole_seconds_partial",
    "Jq.c53_whole_seconds_order_partial",
    "Jq.c53_counted_twice_refuted",
    "Jq.c53_half_second_witness",
    "Jq.c53_order_refuted",
    "Jq.c53_same_second_order_partial",
    "Jq.c53_double_rounds",
    "Jq.c53_double_nearest",
    "Jq.c53_float_close",
    "Jq.c53_float_back",
    "Jq.c53_float_whole_seconds_partial",
    "Jq.c53_float_millisecond_partial",
    "Jq.c53_float_counted_twice_refuted",
    "Jq.c53_float_order_refuted",
    "Jq.c53_float_lost_millisecond_witness"
   ],
   "note": "false: the sub-second part is counted twice; proved for whole seconds, with exact arithmetic and with float operations"
  },
  {
   "property": "C18",
   "status": "partial",
   "theorems": [
    "Jq.c18_one_record_partial",
    "Jq.c18_file_text",
    "Jq.c18_history_partial",
    "Jq.c18_started_partial",
    "Jq.c18_windows_blank_lines_refuted"
   ],
   "note": "proved on POSIX for every accepted order and every one-day history without a disk filling up in mid-line; c18_started_partial for a whole process, from process_initialize and the options to the file; false on Windows (blank lines); see C35 for codes with commas"
  },
  {
   "property": "C19",
   "status": "partial",
   "theorems": [
    "Jq.c19_side_dropped_refuted",
    "Jq.c19_short_sent_as_long_refuted",
    "Jq.c19_gate_refuses_partial"
   ],
   "note": "false: the account drops the side; the gate itself refuses"
  },
  {
   "property": "C21",
   "status": "partial",
   "theorems": [
    "Jq.c21_exact_partial",
    "Jq.c21_none_partial",
    "Jq.c21_written_but_none_refuted",
    "Jq.c21_unserialisable_price_refuted",
    "Jq.c21_failed_order_partial",
    "Jq.c21_failed_order_stays_refuted"
   ],
   "note": "false: written but not saved returns None, and the order stays in get_orders; what every call leaves in the files and in the book is given exactly, for each step that can fail"
  },
  {
   "property": "C23",
   "status": "proved",
   "theorems": [
    "Jq.c23_cancel_forwards_known",
    "Jq.c23_batch_forwards_known",
    "Jq.c23_cancel_record",
    "Jq.c23_batch_records",
    "Jq.c23_failed_writes",
    "Jq.c23_history",
    "Jq.c23_started"
   ],
   "note": "c23_cancel_record and c23_batch_records for a cancel file that can be written; c23_failed_writes says what is left if it cannot; c23_history is the whole file over every history of one day, c23_started the same for a whole process with the built-in gate (POSIX, one writer, no disk filling up in mid-line)"
  },
  {
   "property": "C35",
   "status": "partial",
   "theorems": [
    "Jq.c35_twelve_fields_partial",
    "Jq.c35_exact",
    "Jq.c35_comma_code_refuted",
    "Jq.c35_newline_code_refuted"
   ],
   "note": "false: any separator character is accepted; proved for codes without comma and line end; c35_exact counts the fields and line ends for every accepted code"
  },
  {
   "property": "C57",
   "status": "partial",
   "theorems": [
    "Jq.c57_later_orders_partial",
    "Jq.c57_poisoned_refuted",
    "Jq.c57_witness"
   ],
   "note": "false for a price that json cannot serialise; proved for transient failures"
  },
  {
   "property": "C61",
   "status": "proved",
   "theorems": [
    "Jq.c61_round_trip",
    "Jq.c61_cut_refused",
    "Jq.c61_save_then_load",
    "Jq.c61_injective",
    "Jq.c61_any_layout",
    "Jq.c61_only_json",
    "Jq.c61_saved_is_json"
   ],
   "note": "number texts are assumed to round-trip (Python's repr)"
  },
  {
   "property": "C40",
   "status": "partial",
   "theorems": [
    "Jq.c40_not_torn_partial",
    "Jq.c40_history_partial",
    "Jq.c40_steps_complete",
    "Jq.c40_write_complete",
    "Jq.c40_windows_refuted",
    "Jq.c40_failed_copy_refuted"
   ],
   "note": "proved where the temporary file is renamed (POSIX, one file system) at every crash point and over every history; false where shutil.move copies: a failing copy destroys the saved book; false on Windows, where the move empties the old file first"
  },
  {
   "property": "C41",
   "status": "partial",
   "theorems": [
    "Jq.c41_acknowledged_survive_partial",
    "Jq.c41_written_lost_refuted",
    "Jq.c40_windows_refuted",
    "Jq.c40_failed_copy_refuted"
   ],
   "note": "on POSIX acknowledged orders survive every history of crashes; an order written to the broker's file but not yet saved is lost"
  },
  {
   "property": "C44",
   "status": "partial",
   "theorems": [
    "Jq.c44_records_partial",
    "Jq.c44_header_once_partial",
    "Jq.c44_first_writer_partial",
    "Jq.c44_alone",
    "Jq.c44_header_twice_refuted"
   ],
   "note": "records: proved for every interleaving, with kills; header: false when two writers open the empty file before the first has written, proved otherwise; POSIX, one appending write per record"
  },
  {
   "property": "C48",
   "status": "proved",
   "theorems": [
    "Jq.c48_read_back",
    "Jq.c48_joined_form_refuted"
   ],
   "note": "documented separate options; forms like --name=x, which argparse also accepts, are read as no name"
  },
  {
   "property": "C49",
   "status": "partial",
   "theorems": [
    "Jq.c49_no_two_partial",
    "Jq.c49_child_refuted",
    "Jq.c49_hidden_refuted"
   ],
   "note": "proved for every interleaving in which no task starts (other than by forking) a process whose command line has the two words; false otherwise: such a child hides the task"
  },
  {
   "property": "C50",
   "status": "partial",
   "theorems": [
    "Jq.c50_only_selected",
    "Jq.c50_no_selector",
    "Jq.c50_exactly_selected_partial",
    "Jq.c50_unrelated_process_refuted",
    "Jq.c50_hidden_by_child_refuted",
    "Jq.c50_signals_itself_refuted",
    "Jq.c50_ended_meanwhile_refuted"
   ],
   "note": "only selected tasks are signalled; every one of them only if all visible command lines are documented forms and nothing hides a task"
  },
  {
   "property": "C51",
   "status": "proved",
   "theorems": [
    "Jq.c51_last_value",
    "Jq.c51_applied",
    "Jq.c51_accepted_exactly",
    "Jq.c51_refused_unchanged",
    "Jq.c51_trailing_semicolon_refuted"
   ],
   "note": "a trailing semicolon is refused"
  },
  {
   "property": "C62",
   "status": "partial",
   "theorems": [
    "Jq.c62_check_exact_partial",
    "Jq.c62_unreadable_refuted",
    "Jq.c62_joined_form_refuted"
   ],
   "note": "proved for command lines of the documented form; false when another process was started with --name=x or without a name"
  },
  {
   "property": "C63",
   "status": "proved",
   "theorems": [
    "Jq.c63_run_with_end",
    "Jq.c63_live_run",
    "Jq.c63_windows_not_empty",
    "Jq.c63_whole_days",
    "Jq.c63_calls_per_day",
    "Jq.c63_schedule_test"
   ],
   "note": "that windows can overlap without an end date is c08_last_day_repeats_refuted"
  },
  {
   "property": "C64",
   "status": "proved",
   "theorems": [
    "Jq.c64_accepted_orders_shown",
    "Jq.c64_get_orders_shown",
    "Jq.c64_only_what_was_asked",
    "Jq.c64_started"
   ],
   "note": "see C18, C40 for what goes wrong on Windows and C42 for an order both refused and updated"
  },
  {
   "property": "C65",
   "status": "proved",
   "theorems": [
    "Jq.c65_setup",
    "Jq.c65_account_in_run",
    "Jq.c65_synced_before_tasks",
    "Jq.c65_process_with_end",
    "Jq.c65_process_live",
    "Jq.c65_orders_shown",
    "Jq.c65_orders_survive",
    "Jq.c65_started"
   ],
   "note": "live mode: (3) as long as no window begins before the end of the one before it, see c08_last_day_repeats_refuted"
  },
  {
   "property": "C66",
   "status": "partial",
   "theorems": [
    "Jq.c66_once_partial",
    "Jq.c66_options_twice_refuted",
    "Jq.c66_every_set_options",
    "Jq.c66_other_set_options",
    "Jq.c66_priorities"
   ],
   "note": "proved for one set-up; false after a second: the callbacks of the account object that is no longer used are still called, by both timers"
  },
  {
   "property": "C67",
   "status": "partial",
   "theorems": [
    "Jq.c67_runs_given_file_partial",
    "Jq.c67_no_file",
    "Jq.c67_dotted_refuted",
    "Jq.c67_other_module_witness"
   ],
   "note": "proved for name.py without further dots, not yet imported and not hidden by a package; false for my.strategy.py, json.py and others"
  },
  {
   "property": "C68",
   "status": "partial",
   "theorems": [
    "Jq.c68_api_in_place_partial",
    "Jq.c68_own_name_replaced_refuted",
    "Jq.c68_account_api_always_witness",
    "Jq.c68_make_apis_account_off"
   ],
   "note": "the strategy's own objects with an API name are replaced; the account's functions cannot be left out by a configuration file"
  },
  {
   "property": "C69",
   "status": "proved",
   "theorems": [
    "Jq.c69_code_after_checks",
    "Jq.c69_loop_after_setup",
    "Jq.c69_no_silent_end",
    "Jq.c69_missing_file",
    "Jq.c69_name_taken"
   ],
   "note": ""
  },
  {
   "property": "C70",
   "status": "partial",
   "theorems": [
    "Jq.c70_only_tasks",
    "Jq.c70_all_tasks_partial",
    "Jq.c70_shown_as_given",
    "Jq.c70_unrelated_process_refuted"
   ],
   "note": "an unrelated process with the two words, or a task started with --name=x, ends the listing"
  },
  {
   "property": "C71",
   "status": "proved",
   "theorems": [
    "Jq.c71_in_log_file",
    "Jq.c71_on_standard_output",
    "Jq.c71_own_files"
   ],
   "note": ""
  },
  {
   "property": "C72",
   "status": "proved",
   "theorems": [
    "Jq.c72_failure_is_last",
    "Jq.c72_raises_last_failure",
    "Jq.c72_nothing_afterwards",
    "Jq.c72_missing_function",
    "Jq.c72_setup"
   ],
   "note": ""
  },
  {
   "property": "C73",
   "status": "proved",
   "theorems": [
    "Jq.c73_starts_iff",
    "Jq.c73_documented"
   ],
   "note": ""
  },
  {
   "property": "C74",
   "status": "partial",
   "theorems": [
    "Jq.c74_read_exact",
    "Jq.c74_read_back_partial",
    "Jq.c74_joined_name_refuted",
    "Jq.c74_joined_name_blocks_refuted"
   ],
   "note": "joined and abbreviated options are overlooked: a task started with --name=x has no name in the process list, and no other task can be started while it runs; c74_read_exact says exactly what is read"
  },
  {
   "property": "C75",
   "status": "partial",
   "theorems": [
    "Jq.c75_first_word",
    "Jq.c75_version_first",
    "Jq.c75_version",
    "Jq.c75_shows_version_iff",
    "Jq.c75_stops_iff",
    "Jq.c75_stop",
    "Jq.c75_lists_iff",
    "Jq.c75_double_dash",
    "Jq.c75_no_word_refuted"
   ],
   "note": "a line without any word ends with an AttributeError (the only such line); which lines stop or list tasks, and with what values, is given exactly"
  },
  {
   "property": "C76",
   "status": "proved",
   "theorems": [
    "Jq.c76_times",
    "Jq.c76_set_options",
    "Jq.c76_last_call"
   ],
   "note": ""
  },
  {
   "property": "C77",
   "status": "partial",
   "theorems": [
    "Jq.c77_given_partial",
    "Jq.c77_configured",
    "Jq.c77_configured_texts",
    "Jq.c77_forgotten_refuted",
    "Jq.c77_minutes_texts_refuted",
    "Jq.c77_empty_refuted"
   ],
   "note": "a later call of set_options that says nothing about the periods puts the configured ones back; configured texts are understood for open and close but end the process when a task runs every minute; an empty list is accepted and breaks every task at the open or the close"
  },
  {
   "property": "C78",
   "status": "proved",
   "theorems": [
    "Jq.c78_process_with_end",
    "Jq.c78_process_live",
    "Jq.c78_no_account_with_end",
    "Jq.c78_no_account_live",
    "Jq.c78_any_options_with_end",
    "Jq.c78_any_options_live",
    "Jq.c78_bad_period",
    "Jq.c78_bad_period_first",
    "Jq.c78_init_raises",
    "Jq.c78_bad_time",
    "Jq.c78_bad_time_first"
   ],
   "note": "in live mode the order and the synchronisation before tasks hold as long as no window begins before the end of the one before it, see c08_last_day_repeats_refuted"
  },
  {
   "property": "C79",
   "status": "proved",
   "theorems": [
    "Jq.c79_text",
    "Jq.c79_text_refused",
    "Jq.c79_report_time",
    "Jq.c79_report_refused",
    "Jq.c79_report_accepted",
    "Jq.c79_five_digits",
    "Jq.c79_five_digits_witness"
   ],
   "note": "times of five digits (leading zero dropped) are outside the statement: hours 3 to 9 are read right, others may be taken for another moment"
  },
  {
   "property": "C80",
   "status": "proved",
   "theorems": [
    "Jq.c80_int",
    "Jq.c80_report"
   ],
   "note": "ASCII digits"
  },
  {
   "property": "C81",
   "status": "partial",
   "theorems": [
    "Jq.c81_bus_unchanged",
    "Jq.c81_called_partial",
    "Jq.c81_unregisters_itself_refuted",
    "Jq.c81_new_class_refuted",
    "Jq.c81_registers_itself_refuted"
   ],
   "note": "false as stated: a callback that unregisters itself makes the next one be left out; registering for a new class raises RuntimeError when a class is still to come; a callback that registers itself again is called for ever. Holds when the emission ends without exception and no callback unregisters itself or one called before it for the same class and priority"
  },
  {
   "property": "C82",
   "status": "partial",
   "theorems": [
    "Jq.c82_same_as_text_partial",
    "Jq.c82_utf8_partial",
    "Jq.c82_utf8_exact",
    "Jq.c82_gbk_exact",
    "Jq.c82_both_files_partial",
    "Jq.c82_chunk_lost_refuted",
    "Jq.c82_lost_for_ever_refuted",
    "Jq.c82_strict_raises",
    "Jq.c82_strict_partial",
    "Jq.c82_half_character_hangs_refuted",
    "Jq.c82_cut_character_refuted",
    "Jq.c82_cut_character_utf8_refuted",
    "Jq.c82_cut_character_gbk_partial",
    "Jq.c82_half_character_strict_partial",
    "Jq.c82_goes_back_refuted",
    "Jq.c82_other_update_lost_witness",
    "Jq.c82_result_encoding_witness",
    "Jq.c82_blocked_refuted",
    "Jq.c82_silenced_refuted",
    "Jq.c82_held_back_refuted",
    "Jq.c82_held_back_witness"
   ],
   "note": "false as stated for bytes that cannot be decoded: the whole chunk (8 KiB, or all that is new) is skipped for ever, a character that is half written makes the synchronisation spin, and so does, in UTF-8, a character across the border of two chunks when something in the second is wrong, and after an error in a later chunk the position goes back into the middle of the one before. The results are opened with the encoding of the locale, not with file_encoding. Proved: a file that can be decoded is read exactly as its text (so the character model of C36-C43 is right for it); what happens without ignore_error_line. Missing: nothing that is true"
  },
  {
   "property": "C83",
   "status": "partial",
   "theorems": [
    "Jq.c83_undisturbed_partial",
    "Jq.c83_update_lost_refuted",
    "Jq.c83_builtin_gate_harmless",
    "Jq.c83_builtin_event",
    "Jq.c83_accounts_in_run",
    "Jq.c83_switched_off"
   ],
   "note": "false for a gate that reports something only once: the replaced account takes the report away. Proved for every gate whose answers do not depend on having been asked before; the built-in gate is one, as long as nothing happens outside while an event is handled"
  },
  {
   "property": "C84",
   "status": "proved",
   "theorems": [
    "Jq.c84_clock",
    "Jq.c84_never_early",
    "Jq.c84_current_dt",
    "Jq.c84_strategy_dt",
    "Jq.c84_sees_due_time",
    "Jq.c84_not_back",
    "Jq.c84_clock_ahead_witness"
   ],
   "note": "times from 1970 to 2106; the clock may be set back, then only the comparison with current_dt is lost"
  },
  {
   "property": "C85",
   "status": "partial",
   "theorems": [
    "Jq.c85_told_once_partial",
    "Jq.c85_all_told_partial",
    "Jq.c85_first_sync_refuted",
    "Jq.c85_gate_flag",
    "Jq.c85_new_orders",
    "Jq.c85_account_flag"
   ],
   "note": "proved from the first synchronisation that got through; false for the refusals that it finds itself: they are read, not logged, and not read again. The part about new orders is proved"
  },
  {
   "property": "C86",
   "status": "partial",
   "theorems": [
    "Jq.c86_order_text",
    "Jq.c86_style_named",
    "Jq.c86_order_raises",
    "Jq.c86_reported_prints",
    "Jq.c86_position_text",
    "Jq.c86_portfolio_cash_partial",
    "Jq.c86_portfolio_positions_refuted",
    "Jq.c86_get_orders_ids_partial",
    "Jq.c86_portfolio_codes_partial",
    "Jq.c86_get_orders_refuted"
   ],
   "note": "proved for orders, positions and cash; false for the portfolio's positions and for the orders in the result of get_orders(): UserOrder and UserPosition do not inherit the __repr__ of _UserObject, so their addresses are printed; an order reported without a style cannot be printed at all"
  },
  {
   "property": "C87",
   "status": "partial",
   "theorems": [
    "Jq.c87_sorts_by_time",
    "Jq.c87_time_of_record",
    "Jq.c87_line_forged_refuted",
    "Jq.c87_lines_are_records_partial"
   ],
   "note": "proved for records, and for lines when no message has a line end; a message with a line end can look like any other record, and every logged exception has several lines"
  },
  {
   "property": "C88",
   "status": "partial",
   "theorems": [
    "Jq.c88_only_what_was_reported",
    "Jq.c88_refused_with_reason",
    "Jq.c88_started",
    "Jq.c88_reason_seen_partial",
    "Jq.c88_shown_exactly",
    "Jq.c88_comma_lost_refuted",
    "Jq.c88_comma_in_text_refuted",
    "Jq.c88_comma_shown_new_refuted",
    "Jq.c88_comma_witness",
    "Jq.c88_changed_text_refuted"
   ],
   "note": "proved: nothing is shown that was not reported, and a refusal line with six fields is shown with its message; violated: a comma in the message makes the line one of seven fields, which is skipped (the order stays new), and a report that differs only in message or time is not taken over, because Order.__eq__ does not compare them"
  },
  {
   "property": "C89",
   "status": "proved",
   "theorems": [
    "Jq.c89_cash",
    "Jq.c89_positions",
    "Jq.c89_between_reports"
   ],
   "note": "for every gate and every sequence of operations; sells are those whose call returned an id"
  },
  {
   "property": "C90",
   "status": "proved",
   "theorems": [
    "Jq.c90_time_words",
    "Jq.c90_time_clock",
    "Jq.c90_open_close",
    "Jq.c90_period_ends",
    "Jq.c90_order_refused",
    "Jq.c90_order_unreadable",
    "Jq.c90_code_refused",
    "Jq.c90_table_refused",
    "Jq.c90_balance_refused",
    "Jq.c90_balance_exact",
    "Jq.c90_position_refused",
    "Jq.c90_balance_unreadable",
    "Jq.c90_report_refused",
    "Jq.c90_files_refused",
    "Jq.c90_command_unreadable",
    "Jq.c90_task_refused",
    "Jq.c90_options_refused",
    "Jq.c90_start_refused",
    "Jq.c90_start_outside",
    "Jq.c90_no_initialize",
    "Jq.c90_print_refused",
    "Jq.c90_print_unwritten"
   ],
   "note": "exact (if and only if) for each checking function"
  },
  {
   "property": "C91",
   "status": "proved",
   "theorems": [
    "Jq.c91_undisturbed",
    "Jq.c91_plain_names",
    "Jq.c91_days",
    "Jq.c91_days_apart",
    "Jq.c91_records_stay",
    "Jq.c91_own_files",
    "Jq.c91_same_file_refuted",
    "Jq.c91_cut_line_witness",
    "Jq.c91_same_id_witness"
   ],
   "note": "one gate call at a time (calls at the same moment: C18, C40); whole lines by the broker; order ids differ. Outside the statement: names such as a and ./a mean the same data file and orders are lost; a line about another task that is cut off hides what follows; equal order ids"
  },
  {
   "property": "C92",
   "status": "proved",
   "theorems": [
    "Jq.c92_orders",
    "Jq.c92_cancels",
    "Jq.c92_read_back",
    "Jq.c92_other_day",
    "Jq.c92_days"
   ],
   "note": "one gate call at a time (calls at the same moment: C44); no disk filling up in mid-line (C21, C23), not on Windows (C18); the fields have no commas or line ends (C35)"
  },
  {
   "property": "C93",
   "status": "partial",
   "theorems": [
    "Jq.c93_attempts",
    "Jq.c93_once",
    "Jq.c93_other_files",
    "Jq.c93_ends_partial",
    "Jq.c93_waits_long_enough",
    "Jq.c93_free_in_time",
    "Jq.c93_is_append",
    "Jq.c93_clock_back_refuted"
   ],
   "note": "opening and locking are one step here (apart, with two headers as a consequence: C44); the bound on the attempts is false if the clock is set back (c93_clock_back_refuted), and proved for a clock that goes on"
  },
  {
   "property": "C94",
   "status": "partial",
   "theorems": [
    "Jq.c94_same_directory_partial",
    "Jq.c94_found_again_partial",
    "Jq.c94_tilde_refuted",
    "Jq.c94_tilde_alone_refuted",
    "Jq.c94_tilde_user_refuted",
    "Jq.c94_orders_forgotten_refuted"
   ],
   "note": "false for a path that begins with ~, which the strategy expands and the trade gate does not: its data is in a directory named ~ of the working directory, and is not found from elsewhere; proved for all other paths (POSIX, no symbolic links)"
  },
  {
   "property": "C95",
   "status": "partial",
   "theorems": [
    "Jq.c95_updates_reloaded_partial",
    "Jq.c95_refusals_reloaded_partial",
    "Jq.c95_results_lost_refuted"
   ],
   "note": "proved when both files can be decoded; the results are always read with the encoding of the locale, so refusals in another encoding are lost after every restart"
  },
  {
   "property": "C96",
   "status": "partial",
   "theorems": [
    "Jq.c96_as_configured",
    "Jq.c96_returns_iff",
    "Jq.c96_refused_iff",
    "Jq.c96_start_refused",
    "Jq.c96_start_left",
    "Jq.c96_process",
    "Jq.c96_missing_directory",
    "Jq.c96_raised",
    "Jq.c96_files_distinct",
    "Jq.c96_never_set_up",
    "Jq.c96_balance_unread",
    "Jq.c96_not_set_up_partial",
    "Jq.c96_sent_without_settings_refuted",
    "Jq.c96_caught_refuted",
    "Jq.c96_orders_replaced_refuted",
    "Jq.c96_account_type_refuted"
   ],
   "note": "proved for a set-up that returns; after one that raised and was caught, orders can be sent with None as counter and algorithm, and the stored orders can be replaced; an account type that is not supported is refused only when ordering"
  },
  {
   "property": "C97",
   "status": "proved",
   "theorems": [
    "Jq.c97_float",
    "Jq.c97_repr_read",
    "Jq.c97_repr_shortest",
    "Jq.c97_round_keeps",
    "Jq.c97_fourth_place_refuted",
    "Jq.c97_written",
    "Jq.c97_sixteen_digits_refuted",
    "Jq.c97_twelve_fields",
    "Jq.c97_price_in_file",
    "Jq.c97_order_reported",
    "Jq.c97_near_rounded",
    "Jq.c97_difference",
    "Jq.c97_cash",
    "Jq.c97_position",
    "Jq.c97_data_file",
    "Jq.c97_float_iff",
    "Jq.c97_round",
    "Jq.c97_round_other",
    "Jq.c97_sub",
    "Jq.c97_sub_other",
    "Jq.c97_sub_mixed",
    "Jq.c97_equal",
    "Jq.c97_truth",
    "Jq.c97_new_account",
    "Jq.c97_repr_form"
   ],
   "note": "numbers below 2^52 without their point; more places or digits are outside the statement and are changed (c97_fourth_place_refuted, c97_sixteen_digits_refuted); pandas is assumed to read a cell within an eighth of the last place"
  },
  {
   "property": "C98",
   "status": "proved",
   "theorems": [
    "Jq.c98_day_alone",
    "Jq.c98_past_kept",
    "Jq.c98_begins_empty",
    "Jq.c98_over_midnight_refuted"
   ],
   "note": "each process ends on the day on which it was started (outside the statement, c98_over_midnight_refuted: an order placed after midnight by a process of the day before is unknown to a process started on the new day); other programs change files of a day only on that day"
  },
  {
   "property": "C99",
   "status": "partial",
   "theorems": [
    "Jq.c99_new_order",
    "Jq.c99_synced_order_partial",
    "Jq.c99_from_files",
    "Jq.c99_started",
    "Jq.c99_orders_started",
    "Jq.c99_only_asked_started",
    "Jq.c99_refreshed",
    "Jq.c99_readable",
    "Jq.c99_cash",
    "Jq.c99_positions",
    "Jq.c99_positions_are_long",
    "Jq.c99_refused",
    "Jq.c99_status_unreadable_refuted",
    "Jq.c99_side_refuted"
   ],
   "note": "proved except for two attributes: the side of an order is always long, also when short was asked, and the status and the side of an order that a gate reports without them cannot be read (AttributeError); c99_readable says exactly what can be read; c99_started is the portfolio of a whole process with the built-in gate, from process_initialize and the options to the two balance files, c99_refreshed what it shows when a timer has fired and the files were complete"
  }
 ]
}