{
 "claims": [
  {
   "property": "C01",
   "status": "proved",
   "theorems": [
    "Winpty.Props.C01_writer",
    "Winpty.Props.C01_roundtrip"
   ],
   "note": ""
  },
  {
   "property": "C02",
   "status": "partial",
   "theorems": [
    "Winpty.Props.C02_reads_only_what_was_written",
    "Winpty.Props.C02_rejects_otherwise_partial",
    "Winpty.Props.C02_whole_packet",
    "Winpty.Props.C02_huge_length_is_not_a_decode_error"
   ],
   "note": "Proved whenever allocations succeed; C02_huge_length_is_not_a_decode_error is a witness that a string length that cannot be allocated raises an allocation failure instead of a decode error."
  },
  {
   "property": "C03",
   "status": "proved",
   "theorems": [
    "Winpty.Props.C03_chunk_independent",
    "Winpty.Props.C03_exactly_the_complete_packets",
    "Winpty.Props.C03_bad_size_aborts",
    "Winpty.Props.C03_never_stalls",
    "Winpty.Props.C03_client_reads_one_packet",
    "Winpty.Props.C03_client_errors"
   ],
   "note": ""
  },
  {
   "property": "C04",
   "status": "proved",
   "theorems": [
    "Winpty.Props.C04_encode_is_standard",
    "Winpty.Props.C04_encode_rejects",
    "Winpty.Props.C04_encode_fits",
    "Winpty.Props.C04_roundtrip",
    "Winpty.Props.C04_decode_exact",
    "Winpty.Props.C04_length_and_bounds"
   ],
   "note": ""
  },
  {
   "property": "C05",
   "status": "proved",
   "theorems": [
    "Winpty.Props.C05_encode_is_standard",
    "Winpty.Props.C05_shape",
    "Winpty.Props.C05_roundtrip"
   ],
   "note": ""
  },
  {
   "property": "C06",
   "status": "proved",
   "theorems": [
    "Winpty.Props.C06_longest_prefix",
    "Winpty.Props.C06_empty_refused"
   ],
   "note": ""
  },
  {
   "property": "C07",
   "status": "proved",
   "theorems": [
    "Winpty.Props.C07_chunking"
   ],
   "note": "All histories of writes without a timeout flush between."
  },
  {
   "property": "C08",
   "status": "proved",
   "theorems": [
    "Winpty.Props.C08_step",
    "Winpty.Props.C08_each_byte_once"
   ],
   "note": "Every scan step consumes at least one byte or waits, and each byte is consumed exactly once."
  },
  {
   "property": "C09",
   "status": "proved",
   "theorems": [
    "Winpty.Props.C09_text"
   ],
   "note": "Any valid code-point text; surrogate pairs and Alt-prefixed text included."
  },
  {
   "property": "C10",
   "status": "partial",
   "theorems": [
    "Winpty.Props.C10_keyboard",
    "Winpty.Props.C10_modifiers_partial",
    "Winpty.Props.C10_vt_unbalanced"
   ],
   "note": "Balanced key events are proved outside VT-input mode; C10_vt_unbalanced is a witness that VT mode emits press-only records."
  },
  {
   "property": "C11",
   "status": "partial",
   "theorems": [
    "Winpty.Props.C11_reply_swallowed",
    "Winpty.Props.C11_query_only_when_pending",
    "Winpty.Props.C11_one_outstanding",
    "Winpty.Props.C11_reply_after_escape_partial",
    "Winpty.Props.C11_reply_mistaken",
    "Winpty.Props.C11_asked"
   ],
   "note": "The reply after a pending ESC byte can be mistaken for Alt-Shift-F3: C11_reply_mistaken is the witness."
  },
  {
   "property": "C12",
   "status": "partial",
   "theorems": [
    "Winpty.Props.C12_kept",
    "Winpty.Props.C12_timeout_partial",
    "Winpty.Props.C12_timeout_ascii",
    "Winpty.Props.C12_escape_key",
    "Winpty.Props.C12_dropped",
    "Winpty.Props.C12_never_delayed"
   ],
   "note": "An incomplete UTF-8 character is dropped at the timeout: C12_dropped is the witness."
  },
  {
   "property": "C13",
   "status": "proved",
   "theorems": [
    "Winpty.Props.C13_in_window",
    "Winpty.Props.C13_not_typed",
    "Winpty.Props.C14_mouse_records"
   ],
   "note": ""
  },
  {
   "property": "C14",
   "status": "proved",
   "theorems": [
    "Winpty.Props.C14_mouse_records"
   ],
   "note": "Refinement of whole mouse histories to an independent specification."
  },
  {
   "property": "C15",
   "status": "proved",
   "theorems": [
    "Winpty.Props.C15_same_key",
    "Winpty.Props.C15_shift_tab"
   ],
   "note": "Keys of the default table that are navigation, function or Backspace keys; unmodified arrows, Home and End are sent as window messages instead."
  },
  {
   "property": "C16",
   "status": "proved",
   "theorems": [
    "Winpty.Props.C16_change_detection",
    "Winpty.Props.C16_skip_is_safe"
   ],
   "note": ""
  },
  {
   "property": "C17",
   "status": "proved",
   "theorems": [
    "Winpty.Props.C17_sent_lines_shown",
    "Winpty.Props.C17_nothing_else_changes",
    "Winpty.Props.C17_surrogate_append_defect"
   ],
   "note": "For lines of printable characters that are as wide in the terminal as in the console and within the window. Lines with lone surrogates or control characters can go wrong: C17_surrogate_append_defect, C53_defect."
  },
  {
   "property": "C18",
   "status": "proved",
   "theorems": [
    "Winpty.Props.C18_cursor_position"
   ],
   "note": "Same hypotheses as C17."
  },
  {
   "property": "C19",
   "status": "proved",
   "theorems": [
    "Winpty.Props.C19_no_injection",
    "Winpty.Props.C19_plain_no_escape",
    "Winpty.Props.C19_esc_is_csi"
   ],
   "note": ""
  },
  {
   "property": "C20",
   "status": "proved",
   "theorems": [
    "Winpty.Props.C20_utf8",
    "Winpty.Props.C20_cells_once"
   ],
   "note": ""
  },
  {
   "property": "C21",
   "status": "partial",
   "theorems": [
    "Winpty.Props.C21_colours",
    "Winpty.Props.C21_line_colours_partial",
    "Winpty.Props.C21_white_blank_defect",
    "Winpty.Props.C21_flags_read",
    "Winpty.Props.C21_flags_shown"
   ],
   "note": "The SGR part is proved for all attributes and previous states. Trailing blanks on a white background are erased and do not show that background; the witness is C21_white_blank_defect."
  },
  {
   "property": "C22",
   "status": "proved",
   "theorems": [
    "Winpty.Props.C22_mouse_mode",
    "Winpty.Props.C22_last_request",
    "Winpty.Props.C22_shutdown"
   ],
   "note": ""
  },
  {
   "property": "C23",
   "status": "partial",
   "theorems": [
    "Winpty.Props.C23_hidden",
    "Winpty.Props.C23_shown_partial",
    "Winpty.Props.C23_defect"
   ],
   "note": "The full claim is false: after a clear while the cursor is hidden, showing it writes nothing (C23_defect)."
  },
  {
   "property": "C24",
   "status": "proved",
   "theorems": [
    "Winpty.Props.C24_cells_in_place",
    "Winpty.Props.C24_chunks_equal_one_read",
    "Winpty.Props.C24_no_other_lines",
    "Winpty.Props.C24_single_read_would_fail"
   ],
   "note": "Rectangles up to 2500 columns inside 16-bit coordinates with bottom row at most 32766; the console does not change during the read; before Windows 8 a call transferring more cells than the limit fails."
  },
  {
   "property": "C25",
   "status": "partial",
   "theorems": [
    "Winpty.Props.C25_transferred_partial",
    "Winpty.Props.C25_terminal_shows_partial",
    "Winpty.Props.C25_in_order",
    "Winpty.Props.C25_poll_goes_through",
    "Winpty.Props.C25_no_needless_clear",
    "Winpty.Props.C25_scrolled_window_sent",
    "Winpty.Props.C25_only_changes_sent",
    "Winpty.Props.C25_moved_up_clears",
    "Winpty.Props.C25_cursor",
    "Winpty.Props.C25_unmarked_scroll_defect",
    "Winpty.Props.C25_above_base_defect",
    "Winpty.Props.C26_resize"
   ],
   "note": "For every history of polls and resizes (frozen or not while the console is read, with changes between direct and scrolling mode in between) at the end of which the console is scrolling, under two assumptions. Noticeable: no line scrolls out of the buffer before the window has come down to row 431 and a marker exists; ResizeOk: the console does not move its window up by itself during a resize, and the agent does not have to move it above the line in the terminal's top row. Without them the property is false of the code: C25_unmarked_scroll_defect, C25_above_base_defect."
  },
  {
   "property": "C26",
   "status": "proved",
   "theorems": [
    "Winpty.Props.C26_found",
    "Winpty.Props.C26_in_range",
    "Winpty.Props.C26_markers_differ",
    "Winpty.Props.C26_every_row",
    "Winpty.Props.C26_texts_differ",
    "Winpty.Props.C26_visible_untouched",
    "Winpty.Props.C26_reads_in_buffer",
    "Winpty.Props.C26_resize",
    "Winpty.Props.C26_stale_info_defect",
    "Winpty.Props.C26_resize_abort_defect"
   ],
   "note": "Two defects are proved as well: if the window moves up during an unfrozen poll the marker is written into the window; a marker that has come to row 0 exactly makes a resize fail an assertion."
  },
  {
   "property": "C27",
   "status": "proved",
   "theorems": [
    "Winpty.Props.C27_limits",
    "Winpty.Props.C27_initial",
    "Winpty.Props.C27_resize",
    "Winpty.Props.C27_resize_rejects",
    "Winpty.Props.C33_set_size_args"
   ],
   "note": ""
  },
  {
   "property": "C28",
   "status": "proved",
   "theorems": [
    "Winpty.Props.C28_written_in_order",
    "Winpty.Props.C28_nothing_left",
    "Winpty.Props.C28_read_in_order",
    "Winpty.Props.C28_peek_and_read",
    "Winpty.Props.C28_never_stuck",
    "Winpty.Props.C28_no_assertion"
   ],
   "note": "Every history of requests and of operating system answers. Trusted: how Windows reports overlapped operations (see the comments of Ans and osTakes)."
  },
  {
   "property": "C29",
   "status": "proved",
   "theorems": [
    "Winpty.Props.C29_reads_only_below_limit",
    "Winpty.Props.C29_bounded"
   ],
   "note": ""
  },
  {
   "property": "C30",
   "status": "proved",
   "theorems": [
    "Winpty.Props.C30_final_scrape",
    "Winpty.Props.C30_flushed",
    "Winpty.Props.C30_flushed_conerr",
    "Winpty.Props.C30_not_closed_otherwise",
    "Winpty.Props.C30_waits_for_client",
    "Winpty.Props.C30_no_hang",
    "Winpty.Props.C30_exit",
    "Winpty.Props.C30_exits"
   ],
   "note": ""
  },
  {
   "property": "C31",
   "status": "proved",
   "theorems": [
    "Winpty.Props.C31_closed_means_exit",
    "Winpty.Props.C31_stops",
    "Winpty.Props.C31_notices",
    "Winpty.Props.C31_no_request_after_exit"
   ],
   "note": ""
  },
  {
   "property": "C32",
   "status": "proved",
   "theorems": [
    "Winpty.Props.C32_failure_closes",
    "Winpty.Props.C32_latched",
    "Winpty.Props.C32_silent_after_close",
    "Winpty.Props.C32_pairing"
   ],
   "note": ""
  },
  {
   "property": "C33",
   "status": "proved",
   "theorems": [
    "Winpty.Props.C33_error_iff_failed",
    "Winpty.Props.C33_codes",
    "Winpty.Props.C33_spawn_outputs",
    "Winpty.Props.C33_error_optional",
    "Winpty.Props.C33_set_size_args"
   ],
   "note": "For winpty_spawn, winpty_set_size and winpty_get_console_process_list."
  },
  {
   "property": "C34",
   "status": "partial",
   "theorems": [
    "Winpty.Props.C34_fits_partial",
    "Winpty.Props.C34_too_small_defect",
    "Winpty.Props.C34_no_overrun",
    "Winpty.Props.C34_agent_reply",
    "Winpty.Props.C34_broken_promise"
   ],
   "note": "The claim is false of the code for an array that is too small: the call fails and the session is lost (C34_too_small_defect). Proved for arrays that are large enough."
  },
  {
   "property": "C35",
   "status": "proved",
   "theorems": [
    "Winpty.Props.C35_block_copied",
    "Winpty.Props.C35_child_gets_block"
   ],
   "note": ""
  },
  {
   "property": "C36",
   "status": "proved",
   "theorems": [
    "Winpty.Props.C36_arguments_roundtrip",
    "Winpty.Props.C36_with_program_name"
   ],
   "note": ""
  },
  {
   "property": "C37",
   "status": "proved",
   "theorems": [
    "Winpty.Props.C37_child_arguments_untouched",
    "Winpty.Props.C37_errors",
    "Winpty.Props.C37_boundary"
   ],
   "note": ""
  },
  {
   "property": "C38",
   "status": "proved",
   "theorems": [
    "Winpty.Props.C38_decimal",
    "Winpty.Props.C38_hex",
    "Winpty.Props.C38_parses_back"
   ],
   "note": ""
  },
  {
   "property": "C39",
   "status": "proved",
   "theorems": [
    "Winpty.Props.C39_parameters_survive",
    "Winpty.Props.C39_with_unique_pipe_name",
    "Winpty.Props.C39_commands"
   ],
   "note": ""
  },
  {
   "property": "C40",
   "status": "proved",
   "theorems": [
    "Winpty.Props.C40_config"
   ],
   "note": ""
  },
  {
   "property": "C41",
   "status": "proved",
   "theorems": [
    "Winpty.Props.C41_names_differ",
    "Winpty.Props.C41_successive_names_differ",
    "Winpty.Props.C41_wraps",
    "Winpty.Props.C41_characters",
    "Winpty.Props.C41_name",
    "Winpty.Props.C41_all_bits",
    "Winpty.Props.C41_context"
   ],
   "note": "Holds for fewer than 2^32 names per process; C41_wraps shows the bound is needed."
  },
  {
   "property": "C42",
   "status": "proved",
   "theorems": [
    "Winpty.Props.C42_nothing_left_pending",
    "Winpty.Props.C42_success_is_whole",
    "Winpty.Props.C42_waiting",
    "Winpty.Props.C42_terminates",
    "Winpty.Props.C33_codes"
   ],
   "note": ""
  },
  {
   "property": "C43",
   "status": "proved",
   "theorems": [
    "Winpty.Props.C43_output",
    "Winpty.Props.C43_error_output",
    "Winpty.Props.C43_input",
    "Winpty.Props.C43_output_goes_on",
    "Winpty.Props.C43_input_goes_on"
   ],
   "note": "Three threads of the adapter and the main thread, in any interleaving, with any short reads, short writes and interruptions."
  },
  {
   "property": "C44",
   "status": "proved",
   "theorems": [
    "Winpty.Props.C44_never_stuck",
    "Winpty.Props.C44_read_promised",
    "Winpty.Props.C44_ends",
    "Winpty.Props.C44_completion_wakes",
    "Winpty.Props.C44_main_ends",
    "Winpty.Props.C44_aborts_only"
   ],
   "note": "Sequentially consistent interleavings; the wake-up pipe is a byte count with a capacity."
  },
  {
   "property": "C45",
   "status": "proved",
   "theorems": [
    "Winpty.Props.C45_copy",
    "Winpty.Props.C45_copy_size",
    "Winpty.Props.C45_copy_no_overread",
    "Winpty.Props.C45_copy_nul",
    "Winpty.Props.C45_terminated",
    "Winpty.Props.C45_length"
   ],
   "note": ""
  },
  {
   "property": "C46",
   "status": "proved",
   "theorems": [
    "Winpty.Props.C46_guard_restores",
    "Winpty.Props.C46_guards_nest",
    "Winpty.Props.C46_messages"
   ],
   "note": ""
  },
  {
   "property": "C47",
   "status": "proved",
   "theorems": [
    "Winpty.Props.C47_intersection",
    "Winpty.Props.C47_contains_cell",
    "Winpty.Props.C47_contains_rect",
    "Winpty.Props.C47_construct",
    "Winpty.Props.C47_size",
    "Winpty.Props.C47_ensure_line",
    "Winpty.Props.C47_set",
    "Winpty.Props.C47_contains_empty",
    "Winpty.Props.C47_construct_at"
   ],
   "note": "Rectangle containment is the subset relation for nonempty arguments; C47_contains_empty shows that it is not for empty ones."
  },
  {
   "property": "C48",
   "status": "proved",
   "theorems": [
    "Winpty.Props.C48_best_of_any_table",
    "Winpty.Props.C48_small_font",
    "Winpty.Props.C48_wide_enough",
    "Winpty.Props.C48_fallback",
    "Winpty.Props.C48_xp",
    "Winpty.Props.C48_xp_none",
    "Winpty.Props.C48_xp_smallest",
    "Winpty.Props.C48_xp_no_font"
   ],
   "note": ""
  },
  {
   "property": "C49",
   "status": "proved",
   "theorems": [
    "Winpty.Props.C49_no_double_close",
    "Winpty.Props.C49_open_iff_held",
    "Winpty.Props.C49_closed_once"
   ],
   "note": ""
  },
  {
   "property": "C50",
   "status": "proved",
   "theorems": [
    "Winpty.Props.C50_flag_is_word",
    "Winpty.Props.C50_otherwise_off"
   ],
   "note": "The value must be at most 255 characters; longer values switch everything off (C50_otherwise_off)."
  },
  {
   "property": "C51",
   "status": "proved",
   "theorems": [
    "Winpty.Props.C51_every_sequence_decodes",
    "Winpty.Props.C51_prefix_code",
    "Winpty.Props.C51_buffer_suffices",
    "Winpty.Props.C51_xterm_keys",
    "Winpty.Props.C51_terminal_keys"
   ],
   "note": "Table level only: at the scanning level a cursor-position reply ESC [ n ; m R takes precedence over the entries for modified F3 (see C11)."
  },
  {
   "property": "C52",
   "status": "proved",
   "theorems": [
    "Winpty.Props.C52_meaning",
    "Winpty.Props.C52_ctrl_c"
   ],
   "note": ""
  },
  {
   "property": "C53",
   "status": "partial",
   "theorems": [
    "Winpty.Props.C53_controls_partial",
    "Winpty.Props.C53_shown_partial",
    "Winpty.Props.C53_defect"
   ],
   "note": "Proved: the only control characters written besides the new lines of the agent are those of the cells other than 1-6 and ESC, and a replaced one takes one column. False for the others, e.g. line feed (C53_defect)."
  },
  {
   "property": "C54",
   "status": "proved",
   "theorems": [
    "Winpty.Props.C54_title_complete",
    "Winpty.Props.C54_windows_versions"
   ],
   "note": ""
  },
  {
   "property": "C55",
   "status": "partial",
   "theorems": [
    "Winpty.Props.C55_title_partial",
    "Winpty.Props.C55_unchanged",
    "Winpty.Props.C55_defect"
   ],
   "note": "False of the code for titles containing control characters: they are sent unfiltered (C55_defect). Proved for all other titles."
  },
  {
   "property": "C56",
   "status": "proved",
   "theorems": [
    "Winpty.Props.C56_control_writable",
    "Winpty.Props.C56_agent_spawn",
    "Winpty.Props.C56_agent_spawn_once",
    "Winpty.Props.C56_client_created",
    "Winpty.Props.C56_client_refused",
    "Winpty.Props.C56_end_to_end",
    "Winpty.Props.C56_config",
    "Winpty.Props.C56_config_flags",
    "Winpty.Props.C56_from_arguments"
   ],
   "note": ""
  },
  {
   "property": "C57",
   "status": "proved",
   "theorems": [
    "Winpty.Props.C57_handles_balanced"
   ],
   "note": ""
  },
  {
   "property": "C58",
   "status": "proved",
   "theorems": [
    "Winpty.Props.C58_only_to_agent",
    "Winpty.Props.C58_session_peer",
    "Winpty.Props.C58_check",
    "Winpty.Props.C58_check_error"
   ],
   "note": "OnlyToAgent (Verif/Spec/Open.lean) is read off the log of system calls."
  },
  {
   "property": "C59",
   "status": "proved",
   "theorems": [
    "Winpty.Props.C59_failure_leaves_nothing",
    "Winpty.Props.C59_success_keeps_three",
    "Winpty.Props.C59_free_closes_all"
   ],
   "note": "Handles are values of the log; openAfter follows which are open."
  },
  {
   "property": "C60",
   "status": "proved",
   "theorems": [
    "Winpty.Props.C60_station_restored",
    "Winpty.Props.C60_spawn_desktop",
    "Winpty.Props.C60_default"
   ],
   "note": "Restoring assumes that the last SetProcessWindowStation succeeds (the code ignores its result)."
  },
  {
   "property": "C61",
   "status": "proved",
   "theorems": [
    "Winpty.Props.C61_result",
    "Winpty.Props.C61_names",
    "Winpty.Props.C61_agent_parameters",
    "Winpty.Props.C61_opens",
    "Winpty.Props.C61_agent_sends_names",
    "Winpty.Props.C61_failures"
   ],
   "note": "AgentEnv.Sane: a security descriptor that cannot be built is reported by a WinptyException."
  },
  {
   "property": "C62",
   "status": "proved",
   "theorems": [
    "Winpty.Props.C62_writes",
    "Winpty.Props.C62_plain",
    "Winpty.Props.C62_plain_no_escape",
    "Winpty.Props.C62_conerr"
   ],
   "note": "The scrapers are arbitrary sequences of calls with 16-bit characters and non-negative columns; title text (utf8FromWide) is arbitrary."
  },
  {
   "property": "C63",
   "status": "partial",
   "theorems": [
    "Winpty.Props.C63_resize_noticed_partial",
    "Winpty.Props.C63_always_right_partial",
    "Winpty.Props.C63_known_size",
    "Winpty.Props.C63_startup_defect",
    "Winpty.Props.C63_no_size_defect"
   ],
   "note": "A resize between reading the initial size and registering the signal handler is lost (C63_startup_defect), and if standard input is no terminal an uninitialized size is sent (C63_no_size_defect); both proved with witnesses. Everything else is proved."
  },
  {
   "property": "C64",
   "status": "proved",
   "theorems": [
    "Winpty.Props.C64_all_relayed",
    "Winpty.Props.C64_exit_code",
    "Winpty.Props.C64_end_noticed"
   ],
   "note": ""
  },
  {
   "property": "C65",
   "status": "partial",
   "theorems": [
    "Winpty.Props.C65_restored",
    "Winpty.Props.C65_raw",
    "Winpty.Props.C65_refused",
    "Winpty.Props.C65_succeeds",
    "Winpty.Props.C65_not_restored_defect"
   ],
   "note": "If a call fails after the first terminal was changed, the adapter exits without restoring it (C65_not_restored_defect); everything else is proved."
  },
  {
   "property": "C66",
   "status": "proved",
   "theorems": [
    "Winpty.Props.C66_found",
    "Winpty.Props.C66_not_found",
    "Winpty.Props.C66_runnable",
    "Winpty.Props.C66_with_directory"
   ],
   "note": "realpath, access and cygwin_conv_path are parameters."
  },
  {
   "property": "C67",
   "status": "proved",
   "theorems": [
    "Winpty.Props.C67_environment",
    "Winpty.Props.C67_message"
   ],
   "note": "CW_SYNC_WINENV, mbstowcs and FormatMessageW are parameters."
  },
  {
   "property": "C68",
   "status": "proved",
   "theorems": [
    "Winpty.Props.C68_resize",
    "Winpty.Props.C68_shrink",
    "Winpty.Props.C68_stays",
    "Winpty.Props.C68_range",
    "Winpty.Props.C68_set_up"
   ],
   "note": "About every console that follows the documentation of the console API (Spec/ConsoleApi.lean: Documented), and programs that do not change the sizes meanwhile (Polite); if the narrowest buffer is wider than 20 columns and than the width asked for, no buffer size is set (C68_range)."
  },
  {
   "property": "C69",
   "status": "partial",
   "theorems": [
    "Winpty.Props.C69_window_sent_partial",
    "Winpty.Props.C69_terminal_shows_partial",
    "Winpty.Props.C69_poll_goes_through",
    "Winpty.Props.C69_resize_goes_through",
    "Winpty.Props.C69_back_goes_through",
    "Winpty.Props.C69_reads_inside",
    "Winpty.Props.C69_in_order",
    "Winpty.Props.C69_only_changes_sent",
    "Winpty.Props.C69_cursor",
    "Winpty.Props.C69_stale_rows_defect",
    "Winpty.Props.C69_stale_window_defect"
   ],
   "note": "For every history. Missing: rows below a window that has become less high stay shown (C69_stale_rows_defect), so only the rows the window has are the window's; and a resize in direct mode is part of the histories only if what the agent takes to be the window still lies in the buffer (otherwise C69_stale_window_defect). In C69_back_goes_through the sizes do not change while the console is being frozen, and the terminal has at most 2000 rows."
  },
  {
   "property": "C70",
   "status": "proved",
   "theorems": [
    "Winpty.Props.C70_strangers_shut_out",
    "Winpty.Props.C70_friends_admitted",
    "Winpty.Props.C70_single_local",
    "Winpty.Props.C70_direction",
    "Winpty.Props.C70_debug_everyone",
    "Winpty.Props.C70_no_descriptor_no_pipe",
    "Winpty.Props.C70_debug_pipe"
   ],
   "note": "About every system whose SetEntriesInAcl does what is documented (AclDocumented) and that evaluates access control lists as documented (Spec/Access.lean, which leaves out privileges, restricted tokens and integrity levels)."
  },
  {
   "property": "C71",
   "status": "partial",
   "theorems": [
    "Winpty.Props.C71_printed",
    "Winpty.Props.C71_message",
    "Winpty.Props.C71_same_configuration",
    "Winpty.Props.C71_one_copy",
    "Winpty.Props.C71_last_error_kept",
    "Winpty.Props.C71_lines_partial",
    "Winpty.Props.C71_early_client_defect"
   ],
   "note": "Missing: a client that connects between the creation of the server's pipe and its first wait is not served, the server ends instead (C71_early_client_defect)."
  },
  {
   "property": "C72",
   "status": "proved",
   "theorems": [
    "Winpty.Props.C72_idle_poll",
    "Winpty.Props.C72_idle_direct"
   ],
   "note": "Over the histories of C25 and C69 (fewer than 2^32 polls)."
  },
  {
   "property": "C73",
   "status": "partial",
   "theorems": [
    "Winpty.Props.C73_regular_partial",
    "Winpty.Props.C73_refines",
    "Winpty.Props.C73_awaited",
    "Winpty.Props.C73_no_assertion",
    "Winpty.Props.C73_long_pause_defect"
   ],
   "note": "If the machine stands still for more than 24 days the next poll is late, which C73_long_pause_defect proves; everything else is proved under the bound busy+busy+late+25 < 2^31 ms."
  },
  {
   "property": "C74",
   "status": "partial",
   "theorems": [
    "Winpty.Props.C74_picture",
    "Winpty.Props.C74_mouse",
    "Winpty.Props.C74_title_partial",
    "Winpty.Props.C74_received_open",
    "Winpty.Props.C74_received_closed",
    "Winpty.Props.C74_console_partial",
    "Winpty.Props.C74_window_partial",
    "Winpty.Props.C74_cursor"
   ],
   "note": "End to end over the whole agent: scraper calls, terminal bytes, titles, status queries, mouse modes, pipe, terminal emulator. Partial because the console claims inherit what is missing from C25 and C69 (blank bottom lines, lines blanked for a resize, stale rows below the window), because titles with control characters are excluded (C55_defect), and because the terminal emulator does not change its size."
  },
  {
   "property": "C75",
   "status": "proved",
   "theorems": [
    "Winpty.Props.C75_session",
    "Winpty.Props.C75_read",
    "Winpty.Props.C75_heard",
    "Winpty.Props.C75_text",
    "Winpty.Props.C75_keys",
    "Winpty.Props.C75_queries",
    "Winpty.Props.C75_mouse_events",
    "Winpty.Props.C75_mouse_mode",
    "Winpty.Props.C75_sizes",
    "Winpty.Props.C75_asked",
    "Winpty.Props.C75_startup"
   ],
   "note": "C75_heard is the general statement (Spec/AgentInput, Hears); the others are consequences read off the session's record. C75_text and C75_keys are for consoles that do not ask for VT input (with VT input see C10_vt_unbalanced)."
  },
  {
   "property": "C76",
   "status": "partial",
   "theorems": [
    "Winpty.Props.C76_readable_partial",
    "Winpty.Props.C76_output_partial",
    "Winpty.Props.C76_zero_key_defect",
    "Winpty.Props.C76_key_words",
    "Winpty.Props.C76_mouse_words",
    "Winpty.Props.C76_order",
    "Winpty.Props.C76_mode",
    "Winpty.Props.C76_key_names",
    "Winpty.Props.C76_options",
    "Winpty.Props.C76_key_text"
   ],
   "note": "Two different events never look alike, except that the key code 0 looks like the key of the digit 0 (C76_zero_key_defect: %#x prints zero without the prefix). Everything else is proved in full."
  },
  {
   "property": "C77",
   "status": "partial",
   "theorems": [
    "Winpty.Props.C77_name_sent",
    "Winpty.Props.C77_kept",
    "Winpty.Props.C77_ends",
    "Winpty.Props.C77_refused",
    "Winpty.Props.C77_no_abort_partial",
    "Winpty.Props.C77_flooded_defect",
    "Winpty.Props.C77_opens",
    "Winpty.Props.C77_fallback_partial",
    "Winpty.Props.C77_no_fallback_defect"
   ],
   "note": "What fails: if the system refuses the desktop to the helper agent, the helper exits without connecting and winpty_open fails with the code for a dead agent (C77_no_fallback_defect); falling back to the caller's desktop is proved for the case that the library makes the desktop in its own process (C77_fallback_partial). The helper is not aborted as long as fewer than 64 KiB are sent to it (C77_no_abort_partial); with more it is (C77_flooded_defect)."
  },
  {
   "property": "C78",
   "status": "proved",
   "theorems": [
    "Winpty.Props.C78_version",
    "Winpty.Props.C78_later",
    "Winpty.Props.C78_detects",
    "Winpty.Props.C78_older"
   ],
   "note": "The two kinds of console are described in Spec/Detect; GetVersionEx is taken to succeed. A window of one cell is covered if the system can show two columns."
  },
  {
   "property": "C79",
   "status": "partial",
   "theorems": [
    "Winpty.Props.C79_conversions",
    "Winpty.Props.C79_messages_whole",
    "Winpty.Props.C79_four_bytes_defect",
    "Winpty.Props.C79_starts",
    "Winpty.Props.C79_no_session",
    "Winpty.Props.C79_not_found",
    "Winpty.Props.C79_refused",
    "Winpty.Props.C79_every_end",
    "Winpty.Props.C79_options",
    "Winpty.Props.C79_no_abort_partial",
    "Winpty.Props.C79_zero_size_defect",
    "Winpty.Props.C79_not_text_defect"
   ],
   "note": "Partial because the code violates it in three cases, each proved with a witness: a terminal that reports no columns or rows aborts the adapter, a debug variable that is no text aborts it, and in a locale with four bytes for a character a message is read past its array. C79_no_abort_partial shows that the only causes of an abort are the first two, a pipe of the new session that cannot be opened, and a program path that is no text. The locale's conversions, the library calls and FormatMessage are parameters."
  },
  {
   "property": "C80",
   "status": "partial",
   "theorems": [
    "Winpty.Props.C80_shown",
    "Winpty.Props.C80_complete",
    "Winpty.Props.C80_harmless",
    "Winpty.Props.C80_ends_partial",
    "Winpty.Props.C80_ctrl_d_defect",
    "Winpty.Props.C80_asked",
    "Winpty.Props.C80_session",
    "Winpty.Props.C80_refused"
   ],
   "note": "Partial because Ctrl-D is noticed only as the first byte of a read (C80_ctrl_d_defect); C80_ends_partial says when the viewer ends."
  },
  {
   "property": "C81",
   "status": "proved",
   "theorems": [
    "Winpty.Props.C81_one_after_another",
    "Winpty.Props.C81_during",
    "Winpty.Props.C81_exclusive",
    "Winpty.Props.C81_program_order",
    "Winpty.Props.C81_real_time",
    "Winpty.Props.C81_no_deadlock",
    "Winpty.Props.C81_not_mixed"
   ],
   "note": "The critical section of Windows is in the trusted base: it is held by one thread at a time. Freeing the session while another thread uses it is excluded by the API's contract. An ASSERT that fails ends the process; the theorems speak of the time before."
  },
  {
   "property": "C82",
   "status": "partial",
   "theorems": [
    "Winpty.Props.C82_safe",
    "Winpty.Props.C82_says",
    "Winpty.Props.C82_no_leak",
    "Winpty.Props.C82_throws_partial",
    "Winpty.Props.C82_out_of_memory_defect"
   ],
   "note": "Partial because a call does not always return: when memory has run out, converting the message for the trace throws std::bad_alloc again and it leaves the C function (C82_out_of_memory_defect); the error object is lost then, so C82_no_leak and the content of C82_says exclude such calls."
  },
  {
   "property": "C83",
   "status": "proved",
   "theorems": [
    "Winpty.Props.C83_pool",
    "Winpty.Props.C83_table",
    "Winpty.Props.C83_same",
    "Winpty.Props.C83_destroyed",
    "Winpty.Props.C83_empty_refused"
   ],
   "note": "Block numbers are not reused by the modelled malloc."
  },
  {
   "property": "C84",
   "status": "proved",
   "theorems": [
    "Winpty.Props.C84_safe",
    "Winpty.Props.C84_vista",
    "Winpty.Props.C84_xp",
    "Winpty.Props.C84_neither",
    "Winpty.Props.C84_tracing",
    "Winpty.Props.C84_table_traced",
    "Winpty.Props.C84_no_library"
   ],
   "note": "The functions that read the console's font are taken not to change it; the texts of trace messages are simplified."
  },
  {
   "property": "C85",
   "status": "partial",
   "theorems": [
    "Winpty.Props.C85_safe",
    "Winpty.Props.C85_assert",
    "Winpty.Props.C85_usable",
    "Winpty.Props.C85_released",
    "Winpty.Props.C85_failed",
    "Winpty.Props.C85_out_of_memory_partial",
    "Winpty.Props.C85_out_of_memory_defect",
    "Winpty.Props.C85_pipe",
    "Winpty.Props.C85_debug_server"
   ],
   "note": "Missing: that nothing is lost when memory runs out, which is false (C85_out_of_memory_defect): localItem and allocatedSid take bare pointers."
  },
  {
   "property": "C86",
   "status": "proved",
   "theorems": [
    "Winpty.Props.C86_off",
    "Winpty.Props.C86_safe",
    "Winpty.Props.C86_libraries",
    "Winpty.Props.C86_reported",
    "Winpty.Props.C86_version_text"
   ],
   "note": "The answer to one question is the same throughout one report. The assertions (no version of Windows; kernel32.dll missing in a 32-bit program) and std::bad_alloc are the only other ends, and C86_safe says when."
  },
  {
   "property": "C87",
   "status": "proved",
   "theorems": [
    "Winpty.Props.C87_complete",
    "Winpty.Props.C87_readable",
    "Winpty.Props.C87_default_table"
   ],
   "note": "The text of a key is that of C76."
  },
  {
   "property": "C88",
   "status": "partial",
   "theorems": [
    "Winpty.Props.C88_whole_messages",
    "Winpty.Props.C88_before_return",
    "Winpty.Props.C88_delivered",
    "Winpty.Props.C88_handles",
    "Winpty.Props.C88_returns_partial",
    "Winpty.Props.C88_no_server",
    "Winpty.Props.C88_suspended_defect",
    "Winpty.Props.C88_identification",
    "Winpty.Props.C88_time"
   ],
   "note": "That every call returns is proved for processes that go on; a process suspended with the pipe open makes all other processes that trace wait for ever (C88_suspended_defect). A client that comes before the server's first ConnectNamedPipe is C71_early_client_defect."
  },
  {
   "property": "C89",
   "status": "proved",
   "theorems": [
    "Winpty.Props.C89_accounted",
    "Winpty.Props.C89_bounded",
    "Winpty.Props.C89_no_leak",
    "Winpty.Props.C89_screens",
    "Winpty.Props.C89_child",
    "Winpty.Props.C89_child_end",
    "Winpty.Props.C89_refused",
    "Winpty.Props.C89_end"
   ],
   "note": "The handles of events are not modelled. That the console's own handles are inheritable, and that Windows gives new handles values not in use, are assumptions about Windows. Between operations: within one there can be a few more handles."
  },
  {
   "property": "C90",
   "status": "partial",
   "theorems": [
    "Winpty.Props.C90_survives_partial",
    "Winpty.Props.C90_break_defect",
    "Winpty.Props.C90_child_default",
    "Winpty.Props.C90_interrupt",
    "Winpty.Props.C90_close"
   ],
   "note": "A program that makes a Ctrl-Break event for its console ends the agent (C90_break_defect); for Ctrl-C the agent's survival is proved."
  },
  {
   "property": "C91",
   "status": "proved",
   "theorems": [
    "Winpty.Props.C91_press",
    "Winpty.Props.C91_messages",
    "Winpty.Props.C91_no_messages"
   ],
   "note": "When such messages are sent at all is C15."
  },
  {
   "property": "C92",
   "status": "partial",
   "theorems": [
    "Winpty.Props.C92_beside_partial",
    "Winpty.Props.C92_missing_partial",
    "Winpty.Props.C92_unique",
    "Winpty.Props.C92_long_path_defect",
    "Winpty.Props.C92_opening"
   ],
   "note": "Proved for file names of fewer than 4096 units; a longer one ends the calling program (C92_long_path_defect)."
  },
  {
   "property": "C93",
   "status": "partial",
   "theorems": [
    "Winpty.Props.C93_objects_partial",
    "Winpty.Props.C93_threads_partial",
    "Winpty.Props.C93_order_partial",
    "Winpty.Props.C93_end_partial",
    "Winpty.Props.C93_returns_partial",
    "Winpty.Props.C93_notices_partial",
    "Winpty.Props.C93_no_thread_defect"
   ],
   "note": "Proved for runs in which the threads can be created; the answer of pthread_create is not looked at, and a thread that was never started is joined (C93_no_thread_defect)."
  },
  {
   "property": "C94",
   "status": "proved",
   "theorems": [
    "Winpty.Props.C94_lent_memory",
    "Winpty.Props.C94_closed",
    "Winpty.Props.C94_error",
    "Winpty.Props.C94_connected"
   ],
   "note": ""
  }
 ]
}
