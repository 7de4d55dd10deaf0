{
 "claims": [
  {
   "property": "C01",
   "status": "proved",
   "theorems": [
    "Verif.ByteStream.C01_chunking_invisible",
    "Verif.ByteStream.C01_chunking_invisible_interleaved",
    "Verif.ByteStream.C01_utf8_text_exact"
   ],
   "note": "Full-state equality for any chunk list, also with reads and queries interleaved; decoder tied to Lean's own UTF-8 encoder."
  },
  {
   "property": "C02",
   "status": "proved",
   "theorems": [
    "Verif.ByteStream.C02_location_exact",
    "Verif.ByteStream.C02_location_text"
   ],
   "note": "Line/column against a scan of the decoded text in every reachable state; byte offset against the encoded prefix length for UTF-8 text."
  },
  {
   "property": "C03",
   "status": "proved",
   "theorems": [
    "Verif.ByteStream.C03_prev_undoes_read"
   ],
   "note": ""
  },
  {
   "property": "C04",
   "status": "proved",
   "theorems": [
    "Verif.ByteStream.C04_read_all",
    "Verif.ByteStream.C04_position_bounded",
    "Verif.ByteStream.C04_read_text"
   ],
   "note": ""
  },
  {
   "property": "C05",
   "status": "proved",
   "theorems": [
    "Verif.ByteStream.C05_peeks_invisible"
   ],
   "note": "All later answers of any call sequence are unchanged by look-ahead, slices, location queries and tell/move/seek-back excursions."
  },
  {
   "property": "C06",
   "status": "partial",
   "theorems": [
    "Verif.ByteStream.C06_utf16_chunking_violated",
    "Verif.ByteStream.C06_utf16_chunking_partial"
   ],
   "note": "The code violates the full property (witness); proved for chunkings that do not cut right after a high surrogate."
  },
  {
   "property": "C07",
   "status": "proved",
   "theorems": [
    "Verif.Cookies.C07_unique",
    "Verif.Cookies.C07_store_replaces",
    "Verif.Cookies.C07_creation_time_kept",
    "Verif.Cookies.C07_other_origins_untouched"
   ],
   "note": "Uniqueness over every history; effect of every well-formed header; creation time kept for every header text."
  },
  {
   "property": "C08",
   "status": "proved",
   "theorems": [
    "Verif.Cookies.C08_request_carries_exactly_matching"
   ],
   "note": ""
  },
  {
   "property": "C09",
   "status": "proved",
   "theorems": [
    "Verif.Cookies.C09_secure_stored_only_from_https",
    "Verif.Cookies.C09_insecure_response_leaves_secure_cookies",
    "Verif.Cookies.C09_secure_never_sent_insecurely"
   ],
   "note": ""
  },
  {
   "property": "C10",
   "status": "partial",
   "theorems": [
    "Verif.Cookies.C10_expired_never_sent",
    "Verif.Cookies.C10_purge_exact",
    "Verif.Cookies.C10_max_age_nonpositive_deletes",
    "Verif.Cookies.C10_max_age_beats_expires",
    "Verif.Cookies.C10_max_age_overflow_violated"
   ],
   "note": "Proved except that now + Max-Age overflows i64 for huge Max-Age (violated theorem)."
  },
  {
   "property": "C11",
   "status": "proved",
   "theorems": [
    "Verif.Cookies.C11_same_site_rules",
    "Verif.Cookies.C11_blocked_third_party",
    "Verif.Cookies.C11_none_only_third_party",
    "Verif.Cookies.C11_none_only_can_delete"
   ],
   "note": "The last theorem records that under SameSiteNoneOnly a third party can delete (not add) cookies."
  },
  {
   "property": "C12",
   "status": "partial",
   "theorems": [
    "Verif.Cookies.C12_set_only_for_own_domains_partial",
    "Verif.Cookies.C12_sent_only_to_own_domains",
    "Verif.Cookies.C12_ip_hosts_violated",
    "Verif.Cookies.C12_trailing_dot_violated"
   ],
   "note": "Proved that domains are dotted suffixes of the host and not known public suffixes; the code accepts such suffixes of IP addresses and the empty domain for hosts with a trailing dot."
  },
  {
   "property": "C13",
   "status": "proved",
   "theorems": [
    "Verif.Cookies.C13_prefixes"
   ],
   "note": ""
  },
  {
   "property": "C14",
   "status": "proved",
   "theorems": [
    "Verif.Cookies.C14_header_order"
   ],
   "note": ""
  },
  {
   "property": "C15",
   "status": "partial",
   "theorems": [
    "Verif.CookieStore.C15_json_immediate",
    "Verif.CookieStore.C15_json_durable_partial",
    "Verif.CookieStore.C15_json_removed",
    "Verif.CookieStore.C15_sqlite_roundtrip",
    "Verif.CookieStore.C15_sqlite_unique",
    "Verif.CookieStore.C15_stale_handle_violated",
    "Verif.CookieStore.C15_stale_provision_violated",
    "Verif.CookieStore.C15_sqlite_policy_violated"
   ],
   "note": "Proved for the JSON store for every non-overlapping history through the live jar, and for the SQLite store as a round trip. The full property is false of the code: a jar kept across release_zone, and an overlapping provision, lose acknowledged changes; I/O errors are only logged; the SQLite store does not keep the third-party policy."
  },
  {
   "property": "C16",
   "status": "partial",
   "theorems": [
    "Verif.CookieStore.C16_crash_atomic_partial",
    "Verif.CookieStore.C16_save_completes",
    "Verif.CookieStore.C16_concurrent_violated"
   ],
   "note": "Proved for every crash point, content and split of the writes of one save. False for two saves at the same time, which share one temporary file: C16_concurrent_violated."
  },
  {
   "property": "C17",
   "status": "proved",
   "theorems": [
    "Verif.CookieStore.C17_same_jar"
   ],
   "note": "Every schedule of any number of threads."
  },
  {
   "property": "C18",
   "status": "partial",
   "theorems": [
    "Verif.CookieStore.C18_json_partial",
    "Verif.CookieStore.C18_sqlite",
    "Verif.CookieStore.C18_sqlite_removed",
    "Verif.CookieStore.C18_concurrent_violated",
    "Verif.CookieStore.C18_unparsable_violated"
   ],
   "note": "Proved for non-overlapping JSON calls and for SQLite transactions. False for overlapping JSON calls and for an unparsable file, with witnesses."
  },
  {
   "property": "C19",
   "status": "proved",
   "theorems": [
    "Verif.Storage.C19_isolated_maps",
    "Verif.Storage.C19_keys_len",
    "Verif.Storage.C19_handles"
   ],
   "note": "Refinement to one map per identity for every history, both local stores and the session store. Identities must have distinguishable text forms in the session and SQLite stores (Safe); the exceptions are C22's violations."
  },
  {
   "property": "C20",
   "status": "proved",
   "theorems": [
    "Verif.Storage.C20_dropped_is_gone",
    "Verif.Storage.C20_others_unchanged"
   ],
   "note": ""
  },
  {
   "property": "C21",
   "status": "partial",
   "theorems": [
    "Verif.Storage.C21_set_event",
    "Verif.Storage.C21_quiet",
    "Verif.Storage.C21_replay_partial",
    "Verif.Storage.C21_noop_violated",
    "Verif.Storage.C21_dropped_violated",
    "Verif.Storage.C21_concurrent_violated"
   ],
   "note": "Replay proved for non-overlapping calls without tab drops. False of the code for no-op calls, for writes to a dropped area and for overlapping writes, with witnesses."
  },
  {
   "property": "C22",
   "status": "partial",
   "theorems": [
    "Verif.Storage.C22_isolation_partial",
    "Verif.Storage.C22_memory_local",
    "Verif.Storage.C22_engine_keys_plain",
    "Verif.Storage.C22_empty_custom_violated",
    "Verif.Storage.C22_custom_top_violated",
    "Verif.Storage.C22_opaque_violated"
   ],
   "note": "Proved for all identities in the in-memory local store and for tuple origins and unambiguous partition names in the others. False of the code for opaque origins and for custom names that are empty or start with \"top:\"."
  },
  {
   "property": "C23",
   "status": "proved",
   "theorems": [
    "Verif.History.C23_no_panic",
    "Verif.History.C23_entries_persist",
    "Verif.History.C23_other_pages_untouched",
    "Verif.History.C23_visit_recorded",
    "Verif.History.C23_snapshot",
    "Verif.History.C23_jump"
   ],
   "note": "Every history reachable by push, replace, title, scroll, back, forward and jump calls."
  },
  {
   "property": "C24",
   "status": "partial",
   "theorems": [
    "Verif.History.C24_back_forward_partial",
    "Verif.History.C24_back_forward_nojump_partial",
    "Verif.History.C24_back_forward_violated",
    "Verif.History.C24_back_is_predecessor",
    "Verif.History.C24_back_reaches_first"
   ],
   "note": "Back then forward returns to the left entry right after arriving there, and always in histories without jumps; violated after a jump into another branch (go_to updates only the direct predecessor's preferred child). Reaching the first entry is proved for all histories."
  },
  {
   "property": "C25",
   "status": "proved",
   "theorems": [
    "Verif.Hub.C25_at_most_once",
    "Verif.Hub.C25_right_answer",
    "Verif.Hub.C25_channels",
    "Verif.Hub.C25_delivered",
    "Verif.Hub.C25_refused",
    "Verif.Hub.C25_accepted"
   ],
   "note": "All schedules; tokens distinct (UUID v4) except for at-most-once, which needs no assumption."
  },
  {
   "property": "C26",
   "status": "partial",
   "theorems": [
    "Verif.RefTracker.C26_lookups_agree",
    "Verif.RefTracker.C26_lookup_stable",
    "Verif.RefTracker.C26_removed_only_when_over_partial",
    "Verif.RefTracker.C26_cleaned_up_partial",
    "Verif.RefTracker.C26_others_stay",
    "Verif.RefTracker.C26_race_violated",
    "Verif.RefTracker.C26_unmatched_violated"
   ],
   "note": "Lookup directions proved for all schedules. Clean-up proved for all interleavings under the intended use (no request started after finalization, no unmatched finish), sequentially consistent atomics; violated without it. Nothing in the engine calls finalize."
  },
  {
   "property": "C27",
   "status": "proved",
   "theorems": [
    "Verif.Decision.C27_nosniff",
    "Verif.Decision.C27_routing",
    "Verif.Decision.C27_html_only_if_declared"
   ],
   "note": "For every response head, destination, policy and pair of bodies. The mime parser, the magic-byte detector and UTF-8 validation are arbitrary functions."
  },
  {
   "property": "C28",
   "status": "proved",
   "theorems": [
    "Verif.Decision.C28_one_type",
    "Verif.Decision.C28_delivered",
    "Verif.Decision.C28_blocked",
    "Verif.Decision.C28_attachment",
    "Verif.Decision.C28_document"
   ],
   "note": "Complete decision table for subresources and top-level navigations against an inductive definition of the resolved type. Stream and pipeline failures are not modelled."
  },
  {
   "property": "C29",
   "status": "proved",
   "theorems": [
    "Verif.Decision.C29_text",
    "Verif.Decision.C29_escaped",
    "Verif.Decision.C29_json",
    "Verif.Decision.C29_route"
   ],
   "note": "Text read back from the generated page with an independent minimal tokenizer; JSON viewer likewise, tags depend only on the shape."
  },
  {
   "property": "C30",
   "status": "partial",
   "theorems": [
    "Verif.Config.C30_conforms_partial",
    "Verif.Config.C30_rejected",
    "Verif.Config.C30_unsigned_violated",
    "Verif.Config.C30_set_storage_violated",
    "Verif.Config.C30_set_storage_partial"
   ],
   "note": "Violated for unsigned settings whose range has a negative bound (usize::MAX is read as -1), and for values that enter through set_storage; otherwise proved for all histories and all storages."
  },
  {
   "property": "C31",
   "status": "partial",
   "theorems": [
    "Verif.Config.C31_map_partial",
    "Verif.Config.C31_memory",
    "Verif.Config.C31_merge",
    "Verif.Config.C31_merge_hides_stored_violated"
   ],
   "note": "Full for the in-memory storage; for other storages a set that reports a storage error still changes the value (C34). Merge is proved for all keys; a stored but undeclared value is hidden by a merge."
  },
  {
   "property": "C32",
   "status": "partial",
   "theorems": [
    "Verif.Config.C32_notifications_partial",
    "Verif.Config.C32_silent",
    "Verif.Config.C32_ids",
    "Verif.Config.C32_failed_write_violated"
   ],
   "note": "Violated when the storage fails a set: the value changes without a notification."
  },
  {
   "property": "C33",
   "status": "partial",
   "theorems": [
    "Verif.Config.C33_roundtrip_partial",
    "Verif.Config.C33_comma_violated",
    "Verif.Config.C33_empty_violated",
    "Verif.Config.C33_sqlite_partial"
   ],
   "note": "Violated for list elements with a comma and for the list of one empty string. Float text conversion is an external parameter."
  },
  {
   "property": "C34",
   "status": "partial",
   "theorems": [
    "Verif.Config.C34_set_violated",
    "Verif.Config.C34_remove_partial",
    "Verif.Config.C34_sqlite_table_partial",
    "Verif.Config.C34_json_file_violated"
   ],
   "note": "Violated for set (memory is changed before the storage is asked) and for the JSON file (truncate, then write); proved for remove and for the SQL table."
  },
  {
   "property": "C35",
   "status": "partial",
   "theorems": [
    "Verif.Dom.C35_down",
    "Verif.Dom.C35_refuse",
    "Verif.Dom.C35_up_partial",
    "Verif.Dom.C35_up_violated"
   ],
   "note": "Downwards proved for all calls with any ids. Upwards proved for histories that only use ids handed out; with an id not handed out yet two nodes can name each other as parent and hovering diverges."
  },
  {
   "property": "C36",
   "status": "partial",
   "theorems": [
    "Verif.Dom.C36_partial",
    "Verif.Dom.C36_relocate",
    "Verif.Dom.C36_violated"
   ],
   "note": "Attaching an already attached node leaves it listed by the old parent (witness); proved when only unattached nodes are attached."
  },
  {
   "property": "C37",
   "status": "partial",
   "theorems": [
    "Verif.Dom.C37_order",
    "Verif.Dom.C37_once_partial",
    "Verif.Dom.C37_once_violated"
   ],
   "note": "Document order and exact membership proved for every history; once-each needs that only unattached nodes are attached."
  },
  {
   "property": "C38",
   "status": "partial",
   "theorems": [
    "Verif.Dom.C38_fresh",
    "Verif.Dom.C38_gone",
    "Verif.Dom.C38_count",
    "Verif.Dom.C38_clone_violated"
   ],
   "note": "Cloning a missing node returns the id it was given (witness); everything else proved."
  },
  {
   "property": "C39",
   "status": "partial",
   "theorems": [
    "Verif.Dom.C39_queue",
    "Verif.Dom.C39_log",
    "Verif.Dom.C39_attribute",
    "Verif.Dom.C39_attribute_violated"
   ],
   "note": "Creations proved for every session; attribute edits are dropped if the value equals some other element's id, for any attribute (witness)."
  },
  {
   "property": "C40",
   "status": "partial",
   "theorems": [
    "Verif.Dom.C40_partial",
    "Verif.Dom.C40_violated"
   ],
   "note": "The id table is not updated on removal or change of the attribute or deletion of the element (witnesses)."
  },
  {
   "property": "C41",
   "status": "partial",
   "theorems": [
    "Verif.Dom.C41_set",
    "Verif.Dom.C41_partial",
    "Verif.Dom.C41_remove_violated",
    "Verif.Dom.C41_unicode_violated"
   ],
   "note": "Removing a class attribute of several words keeps the classes (witness); Unicode white space separates classes."
  },
  {
   "property": "C42",
   "status": "partial",
   "theorems": [
    "Verif.Dom.C42_partial",
    "Verif.Dom.C42_closed"
   ],
   "note": "Proved for histories that only use ids handed out (otherwise hovering can diverge, C35_up_violated)."
  },
  {
   "property": "C43",
   "status": "partial",
   "theorems": [
    "Verif.Select.C43_sound_partial",
    "Verif.Select.C43_exact_partial",
    "Verif.Select.C43_compound_partial",
    "Verif.Select.C43_form_partial",
    "Verif.Select.ofDoc_ok",
    "Verif.Select.C43_missed_match_violated",
    "Verif.Select.C43_wrong_match_violated",
    "Verif.Select.C43_form_violated"
   ],
   "note": "Violated for greedy descendant and sibling search, text siblings, some attribute operators, form states. Exact on the fragments stated."
  },
  {
   "property": "C44",
   "status": "partial",
   "theorems": [
    "Verif.Cascade.C44_choice",
    "Verif.Cascade.C44_choice_unique",
    "Verif.Cascade.C44_choice_exists",
    "Verif.Cascade.C44_partial",
    "Verif.Cascade.C44_order_violated",
    "Verif.Cascade.C44_nested_violated"
   ],
   "note": "The choice among recorded declarations is proved for all lists. For shorthands the full claim fails (longhand after an equally strong shorthand; shorthands that set shorthands); the rest is proved under those exclusions."
  },
  {
   "property": "C45",
   "status": "partial",
   "theorems": [
    "Verif.Select.C45_count_partial",
    "Verif.Select.C45_first",
    "Verif.Select.C45_partial",
    "Verif.Select.C45_violated"
   ],
   "note": "Violated: first matching selector is used, attributes and pseudo-classes are not counted."
  },
  {
   "property": "C46",
   "status": "partial",
   "theorems": [
    "Verif.Select.C46_css",
    "Verif.Select.C46_partial",
    "Verif.Select.C46_pointer",
    "Verif.Select.C46_skip",
    "Verif.Select.hoverMatches_iff",
    "Verif.Select.C46_violated"
   ],
   "note": "Holds for the CSS definition of matching and all selectors; for the engine's matcher only on tame selectors because of its greedy search."
  },
  {
   "property": "C47",
   "status": "partial",
   "theorems": [
    "Verif.Cascade.C47_partial",
    "Verif.Cascade.C47_var_partial",
    "Verif.Cascade.C47_strength_violated",
    "Verif.Cascade.C47_fallback_violated"
   ],
   "note": "Nearest element is proved; specificity and importance are ignored among declarations on one element, and the fallback is the comma."
  },
  {
   "property": "C48",
   "status": "partial",
   "theorems": [
    "Verif.Cascade.C48_partial",
    "Verif.Cascade.C48_cascaded_partial",
    "Verif.Cascade.C48_order_violated",
    "Verif.Cascade.C48_twice_violated",
    "Verif.Cascade.C48_unexpanded_violated"
   ],
   "note": "Proved for margin, padding, border-style and border-radius shaped definitions; other definitions go wrong."
  },
  {
   "property": "C49",
   "status": "proved",
   "theorems": [
    "Verif.Color.C49_three",
    "Verif.Color.C49_four",
    "Verif.Color.C49_six",
    "Verif.Color.C49_eight",
    "Verif.Color.C49_range",
    "Verif.Color.C49_else",
    "Verif.Color.C49_case",
    "Verif.Color.C49_roundtrip"
   ],
   "note": ""
  },
  {
   "property": "C50",
   "status": "proved",
   "theorems": [
    "Verif.CharRef.C50_decimal",
    "Verif.CharRef.C50_hexadecimal",
    "Verif.CharRef.C50_denotes",
    "Verif.CharRef.C50_no_digits"
   ],
   "note": "Digit strings of any length, both cases, with or without semicolon, in text and attributes; the u32 accumulator's overflow is covered. Parse errors are not modelled."
  },
  {
   "property": "C51",
   "status": "proved",
   "theorems": [
    "Verif.CharRef.C51_reference",
    "Verif.CharRef.C51_rules_functional",
    "Verif.CharRef.C51_reference_exact",
    "Verif.CharRef.C51_table_ok",
    "Verif.CharRef.C51_table_semicolon",
    "Verif.CharRef.C51_longest_name",
    "Verif.CharRef.C51_unknown_kept"
   ],
   "note": "For every table of the right shape and for the engine's own 2231-entry table, whose shape the kernel checks."
  },
  {
   "property": "C52",
   "status": "partial",
   "theorems": [
    "Verif.Table.C52_all_placed",
    "Verif.Table.C52_inside",
    "Verif.Table.C52_first_gap",
    "Verif.Table.C52_same_row",
    "Verif.Table.C52_from_tree",
    "Verif.Table.C52_disjoint_partial",
    "Verif.Table.C52_simple_spans_partial",
    "Verif.Table.C52_violated"
   ],
   "note": "Placement, order, clamping and containment for every section. Disjointness holds within a row and whenever no multi-column cell lies on an earlier cell; refuted in general by C52_violated."
  },
  {
   "property": "C53",
   "status": "partial",
   "theorems": [
    "Verif.Table.C53_cells_apart_partial",
    "Verif.Table.C53_cells_inside_partial",
    "Verif.Table.C53_rows_aligned_partial",
    "Verif.Table.C53_groups_stacked",
    "Verif.Table.C53_violated",
    "Verif.Table.C53_row_box_violated"
   ],
   "note": "Proved for cells whose row and row group are elements. Refuted for bare rows (laid over the header) and for the row box (narrower than its cells). Exact arithmetic instead of f32."
  },
  {
   "property": "C54",
   "status": "proved",
   "theorems": [
    "Verif.Layers.C54_layers",
    "Verif.Layers.C54_exactly_once",
    "Verif.Layers.C54_numbers",
    "Verif.Layers.C54_one_layer",
    "Verif.Layers.C54_document_order",
    "Verif.Layers.C54_parents_first"
   ],
   "note": "the generated list is the specified one: membership by leader, stable order by level; every element once"
  },
  {
   "property": "C55",
   "status": "partial",
   "theorems": [
    "Verif.TileBudget.C55_kept",
    "Verif.TileBudget.C55_whole",
    "Verif.TileBudget.C55_within_budget",
    "Verif.TileBudget.C55_fits_partial",
    "Verif.TileBudget.C55_needed_partial",
    "Verif.TileBudget.C55_order_partial",
    "Verif.TileBudget.C55_evicted_partial",
    "Verif.TileBudget.C55_report_partial",
    "Verif.TileBudget.C55_report_count",
    "Verif.TileBudget.C55_remembered",
    "Verif.TileBudget.C55_shared_violated"
   ],
   "note": "exact when no non-empty buffer is held at two positions; with a shared buffer the bytes freed are over-reported"
  },
  {
   "property": "C56",
   "status": "proved",
   "theorems": [
    "Verif.Composite.C56_result",
    "Verif.Composite.C56_position"
   ],
   "note": "the whole result pixel by pixel, for targets that lie in the buffer and tiles with all their pixels"
  },
  {
   "property": "C57",
   "status": "proved",
   "theorems": [
    "Verif.Layers.C57_topmost"
   ],
   "note": "the last covering element in paint order, covering judged where the compositor draws it"
  },
  {
   "property": "C58",
   "status": "partial",
   "theorems": [
    "Verif.Places.C58_memory",
    "Verif.Places.C58_sqlite_partial",
    "Verif.Places.C58_stores_agree",
    "Verif.Places.C58_sqlite_case_violated",
    "Verif.Places.C58_sqlite_long_violated"
   ],
   "note": "in memory in full; SQLite in full for queries within SQLite's pattern limit and case folding in ASCII; refuted for other letters and for longer queries; texts with NUL are left out"
  },
  {
   "property": "C59",
   "status": "partial",
   "theorems": [
    "Verif.ByteStream.C59_load_replaces_partial",
    "Verif.ByteStream.C59_read_from_bytes_violated"
   ],
   "note": "read_from_bytes on a used stream keeps the old text (witness); the other loaders proved."
  },
  {
   "property": "C60",
   "status": "proved",
   "theorems": [
    "Verif.Cookies.C60_header_unambiguous"
   ],
   "note": ""
  },
  {
   "property": "C61",
   "status": "proved",
   "theorems": [
    "Verif.Cookies.C61_removals_exact"
   ],
   "note": ""
  },
  {
   "property": "C62",
   "status": "partial",
   "theorems": [
    "Verif.Config.C62_roundtrip",
    "Verif.Config.C62_no_panic_partial",
    "Verif.Config.C62_panic_violated"
   ],
   "note": "Violated: an item starting with a multi-byte character panics."
  },
  {
   "property": "C64",
   "status": "partial",
   "theorems": [
    "Verif.Cascade.C64_partial",
    "Verif.Cascade.C64_clean",
    "Verif.Cascade.C64_valid",
    "Verif.Cascade.C64_violated"
   ],
   "note": "Holds when nothing matched; a value whose beginning matches leaves longhands behind."
  },
  {
   "property": "C65",
   "status": "partial",
   "theorems": [
    "Verif.Table.C65_tall_enough_partial",
    "Verif.Table.C65_same_row_same_height",
    "Verif.Table.C65_violated"
   ],
   "note": "Proved for cells in one row and one column; refuted for cells spanning rows."
  },
  {
   "property": "C66",
   "status": "partial",
   "theorems": [
    "Verif.Table.C66_in_range",
    "Verif.Table.C66_aligned",
    "Verif.Table.C66_specified",
    "Verif.Table.C66_fill",
    "Verif.Table.C66_no_more",
    "Verif.Table.C66_violated"
   ],
   "note": "Alignment, specified widths and exact sharing proved; refuted: a column without a specified width can be narrower than its content."
  },
  {
   "property": "C67",
   "status": "proved",
   "theorems": [
    "Verif.Table.C67_every_part_once",
    "Verif.Table.C67_laid_out"
   ],
   "note": ""
  },
  {
   "property": "C68",
   "status": "partial",
   "theorems": [
    "Verif.Layers.C68_over_ancestors_partial",
    "Verif.Layers.C68_violated"
   ],
   "note": "holds when the stacking level never decreases on the way down; violated otherwise"
  },
  {
   "property": "C69",
   "status": "partial",
   "theorems": [
    "Verif.Layers.C69_flow_order_partial",
    "Verif.Layers.C69_violated"
   ],
   "note": "holds without images; an image covers what follows it"
  },
  {
   "property": "C70",
   "status": "proved",
   "theorems": [
    "Verif.Layers.C70_sticky",
    "Verif.Layers.C70_rigid"
   ],
   "note": "flow, stuck, shoved and containment on both axes, for the layer the page really gives the element"
  },
  {
   "property": "C71",
   "status": "partial",
   "theorems": [
    "Verif.Layers.C71_fade_partial",
    "Verif.Layers.C71_fade_by_leader",
    "Verif.Layers.C71_violated"
   ],
   "note": "holds with one translucent element per chain; nested groups lose the outer opacity"
  },
  {
   "property": "C72",
   "status": "partial",
   "theorems": [
    "Verif.Layers.C72_fixed_partial",
    "Verif.Layers.C72_violated"
   ],
   "note": "holds for what stays in the fixed layer"
  },
  {
   "property": "C73",
   "status": "proved",
   "theorems": [
    "Verif.TileBudget.C73_no_rerender",
    "Verif.TileBudget.C73_evicted_is_redrawn",
    "Verif.TileBudget.C73_unrastered_is_drawn",
    "Verif.TileBudget.C73_no_thrash",
    "Verif.TileBudget.C73_deferred",
    "Verif.TileBudget.C73_visible_not_deferred",
    "Verif.TileBudget.C73_recent",
    "Verif.TileBudget.C73_whole_page",
    "Verif.TileBudget.C73_reset"
   ],
   "note": "numbers are exact"
  },
  {
   "property": "C74",
   "status": "proved",
   "theorems": [
    "Verif.Composite.C74_scale",
    "Verif.Composite.C74_scale_opaque",
    "Verif.Composite.C74_scale_premul",
    "Verif.Composite.C74_scale_close",
    "Verif.Composite.C74_blend",
    "Verif.Composite.C74_blend_kept",
    "Verif.Composite.C74_needs_premul",
    "Verif.Composite.C74_formats",
    "Verif.Composite.C74_convert",
    "Verif.Composite.C74_present"
   ],
   "note": ""
  },
  {
   "property": "C75",
   "status": "partial",
   "theorems": [
    "Verif.Composite.C75_seam",
    "Verif.Composite.C75_rows_partial",
    "Verif.Composite.C75_violated"
   ],
   "note": "exactly when a seam appears: at half positions across the edge of the screen"
  },
  {
   "property": "C76",
   "status": "proved",
   "theorems": [
    "Verif.Places.C76_memory",
    "Verif.Places.C76_sqlite",
    "Verif.Places.C76_oldest_first",
    "Verif.Places.C76_separate"
   ],
   "note": "oldest first in memory when the clock does not go back"
  },
  {
   "property": "C77",
   "status": "proved",
   "theorems": [
    "Verif.Places.C77_literal",
    "Verif.Places.C77_empty"
   ],
   "note": ""
  },
  {
   "property": "C78",
   "status": "proved",
   "theorems": [
    "Verif.TabNav.C78_no_panic",
    "Verif.TabNav.C78_history",
    "Verif.TabNav.C78_never_older",
    "Verif.TabNav.C78_last_wins",
    "Verif.TabNav.C78_progress"
   ],
   "note": "A blocked navigation answers nothing, so the tab then shows whatever it showed (see C80)."
  },
  {
   "property": "C79",
   "status": "partial",
   "theorems": [
    "Verif.TabNav.C79_superseded_partial",
    "Verif.TabNav.C79_failure_keeps_page",
    "Verif.TabNav.C79_superseded_violated"
   ],
   "note": "Holds for navigations cancelled before their response; fails for those whose response has come in."
  },
  {
   "property": "C80",
   "status": "partial",
   "theorems": [
    "Verif.TabNav.C80_started",
    "Verif.TabNav.C80_outcome_once",
    "Verif.TabNav.C80_outcome_true",
    "Verif.TabNav.C80_loading_partial",
    "Verif.TabNav.C80_stale_failure_violated",
    "Verif.TabNav.C80_blocked_violated",
    "Verif.TabNav.C80_lost_outcome_violated",
    "Verif.TabNav.C80_bind_failure_violated"
   ],
   "note": "Announced once, at most one report, and true, for all schedules; exactly one report and the loading state only without overlapping or blocked navigations; violated otherwise."
  },
  {
   "property": "C81",
   "status": "partial",
   "theorems": [
    "Verif.TabNav.C81_saved",
    "Verif.TabNav.C81_kept",
    "Verif.TabNav.C81_restored_partial",
    "Verif.TabNav.C81_overwritten_violated",
    "Verif.TabNav.C81_top_of_fragment_violated",
    "Verif.TabNav.C81_failed_load_violated"
   ],
   "note": "Restoring is proved from a tab with nothing in flight and for offsets other than the top left; violated otherwise. Also violated by a load that fails: the page stays but jumps to the top."
  },
  {
   "property": "C82",
   "status": "partial",
   "theorems": [
    "Verif.TabNav.C82_visits_partial",
    "Verif.TabNav.C82_untitled_violated"
   ],
   "note": "Exactly the pages shown, in order, with the page's title when it has one; untitled pages get the previous title."
  },
  {
   "property": "C83",
   "status": "proved",
   "theorems": [
    "Verif.Scroll.C83_lands",
    "Verif.Scroll.C83_rest",
    "Verif.Scroll.C83_instant",
    "Verif.Scroll.C83_home_end",
    "Verif.Scroll.C83_paging"
   ],
   "note": "For tweens (the engine's own behaviour) of any length and curve, and for instant scrolling. Springs are C88. End and Home are for pages up to 1e9 px, page keys for windows of at least 40 px."
  },
  {
   "property": "C84",
   "status": "partial",
   "theorems": [
    "Verif.Scroll.C84_towards",
    "Verif.Scroll.C84_default",
    "Verif.Scroll.C84_in_page_partial",
    "Verif.Scroll.C84_resize_violated",
    "Verif.Scroll.C84_sideways_violated",
    "Verif.Scroll.C84_unrendered_violated"
   ],
   "note": "Direction is proved for every history. Bounds are proved while neither page nor window changes height; violated when the window grows (offset not clamped until the next request), horizontally (no limit), and when the page is laid out after the request."
  },
  {
   "property": "C85",
   "status": "partial",
   "theorems": [
    "Verif.Scroll.C85_reported_partial",
    "Verif.Scroll.C85_jump",
    "Verif.Scroll.C85_default",
    "Verif.Scroll.C85_unrendered_violated"
   ],
   "note": "For pages that are laid out and keep their height, curves within 0 and 1. Violated by a request made before the page is laid out."
  },
  {
   "property": "C86",
   "status": "proved",
   "theorems": [
    "Verif.Scroll.C86_ends",
    "Verif.Scroll.C86_range",
    "Verif.Scroll.C86_rises",
    "Verif.Scroll.C86_bezier",
    "Verif.Scroll.C86_named",
    "Verif.Scroll.C86_bezier_rises"
   ],
   "note": "In exact arithmetic; the oscillation of the elastic curve is an arbitrary function."
  },
  {
   "property": "C87",
   "status": "partial",
   "theorems": [
    "Verif.Scroll.C87_css_partial",
    "Verif.Scroll.C87_jump_start_violated"
   ],
   "note": "jump-start uses the ceiling, so at the instants of the jumps (and at 0) it is one step behind CSS."
  },
  {
   "property": "C88",
   "status": "partial",
   "theorems": [
    "Verif.Scroll.C88_settles_partial",
    "Verif.Scroll.C88_undamped_violated",
    "Verif.Scroll.C88_overdamped_violated"
   ],
   "note": "For damping^2 + 2 stiffness < 500 damping, any irregular frames. Undamped springs never rest; strongly damped ones diverge."
  },
  {
   "property": "C89",
   "status": "proved",
   "theorems": [
    "Verif.HtmlTok.C89_ends"
   ],
   "note": "Any input, any parser; needs only the shape of the named-character table, which C51 proves of the engine's."
  },
  {
   "property": "C90",
   "status": "partial",
   "theorems": [
    "Verif.HtmlTok.C90_standard_partial",
    "Verif.HtmlTok.C90_as_far_partial",
    "Verif.HtmlTok.C90_end_tag_attributes_violated",
    "Verif.HtmlTok.C90_lookalike_violated",
    "Verif.HtmlTok.C90_lone_cr_violated"
   ],
   "note": "Refinement of the standard's state machine, written out in full in the specification. Left out because the code is wrong there: what follows an end tag with attributes, a lone CR, look-alikes of DOCTYPE/PUBLIC/SYSTEM under Unicode upper-casing. Parse errors are not modelled."
  },
  {
   "property": "C91",
   "status": "proved",
   "theorems": [
    "Verif.HtmlTok.C91_round_trip"
   ],
   "note": "For the engine's table of named characters and a parser that does not switch states on these tags; DOCTYPEs with a name only."
  },
  {
   "property": "C92",
   "status": "proved",
   "theorems": [
    "Verif.HtmlTok.C92_tokens"
   ],
   "note": "No hypotheses."
  },
  {
   "property": "C93",
   "status": "proved",
   "theorems": [
    "Verif.HtmlTok.C93_raw_text",
    "Verif.HtmlTok.C93_escaped_text"
   ],
   "note": "RAWTEXT, RCDATA without references, script data without an HTML comment start; and escaped RCDATA text."
  },
  {
   "property": "C94",
   "status": "proved",
   "theorems": [
    "Verif.CssTok.C94_progress",
    "Verif.CssTok.C94_one_result",
    "Verif.CssTok.C94_ends"
   ],
   "note": "Any text, any Unicode tables."
  },
  {
   "property": "C95",
   "status": "partial",
   "theorems": [
    "Verif.CssTok.C95_standard_partial",
    "Verif.CssTok.C95_standard_unique",
    "Verif.CssTok.C95_unicode_space_violated",
    "Verif.CssTok.C95_unicode_number_violated",
    "Verif.CssTok.C95_nul_violated",
    "Verif.CssTok.C95_return_violated",
    "Verif.CssTok.C95_url_case_violated",
    "Verif.CssTok.C95_url_space_violated",
    "Verif.CssTok.C95_url_escape_violated",
    "Verif.CssTok.C95_bad_url_violated",
    "Verif.CssTok.C95_string_end_violated",
    "Verif.CssTok.C95_last_code_point_violated",
    "Verif.CssTok.C95_name_newline_violated",
    "Verif.CssTok.C95_range_violated",
    "Verif.CssTok.C95_url_quote_violated"
   ],
   "note": "Proved for the texts that are Tame; each way of not being tame is shown to break the claim."
  },
  {
   "property": "C96",
   "status": "proved",
   "theorems": [
    "Verif.CssTok.C96_strings",
    "Verif.CssTok.C96_hashes",
    "Verif.CssTok.C96_at_keywords"
   ],
   "note": ""
  },
  {
   "property": "C97",
   "status": "partial",
   "theorems": [
    "Verif.CssTok.C97_idents_partial",
    "Verif.CssTok.C97_space_violated",
    "Verif.CssTok.C97_range_violated"
   ],
   "note": "False for identifiers that begin with white space or a numeral beyond ASCII, and for u before +."
  },
  {
   "property": "C98",
   "status": "proved",
   "theorems": [
    "Verif.CssTok.C98_buffer"
   ],
   "note": ""
  },
  {
   "property": "C99",
   "status": "partial",
   "theorems": [
    "Verif.Grammar.C99_accepted_valid_partial",
    "Verif.Grammar.C99_accepted_valid_violated_list",
    "Verif.Grammar.C99_accepted_valid_violated_leading",
    "Verif.Grammar.C99_accepted_valid_violated_trailing",
    "Verif.Grammar.C99_accepted_valid_violated_missing",
    "Verif.Grammar.C99_accepted_valid_violated_stacked",
    "Verif.Grammar.C99_accepted_valid_violated_bang"
   ],
   "note": "Proved for grammars (Closed) with # and ! only at the end, no stacked multipliers but +#, and nothing beside a comma that can be left out. Outside these the code accepts values that the grammar does not allow (six witnesses)."
  },
  {
   "property": "C100",
   "status": "partial",
   "theorems": [
    "Verif.Grammar.C100_always_accepted",
    "Verif.Grammar.C100_valid_accepted_partial",
    "Verif.Grammar.C100_decides_partial",
    "Verif.Grammar.C100_valid_accepted_violated_commas",
    "Verif.Grammar.C100_valid_accepted_violated_greedy",
    "Verif.Grammar.C100_valid_accepted_violated_group",
    "Verif.Grammar.C100_valid_accepted_violated_list",
    "Verif.Grammar.C100_alternatives",
    "Verif.Grammar.C100_longest_order"
   ],
   "note": "Proved for grammars (Clear) in which the next value decides every choice; together with C99 and C101, on such grammars the engine decides the language. Values valid for every property are accepted without condition. The code violates the full property (four witnesses). For any alternatives, a choice accepts what one of them accepts; of the orders tried the longest match counts."
  },
  {
   "property": "C101",
   "status": "partial",
   "theorems": [
    "Verif.Grammar.C101_answers_partial",
    "Verif.Grammar.C101_one_answer",
    "Verif.Grammar.C101_answers_violated_loop",
    "Verif.Grammar.C101_answers_violated_panic"
   ],
   "note": "Proved for grammars in which whatever is repeated without limit needs a value each time, and which have no unresolved property reference. Otherwise the matcher loops or panics (two witnesses)."
  },
  {
   "property": "C102",
   "status": "partial",
   "theorems": [
    "Verif.Grammar.C102_keyword",
    "Verif.Grammar.C102_only_type_partial",
    "Verif.Grammar.C102_whole_type_partial",
    "Verif.Grammar.C102_whole_type_violated_case",
    "Verif.Grammar.C102_whole_type_violated_viewport",
    "Verif.Grammar.C102_only_type_violated_zero",
    "Verif.Grammar.C102_only_type_violated_unknown"
   ],
   "note": "Keywords: proved in full. Numeric types: proved but for a bare 0 taken for angles, times and flexible lengths, lengths whose unit is not written as in the standard, and the units of the small, large and dynamic viewport (witnesses)."
  },
  {
   "property": "C103",
   "status": "partial",
   "theorems": [
    "Verif.TreeBuild.C103_ends",
    "Verif.TreeBuild.C103_text",
    "Verif.TreeBuild.C103_fragment_partial"
   ],
   "note": "Documents: proved in full, for every list of tokens and, with C89, for every text. Fragments: proved but for a context node named html outside the HTML namespace."
  },
  {
   "property": "C104",
   "status": "partial",
   "theorems": [
    "Verif.TreeBuild.C104_tree",
    "Verif.TreeBuild.C104_fragment_partial"
   ],
   "note": "Documents: proved in full. Fragments: proved but for a context node named html outside the HTML namespace; the document must have been built with calls that keep it a tree (C36)."
  },
  {
   "property": "C105",
   "status": "proved",
   "theorems": [
    "Verif.TreeBuild.C105_split"
   ],
   "note": ""
  },
  {
   "property": "C106",
   "status": "proved",
   "theorems": [
    "Verif.TreeBuild.C106_page"
   ],
   "note": "for pages of the kind named in the statement; pages outside it are covered by C103 and C104 only"
  },
  {
   "property": "C107",
   "status": "proved",
   "theorems": [
    "Verif.TreeBuild.C107_text",
    "Verif.TreeBuild.C107_serves"
   ],
   "note": "for pages of the kind of C106 that can be written (Page.Writable); tokenizer and tree builder coupled by Serves, which C107_serves shows to be met by some parser for every tree builder"
  },
  {
   "property": "C108",
   "status": "partial",
   "theorems": [
    "Verif.TreeBuild.C108_round_trip_partial",
    "Verif.TreeBuild.C108_void_violated",
    "Verif.TreeBuild.C108_text_violated",
    "Verif.TreeBuild.C108_attribute_violated"
   ],
   "note": "proved for pages without void elements and without characters that need escaping; false for the others: <br> becomes two, text and attribute values are written unescaped"
  },
  {
   "property": "C109",
   "status": "proved",
   "theorems": [
    "Verif.CssParse.C109_parse_ends",
    "Verif.CssParse.C109_stack_suffices",
    "Verif.CssParse.C109_stack_invisible"
   ],
   "note": "for every list of tokens; the tokenizer ends by C94"
  },
  {
   "property": "C110",
   "status": "partial",
   "theorems": [
    "Verif.CssParse.C110_stack_violated",
    "Verif.CssParse.C110_stack_partial"
   ],
   "note": "false of the code: wrong media features in parentheses recurse without being counted; 64 levels and one per opening parenthesis suffice"
  },
  {
   "property": "C111",
   "status": "partial",
   "theorems": [
    "Verif.CssParse.C111_rules_read_partial"
   ],
   "note": "custom properties, calc, functional pseudo-classes, at-rules, nested rules and the cases of C114 are not covered"
  },
  {
   "property": "C112",
   "status": "partial",
   "theorems": [
    "Verif.CssParse.C112_mistakes_left_out_partial",
    "Verif.CssParse.C112_strict",
    "Verif.CssParse.C112_name_violated",
    "Verif.CssParse.C112_semicolon_violated",
    "Verif.CssParse.C112_dot_violated",
    "Verif.CssParse.C112_colon_violated",
    "Verif.CssParse.C112_end_violated"
   ],
   "note": "false of the code in general: an error that has consumed the closing token loses what follows; proved for two kinds of wrong declarations and for wrong rules with any balanced body"
  },
  {
   "property": "C113",
   "status": "partial",
   "theorems": [
    "Verif.CssParse.C113_tree_partial",
    "Verif.CssParse.C113_empty_violated",
    "Verif.CssParse.C113_percentage_violated",
    "Verif.CssParse.C113_nesting_violated"
   ],
   "note": "false of the code: the conversion to rules can be an error; the parser proper never is one"
  },
  {
   "property": "C114",
   "status": "partial",
   "theorems": [
    "Verif.CssParse.C114_space_invisible_partial",
    "Verif.CssParse.C114_comma_violated",
    "Verif.CssParse.C114_attribute_violated"
   ],
   "note": "false of the code before a comma and after an attribute selector"
  },
  {
   "property": "C115",
   "status": "partial",
   "theorems": [
    "Verif.CssParse.C115_tokens_read",
    "Verif.CssParse.C115_text_read_partial",
    "Verif.CssParse.C115_text_with_mistakes_partial",
    "Verif.CssParse.C115_range_violated"
   ],
   "note": "Tokenizer and parser end to end, for the rules of C111 (and the mistakes of C112). Left out: at-rules, nested rules, custom properties, calc() and functional pseudo-classes, numbers with exponents, names that begin with non-ASCII characters. The text `u+a{…}` loses its rule."
  },
  {
   "property": "C116",
   "status": "partial",
   "theorems": [
    "Verif.Zones.C116_zone_limit_partial",
    "Verif.Zones.C116_zone_given_partial",
    "Verif.Zones.C116_same_id_violated",
    "Verif.Zones.C116_unheard_violated"
   ],
   "note": "Proved when no zone is asked for with the id of an open one, and (for the exact answers) when somebody receives the events. Without that it is false of the code: zones with a reused id do not count, and a request that fails for lack of a receiver keeps its place."
  },
  {
   "property": "C117",
   "status": "partial",
   "theorems": [
    "Verif.Zones.C117_tabs_listed_partial",
    "Verif.Zones.C117_tab_given_partial",
    "Verif.Zones.C117_tab_closed_partial",
    "Verif.Zones.C117_ended_tab_counts_violated",
    "Verif.Zones.C117_failed_tab_listed_violated"
   ],
   "note": "Proved when the drawn ids are distinct and no worker is gone before it is told its title and size. Tabs that ended by themselves still count, and a tab whose creation failed that way stays listed."
  },
  {
   "property": "C118",
   "status": "partial",
   "theorems": [
    "Verif.Zones.C118_start_once",
    "Verif.Zones.C118_shutdown_unstarted",
    "Verif.Zones.C118_shutdown_saves_partial",
    "Verif.Zones.C118_shutdown_succeeds",
    "Verif.Zones.C118_shutdown_once",
    "Verif.Zones.C118_close_order_partial",
    "Verif.Zones.C118_unpolled_violated",
    "Verif.Zones.C118_zone_after_shutdown_violated",
    "Verif.Zones.C118_same_id_unsaved_violated"
   ],
   "note": "What is saved and the order of closing are proved for zones with ids of their own that were given with a receiver of events. False of the code: a shutdown without a polled run loop never returns; zones are given after the shutdown; of two zones with one id only one store is saved."
  },
  {
   "property": "C119",
   "status": "proved",
   "theorems": [
    "Verif.Zones.C119_cookies_shared",
    "Verif.Zones.C119_storage_shared",
    "Verif.Zones.C119_languages",
    "Verif.Zones.C119_no_store_violated"
   ],
   "note": "The sharing of jars and services is characterized for all histories. That a zone with neither jar nor store gives every tab a jar of its own is shown by C119_no_store_violated."
  },
  {
   "property": "C120",
   "status": "partial",
   "theorems": [
    "Verif.Zones.C120_every_request",
    "Verif.Zones.C120_own_fetcher",
    "Verif.Zones.C120_one_fetcher",
    "Verif.Zones.C120_request_taken",
    "Verif.Zones.C120_zone_stopped",
    "Verif.Zones.C120_all_stopped",
    "Verif.Zones.C120_closed_zone_violated"
   ],
   "note": "All of the statement is proved. It is partial because a closed zone can get a fetcher again: a request after the shutdown of its zone starts one."
  },
  {
   "property": "C121",
   "status": "partial",
   "theorems": [
    "Verif.Zones.C121_local_storage_partial",
    "Verif.Zones.C121_storage_apart",
    "Verif.Zones.C121_partition_key_violated"
   ],
   "note": "The exact sharing is proved for tabs without a partition key of their own. The key is ignored by the code."
  },
  {
   "property": "C122",
   "status": "partial",
   "theorems": [
    "Verif.Zones.C122_changes_told_partial",
    "Verif.Zones.C122_shared_storage_violated",
    "Verif.Zones.C122_own_storage_violated",
    "Verif.Zones.C122_burst_violated"
   ],
   "note": "Proved when every zone has a storage service of its own and fewer than 512 changes of a zone are waiting at each change. Otherwise false of the code: shared services are reported under every zone, storage of a tab's own is never reported, and a burst ends the reports for ever."
  },
  {
   "property": "C123",
   "status": "partial",
   "theorems": [
    "Verif.Style.C123_computed_partial",
    "Verif.Style.C123_no_relative_lengths",
    "Verif.Style.C123_undrawn_border",
    "Verif.Style.C123_rem_violated",
    "Verif.Style.C123_percent_font_violated",
    "Verif.Style.C123_important_violated",
    "Verif.Style.C123_border_color_violated",
    "Verif.Style.C123_text_wrap_violated",
    "Verif.Style.C123_color_current_violated"
   ],
   "note": "Refinement of the demand-driven lookup to CSS's top-down definition, for any arithmetic on lengths, under the conditions that rule out the violations: percentages as font sizes, rem below a root that is not 16px, !important against the style attribute, border colours left to their initial value, text-wrap and text-decoration-line, and color: currentcolor."
  },
  {
   "property": "C124",
   "status": "partial",
   "theorems": [
    "Verif.Style.C124_read_partial",
    "Verif.Style.C124_sorted",
    "Verif.Style.C124_no_panic_partial",
    "Verif.Style.C124_hex_panic_violated",
    "Verif.Style.C124_units_violated",
    "Verif.Style.C124_accepted_violated",
    "Verif.Style.C124_invalid_replaces_violated",
    "Verif.Style.C124_colors_violated",
    "Verif.Style.C124_syntax_violated"
   ],
   "note": "Reading is proved for lengths in px, em and rem, hexadecimal colours, border styles, display and margin, with any blanks; the absence of panics for ASCII texts. Other values and texts are read wrongly or panic, as the violations show."
  },
  {
   "property": "C125",
   "status": "partial",
   "theorems": [
    "Verif.RenderTree.C125_ids",
    "Verif.RenderTree.C125_tree",
    "Verif.RenderTree.C125_parents",
    "Verif.RenderTree.C125_limit",
    "Verif.RenderTree.C125_node_children_violated"
   ],
   "note": "Proved for documents with fewer than 2^60 nodes; a node looked up by its id does not list its generated children."
  },
  {
   "property": "C126",
   "status": "proved",
   "theorems": [
    "Verif.RenderTree.C126_render_tree",
    "Verif.RenderTree.C126_finite"
   ],
   "note": ""
  },
  {
   "property": "C127",
   "status": "partial",
   "theorems": [
    "Verif.Interact.C127_pointer",
    "Verif.Interact.C127_hit",
    "Verif.Interact.C127_click_violated",
    "Verif.Interact.C127_generated_violated"
   ],
   "note": "A click opens the link where the pointer last moved, not the one at the click; generated content of a link is not part of the link."
  },
  {
   "property": "C128",
   "status": "partial",
   "theorems": [
    "Verif.Interact.C128_fresh_partial",
    "Verif.Interact.C128_missed_move_violated",
    "Verif.Interact.C128_region_violated"
   ],
   "note": "Proved after any history, from a full rebuild on, if a repaint follows each move; two moves between repaints leave old styles behind, and tiles of a hovered ancestor outside the innermost element are not redrawn."
  },
  {
   "property": "C129",
   "status": "proved",
   "theorems": [
    "Verif.Interact.C129_order",
    "Verif.Interact.C129_cycle",
    "Verif.Interact.C129_step",
    "Verif.Interact.C129_click",
    "Verif.Interact.C129_html_violated"
   ],
   "note": "Proved as the code documents it; HTML's rules for positive and negative tabindex, disabled links and invalid numbers are not followed, as C129_html_violated shows."
  },
  {
   "property": "C130",
   "status": "partial",
   "theorems": [
    "Verif.Pages.C130_history",
    "Verif.Pages.C130_config",
    "Verif.Pages.C130_version",
    "Verif.Pages.C130_not_found_partial",
    "Verif.Pages.C130_names_violated"
   ],
   "note": "Proved against the model of the tokenizer (C89-C93), with addresses in ASCII. The page for unknown addresses puts the names of registered pages in unescaped, so a name with markup brings markup in."
  },
  {
   "property": "C131",
   "status": "proved",
   "theorems": [
    "Verif.Pages.C131_resolve",
    "Verif.Pages.C131_names",
    "Verif.Pages.C131_page_name"
   ],
   "note": ""
  },
  {
   "property": "C132",
   "status": "partial",
   "theorems": [
    "Verif.Tiler.C132_cover",
    "Verif.Tiler.C132_elements",
    "Verif.Tiler.C132_negative_margin_violated"
   ],
   "note": "Proved for the margin box, with exact numbers instead of f64. With a negative margin the border box reaches out of the margin box, and what is painted there is missing on other tiles."
  },
  {
   "property": "C133",
   "status": "proved",
   "theorems": [
    "Verif.Tiler.C133_canvas",
    "Verif.Tiler.C133_ids"
   ],
   "note": ""
  },
  {
   "property": "C134",
   "status": "partial",
   "theorems": [
    "Verif.Console.C134_lines",
    "Verif.Console.C134_groups",
    "Verif.Console.C134_counts",
    "Verif.Console.C134_assert_violated",
    "Verif.Console.C134_clear_violated",
    "Verif.Console.C134_silent_violated"
   ],
   "note": "assert shows only the first of its data, and clear leaves groups open, unlike the Console standard. The claim on counts is about what the console asks of its printer: the printer that writes to a stream never writes what debug, trace and count show (C134_silent_violated)."
  },
  {
   "property": "C135",
   "status": "partial",
   "theorems": [
    "Verif.Console.C135_timers_partial",
    "Verif.Console.C135_restart_violated",
    "Verif.Console.C135_clock_violated"
   ],
   "note": "Proved for timers that were not ended before. Ending a timer does not remove it, and a clock that is set back is a panic."
  },
  {
   "property": "C136",
   "status": "partial",
   "theorems": [
    "Verif.Media.C136_once",
    "Verif.Media.C136_ready",
    "Verif.Media.C136_distinct",
    "Verif.Media.C136_tile_violated"
   ],
   "note": "Proved for sources that are not the text of a key for inline data or sizes of SVGs, with which they share the cache; for such a source the claim fails."
  },
  {
   "property": "C137",
   "status": "partial",
   "theorems": [
    "Verif.Media.C137_told_partial",
    "Verif.Media.C137_there",
    "Verif.Media.C137_spawn_violated"
   ],
   "note": "Proved if threads can be started. A request whose thread cannot be started is answered with Pending and never followed by news."
  },
  {
   "property": "C138",
   "status": "proved",
   "theorems": [
    "Verif.Dom.C138_query"
   ],
   "note": "For all documents reachable by the operations of C35-C42. A query without conditions answers with all nodes, also those that are not elements."
  },
  {
   "property": "C139",
   "status": "partial",
   "theorems": [
    "Verif.Quirks.C139_mode_partial",
    "Verif.Quirks.C139_one",
    "Verif.Quirks.C139_longer_violated",
    "Verif.Quirks.C139_order_violated"
   ],
   "note": "Proved for all doctypes but those whose system identifier begins with that of IBM's transitional XHTML: the code compares only its beginning, and looks at it after the public identifiers that ask for limited quirks. What the parser does with the mode is modelled in TreeBuild (C103-C108), where this choice is a parameter."
  },
  {
   "property": "C140",
   "status": "proved",
   "theorems": [
    "Verif.Timing.C140_stats",
    "Verif.Timing.C140_order"
   ],
   "note": "Percentages are exact fractions, sums do not overflow and ids of timers do not repeat."
  },
  {
   "property": "C141",
   "status": "proved",
   "theorems": [
    "Verif.EventLoop.C141_delivered",
    "Verif.EventLoop.C141_one",
    "Verif.EventLoop.C141_ends"
   ],
   "note": "A callback is a number and its call an entry in a log; what it spawns, and timers, are not modelled."
  },
  {
   "property": "C142",
   "status": "partial",
   "theorems": [
    "Verif.Gradient.C142_positions_partial",
    "Verif.Gradient.C142_given",
    "Verif.Gradient.C142_colors_partial",
    "Verif.Gradient.C142_outside_violated",
    "Verif.Gradient.C142_order_violated",
    "Verif.Gradient.C142_transparent_violated"
   ],
   "note": "Positions in [0, 1] that do not decrease, or that are all given; stops that are equally transparent; the code differs from CSS for positions outside, for decreasing positions before a gap, and where transparency changes (colours are mixed without premultiplying)."
  },
  {
   "property": "C143",
   "status": "partial",
   "theorems": [
    "Verif.CssMath.C143_min_partial",
    "Verif.CssMath.C143_max_partial",
    "Verif.CssMath.C143_clamp_partial",
    "Verif.CssMath.C143_left",
    "Verif.CssMath.C143_em_violated",
    "Verif.CssMath.C143_unit_violated",
    "Verif.CssMath.C143_number_violated"
   ],
   "note": "For fonts of 16px and units in lower case that the code knows; the code takes em and rem as 16px, other units and spellings (Q, PX, ch) as px, and makes numbers lengths."
  },
  {
   "property": "C144",
   "status": "partial",
   "theorems": [
    "Verif.Gradient.C144_covers",
    "Verif.Gradient.C144_corners",
    "Verif.Gradient.C144_along",
    "Verif.Gradient.C144_angle",
    "Verif.Gradient.C144_side",
    "Verif.Gradient.C144_towards",
    "Verif.Gradient.C144_corner_partial",
    "Verif.Gradient.C144_corner_violated"
   ],
   "note": "Over real numbers; gradients to a corner are right exactly in squares, because the code takes a fixed 45 degrees."
  },
  {
   "property": "C145",
   "status": "proved",
   "theorems": [
    "Verif.BakedOrder.C145_each",
    "Verif.BakedOrder.C145_layers",
    "Verif.BakedOrder.C145_front"
   ],
   "note": "Given that the tiles found for a layer are in this layer (C145_layers, C145_front)."
  },
  {
   "property": "C146",
   "status": "proved",
   "theorems": [
    "Verif.Textures.C146_textures"
   ],
   "note": "Identifiers do not overflow in the model."
  },
  {
   "property": "C147",
   "status": "partial",
   "theorems": [
    "Verif.BgLayers.C147_groups",
    "Verif.BgLayers.C147_layers_partial",
    "Verif.BgLayers.C147_plain",
    "Verif.BgLayers.C147_one_violated",
    "Verif.BgLayers.C147_empty_violated",
    "Verif.BgLayers.C147_centre_violated"
   ],
   "note": "For groups of two lengths (positive for sizes) and the words repeat, no-repeat, repeat-x, repeat-y; the code takes one length for both sides, fills the box with layers of size 0, and takes missing and named positions as 0."
  }
 ]
}
