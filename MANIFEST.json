{
 "claims": [
  {
   "property": "C01",
   "status": "proved",
   "theorems": [
    "Verif.Props.C01_int_index",
    "Verif.Props.C01_only_valid_events"
   ],
   "note": "Integer indexing for every event count and integer; file only asked for valid events."
  },
  {
   "property": "C02",
   "status": "proved",
   "theorems": [
    "Verif.Props.C02_slice",
    "Verif.Props.C02_slice_step_zero",
    "Verif.Props.C02_plain_slice",
    "Verif.Props.C02_list_ok",
    "Verif.Props.C02_list_error",
    "Verif.Props.C02_other"
   ],
   "note": "Slices: membership + order specification for all start/stop/step; lists; other types."
  },
  {
   "property": "C03",
   "status": "proved",
   "theorems": [
    "Verif.Props.C03_iter",
    "Verif.Props.C03_iter_getItem",
    "Verif.Props.C03_max_events",
    "Verif.Props.C03_tio_iter",
    "Verif.Props.C03_negative_max_events"
   ],
   "note": "Iteration, agreement with indexing, max_events for every value including negative ones."
  },
  {
   "property": "C04",
   "status": "proved",
   "theorems": [
    "Verif.Props.C04_chosen_recognises",
    "Verif.Props.C04_first_match",
    "Verif.Props.C04_none_iff",
    "Verif.Props.C04_specialised_never_chosen"
   ],
   "note": "For every class hierarchy and recognition predicate."
  },
  {
   "property": "C05",
   "status": "proved",
   "theorems": [
    "Verif.Props.C05_simtel_plain",
    "Verif.Props.C05_simtel_gzip",
    "Verif.Props.C05_simtel_short",
    "Verif.Props.C05_tio",
    "Verif.Props.C05_exclusive"
   ],
   "note": "gunzip (the first bytes of the content) and the FITS header parser are parameters; exclusivity assumes the header parser only accepts files starting with 'S' (SIMPLE). What from_path makes of files too short for the markers is C149."
  },
  {
   "property": "C06",
   "status": "proved",
   "theorems": [
    "Verif.Props.C06_rounding",
    "Verif.Props.C06_range",
    "Verif.Props.C06_exact",
    "Verif.Props.C06_order",
    "Verif.Props.C06_inexact_beyond"
   ],
   "note": "IEEE double rounding modelled for the product; bound shown sharp by C06_inexact_beyond."
  },
  {
   "property": "C07",
   "status": "proved",
   "theorems": [
    "Verif.Props.C07_modules",
    "Verif.Props.C07_superpixels"
   ],
   "note": "For every number of modules and superpixels (no two-digit limit), through production, closing, opening and lookup; out of range gives IndexError, negative indices KeyError."
  },
  {
   "property": "C08",
   "status": "proved",
   "theorems": [
    "Verif.Props.C08_pixel_order",
    "Verif.Props.C08_permutation",
    "Verif.Props.C08_unoccupied"
   ],
   "note": "Pixel order by fancy assignment and lookup; row i is the simulated pixel at the position of mapping pixel i; permutation; unoccupied positions receive pixel 0."
  },
  {
   "property": "C09",
   "status": "proved",
   "theorems": [
    "Verif.Props.C09_sound",
    "Verif.Props.C09_complete",
    "Verif.Props.C09_unique_names",
    "Verif.Props.C09_first_wins",
    "Verif.Props.C09_direct_first"
   ],
   "note": "For every finite hierarchy."
  },
  {
   "property": "C10",
   "status": "proved",
   "theorems": [
    "Verif.Props.C10_produce_ok",
    "Verif.Props.C10_produce_sound",
    "Verif.Props.C10_produce_error"
   ],
   "note": "For every finite hierarchy and name."
  },
  {
   "property": "C11",
   "status": "proved",
   "theorems": [
    "Verif.Props.C11_with_file",
    "Verif.Props.C11_empty_file",
    "Verif.Props.C11_not_a_mapping",
    "Verif.Props.C11_without_file",
    "Verif.Props.C11_columns_with_file",
    "Verif.Props.C11_columns_without_file"
   ],
   "note": "Precedence proved for the merged configuration and for the columns that appear in every event's output; empty and non-mapping files covered."
  },
  {
   "property": "C12",
   "status": "proved",
   "theorems": [
    "Verif.Props.C12_keys",
    "Verif.Props.C12_disabled_reducers_unused",
    "Verif.Props.C12_values",
    "Verif.Props.C12_independent_of_other_switches",
    "Verif.Props.C12_errors"
   ],
   "note": "Keys and values over arbitrary event sequences, with arbitrary stateful reducers; independence of other switches has the proviso that the defining reducer does not read them (C52 shows one that does)."
  },
  {
   "property": "C13",
   "status": "partial",
   "theorems": [
    "Verif.Props.C13_partial",
    "Verif.Props.C13_false",
    "Verif.Props.C13_shipped_difference"
   ],
   "note": "False: the generated file enables waveform_max and flasher_unit, which the defaults leave off (C13_false). C13_partial gives the exact condition: every discovered column is listed in the default table."
  },
  {
   "property": "C14",
   "status": "proved",
   "theorems": [
    "Verif.Props.C14_refused_iff",
    "Verif.Props.C14_owner_is_first",
    "Verif.Props.C14_single_owner",
    "Verif.Props.C14_redefinition",
    "Verif.Props.C14_class_columns"
   ],
   "note": "Registry state machine over any history, refused definitions included."
  },
  {
   "property": "C15",
   "status": "proved",
   "theorems": [
    "Verif.Props.C15_appended_rows",
    "Verif.Props.C15_schedule_independent",
    "Verif.Props.C15_prepared_batches",
    "Verif.Props.C15_every_history"
   ],
   "note": "C15_every_history: for every history, mixed ones included, whenever closing succeeds; closing always succeeds for histories that do not use append and write/add_mapping on the same table (C15_appended_rows), and C24_exactly_partial says exactly when it fails"
  },
  {
   "property": "C16",
   "status": "proved",
   "theorems": [
    "Verif.Props.C16_byte_accounting",
    "Verif.Props.C16_every_history"
   ],
   "note": "sizes of the stored batches for appended tables, of the last frame for written ones; total is the sum over the tables; C16_every_history drops the assumption that no table is both appended to and written, for every history whose closing succeeds"
  },
  {
   "property": "C17",
   "status": "proved",
   "theorems": [
    "Verif.Props.C17_metadata_round_trip",
    "Verif.Props.C17_reserved",
    "Verif.Props.C17_unlisted",
    "Verif.Props.C17_every_history"
   ],
   "note": "includes the reserved names and the dictionaries that are never listed; C17_every_history holds for every history whose closing succeeds"
  },
  {
   "property": "C18",
   "status": "partial",
   "theorems": [
    "Verif.Props.C18_false",
    "Verif.Props.C18_opens_iff_partial",
    "Verif.Props.C18_every_history_partial"
   ],
   "note": "false as stated: C18_false is a witness; C18_opens_iff_partial gives the exact condition, C18_every_history_partial for every history whose closing succeeds"
  },
  {
   "property": "C19",
   "status": "proved",
   "theorems": [
    "Verif.Props.C19_prefix",
    "Verif.Props.C19_interrupted",
    "Verif.Props.C19_append_never_raises"
   ],
   "note": "crash between calls and exceptions inside the with-block; a crash inside a PyTables call is outside the model"
  },
  {
   "property": "C20",
   "status": "proved",
   "theorems": [
    "Verif.Props.C20_read"
   ],
   "note": "every file content, key and force flag"
  },
  {
   "property": "C21",
   "status": "proved",
   "theorems": [
    "Verif.Props.C21_partition",
    "Verif.Props.C21_default",
    "Verif.Props.C21_default_diverges",
    "Verif.Props.C21_written_table"
   ],
   "note": "also: default chunk 0 never ends (row > 2 GB), tables stored with write cannot be iterated"
  },
  {
   "property": "C22",
   "status": "proved",
   "theorems": [
    "Verif.Props.C22_appender_keeps_content",
    "Verif.Props.C22_fixed_table_fails",
    "Verif.Props.C22_write_data_fails",
    "Verif.Props.C22_every_history"
   ],
   "note": "C22_every_history: for every file and history whenever closing succeeds; C22_appender_keeps_content: closing succeeds for tables that are absent or were built with append, and when data itself is not overwritten; the other cases are shown to raise"
  },
  {
   "property": "C23",
   "status": "partial",
   "theorems": [
    "Verif.Props.C23_false",
    "Verif.Props.C23_sizes_partial",
    "Verif.Props.C23_total_false",
    "Verif.Props.C23_exactly_partial"
   ],
   "note": "false as stated: C23_false (8 GB guard lost) and C23_total_false are witnesses; C23_sizes_partial gives what is recorded; C23_exactly_partial: per-table value and total are right exactly if the old sizes of the tables used are zero"
  },
  {
   "property": "C24",
   "status": "partial",
   "theorems": [
    "Verif.Props.C24_last_write_wins_partial",
    "Verif.Props.C24_false",
    "Verif.Props.C24_append_then_write_fails",
    "Verif.Props.C24_every_history_partial",
    "Verif.Props.C24_exactly_partial"
   ],
   "note": "false when a frame is still buffered: C24_false, C24_append_then_write_fails; C24_every_history_partial: for every history, whenever closing succeeds the last write wins; C24_exactly_partial: closing fails exactly if rows were buffered when the table was first replaced, or were appended after it"
  },
  {
   "property": "C25",
   "status": "proved",
   "theorems": [
    "Verif.Props.C25_event_round_trip"
   ],
   "note": "End to end from event stream to indexing the reopened file, for every flush schedule, closing order, skip pattern and stateful extractor."
  },
  {
   "property": "C26",
   "status": "proved",
   "theorems": [
    "Verif.Props.C26_iteration",
    "Verif.Props.C26_produced_file"
   ],
   "note": "For every table-format file with matching metadata and every id list; produced files with increasing ids iterate in processing order."
  },
  {
   "property": "C27",
   "status": "proved",
   "theorems": [
    "Verif.Props.C27_accounting",
    "Verif.Props.C27_interrupted",
    "Verif.Props.C27_fails_iff"
   ],
   "note": "Read from the metadata of the closed file for every stream; interrupted productions are characterised too."
  },
  {
   "property": "C28",
   "status": "partial",
   "theorems": [
    "Verif.Props.C28_false",
    "Verif.Props.C28_partial",
    "Verif.Props.C28_every_occurrence",
    "Verif.Props.C28_explicit"
   ],
   "note": "False as stated (C28_false); C28_partial gives the exact set of paths for which it holds."
  },
  {
   "property": "C29",
   "status": "proved",
   "theorems": [
    "Verif.Props.C29_rolling_baseline",
    "Verif.Props.C29_full_window",
    "Verif.Props.C29_no_entries",
    "Verif.Props.C29_shape"
   ],
   "note": "Ring buffer invariant over every history of subtracted waveforms (source events numbered 0, 1, ...; enough samples)."
  },
  {
   "property": "C30",
   "status": "partial",
   "theorems": [
    "Verif.Props.C30_initial_baseline_partial",
    "Verif.Props.C30_short",
    "Verif.Props.C30_exactly_partial",
    "Verif.Props.C30_false"
   ],
   "note": "False for sources shorter than n_base (C30_false): the sum is divided by n_base. Holds for sources of at least n_base events; C30_short gives the value for every source. Exactly: runs of at least n_base events or mean zero (C30_exactly_partial)."
  },
  {
   "property": "C31",
   "status": "proved",
   "theorems": [
    "Verif.Props.C31_shift_array"
   ],
   "note": "Every array, every integer shift, whatever the uninitialised memory contains."
  },
  {
   "property": "C32",
   "status": "proved",
   "theorems": [
    "Verif.Props.C32_shift_waveform",
    "Verif.Props.C32_target_is_maximum",
    "Verif.Props.C32_average",
    "Verif.Props.C32_average_per_pixel"
   ],
   "note": "shift_waveform for every regular array and in-range target; averages of identical pulses for every target; the pedestal has to vanish in runs of fewer than 50 events (C30_false)."
  },
  {
   "property": "C33",
   "status": "proved",
   "theorems": [
    "Verif.Props.C33_never_fails",
    "Verif.Props.C33_sorted",
    "Verif.Props.C33_stable",
    "Verif.Props.C33_run_number",
    "Verif.Props.C33_equal_number",
    "Verif.Props.C33_superscript_fails"
   ],
   "note": "Keys and comparisons never fail for ASCII names; permutation, sortedness, stability and numeric order of digit runs for all names with keys. Python's sort is modelled by a stable merge sort."
  },
  {
   "property": "C34",
   "status": "proved",
   "theorems": [
    "Verif.Props.C34_latest",
    "Verif.Props.C34_no_files",
    "Verif.Props.C34_missing_file",
    "Verif.Props.C34_century",
    "Verif.Props.C34_commit_then_load"
   ],
   "note": "Any directory, any order of the glob result; also the composition commit then default load."
  },
  {
   "property": "C35",
   "status": "proved",
   "theorems": [
    "Verif.Props.C35_round_trip",
    "Verif.Props.C35_file",
    "Verif.Props.C35_any_file",
    "Verif.Props.C35_inconsistent"
   ],
   "note": "All masks of a full camera; the CSV columns are trusted to be read back as written."
  },
  {
   "property": "C36",
   "status": "proved",
   "theorems": [
    "Verif.Props.C36_merge",
    "Verif.Props.C36_algebra",
    "Verif.Props.C36_never_clears",
    "Verif.Props.C36_all_mask",
    "Verif.Props.C36_sizes"
   ],
   "note": "Merging through a file; all masks of a full camera."
  },
  {
   "property": "C37",
   "status": "proved",
   "theorems": [
    "Verif.Props.C37_order",
    "Verif.Props.C37_exactly"
   ],
   "note": "All lists of integers."
  },
  {
   "property": "C38",
   "status": "proved",
   "theorems": [
    "Verif.Props.C38_total",
    "Verif.Props.C38_last_value",
    "Verif.Props.C38_render"
   ],
   "note": "All Latin-1 texts; values above 32767 wrap as numpy int16 does."
  },
  {
   "property": "C39",
   "status": "proved",
   "theorems": [
    "Verif.Props.C39_no_metadata",
    "Verif.Props.C39_superpixel_mapping",
    "Verif.Props.C39_tm_mapping"
   ],
   "note": "Groups, coarse rows and columns, mean positions, metadata in a fresh dictionary (heap model); nonempty mapping."
  },
  {
   "property": "C40",
   "status": "proved",
   "theorems": [
    "Verif.Props.C40_pixel_table",
    "Verif.Props.C40_camera_table",
    "Verif.Props.C40_independent",
    "Verif.Props.C40_total",
    "Verif.Props.C40_nothing_added",
    "Verif.Props.C40_memory",
    "Verif.Props.C40_merged_at_limit"
   ],
   "note": "tables characterised for every session of add/finish calls and every memory function; independence of order, split and schedule; no failure after a first add, KeyError without"
  },
  {
   "property": "C41",
   "status": "proved",
   "theorems": [
    "Verif.Props.C41_pixel_table",
    "Verif.Props.C41_camera_table",
    "Verif.Props.C41_independent",
    "Verif.Props.C41_total"
   ],
   "note": "as C40, with mean, population standard deviation and count; std is always a number"
  },
  {
   "property": "C42",
   "status": "proved",
   "theorems": [
    "Verif.Props.C42_run",
    "Verif.Props.C42_order",
    "Verif.Props.C42_monotone"
   ],
   "note": "Exact rational arithmetic; any sequence, any order."
  },
  {
   "property": "C43",
   "status": "proved",
   "theorems": [
    "Verif.Props.C43_binom",
    "Verif.Props.C43_poisson",
    "Verif.Props.C43_poisson_sum",
    "Verif.Props.C43_logpmf",
    "Verif.Props.C43_normal",
    "Verif.Props.C43_normal_integral"
   ],
   "note": "Real-valued formulas over Mathlib's exp, log and Gamma."
  },
  {
   "property": "C44",
   "status": "proved",
   "theorems": [
    "Verif.Props.C44_calibrate",
    "Verif.Props.C44_unknown_pixel",
    "Verif.Props.C44_inverse",
    "Verif.Props.C44_broadcast",
    "Verif.Props.C44_local",
    "Verif.Props.C44_profile",
    "Verif.Props.C44_profile_pixel"
   ],
   "note": "Exact rational arithmetic."
  },
  {
   "property": "C45",
   "status": "partial",
   "theorems": [
    "Verif.Props.C45_false",
    "Verif.Props.C45_partial",
    "Verif.Props.C45_fails_iff",
    "Verif.Props.C45_affine"
   ],
   "note": "False when a correction is zero (C45_false, C45_fails_iff); holds otherwise (C45_partial)."
  },
  {
   "property": "C46",
   "status": "proved",
   "theorems": [
    "Verif.Props.C46_exactly_one",
    "Verif.Props.C46_range",
    "Verif.Props.C46_tabulated",
    "Verif.Props.C46_between",
    "Verif.Props.C46_self",
    "Verif.Props.C46_round_trip"
   ],
   "note": "Tables without missing cells in the queried columns; missing cells are C71."
  },
  {
   "property": "C47",
   "status": "proved",
   "theorems": [
    "Verif.Props.C47_range"
   ],
   "note": "Any history of calls, failing ones included."
  },
  {
   "property": "C48",
   "status": "proved",
   "theorems": [
    "Verif.Props.C48_within_pass",
    "Verif.Props.C48_two_passes",
    "Verif.Props.C48_final"
   ],
   "note": "Any history of calls."
  },
  {
   "property": "C49",
   "status": "partial",
   "theorems": [
    "Verif.Props.C49_false",
    "Verif.Props.C49_exact_false",
    "Verif.Props.C49_partial",
    "Verif.Props.C49_exactly_partial"
   ],
   "note": "false: oscillation between two DAC values (C49_false) and exact hits (C49_exact_false). C49_partial: termination for all responses without ties; C49_exactly_partial: for responses that do not increase with the DAC value, completion is reported exactly if no superpixel is stuck, in terms of the response and the starting value alone"
  },
  {
   "property": "C50",
   "status": "partial",
   "theorems": [
    "Verif.Props.C50_false",
    "Verif.Props.C50_flagged_partial",
    "Verif.Props.C50_unflagged_partial"
   ],
   "note": "False for flags per pixel (C50_false); proved for flags per superpixel."
  },
  {
   "property": "C51",
   "status": "proved",
   "theorems": [
    "Verif.Props.C51_default",
    "Verif.Props.C51_window",
    "Verif.Props.C51_short",
    "Verif.Props.C51_no_samples"
   ],
   "note": "default settings, at least 20 samples; C51_short shows what happens for shorter waveforms"
  },
  {
   "property": "C52",
   "status": "partial",
   "theorems": [
    "Verif.Props.C52_false",
    "Verif.Props.C52_partial"
   ],
   "note": "false for the default configuration (C52_false: the sum of the last four samples); C52_partial proves it for configurations without a t_event entry"
  },
  {
   "property": "C53",
   "status": "proved",
   "theorems": [
    "Verif.Props.C53_range",
    "Verif.Props.C53_near",
    "Verif.Props.C53_vertex",
    "Verif.Props.C53_edge"
   ],
   "note": "For interior peaks; the edge behaviour is stated by C53_edge."
  },
  {
   "property": "C54",
   "status": "proved",
   "theorems": [
    "Verif.Props.C54_charge",
    "Verif.Props.C54_height",
    "Verif.Props.C54_linear",
    "Verif.Props.C54_refused"
   ],
   "note": "The interpolated reference pulse is an input (cubic interpolation is external); correlate1d is trusted as a formula."
  },
  {
   "property": "C55",
   "status": "proved",
   "theorems": [
    "Verif.Props.C55_cross_correlation",
    "Verif.Props.C55_neighbour",
    "Verif.Props.C55_sliding"
   ],
   "note": "Charges: local >= common and local >= neighbour, for cross correlation and sliding window."
  },
  {
   "property": "C56",
   "status": "proved",
   "theorems": [
    "Verif.Props.C56_charge",
    "Verif.Props.C56_local",
    "Verif.Props.C56_neighbour",
    "Verif.Props.C56_empty"
   ],
   "note": "ctapipe's sum_samples_around_peak is trusted as a formula."
  },
  {
   "property": "C57",
   "status": "proved",
   "theorems": [
    "Verif.Props.C57_partition",
    "Verif.Props.C57_terminates",
    "Verif.Props.C57_ends",
    "Verif.Props.C57_passes",
    "Verif.Props.C57_nonneg",
    "Verif.Props.C57_pulses"
   ],
   "note": "Inner least-squares solver arbitrary apart from giving one number per column."
  },
  {
   "property": "C58",
   "status": "proved",
   "theorems": [
    "Verif.Props.C58_parts",
    "Verif.Props.C58_total",
    "Verif.Props.C58_window"
   ],
   "note": "For every list of solutions; splines and basis are parameters."
  },
  {
   "property": "C59",
   "status": "proved",
   "theorems": [
    "Verif.Props.C59_unit",
    "Verif.Props.C59_missing_module"
   ],
   "note": "cameras that contain module 26; C59_missing_module is the case of a camera that lacks a reference module"
  },
  {
   "property": "C60",
   "status": "proved",
   "theorems": [
    "Verif.Props.C60_superpixel",
    "Verif.Props.C60_refused"
   ],
   "note": "maximum and first arg-max of the summed waveform of the four pixels; other sizes are refused"
  },
  {
   "property": "C61",
   "status": "proved",
   "theorems": [
    "Verif.Props.C61_fitters",
    "Verif.Props.C61_new",
    "Verif.Props.C61_update",
    "Verif.Props.C61_typed",
    "Verif.Props.C61_clash"
   ],
   "note": "books of a new collection, after update, for every reached collection the typed lookup is the latest; both shipped fitters satisfy the hypothesis for every number of illuminations; C61_clash shows distinct names are needed"
  },
  {
   "property": "C62",
   "status": "partial",
   "theorems": [
    "Verif.Props.C62_update_initial",
    "Verif.Props.C62_update_errors",
    "Verif.Props.C62_stale",
    "Verif.Props.C62_stale_initial",
    "Verif.Props.C62_false",
    "Verif.Props.C62_partial"
   ],
   "note": "false as stated (C62_false): load_config and update_initial never change what the next fit starts from (C62_stale, C62_stale_initial); C62_partial: bins and range take effect, the rest once the parameters are prepared again"
  },
  {
   "property": "C63",
   "status": "proved",
   "theorems": [
    "Verif.Props.C63_mapm",
    "Verif.Props.C63_gentile"
   ],
   "note": "both spectra are positive, integrable and integrate to at most 1 for positive light level and pedestal width and crosstalk in [0, 1]"
  },
  {
   "property": "C64",
   "status": "partial",
   "theorems": [
    "Verif.Props.C64_no_crosstalk_partial",
    "Verif.Props.C64_false",
    "Verif.Props.C64_partial",
    "Verif.Props.C64_false_mapm",
    "Verif.Props.C64_limits_partial",
    "Verif.Props.C64_crosstalk_partial",
    "Verif.Props.C64_all_crosstalk",
    "Verif.Props.C64_pedestal_only_partial"
   ],
   "note": "false for the SiPM spectrum at 12 and the MAPM spectrum at 400 photo-electrons and at a crosstalk probability of 1 (C64_false, C64_false_mapm, C64_all_crosstalk). C64_pedestal_only_partial: exactly when only the pedestal is left. Integral of at least 0.99 proved for the MAPM spectrum up to 40 photo-electrons (C64_partial) and for the SiPM spectrum up to 11 without crosstalk (C64_no_crosstalk_partial), up to 1 with crosstalk up to 0.9 (C64_crosstalk_partial) and up to 6, the limit of the fits, with crosstalk up to 0.5 (C64_limits_partial)"
  },
  {
   "property": "C65",
   "status": "partial",
   "theorems": [
    "Verif.Props.C65_history",
    "Verif.Props.C65_missing",
    "Verif.Props.C65_partial",
    "Verif.Props.C65_sequential",
    "Verif.Props.C65_false",
    "Verif.Props.C65_exactly_partial"
   ],
   "note": "false for the order of rows (C65_false); C65_partial: rows looked up by pixel are those of the sequential run for every schedule; C65_sequential: the sequential run is in pixel order. C65_exactly_partial: the image is right for exactly the schedules in which the values arrive in pixel order."
  },
  {
   "property": "C66",
   "status": "proved",
   "theorems": [
    "Verif.Props.C66_grid",
    "Verif.Props.C66_initial",
    "Verif.Props.C66_wrong_size",
    "Verif.Props.C66_again",
    "Verif.Props.C66_outside",
    "Verif.Props.C66_negative",
    "Verif.Props.C66_patches",
    "Verif.Props.C66_patches_rejected"
   ],
   "note": "Grid and patch images; corner masking on the three camera grids; wrong size rejected without effect."
  },
  {
   "property": "C67",
   "status": "proved",
   "theorems": [
    "Verif.Props.C67_order",
    "Verif.Props.C67_goal",
    "Verif.Props.C67_domain",
    "Verif.Props.C67_decreasing",
    "Verif.Props.C67_relative"
   ],
   "note": "order, domain, monotonicity and ratio to the requirement"
  },
  {
   "property": "C68",
   "status": "proved",
   "theorems": [
    "Verif.Props.C68_crossings",
    "Verif.Props.C68_width"
   ],
   "note": "Crossings are on the line between their samples and are the first / last ones; width as difference."
  },
  {
   "property": "C69",
   "status": "partial",
   "theorems": [
    "Verif.Props.C69_false_data",
    "Verif.Props.C69_false_simulation"
   ],
   "note": "False: C69_false_data and C69_false_simulation prove, for every such run, the TypeError respectively the unopenable file. Iteration over all events yields nothing, as claimed."
  },
  {
   "property": "C70",
   "status": "partial",
   "theorems": [
    "Verif.Props.C70_false",
    "Verif.Props.C70_partial",
    "Verif.Props.C70_exactly_partial"
   ],
   "note": "false: missing entries are counted in n (C70_false); C70_partial gives the exact value reported. Unchanged for exactly the groups without missing entries or without deviations (C70_exactly_partial)."
  },
  {
   "property": "C71",
   "status": "partial",
   "theorems": [
    "Verif.Props.C71_false",
    "Verif.Props.C71_partial",
    "Verif.Props.C71_exactly_partial",
    "Verif.Props.C71_no_number_partial"
   ],
   "note": "False of the code when a cell of the column is missing: values above the range then give a result (C71_false). C71_exactly_partial gives the exact condition of a rejection for every column with at least one number; C71_no_number_partial shows that a column without any number rejects nothing; C71_partial that values below every number are rejected in any table."
  },
  {
   "property": "C72",
   "status": "partial",
   "theorems": [
    "Verif.Props.C72_false",
    "Verif.Props.C72_partial"
   ],
   "note": "False (C72_false): only 512 superpixels work (C72_partial)."
  },
  {
   "property": "C73",
   "status": "proved",
   "theorems": [
    "Verif.Props.C73_baselines",
    "Verif.Props.C73_rms",
    "Verif.Props.C73_baseline_rms",
    "Verif.Props.C73_columns"
   ],
   "note": "variances stand for squares of the rms columns"
  },
  {
   "property": "C74",
   "status": "partial",
   "theorems": [
    "Verif.Props.C74_false",
    "Verif.Props.C74_partial"
   ],
   "note": "False when the peak is the last sample (C74_false); C74_partial covers every other peak position."
  },
  {
   "property": "C75",
   "status": "partial",
   "theorems": [
    "Verif.Props.C75_false",
    "Verif.Props.C75_partial",
    "Verif.Props.C75_exactly_partial"
   ],
   "note": "false: C75_false (equal neighbouring samples at a threshold give ZeroDivisionError). C75_partial: nothing else fails. C75_exactly_partial: exactly which events fail, in terms of the samples: the first fall or last rise through a level around the parabola's vertex consists of two equal samples"
  },
  {
   "property": "C76",
   "status": "partial",
   "theorems": [
    "Verif.Props.C76_exactly_partial",
    "Verif.Props.C76_false",
    "Verif.Props.C76_partial",
    "Verif.Props.C76_pulses_partial"
   ],
   "note": "false: C76_false. C76_exactly_partial: a reported rise time of a pulse of positive height is negative exactly if the waveform rises through 10 % once more between its last rise through 90 % and the pulse sample (and the corresponding condition for negative heights); C76_partial and C76_pulses_partial: sufficient conditions on the samples"
  },
  {
   "property": "C77",
   "status": "proved",
   "theorems": [
    "Verif.Props.C77_peak",
    "Verif.Props.C77_vertex"
   ],
   "note": "Interior local maximum."
  },
  {
   "property": "C78",
   "status": "partial",
   "theorems": [
    "Verif.Props.C78_false",
    "Verif.Props.C78_partial",
    "Verif.Props.C78_exactly_partial"
   ],
   "note": "False (C78_false): pixels without pulses count as time 0. C78_partial: every pixel has a pulse, pulses within 5 ns. C78_exactly_partial: simultaneous pulses are in the window exactly if their time multiplied by the share of pixels without a pulse is at most 5 ns; otherwise none of them is."
  },
  {
   "property": "C79",
   "status": "partial",
   "theorems": [
    "Verif.Props.C79_false",
    "Verif.Props.C79_partial",
    "Verif.Props.C79_pass_partial",
    "Verif.Props.C79_exactly_partial"
   ],
   "note": "False (C79_false, exact least squares). C79_partial: solver never returns exactly zero. Exactly: a pass that begins with numbers leaves NaN iff least squares gives zero for a position of amplitude zero while another is negative (C79_pass_partial), and NaN in a solution comes from such a pass (C79_exactly_partial)."
  },
  {
   "property": "C80",
   "status": "proved",
   "theorems": [
    "Verif.Props.C80_optimal"
   ],
   "note": "Exact least-squares solver; for any tolerance <= 0."
  },
  {
   "property": "C81",
   "status": "partial",
   "theorems": [
    "Verif.Props.C81_columns",
    "Verif.Props.C81_pixel",
    "Verif.Props.C81_false",
    "Verif.Props.C81_partial"
   ],
   "note": "false: the plotter asks for a column rmse the tables do not have (C81_false); C81_partial: with that column every row above 0.001 is plotted"
  },
  {
   "property": "C82",
   "status": "partial",
   "theorems": [
    "Verif.Props.C82_one_bin",
    "Verif.Props.C82_partial",
    "Verif.Props.C82_exactly_partial",
    "Verif.Props.C82_false"
   ],
   "note": "false: charges below 0.1 are in no bin (C82_false); C82_partial: from 0.1 to the last edge every point is in exactly one bin and totals are kept; C82_exactly_partial: a point is in a bin exactly if it is in this range, and the plot is that of these points alone"
  },
  {
   "property": "C83",
   "status": "partial",
   "theorems": [
    "Verif.Props.C83_false",
    "Verif.Props.C83_partial",
    "Verif.Props.C83_exactly_partial",
    "Verif.Props.C83_unconfigured"
   ],
   "note": "false with a configuration file (C83_false); C83_partial and C83_unconfigured: true for parameters prepared last, in particular without a configuration; C83_exactly_partial: with a configuration file it is true exactly if the file repeats the initial values the parameters have anyway"
  },
  {
   "property": "C84",
   "status": "proved",
   "theorems": [
    "Verif.Props.C84_load",
    "Verif.Props.C84_roundtrip",
    "Verif.Props.C84_empty_section",
    "Verif.Props.C84_fails"
   ],
   "note": "loading, warning and round trip; a section without content fails, C84_fails says exactly when and what has been changed by then"
  },
  {
   "property": "C85",
   "status": "proved",
   "theorems": [
    "Verif.Props.C85_area",
    "Verif.Props.C85_before",
    "Verif.Props.C85_after"
   ],
   "note": "area, proportionality, zero area, before the first fit"
  },
  {
   "property": "C86",
   "status": "proved",
   "theorems": [
    "Verif.Props.C86_edges",
    "Verif.Props.C86_total",
    "Verif.Props.C86_bad_range",
    "Verif.Props.C86_count",
    "Verif.Props.C86_bins"
   ],
   "note": "bins, counts, centres and total of the histogram a fit is given (C86_bins, C86_total), errors"
  },
  {
   "property": "C87",
   "status": "proved",
   "theorems": [
    "Verif.Props.C87_mapm",
    "Verif.Props.C87_gentile"
   ],
   "note": "both fitters, every number of illuminations"
  },
  {
   "property": "C88",
   "status": "proved",
   "theorems": [
    "Verif.Props.C88_likelihood",
    "Verif.Props.C88_no_area"
   ],
   "note": "joint Poisson likelihood; zero area is the division by zero the caller turns into infinity"
  },
  {
   "property": "C89",
   "status": "partial",
   "theorems": [
    "Verif.Props.C89_too_few",
    "Verif.Props.C89_one_column",
    "Verif.Props.C89_one_row",
    "Verif.Props.C89_partial",
    "Verif.Props.C89_complete",
    "Verif.Props.C89_false",
    "Verif.Props.C89_silent"
   ],
   "note": "False of the code: a complete camera with different numbers of columns and rows raises ValueError (C89_false), and a camera whose first column is full but whose first row has one pixel gets wrong column numbers without an error (C89_silent). Proved for complete square cameras with any offset and order (C89_complete), for incomplete cameras with equal spacings in both directions, a full column, a full row of the same number and no line through the origin (C89_partial), and exactly for cameras of a single column or row (C89_one_column, C89_one_row) and of fewer than two pixels (C89_too_few). Missing: cameras outside these conditions."
  },
  {
   "property": "C90",
   "status": "proved",
   "theorems": [
    "Verif.Props.C90_matched",
    "Verif.Props.C90_errors"
   ],
   "note": ""
  },
  {
   "property": "C91",
   "status": "proved",
   "theorems": [
    "Verif.Props.C91_average",
    "Verif.Props.C91_by_number",
    "Verif.Props.C91_errors"
   ],
   "note": ""
  },
  {
   "property": "C92",
   "status": "partial",
   "theorems": [
    "Verif.Props.C92_partial",
    "Verif.Props.C92_select",
    "Verif.Props.C92_load",
    "Verif.Props.C92_errors",
    "Verif.Props.C92_false",
    "Verif.Props.C92_exactly_partial"
   ],
   "note": "False for selections of rows (C92_false), exactly for all selections of entries but the whole table (C92_exactly_partial); the whole table, reading of chosen rows, loading of whole tables and errors are proved."
  },
  {
   "property": "C93",
   "status": "partial",
   "theorems": [
    "Verif.Props.C93_every_history_partial",
    "Verif.Props.C93_invalid",
    "Verif.Props.C93_epoch",
    "Verif.Props.C93_decision",
    "Verif.Props.C93_errors",
    "Verif.Props.C93_partial",
    "Verif.Props.C93_false"
   ],
   "note": "False after appending: the appending session replaces the recorded version, so the warning about rows of an older version disappears (C93_false). Decision for every recorded version (C93_decision), no warning after writing (C93_partial), nor after any writing or appending session that could be closed (C93_every_history_partial)."
  },
  {
   "property": "C94",
   "status": "proved",
   "theorems": [
    "Verif.Props.C94_calculation",
    "Verif.Props.C94_event",
    "Verif.Props.C94_time",
    "Verif.Props.C94_lost",
    "Verif.Props.C94_made"
   ],
   "note": ""
  },
  {
   "property": "C95",
   "status": "partial",
   "theorems": [
    "Verif.Props.C95_partial",
    "Verif.Props.C95_false",
    "Verif.Props.C95_plain"
   ],
   "note": "False as stated: the calibrator sets an attribute r1, is_r1 keeps the value of the raw event (C95_false). The samples and all other attributes are proved (C95_partial)."
  },
  {
   "property": "C96",
   "status": "partial",
   "theorems": [
    "Verif.Props.C96_partial",
    "Verif.Props.C96_fails_partial",
    "Verif.Props.C96_false"
   ],
   "note": "False for the readers of the library, which have no attribute index (C96_false). Proved for sources that have it (C96_partial); with any values of that attribute, it fails exactly as C96_fails_partial says."
  },
  {
   "property": "C97",
   "status": "partial",
   "theorems": [
    "Verif.Props.C97_partial",
    "Verif.Props.C97_false",
    "Verif.Props.C97_level"
   ],
   "note": "False for negative numbers, which are never refused (C97_false). Proved for numbers that are not negative and for the level check (C97_partial, C97_level)."
  },
  {
   "property": "C98",
   "status": "proved",
   "theorems": [
    "Verif.Props.C98_each",
    "Verif.Props.C98_after"
   ],
   "note": ""
  },
  {
   "property": "C99",
   "status": "partial",
   "theorems": [
    "Verif.Props.C99_partial",
    "Verif.Props.C99_exactly_partial",
    "Verif.Props.C99_false",
    "Verif.Props.C99_reset",
    "Verif.Props.C99_highlight"
   ],
   "note": "False for cameras that do not consist of 6 by 6 modules (C99_false). Proved for 6 by 6 modules of any size (C99_partial); C99_exactly_partial says for exactly which cameras the lines are right; highlighting and reset are proved for all cameras."
  },
  {
   "property": "C100",
   "status": "proved",
   "theorems": [
    "Verif.Props.C100_outliers",
    "Verif.Props.C100_readable",
    "Verif.Props.C100_errors"
   ],
   "note": ""
  },
  {
   "property": "C101",
   "status": "partial",
   "theorems": [
    "Verif.Props.C101_partial",
    "Verif.Props.C101_false",
    "Verif.Props.C101_types",
    "Verif.Props.C101_exactly_partial",
    "Verif.Props.C101_numbers",
    "Verif.Props.C101_errors"
   ],
   "note": "False for images of whole numbers with a width below 1 (C101_false). Proved for images of floating-point numbers (C101_partial); C101_exactly_partial says for exactly which widths it holds on the others; pixel numbers are the same as the mask of these pixels (C101_numbers); all failures in C101_errors."
  },
  {
   "property": "C102",
   "status": "partial",
   "theorems": [
    "Verif.Props.C102_partial",
    "Verif.Props.C102_false",
    "Verif.Props.C102_all_partial",
    "Verif.Props.C102_kinds"
   ],
   "note": "False if the scale is made logarithmic while limits are chosen (C102_false). Proved for all other sequences (C102_partial); C102_all_partial gives the limits after every sequence."
  },
  {
   "property": "C103",
   "status": "partial",
   "theorems": [
    "Verif.Props.C103_directory",
    "Verif.Props.C103_partial",
    "Verif.Props.C103_braces",
    "Verif.Props.C103_fields",
    "Verif.Props.C103_single_brace",
    "Verif.Props.C103_false",
    "Verif.Props.C103_order",
    "Verif.Props.C103_readers"
   ],
   "note": "False for directories with braces (C103_false); exactly the directories without braces give the right paths (C103_braces, C103_partial). Order and readers proved (C103_order, C103_readers)."
  },
  {
   "property": "C104",
   "status": "partial",
   "theorems": [
    "Verif.Props.C104_partial",
    "Verif.Props.C104_exactly_partial",
    "Verif.Props.C104_false"
   ],
   "note": "False for directories containing _r1 or .tio (C104_false); proved for exactly the others (C104_exactly_partial)."
  },
  {
   "property": "C105",
   "status": "partial",
   "theorems": [
    "Verif.Props.C105_partial",
    "Verif.Props.C105_last_partial",
    "Verif.Props.C105_explicit",
    "Verif.Props.C105_stops",
    "Verif.Props.C105_false"
   ],
   "note": "False with an explicit output path (C105_false, C105_explicit); proved for distinct output paths that are no inputs (C105_partial); if outputs coincide the last input wins (C105_last_partial). Interrupted runs: C105_stops."
  },
  {
   "property": "C106",
   "status": "proved",
   "theorems": [
    "Verif.Props.C106_columns",
    "Verif.Props.C106_points",
    "Verif.Props.C106_curves",
    "Verif.Props.C106_errors"
   ],
   "note": "Columns, curves, reference line and errors."
  },
  {
   "property": "C107",
   "status": "proved",
   "theorems": [
    "Verif.Props.C107_every_history",
    "Verif.Props.C107_round_trip",
    "Verif.Props.C107_dl1",
    "Verif.Props.C107_append",
    "Verif.Props.C107_replaced"
   ],
   "note": "Round trip for all histories (C107_every_history: also those that mix append and write, if closing succeeds), DL1 files, appending, and the limit of the statement."
  },
  {
   "property": "C108",
   "status": "partial",
   "theorems": [
    "Verif.Props.C108_false",
    "Verif.Props.C108_partial"
   ],
   "note": "False of the code: attribute access on a dictionary. Negation proved; the partial theorem shows that the stored mapping is complete."
  },
  {
   "property": "C109",
   "status": "proved",
   "theorems": [
    "Verif.Props.C109_amplitudes",
    "Verif.Props.C109_prefix",
    "Verif.Props.C109_profile",
    "Verif.Props.C109_errors"
   ],
   "note": "Amplitudes, independence of later events and of the profile, and errors."
  },
  {
   "property": "C110",
   "status": "proved",
   "theorems": [
    "Verif.Props.C110_spectrum",
    "Verif.Props.C110_images",
    "Verif.Props.C110_plots",
    "Verif.Props.C110_errors",
    "Verif.Props.C110_fitters",
    "Verif.Props.C110_no_pixels"
   ],
   "note": "C110_images is for one process; with several the rows may be permuted (C65_false). Tables over 8 GB are refused by the reader."
  },
  {
   "property": "C111",
   "status": "partial",
   "theorems": [
    "Verif.Props.C111_partial",
    "Verif.Props.C111_false"
   ],
   "note": "C111_false: n_pixels is a pair; the other entries are right"
  },
  {
   "property": "C112",
   "status": "partial",
   "theorems": [
    "Verif.Props.C112_partial",
    "Verif.Props.C112_exactly_partial",
    "Verif.Props.C112_missing",
    "Verif.Props.C112_written",
    "Verif.Props.C112_false"
   ],
   "note": "False as stated (C112_false): tables stored with write have neither a row count nor columns (C112_written). C112_partial proves all calls for tables filled with append; C112_exactly_partial: for every history that can be closed the parts of a table with rows agree exactly if it was never stored with write."
  },
  {
   "property": "C113",
   "status": "partial",
   "theorems": [
    "Verif.Props.C113_partial",
    "Verif.Props.C113_short",
    "Verif.Props.C113_exactly_partial",
    "Verif.Props.C113_false",
    "Verif.Props.C113_step"
   ],
   "note": "False as stated (C113_false, C113_step): the tail does not reach 0. C113_partial gives every point of the template. C113_exactly_partial: it does iff the last ten points span the time of the eleventh or the tenth last is 0."
  },
  {
   "property": "C114",
   "status": "partial",
   "theorems": [
    "Verif.Props.C114_partial",
    "Verif.Props.C114_false"
   ],
   "note": "False as stated (C114_false). C114_partial gives times, matrix and accepted waveforms exactly."
  },
  {
   "property": "C115",
   "status": "proved",
   "theorems": [
    "Verif.Props.C115_groups",
    "Verif.Props.C115_kept",
    "Verif.Props.C115_apart"
   ],
   "note": ""
  },
  {
   "property": "C116",
   "status": "partial",
   "theorems": [
    "Verif.Props.C116_partial",
    "Verif.Props.C116_exactly_partial",
    "Verif.Props.C116_errors",
    "Verif.Props.C116_coarse",
    "Verif.Props.C116_false"
   ],
   "note": "False as documented (C116_false, C116_coarse). Proved, in metres, for exactly the mappings whose metadata count their rows (C116_partial, C116_exactly_partial)."
  },
  {
   "property": "C117",
   "status": "partial",
   "theorems": [
    "Verif.Props.C117_partial",
    "Verif.Props.C117_errors",
    "Verif.Props.C117_false"
   ],
   "note": "False as stated (C117_false). C117_partial for files without old monitor tables; C117_errors."
  },
  {
   "property": "C118",
   "status": "proved",
   "theorems": [
    "Verif.Props.C118_patch_edge_labels",
    "Verif.Props.C118_imshow_edge_labels",
    "Verif.Props.C118_labels_outside",
    "Verif.Props.C118_pixel_texts"
   ],
   "note": ""
  },
  {
   "property": "C119",
   "status": "partial",
   "theorems": [
    "Verif.Props.C119_up_arrow",
    "Verif.Props.C119_up_arrow_missing",
    "Verif.Props.C119_arrow_coarse_partial",
    "Verif.Props.C119_false",
    "Verif.Props.C119_led_flashers",
    "Verif.Props.C119_led_missing",
    "Verif.Props.C119_led_moves"
   ],
   "note": "False for images in units of the grid and for the flashers (C119_false, C119_led_moves); the arrow in metres is the same on all images."
  },
  {
   "property": "C120",
   "status": "partial",
   "theorems": [
    "Verif.Props.C120_error_bars",
    "Verif.Props.C120_drawn",
    "Verif.Props.C120_same_points",
    "Verif.Props.C120_error_bound",
    "Verif.Props.C120_relative_curves",
    "Verif.Props.C120_relative_partial",
    "Verif.Props.C120_false"
   ],
   "note": "Error bars proved for all data; on the relative plot the error bars are not divided (C120_false), values are (C120_relative_partial)."
  },
  {
   "property": "C121",
   "status": "proved",
   "theorems": [
    "Verif.Props.C121_builds_iff",
    "Verif.Props.C121_import_error",
    "Verif.Props.C121_settings",
    "Verif.Props.C121_default",
    "Verif.Props.C121_default_columns",
    "Verif.Props.C121_owners",
    "Verif.Props.C121_default_no_pulse",
    "Verif.Props.C121_window_errors",
    "Verif.Props.C121_no_camera",
    "Verif.Props.C121_pulse_errors"
   ],
   "note": ""
  },
  {
   "property": "C122",
   "status": "partial",
   "theorems": [
    "Verif.Props.C122_reproduces",
    "Verif.Props.C122_false",
    "Verif.Props.C122_recorded_partial",
    "Verif.Props.C122_exactly_partial"
   ],
   "note": "False for configurations with entries `key` or `name` (C122_false); proved for exactly the others (C122_recorded_partial, C122_exactly_partial, C122_reproduces)."
  },
  {
   "property": "C123",
   "status": "proved",
   "theorems": [
    "Verif.Props.C123_common",
    "Verif.Props.C123_local",
    "Verif.Props.C123_neighbour",
    "Verif.Props.C123_empty"
   ],
   "note": ""
  },
  {
   "property": "C124",
   "status": "partial",
   "theorems": [
    "Verif.Props.C124_coloured",
    "Verif.Props.C124_colour_partial",
    "Verif.Props.C124_false",
    "Verif.Props.C124_size"
   ],
   "note": "missing: masks hidden under bad_hv cannot be told from the colour (C124_false)"
  },
  {
   "property": "C125",
   "status": "partial",
   "theorems": [
    "Verif.Props.C125_shown",
    "Verif.Props.C125_unknown",
    "Verif.Props.C125_no_overlap",
    "Verif.Props.C125_time_grid",
    "Verif.Props.C125_false",
    "Verif.Props.C125_amplitude_grid_partial",
    "Verif.Props.C125_places"
   ],
   "note": "missing: horizontal grid lines are drawn at the time ticks, not the amplitude ticks (C125_false)"
  },
  {
   "property": "C126",
   "status": "partial",
   "theorems": [
    "Verif.Props.C126_directory",
    "Verif.Props.C126_blocked",
    "Verif.Props.C126_saved_partial",
    "Verif.Props.C126_exactly_partial",
    "Verif.Props.C126_false",
    "Verif.Props.C126_pdf",
    "Verif.Props.C126_unnamed",
    "Verif.Props.C126_errors"
   ],
   "note": "missing: names without an extension are written to another file than reported (C126_false); the exact condition is C126_exactly_partial"
  },
  {
   "property": "C127",
   "status": "partial",
   "theorems": [
    "Verif.Props.C127_opens",
    "Verif.Props.C127_empty",
    "Verif.Props.C127_errors",
    "Verif.Props.C127_positions",
    "Verif.Props.C127_until_unseen",
    "Verif.Props.C127_partial",
    "Verif.Props.C127_exactly_partial",
    "Verif.Props.C127_false"
   ],
   "note": "False as stated: an event the telescope of the reader did not record raises TypeError and ends the loop (C127_false). The loop is complete for exactly the files all of whose events the telescope recorded (C127_partial, C127_exactly_partial); C127_until_unseen says what happens before the first other one."
  },
  {
   "property": "C128",
   "status": "partial",
   "theorems": [
    "Verif.Props.C128_unprepared",
    "Verif.Props.C128_unknown",
    "Verif.Props.C128_inherited_only",
    "Verif.Props.C128_partial",
    "Verif.Props.C128_history",
    "Verif.Props.C128_false",
    "Verif.Props.C128_stale_partial"
   ],
   "note": "False as stated: after an event whose preparation raised the columns are those of the event before (C128_false). C128_partial and C128_history cover events whose preparation succeeds; C128_stale_partial says what is read after every history."
  },
  {
   "property": "C129",
   "status": "proved",
   "theorems": [
    "Verif.Props.C129_count",
    "Verif.Props.C129_waiting",
    "Verif.Props.C129_bound",
    "Verif.Props.C129_under",
    "Verif.Props.C129_failed",
    "Verif.Props.C129_nothing_lost"
   ],
   "note": "The bound on memory is for histories without exceptions; the count of bytes and the rows kept are for all histories."
  },
  {
   "property": "C130",
   "status": "proved",
   "theorems": [
    "Verif.Props.C130_left",
    "Verif.Props.C130_gone",
    "Verif.Props.C130_average"
   ],
   "note": "exact rational samples; leftover fraction for short runs in C130_left"
  },
  {
   "property": "C131",
   "status": "proved",
   "theorems": [
    "Verif.Props.C131_columns",
    "Verif.Props.C131_cross_correlation",
    "Verif.Props.C131_sliding",
    "Verif.Props.C131_refused"
   ],
   "note": "exact rational samples, so sums do not depend on the order; an event is refused exactly when the renumbered one is (C131_refused); ctapipe sum is a specification"
  },
  {
   "property": "C132",
   "status": "proved",
   "theorems": [
    "Verif.Props.C132_columns",
    "Verif.Props.C132_cross_correlation",
    "Verif.Props.C132_sliding",
    "Verif.Props.C132_superpixel"
   ],
   "note": "exact rational samples; variances in place of standard deviations; the memory behind the last waveform is multiplied too"
  },
  {
   "property": "C133",
   "status": "proved",
   "theorems": [
    "Verif.Props.C133_unfinished",
    "Verif.Props.C133_finished",
    "Verif.Props.C133_usable"
   ],
   "note": ""
  },
  {
   "property": "C134",
   "status": "proved",
   "theorems": [
    "Verif.Props.C134_line",
    "Verif.Props.C134_between",
    "Verif.Props.C134_one_position",
    "Verif.Props.C134_entries",
    "Verif.Props.C134_vertex",
    "Verif.Props.C134_peak",
    "Verif.Props.C134_no_peak"
   ],
   "note": "All rationals; infinities and NaN are values."
  },
  {
   "property": "C135",
   "status": "partial",
   "theorems": [
    "Verif.Props.C135_no_events",
    "Verif.Props.C135_independent",
    "Verif.Props.C135_table",
    "Verif.Props.C135_statistics",
    "Verif.Props.C135_false",
    "Verif.Props.C135_gaps",
    "Verif.Props.C135_partial",
    "Verif.Props.C135_exactly_partial"
   ],
   "note": "False as stated (C135_false: modules without data; C135_gaps: missing charges). The table itself is proved for all runs; the comparison with pandas for runs with data of all modules and no missing charges; without missing charges exactly the runs with data of modules 0 to some module (C135_exactly_partial)."
  },
  {
   "property": "C136",
   "status": "proved",
   "theorems": [
    "Verif.Props.C136_area",
    "Verif.Props.C136_no_area",
    "Verif.Props.C136_pulse",
    "Verif.Props.C136_pedestal",
    "Verif.Props.C136_average_gain",
    "Verif.Props.C136_gain",
    "Verif.Props.C136_no_events"
   ],
   "note": "All runs; the text of the file is not modelled."
  },
  {
   "property": "C137",
   "status": "partial",
   "theorems": [
    "Verif.Props.C137_outcome",
    "Verif.Props.C137_partial",
    "Verif.Props.C137_dim",
    "Verif.Props.C137_false"
   ],
   "note": "missing: superpixels below the aim at every DAC value end at 255 (C137_false, C137_dim); proved for all others"
  },
  {
   "property": "C138",
   "status": "partial",
   "theorems": [
    "Verif.Props.C138_false",
    "Verif.Props.C138_partial",
    "Verif.Props.C138_kept",
    "Verif.Props.C138_failed",
    "Verif.Props.C138_refused",
    "Verif.Props.C138_bad_range",
    "Verif.Props.C138_loaded",
    "Verif.Props.C138_points"
   ],
   "note": "False as stated (C138_false: old values with the new histogram after a failed fit; C138_loaded: the curve over another range). Proved after every completed fit and kept by all actions that leave bins and range alone; the states after failures are given."
  },
  {
   "property": "C139",
   "status": "partial",
   "theorems": [
    "Verif.Props.C139_false",
    "Verif.Props.C139_average_partial",
    "Verif.Props.C139_saturation_partial",
    "Verif.Props.C139_common_partial",
    "Verif.Props.C139_superpixel_partial",
    "Verif.Props.C139_sliding_partial",
    "Verif.Props.C139_cross_correlation_partial",
    "Verif.Props.C139_cross_correlation_local_partial",
    "Verif.Props.C139_timing_partial",
    "Verif.Props.C139_timing_event_partial",
    "Verif.Props.C139_times_false",
    "Verif.Props.C139_rounding_false"
   ],
   "note": "False as stated (edges of the readout, vertex outside, halves rounded to even). Proved for every delay with enough quiet samples around the pulses; the conditions are stated per reducer."
  },
  {
   "property": "C140",
   "status": "proved",
   "theorems": [
    "Verif.Props.C140_corrected",
    "Verif.Props.C140_near",
    "Verif.Props.C140_flat",
    "Verif.Props.C140_raw",
    "Verif.Props.C140_profile"
   ],
   "note": "all events and images; the tables are copied into the model digit by digit and read with an error of at most a millionth"
  },
  {
   "property": "C141",
   "status": "proved",
   "theorems": [
    "Verif.Props.C141_labels",
    "Verif.Props.C141_rows",
    "Verif.Props.C141_raw",
    "Verif.Props.C141_reserved",
    "Verif.Props.C141_lengths"
   ],
   "note": "Rows characterised for all runs; raw data and name collisions covered as error branches."
  },
  {
   "property": "C142",
   "status": "proved",
   "theorems": [
    "Verif.Props.C142_extracted",
    "Verif.Props.C142_file"
   ],
   "note": "Whole pipeline from reader to reopened file, all runs of at least 50 events."
  },
  {
   "property": "C143",
   "status": "partial",
   "theorems": [
    "Verif.Props.C143_partial",
    "Verif.Props.C143_first_partial",
    "Verif.Props.C143_false"
   ],
   "note": "False as stated (C143_false); holds for processed event k when the runs agree in events k+1..49, hence always from the fiftieth on."
  },
  {
   "property": "C144",
   "status": "proved",
   "theorems": [
    "Verif.Props.C144_mapm",
    "Verif.Props.C144_gentile",
    "Verif.Props.C144_single",
    "Verif.Props.C144_errors"
   ],
   "note": "Both fitters; positive width and light level. Single bin treated exactly."
  },
  {
   "property": "C145",
   "status": "proved",
   "theorems": [
    "Verif.Props.C145_mapm",
    "Verif.Props.C145_gentile",
    "Verif.Props.C145_best"
   ],
   "note": "Both fitters, any positive factor and offset."
  },
  {
   "property": "C146",
   "status": "proved",
   "theorems": [
    "Verif.Props.C146_no_crosstalk"
   ],
   "note": "Exact condition on the light level, both directions."
  },
  {
   "property": "C147",
   "status": "proved",
   "theorems": [
    "Verif.Props.C147_sum_mapm",
    "Verif.Props.C147_sum_gentile",
    "Verif.Props.C147_order"
   ],
   "note": "Both fitters, sum and order."
  },
  {
   "property": "C148",
   "status": "proved",
   "theorems": [
    "Verif.Props.C148_shows",
    "Verif.Props.C148_no_pixel",
    "Verif.Props.C148_agrees"
   ],
   "note": "C148_shows (content and title), C148_agrees (with plot_spe on the file), C148_no_pixel (IndexError)"
  },
  {
   "property": "C149",
   "status": "partial",
   "theorems": [
    "Verif.Props.C149_search",
    "Verif.Props.C149_no_exceptions",
    "Verif.Props.C149_partial",
    "Verif.Props.C149_false",
    "Verif.Props.C149_unreadable",
    "Verif.Props.C149_extract"
   ],
   "note": "False: an empty file raises IndexError, other files with fewer than four bytes of content struct.error (C149_false). C149_partial gives the outcome for every readable content; search over every class hierarchy (C149_search, agreeing with C04: C149_no_exceptions); missing and corrupt files (C149_unreadable); extract_dl1 stops with AttributeError at an unknown file (C149_extract)."
  },
  {
   "property": "C150",
   "status": "partial",
   "theorems": [
    "Verif.Props.C150_unreadable",
    "Verif.Props.C150_replace",
    "Verif.Props.C150_false",
    "Verif.Props.C150_exactly_partial"
   ],
   "note": "False of merging (C150_false): the masks are assigned one after the other. C150_exactly_partial says exactly when a failing merge leaves them; loading without merging and files of a wrong size do leave them."
  },
  {
   "property": "C151",
   "status": "partial",
   "theorems": [
    "Verif.Props.C151_progress",
    "Verif.Props.C151_converges_partial",
    "Verif.Props.C151_false"
   ],
   "note": "False as stated: the default limit on the passes, the number of samples, can be too small (C151_false, with exact least squares and without ties). C151_converges_partial: 2^n passes are enough for n positions; C151_progress: every pass that is made improves the fit strictly."
  },
  {
   "property": "C152",
   "status": "proved",
   "theorems": [
    "Verif.Props.C152_extracted",
    "Verif.Props.C152_shipped",
    "Verif.Props.C152_file"
   ],
   "note": "Whole pipeline; C152_extracted and C152_file hold for every reducer that follows the gain, C152_shipped shows it for AverageWF, Saturation and Common (variances in place of standard deviations, so the square of the gain); exact rational samples."
  },
  {
   "property": "C153",
   "status": "partial",
   "theorems": [
    "Verif.Props.C153_calls",
    "Verif.Props.C153_partial",
    "Verif.Props.C153_outside",
    "Verif.Props.C153_false"
   ],
   "note": "False as stated: the table of a call that reports completion has one dimension (C153_false). Proved: all other tables have the promised shape and entries (C153_partial), and the full result of every history of calls (C153_calls)."
  },
  {
   "property": "C154",
   "status": "partial",
   "theorems": [
    "Verif.Props.C154_partial",
    "Verif.Props.C154_taken",
    "Verif.Props.C154_finished",
    "Verif.Props.C154_false"
   ],
   "note": "False as stated: the latest table is the memory of the matcher (C154_false, C154_taken, C154_finished). Proved: after two further tables a write has no effect (C154_partial)."
  },
  {
   "property": "C155",
   "status": "proved",
   "theorems": [
    "Verif.Props.C155_default_run",
    "Verif.Props.C155_no_pulse",
    "Verif.Props.C155_no_path"
   ],
   "note": "no exception, columns and values of the file for every run with the built-in configuration; failure without a pulse"
  },
  {
   "property": "C156",
   "status": "proved",
   "theorems": [
    "Verif.Props.C156_charges",
    "Verif.Props.C156_missing",
    "Verif.Props.C156_fits",
    "Verif.Props.C156_finishes",
    "Verif.Props.C156_refused",
    "Verif.Props.C156_unreadable",
    "Verif.Props.C156_default_run"
   ],
   "note": "the reading of the column, the fits, the exact condition for success, a missing column, and the charges of a default run"
  },
  {
   "property": "C157",
   "status": "proved",
   "theorems": [
    "Verif.Props.C157_configured_run",
    "Verif.Props.C157_no_pulse"
   ],
   "note": "C157_configured_run for every request a file can make (C155 is its instance for the built-in table); C157_no_pulse for the missing reference pulse"
  },
  {
   "property": "C158",
   "status": "partial",
   "theorems": [
    "Verif.Props.C158_partial",
    "Verif.Props.C158_start",
    "Verif.Props.C158_false"
   ],
   "note": "false as stated (C158_false: after both passes a flag has no effect); proved: 255 or the value of the moment in every later table, 255 at completion if flagged before the second pass and no call fails"
  },
  {
   "property": "C159",
   "status": "partial",
   "theorems": [
    "Verif.Props.C159_partial",
    "Verif.Props.C159_uncovered",
    "Verif.Props.C159_sizes",
    "Verif.Props.C159_full",
    "Verif.Props.C159_exactly_partial",
    "Verif.Props.C159_initial",
    "Verif.Props.C159_false"
   ],
   "note": "false with cells of no pixel outside the corners, which count as 0 (C159_false, C159_uncovered); holds for exactly the grids without such cells (C159_partial, C159_exactly_partial), the full camera among them (C159_full)"
  },
  {
   "property": "C160",
   "status": "proved",
   "theorems": [
    "Verif.Props.C160_curves",
    "Verif.Props.C160_missing"
   ],
   "note": "For every file made by extract_dl1, every column of numbers and every pixel number; missing columns are a KeyError."
  },
  {
   "property": "C161",
   "status": "partial",
   "theorems": [
    "Verif.Props.C161_partial",
    "Verif.Props.C161_family",
    "Verif.Props.C161_false",
    "Verif.Props.C161_values"
   ],
   "note": "False as stated: the font of talk=True stays for all later figures. Proved: every other setting is the one of a new session, and the exact rule for the font."
  },
  {
   "property": "C162",
   "status": "partial",
   "theorems": [
    "Verif.Props.C162_left",
    "Verif.Props.C162_partial",
    "Verif.Props.C162_false",
    "Verif.Props.C162_callers",
    "Verif.Props.C162_spectrum_closes",
    "Verif.Props.C162_arguments"
   ],
   "note": "False as stated: three classes leave a figure open. Proved: the other classes leave none, the exact number left in general, and that figures of the caller stay open unless used."
  },
  {
   "property": "C163",
   "status": "proved",
   "theorems": [
    "Verif.Props.C163_between",
    "Verif.Props.C163_measured",
    "Verif.Props.C163_size_needed",
    "Verif.Props.C163_self",
    "Verif.Props.C163_round_trip",
    "Verif.Props.C163_shipped"
   ],
   "note": "Holds for every table with missing cells, and for the shipped sheet as written"
  },
  {
   "property": "C164",
   "status": "proved",
   "theorems": [
    "Verif.Props.C164_program"
   ],
   "note": "Both runs are extracted and the rows scale column by column; t_cc for matches inside the readout"
  },
  {
   "property": "C165",
   "status": "proved",
   "theorems": [
    "Verif.Props.C165_pixel_tables",
    "Verif.Props.C165_camera_tables",
    "Verif.Props.C165_poisson_floor",
    "Verif.Props.C165_missing"
   ],
   "note": "tables of pixels and camera, any two sessions with the same charges; NaN excluded, C165_missing shows why"
  },
  {
   "property": "C166",
   "status": "partial",
   "theorems": [
    "Verif.Props.C166_events",
    "Verif.Props.C166_partial",
    "Verif.Props.C166_baseline_partial",
    "Verif.Props.C166_false"
   ],
   "note": "false below 50 events (C166_false); C166_partial for at least 50, C166_baseline_partial gives the difference of the subtracted baselines below"
  },
  {
   "property": "C167",
   "status": "proved",
   "theorems": [
    "Verif.Props.C167_program",
    "Verif.Props.C167_correction"
   ],
   "note": "C167_program for the whole file with the chain of the program; C167_correction shows the condition on the time corrections is needed for data"
  },
  {
   "property": "C168",
   "status": "proved",
   "theorems": [
    "Verif.Props.C168_program"
   ],
   "note": "C168_program for the whole file with the chain of the program"
  },
  {
   "property": "C169",
   "status": "proved",
   "theorems": [
    "Verif.Props.C169_program",
    "Verif.Props.C169_later",
    "Verif.Props.C169_early"
   ],
   "note": "C169_program for the whole file with the chain of the program; C169_early shows that the exception for the first events is real"
  },
  {
   "property": "C170",
   "status": "proved",
   "theorems": [
    "Verif.Props.C170_fit",
    "Verif.Props.C170_pixel",
    "Verif.Props.C170_file",
    "Verif.Props.C170_plots"
   ],
   "note": "Proved for the fit (`C170_fit`), the entries of a pixel (`C170_pixel`), the whole file (`C170_file`) and the plots made from DL1 files (`C170_plots`)."
  },
  {
   "property": "C171",
   "status": "partial",
   "theorems": [
    "Verif.Props.C171_plot_partial",
    "Verif.Props.C171_default",
    "Verif.Props.C171_outside",
    "Verif.Props.C171_columns",
    "Verif.Props.C171_dot",
    "Verif.Props.C171_figures",
    "Verif.Props.C171_false"
   ],
   "note": "False as stated: the dot is below the tip by the mean of the first ten samples and all figures are closed (`C171_false`, `C171_figures`), and a configured time outside of the readout fails (`C171_outside`). Proved: the panels, their pixels and values (`C171_plot_partial`) for exactly the times inside, which the default times are (`C171_default`), the columns (`C171_columns`) and the height of the dot (`C171_dot`)."
  },
  {
   "property": "C172",
   "status": "proved",
   "theorems": [
    "Verif.Props.C172_units",
    "Verif.Props.C172_any_memory",
    "Verif.Props.C172_default"
   ],
   "note": "all events, settings, gains and pedestals"
  },
  {
   "property": "C173",
   "status": "partial",
   "theorems": [
    "Verif.Props.C173_false",
    "Verif.Props.C173_tolerance_partial",
    "Verif.Props.C173_exactly_partial",
    "Verif.Props.C173_zero_tolerance",
    "Verif.Props.C173_lost"
   ],
   "note": "false as stated: C173_false; the law with the tolerance divided by the gain and the exact condition are proved; the least-squares solver is assumed proportional to the waveform"
  },
  {
   "property": "C174",
   "status": "proved",
   "theorems": [
    "Verif.Props.C174_light",
    "Verif.Props.C174_order",
    "Verif.Props.C174_units",
    "Verif.Props.C174_superpixel",
    "Verif.Props.C174_numbers"
   ],
   "note": "light and units for every state and any camera, exceptions included; superpixel and numbering for cameras of 512 superpixels and files with events"
  },
  {
   "property": "C175",
   "status": "proved",
   "theorems": [
    "Verif.Props.C175_resolution",
    "Verif.Props.C175_simulated",
    "Verif.Props.C175_statistics"
   ],
   "note": "Entries of the second session up to order; with another zero every measured charge is a number."
  },
  {
   "property": "C176",
   "status": "proved",
   "theorems": [
    "Verif.Props.C176_linear",
    "Verif.Props.C176_gain",
    "Verif.Props.C176_between",
    "Verif.Props.C176_charge",
    "Verif.Props.C176_shipped"
   ],
   "note": "For calls that give a result; when the correction raises is the subject of C45."
  },
  {
   "property": "C177",
   "status": "partial",
   "theorems": [
    "Verif.Props.C177_name",
    "Verif.Props.C177_submodules_fail",
    "Verif.Props.C177_false",
    "Verif.Props.C177_star_false",
    "Verif.Props.C177_star_partial",
    "Verif.Props.C177_fitters_partial",
    "Verif.Props.C177_full_partial",
    "Verif.Props.C177_classes_partial",
    "Verif.Props.C177_copies_false",
    "Verif.Props.C177_fitters_false",
    "Verif.Props.C177_hijack_false",
    "Verif.Props.C177_others_partial",
    "Verif.Props.C177_new"
   ],
   "note": "False as stated, with negations for each part; proved are what the fitters package keeps, the imports by full name, and where the classes agree."
  },
  {
   "property": "C178",
   "status": "partial",
   "theorems": [
    "Verif.Props.C178_writer_partial",
    "Verif.Props.C178_dl1_partial",
    "Verif.Props.C178_exactly_partial",
    "Verif.Props.C178_failure_partial",
    "Verif.Props.C178_join_partial",
    "Verif.Props.C178_false",
    "Verif.Props.C178_types_false",
    "Verif.Props.C178_single_partial",
    "Verif.Props.C178_tolerance_false"
   ],
   "note": "False as stated, with witnesses; proved for frames that agree in columns and types, with the exact condition for all frames, what is left after a failure, and the rounding to single precision."
  },
  {
   "property": "C179",
   "status": "partial",
   "theorems": [
    "Verif.Props.C179_schedule",
    "Verif.Props.C179_loc_partial",
    "Verif.Props.C179_loc_dl1_partial",
    "Verif.Props.C179_unique_partial",
    "Verif.Props.C179_unique_dl1_partial",
    "Verif.Props.C179_small_partial",
    "Verif.Props.C179_assign_partial",
    "Verif.Props.C179_assign_small_partial",
    "Verif.Props.C179_cookbook_partial",
    "Verif.Props.C179_rows",
    "Verif.Props.C179_false",
    "Verif.Props.C179_sorted_false",
    "Verif.Props.C179_cookbook_false"
   ],
   "note": "Labels are positions exactly as long as one batch is written; rows of a label, assigned columns and the cookbook lookup for every history. False for several batches."
  },
  {
   "property": "C180",
   "status": "proved",
   "theorems": [
    "Verif.Props.C180_superpixels",
    "Verif.Props.C180_modules",
    "Verif.Props.C180_superpixel_grid",
    "Verif.Props.C180_module_grid",
    "Verif.Props.C180_empty",
    "Verif.Props.C180_superpixels_numbered",
    "Verif.Props.C180_modules_numbered",
    "Verif.Props.C180_wide_modules",
    "Verif.Props.C180_numbers"
   ],
   "note": "For cameras of square blocks with gaps up to a seventh of the pixel side (modules); beyond that C180_wide_modules shows the square misses pixels. Positions exact rationals."
  },
  {
   "property": "C181",
   "status": "proved",
   "theorems": [
    "Verif.Props.C181_rows_columns",
    "Verif.Props.C181_events",
    "Verif.Props.C181_pixels"
   ],
   "note": "Positions are exact reals on lines common to all modules; ctapipe and the transformation to the engineering frame are not modelled."
  },
  {
   "property": "C182",
   "status": "proved",
   "theorems": [
    "Verif.Props.C182_squares",
    "Verif.Props.C182_grid",
    "Verif.Props.C182_other_mapping",
    "Verif.Props.C182_no_size",
    "Verif.Props.C182_complete"
   ],
   "note": "From the raw events to the drawn squares and cells."
  },
  {
   "property": "C183",
   "status": "proved",
   "theorems": [
    "Verif.Props.C183_subset",
    "Verif.Props.C183_modules",
    "Verif.Props.C183_extremes",
    "Verif.Props.C183_deviations",
    "Verif.Props.C183_total_mean",
    "Verif.Props.C183_total_spread",
    "Verif.Props.C183_first_pixel"
   ],
   "note": "Exact numbers; square roots are not taken."
  },
  {
   "property": "C184",
   "status": "partial",
   "theorems": [
    "Verif.Props.C184_curves",
    "Verif.Props.C184_saved",
    "Verif.Props.C184_save_fails",
    "Verif.Props.C184_false",
    "Verif.Props.C184_shown_partial",
    "Verif.Props.C184_shown_exactly_partial",
    "Verif.Props.C184_twice",
    "Verif.Props.C184_legend",
    "Verif.Props.C184_early_legend",
    "Verif.Props.C184_lengths"
   ],
   "note": "False for windows: show does not call finish. Proved for saved files and for windows shown after finish."
  },
  {
   "property": "C185",
   "status": "partial",
   "theorems": [
    "Verif.Props.C185_partial",
    "Verif.Props.C185_table_partial",
    "Verif.Props.C185_no_events",
    "Verif.Props.C185_false"
   ],
   "note": "false of files beyond 8 GB (C185_false); holds up to 8 GB"
  },
  {
   "property": "C186",
   "status": "proved",
   "theorems": [
    "Verif.Props.C186_squares",
    "Verif.Props.C186_grid",
    "Verif.Props.C186_arrows",
    "Verif.Props.C186_images",
    "Verif.Props.C186_short",
    "Verif.Props.C186_other_camera",
    "Verif.Props.C186_unknown",
    "Verif.Props.C186_pattern"
   ],
   "note": "every raw file, camera configuration and limit on the number of events"
  },
  {
   "property": "C187",
   "status": "partial",
   "theorems": [
    "Verif.Props.C187_fixed",
    "Verif.Props.C187_general",
    "Verif.Props.C187_exponent",
    "Verif.Props.C187_ties",
    "Verif.Props.C187_histogram",
    "Verif.Props.C187_levels_partial",
    "Verif.Props.C187_table_partial",
    "Verif.Props.C187_false",
    "Verif.Props.C187_no_initial"
   ],
   "note": "fitted values and errors are only given to a thousandth, so a small error is shown as zero; initial values, means and standard deviations to three significant digits"
  },
  {
   "property": "C188",
   "status": "proved",
   "theorems": [
    "Verif.Props.C188_same_squares"
   ],
   "note": "images of the raw file, of the DL1 file and of the camera version have the same squares"
  },
  {
   "property": "C189",
   "status": "proved",
   "theorems": [
    "Verif.Props.C189_serials",
    "Verif.Props.C189_calibrated",
    "Verif.Props.C189_twice"
   ],
   "note": "serial numbers in the order of the slots; every event read is calibrated with them; a file that is calibrated already is calibrated again (C189_twice)"
  },
  {
   "property": "C190",
   "status": "partial",
   "theorems": [
    "Verif.Props.C190_header",
    "Verif.Props.C190_false",
    "Verif.Props.C190_partial",
    "Verif.Props.C190_lines",
    "Verif.Props.C190_no_index",
    "Verif.Props.C190_both",
    "Verif.Props.C190_program",
    "Verif.Props.C190_peak_false"
   ],
   "note": "False: the readers have neither current_tack nor index, so the program stops at the first event of every file (C190_false), and the printed peak is the mean of all samples (C190_peak_false). Proved: the first lines (C190_header), a file without events (C190_partial), and for readers that have both names all lines of the program (C190_lines, C190_no_index, C190_both, C190_program)."
  }
 ]
}