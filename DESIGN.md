# Formal model of CHECLabPy in Lean 4 — design

## What is trusted

* Lean 4.33.0's kernel and the Mathlib modules imported one at a time.
* Axioms: only `propext`, `Classical.choice`, `Quot.sound` (the standard three). No own axioms,
  no `sorry`, no `native_decide`, no `bv_decide`.
* The correspondence between the Python text in `/repo` and the Lean definitions, which is by reading:
  each definition cites file and lines and states its simplifications.
* The assumed semantics of the external libraries listed below.

## What is modelled and what is not

Modelled: the Python logic of CHECLabPy itself (index arithmetic, dictionaries, state machines, buffering,
sorting, decision logic, numerical formulas).

Not modelled (parameters or assumptions, always named in the docstring of the definition that uses them):

* **Floating point.** Numbers are exact rationals (`Rat`), or reals where `exp`, `log`, `sqrt`, `Gamma` occur.
  Exception: C06 models IEEE double rounding of the one product in question.
* **pandas / PyTables.** A store is a finite map from keys to (format, rows, attributes). `store[key] = df` creates a
  fixed-format node and drops old attributes; `store.append` extends a table-format node, does nothing for an empty
  frame, fails on a fixed-format node; `select(start, stop)` is row slicing; `groupby` sorts by key.
  `pd.concat` fills missing columns with NaN and converts to a common type, `store.append` raises ValueError for other columns or types than those of the
  table, `to_numeric(downcast='float')` rounds to single precision, always or within a tolerance (C178).
* **numpy.** Slicing follows Python's slice rules, `argmax` is the first maximum, boolean/`repeat`/`reshape` are
  row-major.
* **scipy.ndimage.correlate1d** (constant mode): `out[l] = sum_j w[j] * in[l - origin + j - len(w)//2]`.
* **numba**: same semantics as Python; division by zero raises ZeroDivisionError; arrays are not bounds checked, a read
  one past the end of a row gives the first element of the next row, an arbitrary value after the last.
* **ctapipe** `sum_samples_around_peak(row, p, w, 0)` is the sum of the existing ones of the samples `p .. p+w-1`;
  `neighbor_average_waveform` is an arbitrary function of the event.
* **np.linalg.lstsq**: one number per column, otherwise arbitrary (C57, C58, C79); the normal equations for C80.
* TargetIO, ctapipe, iminuit, matplotlib, lstsq, gunzip, astropy: opaque functions given as parameters.
* **Python's import system** (C177): `load_module` executes into an existing module of the name and overrides `__name__`, `__file__`, `__spec__`;
  `from package import x` falls back to importing `package.__name__ + '.' + x`. Execution of a module binds its names and makes new classes.
* Memory sizes of data frames: an arbitrary function (so results hold for every flush schedule).
* Process scheduling: an arbitrary permutation of completions.

## Layout

* `Verif/Py/*` – Python and numpy primitives (slices, dictionaries, argmax, formatting).
* `Verif/Model/*` – the model of the code, file by file.
* `Verif/Spec/*` – small specifications independent of the model (only where plain Lean/Mathlib words do not suffice).
* `Verif/Lemmas/*` – helper lemmas.
* `Verif/Props/*` – the property theorems with an `example` next to each showing its hypotheses are met.

## Properties: model and proof method

| id | model | proof |
|----|-------|-------|
| C01 | `__getitem__` on Int, `_get_event` a parameter on Nat | case analysis, equality with a spec |
| C02 | CPython's slice index adjustment, range, list branch | equality with the independent definition of a Python list slice (arithmetic progression membership) |
| C03 | generator as list over range, `max_events` truthiness | induction on n |
| C04 | `child_subclasses` order + first match | induction on the candidate list |
| C05 | byte lists, gunzip and FITS-header lookup as parameters | arithmetic on bytes (omega) |
| C06 | IEEE round-to-nearest-even of a natural number product | divisibility: s*10^9 = (s*5^9)*2^9 |
| C07 | dictionaries built by nested loops, zero-padded decimal keys | injectivity of the key formats, induction over loops |
| C08 | numpy fancy assignment and lookup | last-writer-wins induction |
| C09 | class hierarchy as a well-founded successor function | well-founded induction |
| C10 | dict(zip) lookup | via C09 |
| C11 | association-list dictionaries with override | lookup lemma |
| C12 | chain building and event processing | induction over the reducers |
| C13 | the generator's `default.get(c, True)` | negation with the two columns missing from the table; `_partial` for columns listed |
| C14 | registry as state machine | invariant by induction over definitions |
| C15,C16,C17,C18,C19,C24 | writer state machine (append/write/add_mapping/add_metadata/finish) over an abstract store | invariant by induction over operations, refinement to a log of calls; negations with witnesses for C18, C24; histories that mix `append` and `write` on one table, and the exact condition for closing to fail, in `Props/Hdf5Mixed`; sizes, dictionaries, mapping and opening for every history whose closing succeeds in `Props/Hdf5Closed` |
| C20,C21 | reader open/read/chunks | case analysis, induction |
| C22,C23 | appender as the same machine started on an existing store | refinement; negation with witness for C23 |
| C25,C26,C27 | the extraction loop, per-flush cast and sort, event lookup | composition of C15 with sorting and chunking lemmas |
| C28 | str.replace on character lists | negation with witness, `_partial` when the pattern occurs |
| C29,C30 | ring buffer as function on naturals | invariant by induction over updates; negation for C30 |
| C31,C32 | slices as used in the source | pointwise equality |
| C33,C34 | regex split into digit / non-digit runs, key comparison | total preorder, permutation, digit-value lemmas |
| C35,C36,C37 | lists of booleans, repeat/reshape/any | pointwise |
| C38 | line scanner for the two regular expressions | induction over lines, render/parse round trip |
| C39 | group-by first/mean | induction |
| C40,C41 | add/amalgamate/finish state machine | invariant: group sums equal sums over the log |
| C42 | the update step | induction with algebra |
| C43,C63,C64 | real-analysis definitions over Gamma/exp/log | Mathlib (Gamma, gaussian integral, binomial sums) |
| C44,C45,C46,C71 | rational formulas | algebra; negation for the zero correction of C45 |
| C47-C50, C72 | per-superpixel step and global state machine | invariants by induction; negations for C49, C50 |
| C51,C52 | window arithmetic with Python slices | omega; negation for C52 |
| C53-C56,C68,C74-C77 | correlate, argmax, parabola interpolation, crossing search | ordered-field algebra, induction on loops; negations for C74, C75, C76 |
| C57,C58,C78-C80 | active-set loop with an arbitrary inner solver | loop invariant; convexity for C80; negations for C78, C79 |
| C59,C60 | averages, argmax | pointwise |
| C61,C62,C83,C84 | parameter tables, staleness state machine, configuration files | foldl invariants; negations |
| C65 | workers with private fitters, arbitrary order of writes to the shared dictionaries | history independence, permutation of writes; negation |
| C85,C86 | trapezoid areas, histogram bins | algebra, exactly-one-bin induction |
| C87,C88 | lookup of parameter slots, Poisson likelihood | via C61 and C43 |
| C66 | fancy assignment on a masked grid | last-writer-wins induction |
| C67,C81,C82 | real formulas, table columns, bins | monotonicity of sqrt, exactly-one-bin induction; negations |
| C89 | `np.histogram2d`, first maximum, `np.digitize` over exact reals | bins of lines are strictly increasing, counts as cardinalities; negations |
| C90,C91,C92 | tables as columns, labelled series, group-by | pointwise, sums over rows; negation for C92 |
| C93 | version field of the store, version texts by the pattern of `packaging` (PEP 440, `Model/VersionText`) | via C17 and C20; negation; any history (`Props/FileVersion`) |
| C94,C95 | array subclass with attributes, expressions over arrays | induction over expressions; negation for C95 |
| C96,C97,C98 | running averages over events, range checks, dictionaries mutated per event | sums over events, case analysis, induction; negations for C96, C97 |
| C99,C100,C101,C102 | properties given to matplotlib objects, as state machines | modular arithmetic, induction over calls; negations for C99, C101, C102 |
| C103,C104,C105 | `str.format` with one argument, POSIX paths, files as a dictionary of paths | induction over templates and over lists of inputs; negations for all three |
| C106 | tables as named columns, the plotter as a state machine | invariant over sequences of plots |
| C107,C108 | writer and reader of C01 on the key `mapping`; a TargetCalib mapping as the values of its getters | induction over the calls; negation for C108 |
| C109 | raw files as functions, the calibration of TargetCalib as a parameter | induction over the events, reduction to the matcher of C47 |
| C110,C111 | the two scripts on the file model of C01, the minimiser and the spectra as parameters, any schedule of the worker processes | reduction to C65 and the sessions of C17, C20, C107; negation for C111 |
| C112 | the reader calls on the file model of C15; pandas' rules for the two storage formats | the specification of sessions and C21; negation for tables stored with `write` |
| C113,C114,C115 | the points of the template, the constructor and the merging on exact numbers; the spline is any function | induction over the loops; negations for C113 and C114 |
| C116 | the arguments of ctapipe's class from the mappings of C39 | counting through C39; negation |
| C117 | the trees as the data given to ROOT, the file system as a dictionary | induction over the metadata; negation |
| C118 | labels as positions with characters, groups of columns over the rows of a mapping | extremal rows, order of distinct values |
| C119 | marks as positions from the metadata of the mappings of C39 | composition with C39; negation |
| C120 | points with errors over the bins of C66, relative curves over C67 | sums over groups; negation |
| C121 | constructors of the fifteen shipped reducers as requirements, on the chain of C11 | induction on the order, case analysis |
| C122 | recorded configuration as keyword call | composition with C11; negation for `key` and `name` |
| C123 | sliding windows with an external rule for the time within the window | the search for the largest window of C56 shared by charge and time |
| C124 | three assignments into an image of NaN | case analysis per pixel; negation |
| C125 | decorations of the axes of the modules | minimum of rows and columns; negation for the horizontal grid |
| C126 | paths as lists of components, a disk of directories and files | induction on the path; negation for names without an extension |
| C127 | a list of array events with an event source as parameter | induction over the events; negation for events without the telescope |
| C128 | a column object carrying its attributes from event to event | induction over the sequence of events; negation for failed preparations |
| C129 | the writer of C01 | invariant on the counted bytes; refinement to a list of waiting frames |
| C130 | the baseline subtractor of C29 and C30 | fraction of the pedestal left in closed form; induction over the ring buffer |
| C131 | the reducers of C51–C56 and C60 | permutation of the pixels commutes with every column |
| C132 | the reducers of C51–C56 and C60 | multiplication commutes with every column; variances for standard deviations |
| C133 | the matcher of C47, averages of no events as NaN | induction over the superpixels; the error of int(NaN) |
| C134 | `Timing.interpolate`, `interpolate_peak` with infinities and NaN as values | algebra, for all rationals |
| C135 | `RunningStats` of the cookbook | invariant of the table over the events, for all memory limits |
| C136 | `extract_reference_pulse.py` on top of the averages of C32 | linearity of the area; scaling of every step of the average by a gain |
| C137 | the amplitude matcher of C47 to C50 | invariant of the second pass over all calls; monotone responses |
| C138 | the fitter of C61, C62 and C84 to C86, with a minimiser that may raise | state after every action; negation for failed fits and other ranges |
| C139 | the reducers of C51 to C56, C60 and C73 and the timing of C68 | relation between a waveform and the same waveform delayed, preserved by averages, correlations and loops; negation at the edges |
| C140 | `TimeCalibrator` and `IlluminationProfile` with the tables of the package | a check of the 2048 numbers, then C45 and C44 for all waveforms and images |
| C141–C143 | `DL1Extractor` as a whole: time calibration, baseline, chain, the dictionary and the frame made of it, joined to the writer and reader of DL1 files | induction over the events with the invariant of the ring buffer; two runs side by side |
| C144–C147 | `_minimize_function` over the requests of both fitters after any use | closed form of the likelihood as a sum over the illuminations; positivity of spectra and areas; affine change of variable; reordering of a sum |
| C148 | `main` of `extract_spe` with the option, beside the model of the run and of `plot_spe` | both plots are one function of the pixel's fit; independence of the fit from earlier pixels (C65) |
| C149 | `from_path` with tests that may raise, on the bytes of the file | induction over the candidates; the recognition theorems of C05 |
| C150 | `loadState` gives the masks and the exception | case analysis over the three assignments |
| C151 | misfit falls strictly in each outer pass, so solved-for sets never recur | Pythagoras for least squares, inner-loop induction with a released position, counting of subsets |
| C152 | all stages of the extractor commute with multiplication by a positive number | simulation between the runs with and without gain: states related by scaling of the baseline buffer, same signature of the reducers |
| C153 | the (32, 16) table is a view of the array of next DAC values; the result in full | model with arrays as objects, refinement of the model with values only; partial; an index outside the table is refused (`C153_outside`) |
| C154 | the matcher reads only its two latest arrays | two objects that differ in an unused array behave alike (simulation); partial |
| C155 | composition of the models of reader, time corrections, baseline, chain, the four classes switched on, writer and reader of the file | no exception (totality of every stage), then the values of each stage carried into the file |
| C156 | composition of the models of writer and reader of DL1 files (C25, C107), partial reading (C112), the fits (C110) and the default extraction (C155) | the column read by position against the rows read event by event; success of the script as an equivalence |
| C157 | the chain of C155 with a configuration file in place of the built-in table | the file read as an abstract request (`Sets`): columns, time, window; C155 is the case of the built-in table |
| C158 | the mask of the matcher as the memory of the caller's array | `_false`: after both passes no flag has an effect; what holds: 255 or the value of the moment, and 255 at the end if flagged before the second pass |
| C159 | `ImshowScale`: the cells shown and the limits, by induction over the calls | `_false`: cells of no pixel are shown as 0 and count; what holds: grids whose cells outside the corners all have a pixel (the full camera does), and in general the limits of the image and 0; before the first image all cells are 0 and both limits 0 (`C159_initial`) |
| C160 | `PixelSpectrum`: the rows of the file are the blocks of the events; a selection of one pixel takes one row per block; counts of a histogram that covers its data add up to the data | exact numbers, no rounding; `normed=True` needs matplotlib before 3.1. The default column `charge` is not one that the default chain writes (second example) |
| C161 | `Figures`: every constructor sets the same names to values of its own | `_false`: the font of `talk=True` stays; what holds: every other setting, and the font exactly |
| C162 | `Figures`: invariant over the program: an open figure was left behind or belongs to a plotter still to be closed | `_false`: three classes replace the figure of `Plotter.__init__` without closing it; what holds: the other classes, and the exact number left; which arguments each class refuses (`C162_arguments`) |
| C163 | `Calib`: sorting puts rows without a value last; induction over the rows the search passes | measured values, values between, the queried quantity, round trips; the shipped sheet as written, all four columns |
| C164 | C157 for both runs; the specification of each column scales with the waveforms, first maxima stay where they are | built-in table and configuration files; `t_cc` at the first or last sample reads other memory and is left out |
| C165 | C40 and C41 for both sessions; groups of equal entries are permutations; sum of squares about the mean and about the true charge | `C165_missing`: with NaN charges the two classes disagree, so these are excluded |
| C166 | the extractor starts the same if the first 50 events are the same (C143); prefix of a sequence of extractions; C25 and C26 for both files | `C166_false`: below 50 events the starting baseline is another one; `C166_baseline_partial` says by how much |
| C167 | C157 for both runs; the corrected waveforms, the baselines and the sums over the camera of a renumbered run | `C167_correction`: the time correction belongs to the number |
| C168 | C157 for both runs; corrected waveform, baseline and reducers of one pixel use that pixel's samples and the two sample numbers | equality of the stages for one pixel, stage by stage |
| C169 | C157 for both runs; the rolling baseline of the last fifty corrected events (C29) | `C169_early`: before the fiftieth processed event even a skipped event changes the baseline |
| C170 | the counts of the bins of a permutation are equal and no bin counts a charge outside the range (C86); `C170_plots` from DL1 files with C156 | one more charge within the range changes the fit (example) |
| C171 | `C171_plot_partial`, `C171_columns`, exact condition with `C171_default` and `C171_outside`; `C171_dot` gives the height of the dot | `C171_false`: the dot is lower than the tip by the mean of the first ten samples, and every open figure is closed |
| C172 | `C172_units` (what lies behind a row in the units of the row), `C172_any_memory` (whatever lies behind), `C172_default` (default window) | simulation of the crossing search under affine maps of the samples |
| C173 | `C173_tolerance_partial`, exact condition `C173_exactly_partial`; `C173_zero_tolerance` is the claim for the tolerance 0, `C173_lost` says what is not found | `C173_false`: the tolerance -14.5 is in the units of the samples; one sample of 10 gives no charge, at twice the gain the charge is 140 |
| C174 | `C174_light`, `C174_order`, `C174_units`, `C174_superpixel`, `C174_numbers` | `Model/Matcher`; the update as a function of the means, induction over the passes |
| C175 | `C175_resolution`, `C175_simulated`, `C175_statistics` | `Model/Resolutions`; group sums commute with multiplication |
| C176 | `C176_linear`, `C176_gain`, `C176_between`, `C176_charge`, `C176_shipped` | `Model/Calib`; linearity of the interpolation, sums over the samples |
| C177 | `C177_fitters_partial`, `C177_star_partial`, `C177_full_partial`, `C177_classes_partial`, `C177_new`, `C177_others_partial` | `C177_false`: no module can be imported from `waveform_reducers`, which has the name of its last module (`C177_name`, `C177_submodules_fail`); `C177_star_false`, `C177_copies_false`, `C177_fitters_false`, `C177_hijack_false` |
| C178 | `C178_writer_partial`, `C178_dl1_partial` (frames alike), `C178_exactly_partial` (exactly when everything is stored), `C178_failure_partial`, `C178_join_partial` (joined frames), `C178_single_partial` (rounding) | `C178_false`, `C178_types_false`; `C178_tolerance_false` for pandas that converts within a tolerance |
| C179 | `C179_schedule` (content of a table), `C179_loc_partial`, `C179_loc_dl1_partial`, `C179_unique_partial`, `C179_unique_dl1_partial` (exactly when labels are unique), `C179_small_partial`, `C179_assign_partial`, `C179_assign_small_partial`, `C179_cookbook_partial`, `C179_rows` | `C179_false`, `C179_sorted_false`, `C179_cookbook_false` |
| C180 | `C180_superpixels`, `C180_modules` (squares), `C180_superpixels_numbered`, `C180_modules_numbered`, `C180_superpixel_grid`, `C180_module_grid`, `C180_empty`, `C180_wide_modules` (outside the range of gaps), `C180_numbers` | `Model/GroupImages`; bounds of the squares of the pixels of a group, counting of rows |
| C181 | `C181_rows_columns`, `C181_events` (composition of C89, C08 and C127 for the real geometry), `C181_pixels` | composition; sorted lines of positions are the lines of the camera |
| C182 | `C182_squares`, `C182_grid` (composition of C25, C26, C107 and C66 with the loops of the example), `C182_other_mapping`, `C182_no_size`, `C182_complete` | `Model/Dl1Images`; induction over the events with an invariant of the image |
| C183 | `C183_subset`, `C183_modules`, `C183_extremes`, `C183_deviations`, `C183_total_mean`, `C183_total_spread` (total variance by summing over the groups), `C183_first_pixel` | `Model/ModuleTables`; sums over the groups, ordered-field algebra |
| C184 | `Model/Decorations`: the axes as a state machine | induction over the calls: `C184_curves`, `C184_saved`, `C184_save_fails`, `C184_twice`, `C184_legend`, `C184_early_legend`, `C184_lengths`; `C184_false`: windows are shown without labels; `C184_shown_partial` after `finish`, `C184_shown_exactly_partial` |
| C185 | `Model/FileStatistics` on `Model/Dl1`, `Model/RunningStats`, `Model/ModuleTables` | composition of production (C25), reading (C20, C26) and the running statistics (C135); the modules stored are always 0 to the last: `C185_partial`, `C185_table_partial`, `C185_no_events`; `C185_false`: `MemoryError` beyond 8 GB |
| C186 | `C186_squares`, `C186_grid`, `C186_images` (induction over the events), `C186_short`, `C186_other_camera`, `C186_unknown`, `C186_pattern`, `C186_arrows` | `Model/TioImages` on `Model/Camera`, `Model/TcMapping`, `Model/WaveformReader`; `CameraConfiguration` and TargetIO's reader are parameters |
| C187 | `C187_general`, `C187_histogram`, `C187_exponent`, `C187_fixed`, `C187_ties`, `C187_levels_partial`, `C187_table_partial`, `C187_no_initial`; `C187_false` | `Model/NumberText`; the texts are read by an independent reader of decimal numbers, rounding by `Int.log` and the nearest integer |
| C188 | `C188_same_squares` | composition of C182 and C186: squares are determined by the centres and sides of the mapping, which the DL1 file carries unchanged |
| C189 | `C189_serials`, `C189_calibrated`, `C189_twice` | `Model/FromReader`; induction over the events with C95 for each; TargetCalib's calibrator is a function of the path and the serial numbers |
| C190 | `C190_false`, `C190_partial`, `C190_header`, `C190_lines`, `C190_no_index`, `C190_both`, `C190_program`, `C190_peak_false` | `Model/SimpleLoop`; false: the readers have no `current_tack` and no `index`; induction over the events of each of the four loops for readers that have them |

Properties that are false of the code are kept in full, with the negation proved on a concrete witness and a
`_partial` theorem for the part that holds.

## Findings (properties that are false of the code)

Each is proved on a concrete witness in the model; the partial theorem says what does hold.

* C13 – `generate_dl1_config` writes `True` for the columns missing from the default table (`waveform_max`,
  `flasher_unit`), the chain without a file leaves them off. Exact condition in `C13_partial`.
* C18 – a session that only attaches a named dictionary to a new key closes successfully, but the file cannot be opened
  (`C18_false`).
* C21 – with an average row above 2e9 bytes the default chunk is 0 rows and the iteration never ends
  (`C21_default_diverges`).
* C22 – appending to a fixed-format table, or overwriting `data` in an appender, makes closing raise
  (`C22_fixed_table_fails`, `C22_write_data_fails`).
* C23 – after an appending session the recorded table size is that of the new rows only, so the 8 GB guard is lost
  (`C23_false`, `C23_total_false`). The sizes are right exactly if the tables used were of size zero before
  (`C23_exactly_partial`).
* C24 – overwriting a table while rows for it are still buffered makes closing raise (`C24_false`,
  `C24_append_then_write_fails`). Exactly these histories fail, and those with rows appended after the table was
  overwritten (`C24_exactly_partial`); whenever closing succeeds the last `write` wins (`C24_every_history_partial`).
* C28 – the automatic output path equals the input path for every data file whose name contains neither `_r1` nor `.tio`
  and every simulation file whose name does not contain `.simtel.gz`; opening it for writing then destroys the input
  (`C28_false`, exact condition in `C28_partial`).
* C69 – a data run without processed events gives a file in which every event lookup raises `TypeError`
  (`C69_false_data`); a simulation run without processed events gives a file that cannot be opened
  (`C69_false_simulation`).
* C30 – the initial baseline of a source with fewer than `n_base` events is too small by the factor
  `n_events / n_base`, because unfilled entries are zero (`C30_false`, value in `C30_short`, exact condition in `C30_exactly_partial`). The same offset
  enters `get_average_wf` for runs of fewer than 50 events.
* C33 (outside its quantifier) – a name in which a superscript digit follows a number, such as `Run2²`, has no natural
  key: `isdigit` accepts what `int` refuses, and sorting raises `ValueError` (`C33_superscript_fails`).
* C34 (outside its quantifier) – commit names carry two digits of the year, so the order is lost across a century
  (`C34_century`).
* C70 – an entry without measured charge is counted in `n` but adds nothing to the squared deviation, so the reported
  resolution is too good by the root of the share of measured entries (`C70_false`, value in `C70_partial`, exact condition in `C70_exactly_partial`).
* C45 – timing correction: a zero correction does not leave the waveform unchanged but raises `ZeroDivisionError`
  (`C45_false`, exact condition in `C45_fails_iff`).
* C71 – a query above the range of a data-sheet column with missing cells returns NaN instead of raising (`C71_false`).
* C49 – amplitude matching need not terminate: a strictly decreasing response for which two DAC values are equally far
  from the aim makes the DAC oscillate (`C49_false`), and a superpixel that meets the aim exactly never finishes
  (`C49_exact_false`). For responses without ties completion is proved (`C49_partial`), and for responses that do not
  increase with the DAC value `C49_exactly_partial` says for which ones, from which start, it is reported.
* C50 – flags given per pixel are used as if they were per superpixel, so the wrong superpixels are switched off
  (`C50_false`).
* C72 – the DAC table is reshaped to 32 x 16, so every camera without exactly 512 superpixels fails, after the state has
  been updated (`C72_false`, `C72_partial`).
* C51 (outside its quantifier) – for waveforms of 12 samples with the pulse in one of the last two the start of the window
  is negative, the slice wraps around and every charge is zero (`C51_short`).
* C52 – the chain's configuration entry `t_event`, which only switches off a column of another reducer, is taken by the
  saturation reducer for the time of the pulse: with the default configuration `saturation_sum` is the sum of the last four
  samples, wherever the pulse is (`C52_false`). Without such an entry the tail integral is proved (`C52_partial`).
* C59 (outside its quantifier) – a camera that lacks one of the reference modules reports the missing module as flashing
  (`C59_missing_module`): the average is NaN, which is not below the threshold and is what `np.argmax` returns.
* C53 (outside its quantifier) – the interpolated pulse time of a peak in the first or last sample is not confined to the
  waveform (`C53_edge`).
* C74 – if the largest cross-correlation sample is the last one, the compiled `extract_pulse_time` reads the first sample of
  the next pixel, so the time of a pixel depends on its neighbour in memory (`C74_false`).
* C75 – samples `-7, 1, 1` before the pulse make the timing reducer divide by the difference of two equal samples
  (`C75_false`). `C75_partial`: only this can fail. `C75_exactly_partial`: for which events it fails.
* C76 – the rise time can be negative: the 90 % level may be crossed earlier than the 10 % level if the rounded pulse sample
  is below the 90 % level (`C76_false`). `C76_pulses_partial`: not for a peak whose two neighbours differ by at most 8/9 of
  its height. `C76_exactly_partial`: exactly if the waveform rises through 10 % once more after its last rise through 90 %.
* C78 – pixels without pulses enter the mean pulse time with time 0, so the window misses the pulses of a sparse event
  (`C78_false`). For simultaneous pulses `C78_exactly_partial` says exactly when they are inside the window.
* C79 – an exact zero from least squares for a newly added position gives `0 / 0`, and the solution contains NaN
  (`C79_false`). A pass that begins with numbers leaves NaN if and only if least squares gives zero for a position of amplitude zero while
  another is negative (`C79_pass_partial`), and every NaN in a solution goes back to such a pass (`C79_exactly_partial`). Pulses are still positive because `NaN > 0` is false (`C57_pulses`), and a converged solution is still
  optimal (`C80_optimal`).
* C62 – `load_config` and `update_initial` change the parameter objects, but the keyword arguments of the minimiser were
  copied when the collection was made; configured initial values, limits and flags never reach the fit (`C62_false`,
  `C62_stale`, `C62_stale_initial`).
* C83 – for the same reason the "Initial" column of the result is not what the fit started from (`C83_false`); `C83_exactly_partial` says exactly when it is.
* C64 – from 12 photo-electrons the first term of the SiPM spectrum is below the cut, the loop ends at once and only the
  pedestal is left (`C64_false`); the MAPM spectrum stops at 99 photo-electrons (`C64_false_mapm`); with a crosstalk
  probability of 1, which the limits of the fit allow, only the pedestal is left as well (`C64_all_crosstalk`).
  Within the limit of 6 photo-electrons the fits set themselves it is complete up to a crosstalk probability of one half (`C64_limits_partial`).
* C65 – the rows of the result are in the order in which the workers finish, but `plot_spe` fills the camera image by
  position (`C65_false`); place `k` shows the pixel that arrived as number `k` (`C65_exactly_partial`).
* C81 – `ChargeResolutionPlotter` reads the column `rmse`, which the accumulator does not write (`C81_false`).
* C82 – `bin_points` begins at 0.1, so that charges between 0.001 and 0.1 are silently dropped (`C82_false`); `C82_exactly_partial` gives exactly the charges kept.
* C89 – `get_row_column` uses the number of a full column as the number of a row, and adds the offsets of a row and of a
  column element by element: a complete camera with different numbers of columns and rows raises `ValueError`
  (`C89_false`), and a camera whose first row has a single pixel gets wrong column numbers silently (`C89_silent`).
* C92 – `select_column_as_array(column, start=, stop=)` still reshapes to one row per entry of the whole table, so values of
  different devices land in one column (`C92_false`).
* C93 – an appending session overwrites the version recorded for a file of an older version, after which the warning is gone
  although the old rows are still there (`C93_false`). `C93_every_history_partial` says what the check answers after any
  history of calls in one session.
* C95 – `WaveformCalibrator` sets `.r1`, an attribute nobody reads, so a calibrated event still has `is_r1` false (`C95_false`).
* C96 – `obtain_dead_pixel_list_r1` reads `source.index`, which no reader of the library has (`C96_false`).
* C97 – the range checks of the slow-control getters only look at the upper end; negative numbers are handed to TargetIO
  (`C97_false`).
* C99 – `CameraPixelWaveformPlotter` assumes 6 by 6 modules: every pixel of a single 8 by 8 module is outlined, and cameras
  with fewer than 6 rows or columns raise `ZeroDivisionError` (`C99_false`). The lines lie between modules of `h` by `w` pixels if
  and only if `h` and `w` are a sixth of the rows and columns, rounded down (`C99_exactly_partial`).
* C101 – `highlight_pixels` builds the widths with the element type of the image: on an image of whole numbers the default
  width 0.5 becomes 0 and nothing is highlighted (`C101_false`). `C101_exactly_partial` says for which widths and masks it works.
* C102 – `set_z_log` replaces limits chosen by the caller, and later images do not rescale (`C102_false`).
* C103 – the directory of the run list becomes part of a format string: a directory with braces in its name raises an
  exception or leads to another directory (`C103_false`); exactly the directories without braces work (`C103_braces`).
* C104 – `write_dl1_file` replaces `_r1` and `.tio` everywhere in the path, the run list only has the file name
  (`C104_false`).
* C105 – with `-o` every input is written to the same file and only the last one is left (`C105_false`, `C105_explicit`).
* C108 – `get_tc_mapping_from_clp_mapping` and `DL1Reader.tc_mapping` read items of the dictionary `metadata` as attributes,
  so both always raise `AttributeError` (`C108_false`); the item `version` is not among the metadata either.
* C111 – `n_pixels=charges[0].shape` records the pair (events, pixels) of the first file instead of the number of pixels
  (`C111_false`).
* C112 – tables stored with `HDF5Writer.write` are in fixed format: `get_n_rows` is `None`, `get_column_names` is an
  `AttributeError`, `select_column` and the iterations a `TypeError` (`C112_written`, `C112_false`).
* C113 – the slope of the tail is `-y[-10]/x[10]` instead of over `x[-1]-x[-10]`: with equal steps the template ends at a
  tenth of the tenth last point (`C113_step`, `C113_false`). It ends at zero exactly if the last ten points span the time of the
  eleventh point, or the tenth last point is zero (`C113_exactly_partial`).
* C114 – `int(127+t_end)` adds seconds to a number of ns, so there are always `127*bases_bin` reference pulses; the matrix has 128
  rows whatever `n_samples`, so other waveforms are a `ValueError` (`C114_false`).
* C116 – the documentation says degrees, the code passes metres; superpixel and module mappings keep `n_pixels` of the pixels, so
  the geometry has more identifiers than positions (`C116_coarse`, `C116_false`). It is right for exactly the mappings whose metadata
  count their rows (`C116_exactly_partial`).
* C117 – files with old monitor tables fail (`DeprecatedMonitorReader` has no `load_entire_table`, and `mon` stays `None`); `None` is
  stored as the text "None" (`C117_false`).
* C119 – the entries in units of pixels (`fOTUpCol_l`, ...) are copied unchanged into coarse mappings, so on an imshow image of
  superpixels or modules the arrow lies outside its place (`C119_false`); the flashers are placed two *cells* from the arrow, so they move
  with the size of the cells (`C119_led_moves`).
* C120 – the plot relative to the requirement divides values but not error bars by the requirement (`C120_false`).
* C122 – a configuration entry `name` (or `self`) makes the recording fail after all events were processed (TypeError, two values for one argument);
  an entry `key` redirects the record to the metadata of another table and is itself lost (`C122_false`).
* C124 – a pixel with bad high voltage has the same colour whether or not it is dead (`C124_false`).
* C125 – the horizontal grid lines are drawn at the ticks of the time axis (`C125_false`).
* C126 – a file name without an extension: the figure goes to `name.png` while the message names `name` (`C126_false`). matplotlib's rule for such names and
  PyPDF2 are trusted; `savefig` of a known format to a path in an existing directory succeeds.
* C127 – an event that the telescope of the reader did not record raises `TypeError` and ends a loop over the reader, although `len` counts it (`C127_false`). The loop reaches the end for
  exactly the files all of whose events the telescope recorded (`C127_exactly_partial`).
* C128 – the attributes set by `_prepare` stay on the column object: after an event whose preparation failed `SPAmplitude` returns the columns of the event before
  (`C128_false`). `C128_stale_partial` says for every history of events which attributes and which waveforms the columns are calculated from.
* C129 – the bound on memory holds for histories without exceptions: appending to a table that was written as a whole raises at every further append while the frames
  keep growing (second example in `Props/WriterBuffer.lean`).
* C130 – a run of fewer than 50 events keeps the part 1 − n/50 of every pedestal in the average waveforms (`C130_left`).
* C133 – a run without events gives NaN averages; `int(NaN)` raises ValueError before any DAC value is stored. Storing NaN in an integer array raises ValueError in numpy; this is part of the trusted base.
* C134 – two points at one position with equal values give NaN rather than the first value (0/0 is not infinite). The arithmetic of infinities and NaN of numpy is modelled by `Flt`.
* C135 – false as stated: the columns of pandas are aligned by the row number instead of the module, so that they are wrong once a module has no data (`C135_false`), and a missing charge is counted in `n` (`C135_gaps`). `C135_partial`: all modules have data, no charge is missing; without missing charges the means are beside each other for exactly the runs with data of modules 0 to some module (`C135_exactly_partial`).
* C136 – the text of the file (six digits) is not modelled. In waveforms of at most 60 samples the peak is shifted out; the file then holds the rising edge only.
* C137 – false as stated: a superpixel whose amplitude stays below the aim even at DAC 10 leaves the range at the lower end and is set to 255, the allowed value furthest from the aim (`C137_false`, `C137_dim`). `C137_partial` covers all superpixels that reach the aim at DAC 10; together with `C137_dim` the result is determined for every non-increasing response. The first pass may end far from the best value (a step of 10 from 250 ends the search at 255); the second pass repairs this.
* C138 – false as stated: a fit the minimiser gives up (it is told to raise on NaN) leaves the new histogram with the values of the previous fit (`C138_false`, `C138_failed`), and after loading another range the curve spans the new range while the histogram has the old one (`C138_loaded`). After a fit stopped by a decreasing range there is no histogram left and the curve raises `IndexError` (`C138_bad_range`). `C138_partial` holds after every completed fit, whatever happened before, and `C138_kept` for all actions that leave range and bins alone. A range without width is widened by `np.histogram` by half a unit on both sides; the curve is then a single point.
* C139 – false as stated: `AverageWF` keeps its default time ten samples away from the edges, so a pulse in the first ten samples is not summed (`C139_false`); the times of the cross correlation at the common peak fall back to the sample of the peak once the vertex of a pixel's parabola leaves the readout (`C139_times_false`); `np.round` rounds halves to even samples, so a pulse with two equal largest samples can raise `ZeroDivisionError` at one position and have a width at the next (`C139_rounding_false`: the samples 1, 9, 9, 2). With quiet samples on both sides – ten for the default times, twenty for the baselines, one more than the reference pulse or window – the claim holds for every delay (`C139_average_partial`, `C139_saturation_partial`, `C139_common_partial`, `C139_superpixel_partial`, `C139_sliding_partial`, `C139_cross_correlation_partial`, `C139_cross_correlation_local_partial`, `C139_timing_partial`, `C139_timing_event_partial`).
* C140 – all 2048 time corrections are at least 0.0007 samples away from a whole number, so the division by zero of C45 does not occur with the shipped table. Numba's refusal of arrays of other types than the two compiled ones is trusted; extracting a raw (R0) file therefore ends with `TypeError` at the first event.
* C143 – false. `BaselineSubtractor` fills its buffer with the first 50 events of the reader, stale events and events with missing packets included, and slot `j` keeps that content until the processed event number `j` overwrites it. The samples of a skipped event with index `j < 50` therefore enter the baseline of the processed events before number `j` (`C143_false`: a stale event of 500 mV after the first one moves the baseline of the first by 10 mV). From the fiftieth processed event on nothing of a skipped event is left (`C143_partial`).
* C141 – the extractor builds its dictionary with `dict(iev=…, **chain)`: a reducer column of one of those names is a `TypeError` at the first event. `mc_true` is set afterwards and silently replaces a column of that name.
* C144 – parameter limits include zero for `eped_sigma` and `lambda_`; there `normal_pdf` divides by zero and `poisson` takes the logarithm of zero inside compiled code with `fastmath`, which is not modelled. A fit with one bin gives the minimiser nothing but infinity.
* C145 – a range without width is excepted: `np.histogram` widens it by half a unit, whatever the unit.
* C146 – the SiPM loop stops at the first weight below 1e-4 even before the maximum, as its own sum leaves out small terms; at light levels below 1e-4 it has no peaks at all.
* C148 – `plot_spe` looks the pixel up by label, so that numbers below zero raise `KeyError` there while the plot mode accepts them. With input files of different numbers of pixels such a number stands for different pixels of the files.
* C149 – `from_path` raises `IndexError` for an empty file (and for the single byte 1f) and `struct.error` for every other file with fewer than four bytes of content, where `None` is expected (`C149_false`). `C149_partial` gives the outcome for every content. The `None` for an unknown file makes `extract_dl1` end with `AttributeError` (`C149_extract`).
* C150 – a merge assigns the three masks one after the other, so a merge that fails at `low` or `bad_hv` (sizes that numpy cannot combine) has already changed `dead` (`C150_false`); loading without merging does leave the masks (`C150_replace`). `C150_exactly_partial`: the masks are unchanged exactly if the failure came first or the flags merged before it were all known.
* C151 – the default limit is the number of samples, and the active-set method can need more passes, because a pass may drop positions again: with pulses (1000, 2000), (100, 10), (10, -1) and the waveform (1, 0) it stops after two passes with misfit 1/101 although the second and third pulse fit exactly (`C151_false`). `C151_converges_partial`: without ties (see C79) `2 ^ n` passes always suffice, and each pass fits strictly better than the one before (`C151_progress`).
* C153 – when both passes are finished `process` returns `current_dac` itself, of one dimension, so that `table[module, superpixel]` raises `IndexError` for exactly these calls (`C153_partial`, `C153_false`). `C153_calls` gives all three values of every call.
* C154 – the table returned is a view of `current_dac` and of the later `previous_dac`: what the caller writes into the latest table is taken for the value set (`C154_taken`), and a finished matcher returns it from then on (`C154_finished`). Two tables later it has no effect any more (`C154_partial`).
* C155 – holds as stated. The chain has the four classes of the built-in table with their code; the other eleven are arbitrary, so that only their columns matter.
* C156 – holds as stated for columns of numbers. NaN in a charge column, which `np.histogram` leaves out, is not modelled.
* C157 – holds as stated. One entry `window_shift` moves the windows of `AverageWF` and `Saturation` (and of others) alike although their defaults differ; a window that would start before the waveform wraps around (`C51_short`) and is outside the claim, as are the entries `n_pixels`, `n_samples`, `cls`, `self`, `name` and `key` (C121, C122).
* C158 – false as stated: the array is shared (`ravel` is a view), but a superpixel that is finished is skipped before its flag is looked at (lines 106-112), so it keeps its value until the second pass, and after the second pass forever. `C158_partial` has what is left of it; a flag set before the first call acts as one set from the start (`C158_start`). Trusted: the array of the caller is contiguous (else `ravel` copies and no later flag has any effect).
* C159 – false as stated: `CameraImageImshow` fills cells without a pixel with 0 unless they are in a masked corner (lines 391-392), and `autoscale` counts them. An image of charges from 900 to 1000 of a camera with one module missing is coloured from 0 to 1000. `C159_partial` has the grids without such cells, `C159_full` that the full camera has none, `C159_uncovered` what happens otherwise.
* C161 – false as stated: `talk_rc` has `font.family` (`plotting/setup.py:62`), which `rc` lacks, so every figure made after one for a talk has its font. `C161_partial` has all other settings, `C161_family` the font exactly, `C161_values` the values that differ between the classes.
* C162 – false as stated: `CameraTMWaveformPlotter`, `CameraPixelWaveformPlotter` and `SPECamera` call `plt.figure` after `super().__init__()` made a figure and never close that one; `plot_spe` makes one `SPECamera` per parameter. `C162_left` has the exact number of figures left, `C162_partial` the other classes. A `SpectrumFitPlotter` given axes closes their figure and does not draw into them (`C162_spectrum_closes`).
* C163 – holds. With five or more rows and fewer than three measured values the search of `np.interp` compares with a NaN and ends in a row without a value (`C163_size_needed`): the second of two measured values is answered NaN, or with the cell of another row.
* C164 – holds; the time of the correlation is compared only for a match inside the readout, because at its last sample `extract_pulse_time` reads the sample behind the waveform.
* C165 – holds without NaN; a NaN charge counts as exact in `ChargeResolution` and as charge 0 in `ChargeStatistics` (`C165_missing`, see also C70).
* C166 – **false** for `N < 50`: the starting baseline is the sum over the events which are read, divided by 50 in any case, so the first event alone is extracted with another baseline than in the whole run (`C166_false`). It holds for `N ≥ 50`; below, the subtracted baselines differ by the eight hundredth part of the first samples of the events left out (`C166_baseline_partial`).
* C167 – the time corrections are a table by pixel number (`TimeCalibrator`), so that the claim has a condition for data; `C167_correction` shows that with the shipped table it is needed.
* C169 – the buffer of the baseline starts with the first fifty recorded events, stale ones and such with missing packets included (C30); `C169_early` shows that an event which is skipped changes the rows of one before it.
* C170 – the numbers of events of the first file are recorded, so `C170_file` asks for equal numbers of events; `C170_fit`, `C170_pixel` and `C170_plots` do not.
* C171 – `plt.close("all")` (`waveform_reducers/timing.py:251`) closes the figures of the user; the dot is drawn at the height above the start of the waveform, the waveform itself without subtracting it; a configured `t_extract` outside of the readout lets the plot fail with `IndexError` after the columns were extracted.
* C173 – the tolerance -14.5 of the unfolding (`waveform_reducers/nnls_pulse_extraction.py:43`) is an absolute number although `nnls` compares it with products of samples and template: the same pulses are found or missed depending on the units of the samples (ADC counts or mV).
* C177 – `waveform_reducers/__init__.py:21` tests the name of the module (`name`) for two underscores where the name of the member (`key`) is meant, so the package takes over `__name__`, `__file__` and `__spec__` of its last module `timing`. `from CHECLabPy.waveform_reducers import average_wf` raises ImportError until that module was imported by its full name, and `from CHECLabPy.waveform_reducers import *` renames the importing module (`__name__ == '__main__'` is false from then on). Both packages load their modules under bare names: an import by full name makes second classes, a module of the user called `common`, `timing`, `tests`, ... that was imported before is overwritten. `spectrum_fitters` also loads its tests, which import the fitters by full name, so `CHECLabPy.spectrum_fitters.SiPMGentileFitter` is not the class the factory makes.
* C178 – frames that differ in columns or types are joined (missing values become NaN, integers become floating point numbers) if they are in memory together, but `HDFStore.append` raises ValueError if the table was started without them (`core/io/hdf5_writer.py:67-76`); the frames stay in memory, so `finish` raises again, before metadata are saved and the store is closed. `pd.to_numeric(..., downcast='float')` (`scripts/extract_dl1.py:18-21`) converts a column unconditionally in pandas before 1.4; later versions only if no value changes by more than a tolerance, so whether a column of a DL1 file is of single precision depends on the values of the first 0.5 GB, and a later part that differs ends the extraction.
* C179 – `pd.concat(…, ignore_index=True)` (`core/io/hdf5_writer.py:68`) numbers the rows of each batch from 0, and `store.append` stores these labels. In a table written in several batches (more than 0.5 GB) labels repeat: `df.loc[i]` gives a row of each batch, and a column from `select_column` (whose labels are positions) put into the frame gives rows of later batches the values of rows of the first. `DL1Writer` sorts after numbering, so labels are the order of arrival. The lookup in `examples/pandas_cookbook.py:120` is right for files of whole events, where each module is in the first batch.
* C180 – the square of a module has eight times the side of a pixel. With gaps between pixels wider than a seventh of the pixel side it no longer reaches the outer pixels of the module (`C180_wide_modules`). The index of a value is the place of its superpixel among those present, so an image indexed by superpixel number is wrong for a mapping with some superpixels missing (`C180_numbers`).
* C184 – only `Plotter.save` calls `finish`; `Plotter.show` shows the figure without the labels of the axes, the title, the
  logarithmic scales and the legend. The plot mode of `extract_spe` (`scripts/extract_spe.py:135-144`) therefore shows the fitted spectra without a
  legend. What holds is `C184_shown_partial` (after a call of `finish`) and `C184_saved`.
* C185 – `get_running_mean` is meant for files that do not fit into memory (`examples/pandas_cookbook.py:131-134`), but loads the
  entire table before printing (line 187): beyond 8 GB this raises `MemoryError` and the statistics are lost. What holds is `C185_partial`.
* C187 – values and errors are written with three decimals (`plotting/spe.py:16,28-30`): an error of 0.0004 is shown as 0.000, like none at
  all (`C187_false`). Initial values, means and standard deviations have three significant digits (`C187_general`).
* C189 – `WaveformCalibrator` does not look at the level of the file: a file that is calibrated already is calibrated once more, without an exception
  (`C189_twice`).
* C190 – `examples/simple_r0r1_loop.py` asks the reader for `current_tack` and `index`, which no reader has: for every file with events it stops with
  `AttributeError` before the first event's line (`C190_false`). What it calls the peak is the mean of all samples of all pixels (`C190_lines`), which does
  not depend on the order of the samples (`C190_peak_false`). In the loop over two files the times of both count from
  the first event of the second file, and `R` is followed by the number of the event (`C190_both`). The number of events and `ERROR` for another number are right
  (`C190_header`).
