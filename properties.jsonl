{"id": "C01", "title": "Integer event indexing follows Python sequence rules", "statement": "For a waveform reader with n events, reader[i] returns event i for 0 <= i < n, event n+i for -n <= i < 0, and raises IndexError for every other integer; it never asks the file for an event outside 0..n-1.", "quantifier": "every event count n >= 0 and every integer index i (positive, negative, out of range)", "why_tests_cant": "the index domain is all integers and all file lengths; the wrap-around boundaries -n, -1, 0, n-1, n move with n", "anchors": ["CHECLabPy/core/io/waveform.py::WaveformReader.__getitem__", "CHECLabPy/core/io/waveform.py::WaveformReader.__len__"]}
{"id": "C02", "title": "Slice and list indexing agree with a Python list of the events", "statement": "reader[start:stop:step] returns exactly the events a Python list of all events would return for the same slice (any sign of start, stop, step, or omitted), never raises IndexError for a non-zero step, raises ValueError for step 0; reader[[i, j, ...]] returns the events in the given order (repeats included) and raises IndexError if any index is out of range; any other argument type raises TypeError.", "quantifier": "every event count, every slice (start, stop, step each optional integer), every finite list of integers", "why_tests_cant": "three unbounded integers with clamping and sign cases; tests sample a handful of slices", "anchors": ["CHECLabPy/core/io/waveform.py::WaveformReader.__getitem__"]}
{"id": "C03", "title": "Iterating a reader yields each event once, in order, honouring max_events", "statement": "Iterating over a reader yields exactly the events 0,1,...,n_events-1 in order, each once, and the event obtained by iteration at position i is the one obtained by reader[i]. n_events is the smaller of the file's event count and max_events when max_events is a positive number, and the file's event count when max_events is None or 0.", "quantifier": "every file length and every max_events value (None, 0, positive, negative)", "why_tests_cant": "the equality between iteration and indexing must hold for all lengths and limits", "anchors": ["CHECLabPy/core/io/waveform.py::WaveformReader.__iter__", "CHECLabPy/core/io/waveform.py::WaveformReader.__getitem__", "CHECLabPy/core/io/tio.py::TIOReader.__init__", "CHECLabPy/core/io/tio.py::TIOReader.n_events"]}
{"id": "C04", "title": "from_path selects a reader that recognises the file", "statement": "WaveformReader.from_path returns an instance of the first reader class, in subclass order, that recognises the file; if it returns a reader then that class recognised the file, and if no class recognises the file it returns None instead of raising. A specialised TIO reader (R0 or R1 only) is never chosen in place of the general TIO reader.", "quantifier": "every class hierarchy below the base reader and every recognition predicate on files", "why_tests_cant": "depends on the whole set of registered subclasses (an open extension point) and on all possible files", "anchors": ["CHECLabPy/core/io/waveform.py::WaveformReader.from_path", "CHECLabPy/core/__init__.py::child_subclasses", "CHECLabPy/core/io/tio.py::TIOReader", "CHECLabPy/core/io/tio.py::ReaderR1", "CHECLabPy/core/io/tio.py::ReaderR0"]}
{"id": "C05", "title": "Raw-file recognition depends only on the documented markers", "statement": "A file is recognised as simtel exactly when its first four bytes (after gunzip if the file starts with the gzip magic 1f 8b) are D4 1F 8A 37 in either byte order; a file is recognised as TIO exactly when the first 1024 bytes (after gunzip if gzipped) contain 'FITS' and the FITS header carries EVENT_HEADER_VERSION. No uncompressed file is recognised as both.", "quantifier": "every file content of sufficient length (any byte string), and any gunzip function", "why_tests_cant": "the domain is all byte strings; a test can only try a few files", "anchors": ["CHECLabPy/core/io/simtel.py::SimtelReader.is_compatible", "CHECLabPy/core/io/tio.py::TIOReader.is_compatible"]}
{"id": "C06", "title": "Event CPU time is exact to the nanosecond", "statement": "The event time computed from the (seconds, nanoseconds) pair equals seconds*10^9 + nanoseconds exactly, although the seconds are multiplied in double precision, for every seconds value that fits in an unsigned 32-bit counter; therefore event times are ordered exactly as the (seconds, nanoseconds) pairs are.", "quantifier": "every seconds value below 2^32 and every nanoseconds value below 10^9", "why_tests_cant": "2^32 * 10^9 inputs; rounding errors would show for particular seconds values only", "anchors": ["CHECLabPy/core/io/waveform.py::Waveform.t_cpu"]}
{"id": "C07", "title": "Slow-control values survive the DL1 file keyed by module and superpixel", "statement": "For every module tm < n_modules and superpixel sp < n_superpixels_per_module, DL1Reader.get_sn/get_sipm_temp/get_primary_temp/get_sp_dac/get_sp_hvon on the DL1 file return the value the raw reader returned for the same (tm, sp); for tm >= n_modules or sp >= n_superpixels_per_module they raise IndexError.", "quantifier": "every number of modules and superpixels (including more than 99, where the two-digit padding overflows) and every value assignment", "why_tests_cant": "distinctness of the textual keys must hold for all pairs of indices, not for the 32x16 of one camera", "anchors": ["CHECLabPy/scripts/extract_dl1.py::DL1Extractor.__init__", "CHECLabPy/scripts/extract_dl1.py::DL1Writer.write_dl1_file", "CHECLabPy/core/io/dl1_reader.py::DL1Reader.get_sn", "CHECLabPy/core/io/dl1_reader.py::DL1Reader.get_sp_dac", "CHECLabPy/core/io/dl1_reader.py::DL1Reader.get_sp_hvon", "CHECLabPy/core/io/dl1_reader.py::DL1Reader.get_sipm_temp", "CHECLabPy/core/io/dl1_reader.py::DL1Reader.get_primary_temp"]}
{"id": "C08", "title": "Simulated pixels are re-ordered to the camera mapping by position", "statement": "After simtel loading, waveform row i is the simulated pixel that sits at the same (row, column) as camera-mapping pixel i, for every i, provided no two simulated pixels share a (row, column) and the mapping only uses occupied positions; the re-ordering is then a permutation when the mapping positions are also distinct and equally many.", "quantifier": "every assignment of (row, column) to simulated pixels and to mapping pixels on every grid", "why_tests_cant": "all permutations of thousands of pixels", "anchors": ["CHECLabPy/core/io/simtel.py::SimtelReader.__init__", "CHECLabPy/core/io/simtel.py::SimtelReader._build_waveform"]}
{"id": "C09", "title": "Subclass discovery is sound, complete and duplicate-free", "statement": "child_subclasses(base) contains only non-abstract strict descendants of base, contains for every non-abstract strict descendant a class of the same name, never lists two classes with the same name, and when names clash keeps the first in breadth-then-depth order (a direct subclass wins over a deeper one).", "quantifier": "every finite class hierarchy, including diamonds, abstract intermediate classes and clashing names", "why_tests_cant": "hierarchies are unbounded and user-extensible", "anchors": ["CHECLabPy/core/__init__.py::child_subclasses"]}
{"id": "C10", "title": "The factory produces exactly the class asked for", "statement": "Factory.produce(name) instantiates the unique discovered class whose name is name, and raises KeyError exactly when no discovered class has that name.", "quantifier": "every hierarchy and every requested name", "why_tests_cant": "requires reasoning over all registered sets of classes and all strings", "anchors": ["CHECLabPy/core/factory.py::Factory.produce", "CHECLabPy/core/__init__.py::child_subclasses"]}
{"id": "C11", "title": "Chain configuration precedence", "statement": "In the effective chain configuration every keyword argument overrides the configuration file, the file overrides built-in defaults, and when a configuration file is given the built-in column defaults are not applied at all, so a column absent from file and keywords is inactive; without a file each column's built-in default applies unless overridden by a keyword.", "quantifier": "every configuration file content (any finite map, or an empty file), every keyword set", "why_tests_cant": "arbitrary maps with overlapping keys", "anchors": ["CHECLabPy/core/chain.py::WaveformReducerChain.__init__", "CHECLabPy/core/chain.py::WaveformReducerChain._load_config"]}
{"id": "C12", "title": "The chain produces exactly the enabled columns", "statement": "The dictionary produced for an event has as keys exactly the columns of discovered reducers whose effective configuration value is truthy; reducers without any enabled column are never instantiated or run; over any sequence of events the values of a column are those its defining reducer computes on its own with the same configuration, so they do not depend on the other reducers, nor on which other columns are enabled as long as the reducer itself does not read those switches.", "quantifier": "every set of reducers with distinct column names, every configuration, every sequence of events", "why_tests_cant": "2^n column combinations over an extensible reducer set", "anchors": ["CHECLabPy/core/chain.py::WaveformReducerChain._build_chain", "CHECLabPy/core/chain.py::WaveformReducerChain.process", "CHECLabPy/core/reducer.py::WaveformReducer.get_active_columns", "CHECLabPy/core/reducer.py::WaveformReducer.process", "CHECLabPy/core/reducer.py::WaveformReducer._get_dict"]}
{"id": "C13", "title": "The generated configuration file reproduces the default behaviour", "statement": "Running the chain with the configuration file written by generate_dl1_config enables the same columns as running with no configuration file.", "quantifier": "every set of reducers and default table", "why_tests_cant": "must hold for every registered column, including ones nobody listed in the default table", "anchors": ["CHECLabPy/scripts/generate_dl1_config.py::main", "CHECLabPy/core/chain.py::WaveformReducerChain.default_columns", "CHECLabPy/core/chain.py::WaveformReducerChain.__init__"]}
{"id": "C14", "title": "Two reducers cannot silently define the same column", "statement": "Defining a column whose name was already defined under a different qualified name raises AttributeError at class-definition time; after any sequence of successful definitions each column name is owned by a single qualified name; re-definition under the same qualified name is accepted.", "quantifier": "every sequence of column definitions", "why_tests_cant": "histories of class definitions are unbounded", "anchors": ["CHECLabPy/core/reducer.py::column.__init__", "CHECLabPy/core/reducer.py::WaveformReducerMeta.__new__"]}
{"id": "C15", "title": "Appended rows reach the file completely, once and in order, whatever the buffering", "statement": "After a writer is closed, each table built with append contains exactly the rows of all appended frames, in append order, each once, no matter how many frames were buffered, when the 0.5 GB flush happened, how appends to different tables were interleaved, and in which order tables were flushed at close.", "quantifier": "every sequence of append calls over any keys, every memory-size function of frames (hence every flush schedule), every key order at close", "why_tests_cant": "flush points depend on data volume; tests never reach 0.5 GB and cannot enumerate interleavings", "anchors": ["CHECLabPy/core/io/hdf5_writer.py::HDF5Writer.append", "CHECLabPy/core/io/hdf5_writer.py::HDF5Writer._append_to_store", "CHECLabPy/core/io/hdf5_writer.py::HDF5Writer.finish"]}
{"id": "C16", "title": "Byte accounting of a freshly written file", "statement": "After close, the n_bytes recorded for each table is the sum of the memory sizes of what was stored in it, total_bytes is the sum of the per-table values, and the file records the library version.", "quantifier": "every history of append/write calls and every memory-size function", "why_tests_cant": "the counters are updated on three different paths (append flush, direct write, close)", "anchors": ["CHECLabPy/core/io/hdf5_writer.py::HDF5Writer._append_to_store", "CHECLabPy/core/io/hdf5_writer.py::HDF5Writer.write", "CHECLabPy/core/io/hdf5_writer.py::HDF5Writer.finish"]}
{"id": "C17", "title": "Metadata round trip", "statement": "Every metadata value added under (key, name), for a key other than 'mapping' and a name not starting with an underscore, is returned by get_metadata(key, name) after close, later values for the same field replacing earlier ones and other fields being kept (the fields n_bytes, total_bytes and version of the dictionary 'metadata' belong to the library); the reserved names 'info' and 'mapping' are refused with ValueError and change nothing; asking for an absent key or name raises KeyError.", "quantifier": "every history of add_metadata calls over any keys, names and fields", "why_tests_cant": "unbounded histories of dictionary updates", "anchors": ["CHECLabPy/core/io/hdf5_writer.py::HDF5Writer.add_metadata", "CHECLabPy/core/io/hdf5_writer.py::HDF5Writer._save_metadata", "CHECLabPy/core/io/hdf5_reader.py::HDF5Reader.get_metadata", "CHECLabPy/core/io/hdf5_reader.py::HDF5Reader._generate_contents_list"]}
{"id": "C18", "title": "Every file the writer closes can be opened by the reader", "statement": "Any sequence of writer calls followed by a successful close yields a file that HDF5Reader opens without raising.", "quantifier": "every history of append, write, add_mapping and add_metadata calls", "why_tests_cant": "the failing histories attach metadata under unusual key/name combinations; tests use the default name only", "anchors": ["CHECLabPy/core/io/hdf5_writer.py::HDF5Writer.add_metadata", "CHECLabPy/core/io/hdf5_writer.py::HDF5Writer.finish", "CHECLabPy/core/io/hdf5_reader.py::HDF5Reader._generate_contents_list", "CHECLabPy/core/io/hdf5_reader.py::HDF5Reader.__init__"]}
{"id": "C19", "title": "Interruption never corrupts or reorders what was appended", "statement": "If an exception leaves the with-block after any call, the closed file contains all rows appended before the exception; if the process dies instead, the rows already in the file are a prefix of the rows appended so far for each table. At every moment the flushed rows followed by the buffered rows equal the rows appended.", "quantifier": "every history and every crash point", "why_tests_cant": "crash points between every two calls cannot be enumerated by tests", "anchors": ["CHECLabPy/core/io/hdf5_writer.py::HDF5Writer.__exit__", "CHECLabPy/core/io/hdf5_writer.py::HDF5Writer.append", "CHECLabPy/core/io/hdf5_writer.py::HDF5Writer._append_to_store", "CHECLabPy/core/io/hdf5_writer.py::HDF5Writer.finish"]}
{"id": "C20", "title": "read either returns the whole stored table or raises the documented error", "statement": "read(key) raises KeyError exactly when the file has no non-empty table under key, raises MemoryError exactly when the recorded size exceeds 8e9 bytes and force is not set, and otherwise returns the table unchanged; 'mapping' is never listed among the readable tables.", "quantifier": "every file content and every key", "why_tests_cant": "decision logic over all file states", "anchors": ["CHECLabPy/core/io/hdf5_reader.py::HDF5Reader.read", "CHECLabPy/core/io/hdf5_reader.py::HDF5Reader._generate_contents_list"]}
{"id": "C21", "title": "Chunked iteration partitions the table", "statement": "Concatenating the chunks produced by iterate_over_chunks gives the table exactly; every chunk except possibly the last has the requested number of rows and none is empty; the default chunk never holds more than 2e9 bytes by the recorded average row size.", "quantifier": "every table and every positive chunk size", "why_tests_cant": "all table lengths and chunk sizes, in particular non-divisible ones", "anchors": ["CHECLabPy/core/io/hdf5_reader.py::HDF5Reader.iterate_over_chunks", "CHECLabPy/core/io/dl1_reader.py::DL1Reader.iterate_over_chunks", "CHECLabPy/core/io/dl1_reader.py::DL1Reader.iterate_over_rows"]}
{"id": "C22", "title": "Appending to an existing file keeps what is there", "statement": "After re-opening a file with HDF5Appender and appending, each table contains the old rows followed by the new rows in order, tables that are not touched are unchanged, and existing metadata fields not overwritten keep their value.", "quantifier": "every existing file and every history of appender calls", "why_tests_cant": "arbitrary pre-existing content times arbitrary histories", "anchors": ["CHECLabPy/core/io/hdf5_appender.py::HDF5Appender.__init__", "CHECLabPy/core/io/hdf5_appender.py::HDF5Appender._save_metadata", "CHECLabPy/core/io/hdf5_appender.py::HDF5Appender.finish", "CHECLabPy/core/io/hdf5_writer.py::HDF5Writer.append"]}
{"id": "C23", "title": "Byte accounting stays correct when appending to an existing file", "statement": "After appending to an existing table the recorded n_bytes covers old and new rows, so that the 8 GB guard of read keeps protecting the user, and total_bytes remains the sum of the per-table values.", "quantifier": "every existing file and appender history", "why_tests_cant": "needs multi-gigabyte files to be noticed in practice", "anchors": ["CHECLabPy/core/io/hdf5_appender.py::HDF5Appender.__init__", "CHECLabPy/core/io/hdf5_appender.py::HDF5Appender.finish", "CHECLabPy/core/io/hdf5_reader.py::HDF5Reader.read", "CHECLabPy/core/io/hdf5_reader.py::HDF5Reader.get_n_bytes"]}
{"id": "C24", "title": "write replaces the table of the same name", "statement": "write(key=df) makes the table under key equal to df in the closed file, replacing whatever was there before, and the last write wins.", "quantifier": "every history mixing append and write", "why_tests_cant": "the order of append, flush and write matters", "anchors": ["CHECLabPy/core/io/hdf5_writer.py::HDF5Writer.write", "CHECLabPy/core/io/hdf5_writer.py::HDF5Writer.finish"]}
{"id": "C25", "title": "DL1 file returns each event exactly as extracted", "statement": "For every run that ends without an exception and in which at least one event was processed, the DL1 file opens; indexing it by an event id that was processed returns exactly that event's rows, one per pixel, in pixel order, with the extracted values (converted to the column types of the file); indexing by the id of a skipped or absent event raises IndexError.", "quantifier": "every run (any number of events, any skip pattern, distinct event ids below 2^32, at least one processed event), every number of pixels >= 1, every flush schedule", "why_tests_cant": "composition of extraction, sorting, buffering, file layout and lookup over all runs", "anchors": ["CHECLabPy/scripts/extract_dl1.py::DL1Writer.write_dl1_file", "CHECLabPy/scripts/extract_dl1.py::DL1Writer._prepare_before_append", "CHECLabPy/scripts/extract_dl1.py::DL1Extractor.skip_event", "CHECLabPy/core/io/dl1_reader.py::DL1Reader.__getitem__", "CHECLabPy/core/io/dl1_reader.py::DL1Reader.event_lookup", "CHECLabPy/core/io/dl1_reader.py::DL1Reader.select_event_index"]}
{"id": "C26", "title": "Event iteration over a DL1 file", "statement": "iterate_over_events yields every stored event once in file order and their concatenation is the whole table; iterate_over_selected_events(ids) yields exactly the stored events whose id is in the list, once each and in file order, ignoring repeats and unknown ids. For a produced file with increasing event ids the file order is the order of processing.", "quantifier": "every DL1 table with n_events * n_pixels rows holding at least one event, and every id list", "why_tests_cant": "all tables and all id lists, in particular duplicates and unknown ids", "anchors": ["CHECLabPy/core/io/dl1_reader.py::DL1Reader.iterate_over_events", "CHECLabPy/core/io/dl1_reader.py::DL1Reader.iterate_over_selected_events", "CHECLabPy/core/io/dl1_reader.py::DL1Reader.select_event_index"]}
{"id": "C27", "title": "Event accounting of DL1 production", "statement": "n_events plus n_skipped equals the number of events read; an event is skipped exactly when it is stale or has missing packets; start_time and end_time are the times of the first and last processed event (absent when none was processed).", "quantifier": "every stream of events", "why_tests_cant": "all skip patterns over unbounded streams", "anchors": ["CHECLabPy/scripts/extract_dl1.py::DL1Writer.write_dl1_file", "CHECLabPy/scripts/extract_dl1.py::DL1Extractor.skip_event"]}
{"id": "C28", "title": "Producing a DL1 file never overwrites its own input", "statement": "When no output path is given, the automatically chosen output path differs from the input path.", "quantifier": "every input path string, data or simulation", "why_tests_cant": "all strings; only conventional names are tested", "anchors": ["CHECLabPy/scripts/extract_dl1.py::DL1Writer.write_dl1_file"]}
{"id": "C29", "title": "Baseline is the mean over the most recent events", "statement": "After at least n_base waveforms have been subtracted, the baseline of every pixel equals the mean over the last n_base waveforms seen (each averaged over its first n_base_samples samples); while fewer have been seen, the not yet replaced entries are those of the initial fill; subtraction removes exactly this baseline from every sample.", "quantifier": "every sequence of waveforms, every n_base >= 1", "why_tests_cant": "histories of unbounded length wrapping around the ring buffer", "anchors": ["CHECLabPy/utils/waveform.py::BaselineSubtractor.__init__", "CHECLabPy/utils/waveform.py::BaselineSubtractor.update_baseline", "CHECLabPy/utils/waveform.py::BaselineSubtractor.subtract"]}
{"id": "C30", "title": "Initial baseline reflects the source", "statement": "The initial baseline of each pixel is the mean over the first events of the source (up to n_base of them).", "quantifier": "every source, including runs with fewer than n_base events", "why_tests_cant": "short runs are the special case", "anchors": ["CHECLabPy/utils/waveform.py::BaselineSubtractor.__init__"]}
{"id": "C31", "title": "shift_array shifts every pixel by the requested number of samples", "statement": "Element j of each shifted row is element j-num of the input row when that exists and the fill value otherwise, for every integer shift; the shape is preserved.", "quantifier": "every array, every integer shift including |num| >= n_samples and num = 0", "why_tests_cant": "negative-slice arithmetic has a special case at every boundary", "anchors": ["CHECLabPy/utils/waveform.py::shift_array"]}
{"id": "C32", "title": "Aligned averages put the pulse maximum at the requested sample", "statement": "shift_waveform moves the sample where the pixel-averaged waveform is largest to the requested position, for every in-range requested position; the averaged waveform of identical pulses with different arrival times is the pulse at the requested position.", "quantifier": "every waveform array and target sample", "why_tests_cant": "all waveforms and shifts", "anchors": ["CHECLabPy/utils/waveform.py::shift_waveform", "CHECLabPy/utils/waveform.py::get_average_wf", "CHECLabPy/utils/waveform.py::get_average_wf_per_pixel"]}
{"id": "C33", "title": "Natural file ordering is a numeric-aware total order", "statement": "sort_file_list returns a permutation of its input sorted by the natural key; names that differ only in a run number are ordered by the numeric value of that number; comparison of any two ASCII names never fails, and names with equal keys keep their relative order.", "quantifier": "every list of ASCII names", "why_tests_cant": "all strings with arbitrary digit runs", "anchors": ["CHECLabPy/utils/files.py::natural_keys", "CHECLabPy/utils/files.py::atoi", "CHECLabPy/utils/files.py::sort_file_list"]}
{"id": "C34", "title": "The most recent committed mask file is the one loaded by default", "statement": "Among mask files named by their commit time, the default load picks the chronologically latest commit.", "quantifier": "every non-empty set of commit times within one century", "why_tests_cant": "calendar ordering through textual keys", "anchors": ["CHECLabPy/calib/pixel_masks.py::PixelMasks._load_file", "CHECLabPy/calib/pixel_masks.py::PixelMasks.commit", "CHECLabPy/utils/files.py::natural_keys"]}
{"id": "C35", "title": "Pixel mask save/load round trip", "statement": "Loading a saved mask set gives back every mask unchanged, for all assignments of the pixel and superpixel masks.", "quantifier": "every mask assignment (2^2048 and 2^512)", "why_tests_cant": "exponentially many masks", "anchors": ["CHECLabPy/calib/pixel_masks.py::PixelMasks._save_to_file", "CHECLabPy/calib/pixel_masks.py::PixelMasks._load_file"]}
{"id": "C36", "title": "Merging masks is set union", "statement": "merge is the pixelwise or of the two mask sets: commutative, associative, idempotent, never clears a flag; all_mask flags a pixel exactly when some pixel mask flags it or some superpixel mask flags its superpixel.", "quantifier": "every pair of mask sets", "why_tests_cant": "exponentially many masks", "anchors": ["CHECLabPy/calib/pixel_masks.py::PixelMasks._load_file", "CHECLabPy/calib/pixel_masks.py::PixelMasks.all_mask"]}
{"id": "C37", "title": "Module and superpixel index conversion", "statement": "convert_superpixels_to_pixels and convert_module_to_pixels list exactly the pixels whose superpixel (pixel//4) or module (pixel//64) is in the request, grouped in request order and ascending within each group.", "quantifier": "every list of superpixels/modules", "why_tests_cant": "all index lists", "anchors": ["CHECLabPy/calib/pixel_masks.py::PixelMasks.convert_superpixels_to_pixels", "CHECLabPy/calib/pixel_masks.py::PixelMasks.convert_module_to_pixels"]}
{"id": "C38", "title": "High-voltage configuration parsing", "statement": "Parsing a high-voltage configuration returns for each (module, superpixel) the last value assigned to it in the file and 0 if none is assigned, ignoring unrelated lines; a configuration rendered from any 32x16 table parses back to that table.", "quantifier": "every file text; every 32x16 table of values", "why_tests_cant": "all texts", "anchors": ["CHECLabPy/utils/files.py::extract_hv_cfg"]}
{"id": "C39", "title": "Superpixel and module mappings group pixels correctly", "statement": "The superpixel (module) mapping has one row per superpixel (module) that occurs in the pixel mapping, its row/column are the pixel row/column of its first pixel divided by 2 (8), its position is the mean of its pixels' positions, sizes scale by 2 (8), the row/column counts are those of the coarse grid, and the input mapping is not modified.", "quantifier": "every pixel mapping table", "why_tests_cant": "all mappings", "anchors": ["CHECLabPy/utils/mapping.py::get_superpixel_mapping", "CHECLabPy/utils/mapping.py::get_tm_mapping"]}
{"id": "C40", "title": "Charge resolution does not depend on how the data is fed", "statement": "The charge-resolution tables computed at the end depend only on the multiset of (pixel, true, measured) entries: not on how they were split over add calls, in which order they came, nor when intermediate amalgamations happened; entries with true charge 0 are excluded; for each (pixel, true) group n is the number of entries and the resolution is sqrt(mean squared deviation [+ true for simulation]) / |true|; feeding at least one (possibly empty) batch makes finish succeed, feeding none makes it raise KeyError.", "quantifier": "every sequence of add calls and every amalgamation schedule", "why_tests_cant": "amalgamation is triggered by data volume; order and chunking are unbounded", "anchors": ["CHECLabPy/utils/resolutions.py::ChargeResolution.add", "CHECLabPy/utils/resolutions.py::ChargeResolution._amalgamate", "CHECLabPy/utils/resolutions.py::ChargeResolution.finish"]}
{"id": "C41", "title": "Charge statistics do not depend on how the data is fed", "statement": "The per-(pixel, amplitude) mean, standard deviation and count depend only on the multiset of entries and equal the mathematical mean, population standard deviation and count; in exact arithmetic the variance is never negative.", "quantifier": "every sequence of add calls and every amalgamation schedule", "why_tests_cant": "as for charge resolution", "anchors": ["CHECLabPy/utils/resolutions.py::ChargeStatistics.add", "CHECLabPy/utils/resolutions.py::ChargeStatistics._amalgamate", "CHECLabPy/utils/resolutions.py::ChargeStatistics.finish"]}
{"id": "C42", "title": "Welford's online update computes mean and variance", "statement": "Folding the online update over any non-empty sequence from the zero state gives count = length, mean = arithmetic mean and M2 = sum of squared deviations from the mean; the result does not depend on the order of the sequence.", "quantifier": "every sequence of numbers", "why_tests_cant": "unbounded sequences", "anchors": ["CHECLabPy/stats/welfords.py::welfords_online_algorithm"]}
{"id": "C43", "title": "Closed forms of the probability functions", "statement": "binom(n,k) equals the binomial coefficient for all 0 <= k <= n; poisson(k,mu) is the Poisson mass mu^k e^-mu / k! for mu > 0; poisson_logpmf is the logarithm of it, with the 0*log 0 = 0 convention at k = 0, mu = 0; normal_pdf is the normal density and integrates to 1 for std > 0.", "quantifier": "all natural n, k, all real mu > 0, mean, std > 0", "why_tests_cant": "real-valued domains", "anchors": ["CHECLabPy/stats/pdf.py::binom", "CHECLabPy/stats/pdf.py::poisson", "CHECLabPy/stats/pdf.py::normal_pdf", "CHECLabPy/stats/pdf.py::xlogy", "CHECLabPy/stats/pdf.py::poisson_logpmf"]}
{"id": "C44", "title": "Amplitude calibration and illumination folding are invertible", "statement": "The amplitude calibration is the affine map (raw - pedestal)/conversion * flat-field per pixel and is undone by its inverse whenever conversion and flat-field are non-zero; unfolding the illumination profile undoes folding it and vice versa wherever the profile is non-zero; pixels never mix.", "quantifier": "every waveform/charge array and every calibration table with non-zero factors", "why_tests_cant": "real-valued arrays", "anchors": ["CHECLabPy/calib/amplitude_calibrator.py::AmplitudeCalibrator", "CHECLabPy/calib/illumination_profile.py::IlluminationProfile"]}
{"id": "C45", "title": "Time correction is linear interpolation at the shifted sample times", "statement": "The time-corrected waveform at sample i is the linear interpolation of the waveform at i - shift, extrapolated linearly from the two edge samples outside the waveform; an affine waveform is shifted exactly; a zero correction leaves the waveform unchanged.", "quantifier": "every waveform with at least two samples and every real shift", "why_tests_cant": "real shifts, special behaviour at integral shifts", "anchors": ["CHECLabPy/calib/time_calibrator.py::apply_t_cor", "CHECLabPy/calib/time_calibrator.py::TimeCalibrator.__call__"]}
{"id": "C46", "title": "SiPM data-sheet conversion", "statement": "The converter accepts exactly one named quantity and raises ValueError otherwise; it raises ValueError outside the tabulated range; at a tabulated value it returns the tabulated row; between rows it interpolates linearly, so the returned value of the queried quantity is the query itself; converting over-voltage to another increasing quantity and back returns the over-voltage.", "quantifier": "every strictly increasing table, every query", "why_tests_cant": "real-valued queries", "anchors": ["CHECLabPy/calib/sipm_data_sheet.py::SiPMDataSheetConverter"]}
{"id": "C47", "title": "Amplitude matching never requests a DAC outside the allowed range", "statement": "Starting from DAC values within [10, 255], every DAC table returned by the matcher at any step stays within [10, 255], whatever amplitudes are measured.", "quantifier": "every sequence of measured amplitudes, every mask, every starting table in range", "why_tests_cant": "control-loop histories of unbounded length", "anchors": ["CHECLabPy/calib/amplitude_matcher.py::AmplitudeMatcher.process", "CHECLabPy/calib/amplitude_matcher.py::AmplitudeMatcher._get_next_dac_nb"]}
{"id": "C48", "title": "Amplitude matching: finished superpixels stay finished, completion is final", "statement": "Within a pass a superpixel that has finished never changes its DAC again; its stage never decreases; the matcher reports completion only after two complete passes, and after reporting completion the DAC table never changes and every later call reports completion.", "quantifier": "every sequence of measured amplitudes", "why_tests_cant": "unbounded control-loop histories", "anchors": ["CHECLabPy/calib/amplitude_matcher.py::AmplitudeMatcher.process", "CHECLabPy/calib/amplitude_matcher.py::AmplitudeMatcher._get_next_dac_nb"]}
{"id": "C49", "title": "Amplitude matching terminates", "statement": "The matching procedure reports completion after finitely many steps.", "quantifier": "every sequence of measured amplitudes", "why_tests_cant": "non-termination cannot be observed by a test", "anchors": ["CHECLabPy/calib/amplitude_matcher.py::AmplitudeMatcher.process", "CHECLabPy/calib/amplitude_matcher.py::AmplitudeMatcher._get_next_dac_nb"]}
{"id": "C50", "title": "Superpixels flagged as bad are switched to the safe setting", "statement": "Superpixels whose pixels are flagged bad are set to DAC 255 and finished at once, and unflagged superpixels are not affected by the flags, whether the flags are given per superpixel or per pixel.", "quantifier": "every mask, per superpixel or per pixel", "why_tests_cant": "exponentially many masks", "anchors": ["CHECLabPy/calib/amplitude_matcher.py::AmplitudeMatcher.__init__"]}
{"id": "C51", "title": "Average-waveform charge window", "statement": "For the default window and waveforms of at least 20 samples, the charge of every pixel is the sum of exactly window-size consecutive samples starting three samples before the common extraction time, which is the arrival time of the camera-averaged waveform clamped 10 samples away from both edges; all samples are inside the waveform.", "quantifier": "every waveform array with at least 20 samples", "why_tests_cant": "all waveforms; window arithmetic with negative slices", "anchors": ["CHECLabPy/waveform_reducers/average_wf.py::AverageWF"]}
{"id": "C52", "title": "Saturation charge integrates the tail of the pulse", "statement": "The saturation column of the default chain is the sum of the waveform from shortly before the pulse to the end of the readout.", "quantifier": "every event processed through the chain", "why_tests_cant": "depends on an interaction between two configuration namespaces", "anchors": ["CHECLabPy/waveform_reducers/saturation.py::Saturation", "CHECLabPy/core/chain.py::WaveformReducerChain.__init__"]}
{"id": "C53", "title": "Interpolated pulse time is always inside the waveform and close to the peak", "statement": "The extracted pulse time always lies in [0, n_samples); it is within half a sample of the peak sample whenever the peak is an interior local maximum; for a sampled parabola it is the exact vertex.", "quantifier": "every waveform (including values read outside the array at the edges) and every peak index", "why_tests_cant": "all real-valued waveforms, edges included", "anchors": ["CHECLabPy/waveform_reducers/cross_correlation.py::extract_pulse_time"]}
{"id": "C54", "title": "Cross-correlation charge is calibrated to the reference pulse", "statement": "An event in which every pixel's waveform is the unit-area reference pulse, scaled by a charge of that pixel and placed at a common position, gets exactly that charge, and that charge times the reference peak as height, in every pixel; the charge is linear in the waveform for a fixed extraction time.", "quantifier": "every reference pulse with positive area, every set of charges with positive sum, every position that contains the pulse", "why_tests_cant": "real-valued waveforms", "anchors": ["CHECLabPy/waveform_reducers/cross_correlation.py::CrossCorrelation"]}
{"id": "C55", "title": "Local peak search dominates common extraction", "statement": "For every pixel the locally extracted charge is at least the charge extracted at the common time, for both the cross-correlation and the sliding window.", "quantifier": "every event", "why_tests_cant": "all waveforms", "anchors": ["CHECLabPy/waveform_reducers/cross_correlation.py::CrossCorrelationLocal", "CHECLabPy/waveform_reducers/sliding_window.py::SlidingWindowLocal"]}
{"id": "C56", "title": "Sliding window charge", "statement": "The sliding-window charge is the sum of the window-size samples starting at the sample where the camera-averaged window sum is largest, truncated at the end of the waveform.", "quantifier": "every event and window size >= 1", "why_tests_cant": "all waveforms and windows", "anchors": ["CHECLabPy/waveform_reducers/sliding_window.py::SlidingWindow", "CHECLabPy/waveform_reducers/sliding_window.py::SlidingWindow.charge_sliding"]}
{"id": "C57", "title": "Extracted pulses are positive and the solver terminates", "statement": "The non-negative least-squares pulse extraction reports only pulses of positive charge, never a negative solution entry, keeps active and inactive pulse positions as a partition of all positions at every iteration, and stops after a bounded number of inner least-squares solutions, whatever these are.", "quantifier": "every basis, waveform and inner solver behaviour", "why_tests_cant": "active-set iterations are data dependent", "anchors": ["CHECLabPy/waveform_reducers/nnls_pulse_extraction.py::nnls", "CHECLabPy/waveform_reducers/nnls_pulse_extraction.py::NNLSPulseExtraction._pulse_extraction"]}
{"id": "C58", "title": "Unfolded charge splits into its reported parts", "statement": "For every pixel the total unfolded charge is the charge inside the timing window plus the charge outside of it, and the largest single pulse in the window never exceeds the window charge.", "quantifier": "every set of extracted pulses", "why_tests_cant": "all pulse lists", "anchors": ["CHECLabPy/waveform_reducers/nnls_pulse_extraction.py::NNLSPulseExtraction._prepare"]}
{"id": "C59", "title": "Flasher identification", "statement": "The flasher unit is -1 if and only if the average over the pixels of some reference module of the largest sample is below the threshold, otherwise it is the index of the module with the largest average (first one in case of ties).", "quantifier": "every waveform array of a camera that has the four reference modules", "why_tests_cant": "all real arrays", "anchors": ["CHECLabPy/waveform_reducers/flag_flasher.py::FlagFlashers"]}
{"id": "C60", "title": "Superpixel amplitude", "statement": "All four pixels of a superpixel report the same superpixel amplitude and time, which are the maximum and arg-max of the combined waveform of that superpixel and depend on no other pixel.", "quantifier": "every waveform array", "why_tests_cant": "all waveforms", "anchors": ["CHECLabPy/waveform_reducers/superpixel.py::SPAmplitude"]}
{"id": "C61", "title": "Fit parameter bookkeeping", "statement": "For any set of parameters with distinct names, distinct expanded names and distinct minimiser keywords, every fit parameter has a unique slot; for every illumination the lookup of a parameter points at the slot holding the shared value, or the value specific to that illumination for multi parameters; changing parameters and re-preparing keeps this true.", "quantifier": "every parameter list and every number of illuminations", "why_tests_cant": "all parameter sets and illuminations", "anchors": ["CHECLabPy/core/spectrum_fitter.py::SpectrumParameterCollection", "CHECLabPy/core/spectrum_fitter.py::SpectrumParameterCollection._prepare_parameters", "CHECLabPy/core/spectrum_fitter.py::SpectrumParameterCollection.update"]}
{"id": "C62", "title": "Loaded configuration takes effect in the fit", "statement": "After load_config (or update_initial), the next fit starts from the configured initial values, limits and fixed flags.", "quantifier": "every parameter set and configuration", "why_tests_cant": "needs inspecting hidden state handed to the minimiser for every configuration", "anchors": ["CHECLabPy/core/spectrum_fitter.py::SpectrumFitter.load_config", "CHECLabPy/core/spectrum_fitter.py::SpectrumFitter.update_initial", "CHECLabPy/core/spectrum_fitter.py::SpectrumFitter.apply"]}
{"id": "C63", "title": "Single-photoelectron spectra are sub-probability densities", "statement": "Both spectrum models are non-negative everywhere and integrate to at most 1, for every physical parameter value.", "quantifier": "all real parameters in the physical range", "why_tests_cant": "real-valued parameters and truncated infinite sums", "anchors": ["CHECLabPy/spectrum_fitters/mapm.py::mapm_spe", "CHECLabPy/spectrum_fitters/gentile.py::sipm_gentile_spe"]}
{"id": "C64", "title": "Photo-electron peaks are present in the spectrum for every light level", "statement": "The spectrum integrates to nearly one for every average number of photo-electrons, so that bright illuminations are modelled by their photo-electron peaks and not by the pedestal only.", "quantifier": "all average light levels", "why_tests_cant": "a truncation rule that depends on the size of individual terms", "anchors": ["CHECLabPy/spectrum_fitters/gentile.py::sipm_gentile_spe", "CHECLabPy/spectrum_fitters/mapm.py::mapm_spe"]}
{"id": "C65", "title": "Fitting pixels in parallel gives the same result as sequentially", "statement": "The table of fit results contains for each pixel the same values whatever the completion order of the worker processes, and rows are in pixel order, as the camera plots assume.", "quantifier": "every completion order (schedule)", "why_tests_cant": "schedules are non-deterministic and exponentially many", "anchors": ["CHECLabPy/scripts/extract_spe.py::PixelFitApplier", "CHECLabPy/scripts/extract_spe.py::main", "CHECLabPy/scripts/plot_spe.py::main"]}
{"id": "C66", "title": "Camera images place every value at its pixel's position", "statement": "Setting an image on the camera grid shows the value of pixel i at pixel i's (row, column), leaves the camera corners masked, and rejects an image of the wrong size.", "quantifier": "every mapping with distinct positions and every image", "why_tests_cant": "all images and mappings", "anchors": ["CHECLabPy/plotting/camera.py::CameraImageImshow", "CHECLabPy/plotting/camera.py::CameraImage"]}
{"id": "C67", "title": "Charge-resolution limit curves are ordered", "statement": "For every charge in (0, 1000], the Poisson limit lies below the goal curve and the goal curve below the requirement curve; the requirement is undefined above 1000 and the goal above 2000.", "quantifier": "every real charge", "why_tests_cant": "real-valued domain", "anchors": ["CHECLabPy/plotting/resolutions.py::ChargeResolutionPlotter.limit_curves", "CHECLabPy/plotting/resolutions.py::ChargeResolutionPlotter.requirement", "CHECLabPy/plotting/resolutions.py::ChargeResolutionPlotter.goal", "CHECLabPy/plotting/resolutions.py::ChargeResolutionPlotter.poisson"]}
{"id": "C68", "title": "Pulse width is never negative", "statement": "Whenever a full width at half maximum is reported it is non-negative, and half-maximum crossings are on the two sides of the pulse sample.", "quantifier": "every waveform", "why_tests_cant": "all waveforms", "anchors": ["CHECLabPy/waveform_reducers/timing.py::obtain_pulse_timing"]}
{"id": "C69", "title": "A run without processed events gives a usable DL1 file", "statement": "When every event of a run is skipped (or the run has none), the DL1 file can be opened, indexing it by any event id raises IndexError and iterating over selected events yields nothing.", "quantifier": "every data or simulation run without processed events", "why_tests_cant": "degenerate runs are never part of test data", "anchors": ["CHECLabPy/scripts/extract_dl1.py::DL1Writer.write_dl1_file", "CHECLabPy/core/io/dl1_reader.py::DL1Reader.event_lookup", "CHECLabPy/core/io/hdf5_writer.py::HDF5Writer._save_metadata"]}
{"id": "C70", "title": "Missing measurements do not influence the charge resolution", "statement": "An entry whose measured charge is NaN does not change the charge resolution reported for its pixel and true charge.", "quantifier": "every session and every group of entries", "why_tests_cant": "needs data with missing values; the effect is a plausible, too small number", "anchors": ["CHECLabPy/utils/resolutions.py::ChargeResolution.add", "CHECLabPy/utils/resolutions.py::ChargeResolution.finish"]}
{"id": "C71", "title": "The SiPM converter rejects every query outside the range of its table", "statement": "Converting a value outside the range of the data-sheet table raises ValueError, also for tables in which some cells are missing, as in the shipped data sheet.", "quantifier": "every table with or without missing cells, every query value outside the tabulated range", "why_tests_cant": "a continuum of queries and all placements of missing cells", "anchors": ["CHECLabPy/calib/sipm_data_sheet.py::SiPMDataSheetConverter"]}
{"id": "C72", "title": "Amplitude matching works for a camera of any number of superpixels", "statement": "For a calibrator of any number of pixels divisible by four, processing well-formed amplitudes returns a DAC table with one value per superpixel.", "quantifier": "every camera size, every state, every amplitudes", "why_tests_cant": "unboundedly many camera sizes and states", "anchors": ["CHECLabPy/calib/amplitude_matcher.py::AmplitudeMatcher.process"]}
{"id": "C73", "title": "Common waveform statistics", "statement": "For waveforms of at least 20 samples the common columns are the mean and population variance (root of it for the rms) of exactly the first and the last 20 samples, the mean and rms of all samples, and the largest sample; an rms of zero means all samples are equal.", "quantifier": "every waveform array with at least 20 samples", "why_tests_cant": "all waveforms; negative slices", "anchors": ["CHECLabPy/waveform_reducers/common.py::Common"]}
{"id": "C74", "title": "Local pulse times depend on one pixel only", "statement": "The cross-correlation pulse time of a pixel depends on the waveform of that pixel and, through a common extraction time, on the camera average only; the waveforms stored next to it in memory do not matter.", "quantifier": "every event, every pixel", "why_tests_cant": "memory neighbours differ from event to event; a test sees a plausible time", "anchors": ["CHECLabPy/waveform_reducers/cross_correlation.py::extract_pulse_time", "CHECLabPy/waveform_reducers/cross_correlation.py::CrossCorrelationLocal"]}
{"id": "C75", "title": "Timing extraction never fails", "statement": "With default settings the timing reducer returns a value for every event of at least 20 samples.", "quantifier": "every event of at least 20 samples", "why_tests_cant": "needs equal neighbouring samples at exactly a threshold", "anchors": ["CHECLabPy/waveform_reducers/timing.py::obtain_pulse_timing"]}
{"id": "C76", "title": "Rise times are never negative", "statement": "A reported rise time from 10 % to 90 % of the pulse height is never negative.", "quantifier": "every waveform", "why_tests_cant": "depends on where crossings are found relative to each other", "anchors": ["CHECLabPy/waveform_reducers/timing.py::obtain_pulse_timing"]}
{"id": "C77", "title": "Pulse time and height come from the largest sample", "statement": "If the largest sample of the window is an interior local maximum, the pulse time is within half a sample of it and the pulse height above the baseline is at least that of the sample.", "quantifier": "every waveform, every window", "why_tests_cant": "real-valued samples", "anchors": ["CHECLabPy/waveform_reducers/timing.py::obtain_pulse_timing"]}
{"id": "C78", "title": "The unfolding window contains simultaneous pulses", "statement": "If all pulses of an event occur at the same time, all of them lie in the timing window, so the window charge of every pixel is its full charge.", "quantifier": "every event whose pulses are simultaneous, however many pixels have one", "why_tests_cant": "depends on the share of pixels without pulse", "anchors": ["CHECLabPy/waveform_reducers/nnls_pulse_extraction.py::NNLSPulseExtraction._prepare"]}
{"id": "C79", "title": "The unfolding solver returns numbers", "statement": "Every entry of the non-negative least-squares solution is a number.", "quantifier": "every basis and waveform with exact least-squares solutions", "why_tests_cant": "needs an exact zero in an intermediate solution", "anchors": ["CHECLabPy/waveform_reducers/nnls_pulse_extraction.py::nnls"]}
{"id": "C80", "title": "A converged unfolding is optimal", "statement": "If the solver stops before its iterations are used up, no non-negative amplitudes fit the waveform better than the returned ones, up to twice the tolerance per unit of amplitude.", "quantifier": "every basis, waveform and tolerance not above zero, exact least-squares solver", "why_tests_cant": "optimality over a continuum of alternatives", "anchors": ["CHECLabPy/waveform_reducers/nnls_pulse_extraction.py::nnls"]}
{"id": "C81", "title": "Charge resolution tables can be plotted", "statement": "Every table produced by the charge resolution accumulator can be plotted per pixel and for the camera, showing the rows with a true charge above 0.001.", "quantifier": "every table the accumulator can produce", "why_tests_cant": "column names are a convention between two modules; a test of one module with its own fixture cannot settle it", "anchors": ["CHECLabPy/plotting/resolutions.py::ChargeResolutionPlotter.plot_camera", "CHECLabPy/plotting/resolutions.py::ChargeResolutionPlotter.plot_pixel", "CHECLabPy/plotting/resolutions.py::ChargeResolutionPlotter.set_store", "CHECLabPy/utils/resolutions.py::ChargeResolution.finish"]}
{"id": "C82", "title": "Binned resolution plots represent every charge", "statement": "Every charge kept for the plot (true charge above 0.001) is represented in exactly one bin of the binned plot, so that the bins together have the totals of all points.", "quantifier": "every set of points and every increasing sequence of edges", "why_tests_cant": "real-valued data and edges", "anchors": ["CHECLabPy/plotting/resolutions.py::bin_points", "CHECLabPy/plotting/resolutions.py::ChargeResolutionPlotter._plot"]}
{"id": "C83", "title": "Recorded initial values are those of the fit", "statement": "The initial values shown with the result of a fit are the values the minimiser started from.", "quantifier": "every configuration and pixel", "why_tests_cant": "needs inspecting hidden state handed to the minimiser for every configuration", "anchors": ["CHECLabPy/scripts/extract_spe.py::main", "CHECLabPy/core/spectrum_fitter.py::SpectrumFitter.load_config"]}
{"id": "C84", "title": "Saving and loading a fit configuration", "statement": "Loading a saved configuration into a fitter of the same kind restores number of bins, range, initial values, limits and fixed flags of every parameter without a warning; a warning is printed exactly if an entry names no parameter; parameters that are not named keep their settings; a section without content fails to load.", "quantifier": "every parameter set and configuration", "why_tests_cant": "all configurations", "anchors": ["CHECLabPy/core/spectrum_fitter.py::SpectrumFitter.load_config", "CHECLabPy/core/spectrum_fitter.py::SpectrumFitter.save_config"]}
{"id": "C85", "title": "Fitted curve has the area of the histogram", "statement": "After a fit, for each illumination the curve is a multiple of the spectrum and has the same area as the charge histogram, unless the spectrum has zero area; before the first fit asking for the curve is an error.", "quantifier": "every spectrum shape, histogram and number of illuminations", "why_tests_cant": "real-valued shapes", "anchors": ["CHECLabPy/core/spectrum_fitter.py::SpectrumFitter.fit_result_curve"]}
{"id": "C86", "title": "Charge histogram accounts for every charge in range", "statement": "For every list of charges, non-decreasing range and number of bins the histogram given to the fit has bins of equal width covering the range, each charge within the range (both ends included) is counted exactly once and no other charge is counted; a range without width counts as the range of half a unit on both sides of it, and a decreasing range raises ValueError.", "quantifier": "every list of charges, range and number of bins", "why_tests_cant": "real-valued data, edges and boundaries", "anchors": ["CHECLabPy/core/spectrum_fitter.py::SpectrumFitter.apply", "CHECLabPy/core/spectrum_fitter.py::SpectrumFitter.charge_histogram"]}
{"id": "C87", "title": "Each illumination is fitted with the shared values and its own light level", "statement": "For both fitters, every number of illuminations and all values of the fit parameters, the spectrum calculated for an illumination is the spectrum formula at the shared parameter values and the light level fit parameter of that illumination.", "quantifier": "every number of illuminations and all parameter values", "why_tests_cant": "unbounded number of illuminations; slots are positions in a tuple", "anchors": ["CHECLabPy/spectrum_fitters/mapm.py::MAPMFitter._get_spectra", "CHECLabPy/spectrum_fitters/mapm.py::calculate_spectrum", "CHECLabPy/spectrum_fitters/gentile.py::SiPMGentileFitter._get_spectra", "CHECLabPy/spectrum_fitters/gentile.py::calculate_spectrum"]}
{"id": "C88", "title": "The minimised quantity is the Poisson likelihood of all histograms", "statement": "For all counts and positive spectra, the quantity minimised is minus twice the logarithm of the joint Poisson probability of the counts of all illuminations, with expectations proportional to the spectrum and with the area of the histogram; a spectrum without area is reported as infinitely unlikely.", "quantifier": "all counts, spectra and numbers of illuminations", "why_tests_cant": "real-valued functions and unbounded sizes", "anchors": ["CHECLabPy/spectrum_fitters/mapm.py::MAPMFitter._get_likelihood", "CHECLabPy/spectrum_fitters/gentile.py::SiPMGentileFitter._get_likelihood", "CHECLabPy/core/spectrum_fitter.py::SpectrumFitter._minimize_function"]}
{"id": "C89", "title": "Row and column numbers from pixel positions", "statement": "For every rectangular grid of pixels (regular or with gaps between modules, complete or with pixels missing) get_row_column returns, for each pixel, the number of the row and of the column on which it lies.", "quantifier": "every grid size, spacing, offset, set of occupied grid points and order of the pixels", "why_tests_cant": "real-valued positions; the histogram binning and the search for a full line depend on every position", "anchors": ["CHECLabPy/utils/mapping.py::get_row_column"]}
{"id": "C90", "title": "Monitor values are matched to the right data rows", "statement": "get_matched_monitor_column returns, for each row of the data table, the monitor value from the monitor row whose number is stored in that row, taken from the camera table before the module table before the pixel table; an unknown column, missing row numbers or a number outside the monitor table raise KeyError.", "quantifier": "every data table, every set of monitor tables, every column name", "why_tests_cant": "all contents of the tables and all row numbers, including negative and too large ones", "anchors": ["CHECLabPy/core/io/dl1_reader.py::DL1Reader.get_matched_monitor_column", "CHECLabPy/core/io/dl1_reader.py::DeprecatedMonitorReader.get_key_for_column"]}
{"id": "C91", "title": "Average of a monitor column per device", "statement": "get_average returns one number per device present, in ascending order of the device numbers: the mean of the values of that device that are not NaN, or NaN if it has none; with devices numbered from 0 without gaps, position d holds the mean of device d.", "quantifier": "every monitor table with one device number per row, whatever their order", "why_tests_cant": "all orders of rows and patterns of missing values", "anchors": ["CHECLabPy/core/io/dl1_reader.py::DeprecatedMonitorReader.get_average"]}
{"id": "C92", "title": "Monitor column as an array of entries and devices", "statement": "select_column_as_array returns, for every selection of rows made of whole monitor entries, an array with one row per selected entry holding the values of its devices in order; select_column itself returns exactly the chosen rows, and a table of more than 8 GB is only loaded as a whole when forced.", "quantifier": "every monitor table with the same number of devices in each entry, every selection of rows", "why_tests_cant": "all sizes and all selections", "anchors": ["CHECLabPy/core/io/dl1_reader.py::DeprecatedMonitorReader.select_column_as_array"]}
{"id": "C93", "title": "Version warning when opening a file", "statement": "Opening a file warns exactly if some of its rows were written by a version of the library with another main number than the present one; files written in one session never warn; a recorded version that is not a text, or not a version, cannot be opened.", "quantifier": "every file made by writing sessions, every later appending session, all metadata stored by the caller", "why_tests_cant": "every history of sessions and every version string", "anchors": ["CHECLabPy/core/io/hdf5_reader.py::HDF5Reader.__init__", "CHECLabPy/core/io/hdf5_reader.py::HDF5Reader.version", "CHECLabPy/core/io/hdf5_appender.py::HDF5Appender"]}
{"id": "C94", "title": "Event attributes survive calculations", "statement": "Whatever is calculated from the waveforms of one event and plain arrays still has the event number, time, first cell and other attributes of that event, and the same t_cpu to the nanosecond; with several events in one calculation the attributes are those of the first. Reading several events at once, or converting to a plain array, loses them.", "quantifier": "every expression of array operations, every event, every set of attributes", "why_tests_cant": "all nestings of operations and all orders of operands", "anchors": ["CHECLabPy/core/io/waveform.py::Waveform"]}
{"id": "C95", "title": "Calibrated events are marked as calibrated", "statement": "Calling a WaveformCalibrator on the raw waveforms of an event returns the samples TargetCalib computes for them, with all attributes of the event, except that is_r1 is true.", "quantifier": "every event, every number of pixels, every set of attributes", "why_tests_cant": "all combinations of attributes", "anchors": ["CHECLabPy/calib/waveform.py::WaveformCalibrator.__call__", "CHECLabPy/core/io/waveform.py::Waveform"]}
{"id": "C96", "title": "Dead pixels found from average waveforms", "statement": "obtain_dead_pixel_list_r1 returns, in ascending order, exactly the pixels whose average waveform over the first events has its largest sample below the given fraction of the mean of these largest samples over all pixels.", "quantifier": "every source, number of pixels, samples and events, every threshold", "why_tests_cant": "all waveforms and thresholds", "anchors": ["CHECLabPy/utils/waveform.py::obtain_dead_pixel_list_r1"]}
{"id": "C97", "title": "Slow-control values of existing modules only", "statement": "The getters of TIOReader for serial numbers, temperatures, currents and DAC values return the value of the module (and superpixel) asked for, and raise IndexError for numbers of modules or superpixels the camera does not have. ReaderR0 and ReaderR1 refuse files of the other level.", "quantifier": "every camera size, every module and superpixel number", "why_tests_cant": "all integers, including negative ones", "anchors": ["CHECLabPy/core/io/tio.py::TIOReader.get_sn", "CHECLabPy/core/io/tio.py::TIOReader.get_sp_dac", "CHECLabPy/core/io/tio.py::ReaderR0", "CHECLabPy/core/io/tio.py::ReaderR1"]}
{"id": "C98", "title": "Simulation information belongs to the event handed out", "statement": "When SimtelReader hands out an event, its waveform carries the number and time of that event and the dictionaries mc and pointing describe that event; after any sequence of events they describe the last one, and mcheader is that of the first.", "quantifier": "every sequence of events", "why_tests_cant": "all sequences; the dictionaries are mutated in place", "anchors": ["CHECLabPy/core/io/simtel.py::SimtelReader._fill_event_containers"]}
{"id": "C99", "title": "Outlines of modules and highlighted pixels in the plot of all pixels", "statement": "In CameraPixelWaveformPlotter every pixel has its own place, and a border line is drawn exactly where the neighbouring pixel belongs to another module; highlight_pixels outlines exactly the pixels of the mask; after any sequence of highlights and resets, a reset restores the plot.", "quantifier": "every camera, every mask, every sequence of calls", "why_tests_cant": "all camera sizes and all sequences of calls", "anchors": ["CHECLabPy/plotting/waveform.py::CameraPixelWaveformPlotter"]}
{"id": "C100", "title": "Outlier lists of the module plots", "statement": "CameraTMWaveformPlotter.plot_waveforms shows in the plot of each module its own 64 pixels coloured by ASIC, and lists, in ascending order and in an unambiguous text, exactly its pixels whose largest sample is below the given fraction of the largest sample of the camera average; a number of pixels that is not a multiple of 64 raises ValueError.", "quantifier": "every camera, all waveforms, every threshold", "why_tests_cant": "all waveforms; the text has to be unambiguous for all lists", "anchors": ["CHECLabPy/plotting/waveform.py::CameraTMWaveformPlotter.plot_waveforms"]}
{"id": "C101", "title": "Highlighted pixels of a camera image", "statement": "CameraImage.highlight_pixels draws a line of the given width around exactly the given pixels, chosen by mask or by number; before the first image, for a mask of the wrong length or a pixel outside the camera it raises IndexError.", "quantifier": "every image, of whole or floating-point numbers, every mask and list of pixels, every width", "why_tests_cant": "all images and element types", "anchors": ["CHECLabPy/plotting/camera.py::CameraImage.highlight_pixels"]}
{"id": "C102", "title": "Colour limits of a camera image", "statement": "After any sequence of calls the colour limits are those given to set_limits_minmax, if not reset since, and otherwise the smallest and largest value of the image shown (among positive ones on a logarithmic scale).", "quantifier": "every sequence of images, set_limits_minmax, set_z_log and reset_limits", "why_tests_cant": "all sequences of calls", "anchors": ["CHECLabPy/plotting/camera.py::CameraImage.image", "CHECLabPy/plotting/camera.py::CameraImage.set_limits_minmax", "CHECLabPy/plotting/camera.py::CameraImage.set_z_log"]}
{"id": "C103", "title": "Run lists lead to the files of the listed runs", "statement": "open_runlist_r1 and open_runlist_dl1 give every run of the list the file Run<number, at least five digits>_r1.tio (or _dl1.h5) in the directory of the run list; different runs have different files, natural sorting of the files is the order of the runs, and the readers belong to the rows; the first file that cannot be opened ends the call with its error.", "quantifier": "every path of a run list, every list of run numbers", "why_tests_cant": "all directories, including those with braces in their name, and all run numbers", "anchors": ["CHECLabPy/utils/files.py::open_runlist_r1", "CHECLabPy/utils/files.py::open_runlist_dl1", "CHECLabPy/utils/files.py::sort_file_list"]}
{"id": "C104", "title": "Extracted files are found by the DL1 run list", "statement": "The automatic output path of extract_dl1 for the R1 file of a run is the path that open_runlist_dl1 has for the run in the same run list.", "quantifier": "every directory, every run number", "why_tests_cant": "a convention between two modules for all directory names", "anchors": ["CHECLabPy/scripts/extract_dl1.py::DL1Writer.write_dl1_file", "CHECLabPy/utils/files.py::open_runlist_r1", "CHECLabPy/utils/files.py::open_runlist_dl1"]}
{"id": "C105", "title": "Every input file of extract_dl1 gets its own output", "statement": "After extract_dl1 was run for a list of files, there is for every input an output file with exactly the events extracted from it, and all other files are unchanged; the script stops at the first input that cannot be processed and keeps what was written before.", "quantifier": "every list of input paths, every output option, every content of the files", "why_tests_cant": "all lists of paths and all coincidences of output paths", "anchors": ["CHECLabPy/scripts/extract_dl1.py::main", "CHECLabPy/scripts/extract_dl1.py::DL1Writer.write_dl1_file"]}
{"id": "C106", "title": "Plots of the mean charge", "statement": "Tables of the charge statistics can be plotted for the camera and for every pixel; each curve shows the mean charge divided by the mean amplitude of every non-empty bin, and after any number of plots the reference line reaches from the smallest to the largest amplitude drawn.", "quantifier": "every table of charge statistics, every sequence of plots", "why_tests_cant": "all tables and all sequences of calls; column names are a convention between two modules", "anchors": ["CHECLabPy/plotting/resolutions.py::ChargeMeanPlotter", "CHECLabPy/plotting/resolutions.py::bin_points", "CHECLabPy/utils/resolutions.py::ChargeStatistics.finish"]}
{"id": "C107", "title": "The mapping of a file is the mapping given", "statement": "After any history of calls, get_mapping of the closed file returns the table and the metadata given last to add_mapping, and raises KeyError if there was none; the mapping of a DL1 file is the mapping of the raw file, and appending keeps the mapping.", "quantifier": "every history of writer calls that uses the key mapping for add_mapping only, every raw file", "why_tests_cant": "all histories of calls; the mapping passes through three modules", "anchors": ["CHECLabPy/core/io/hdf5_writer.py::HDF5Writer.add_mapping", "CHECLabPy/core/io/hdf5_reader.py::HDF5Reader.get_mapping", "CHECLabPy/scripts/extract_dl1.py::DL1Writer.write_dl1_file"]}
{"id": "C108", "title": "A TargetCalib mapping can be rebuilt from a stored mapping", "statement": "A CHECLabPy mapping made from a TargetCalib mapping, and the mapping of a DL1 file, can be turned into the TargetCalib mapping again.", "quantifier": "every TargetCalib mapping, every DL1 file", "why_tests_cant": "a round trip through a file for all mappings", "anchors": ["CHECLabPy/utils/mapping.py::get_tc_mapping_from_clp_mapping", "CHECLabPy/utils/mapping.py::get_clp_mapping_from_tc_mapping", "CHECLabPy/core/io/dl1_reader.py::DL1Reader.tc_mapping"]}
{"id": "C109", "title": "Amplitude matching uses calibrated peaks with the illumination removed", "statement": "The DAC values requested by process follow from the largest calibrated sample of every pixel in each of the first 100 events, divided by the illumination profile if one is given; later events do not matter, an uneven illumination described by the profile does not matter, and a file that is not raw is refused without changing the state.", "quantifier": "every raw file with events, every calibration, every profile, every state of the matcher", "why_tests_cant": "all files and all states of the matcher", "anchors": ["CHECLabPy/calib/amplitude_matcher.py::AmplitudeMatcher._extract_amplitude", "CHECLabPy/calib/amplitude_matcher.py::AmplitudeMatcher._extract_amplitude_array", "CHECLabPy/calib/amplitude_matcher.py::AmplitudeMatcher.process"]}
{"id": "C110", "title": "The plots of an SPE file show each pixel's own fit", "statement": "A file written by extract_spe can be opened by plot_spe; the spectrum shown for a pixel is the fit to that pixel's charges on their own, with one histogram and curve for each input file and the recorded initial values, whatever the number of processes; with one process the camera image of each parameter shows at each pixel the value and error fitted to that pixel.", "quantifier": "every list of input files, every fitter and minimiser, every distribution of the pixels over processes and order of completion", "why_tests_cant": "all schedules of the processes; the data pass through two scripts and a file", "anchors": ["CHECLabPy/scripts/extract_spe.py::main", "CHECLabPy/scripts/plot_spe.py::main", "CHECLabPy/plotting/spe.py::SpectrumFitPlotter.plot"]}
{"id": "C111", "title": "The metadata of an SPE file describe the extraction", "statement": "The metadata written by extract_spe give the input files, the name of the fitter, the number of illuminations, the number of pixels and the initial values.", "quantifier": "every successful run of extract_spe", "why_tests_cant": "all inputs and configurations", "anchors": ["CHECLabPy/scripts/extract_spe.py::main"]}
{"id": "C112", "title": "Partial reads agree with the whole table", "statement": "Once a file is closed and opened, the number of rows, the column names, every range of rows, every single column, every list of columns and the iteration row by row of a table are those of the rows that read returns for it.", "quantifier": "every history of writer calls, every size of the buffers, every order of closing, every table, range and column", "why_tests_cant": "all histories and ranges; the storage format chosen by the writer decides which calls work", "anchors": ["CHECLabPy/core/io/hdf5_reader.py::HDF5Reader.get_n_rows", "CHECLabPy/core/io/hdf5_reader.py::HDF5Reader.get_column_names", "CHECLabPy/core/io/hdf5_reader.py::HDF5Reader.select_column", "CHECLabPy/core/io/hdf5_reader.py::HDF5Reader.select_columns", "CHECLabPy/core/io/dl1_reader.py::DL1Reader.iterate_over_rows"]}
{"id": "C113", "title": "The reference pulse goes to zero at both ends", "statement": "The template made by load_reference_pulse begins at 0 in a line to the fifth point, ends at 0 in a line from the tenth last point, and keeps all other points of the file.", "quantifier": "every file of at least 14 points at ascending times from 0", "why_tests_cant": "all files; the line of the tail depends on the spacing of the points", "anchors": ["CHECLabPy/waveform_reducers/nnls_pulse_extraction.py::NNLSPulseExtraction.load_reference_pulse"]}
{"id": "C114", "title": "The NNLS basis follows the template and the arguments", "statement": "The reference pulses range in equal steps from minus the length of the template to 126 ns with at least bases_bin pulses for each ns; each column of the matrix is the template delayed by the time of its pulse; waveforms of n_samples samples are accepted.", "quantifier": "every template, bases_bin and number of samples", "why_tests_cant": "all templates; units are mixed in one place", "anchors": ["CHECLabPy/waveform_reducers/nnls_pulse_extraction.py::NNLSPulseExtraction.__init__", "CHECLabPy/waveform_reducers/nnls_pulse_extraction.py::NNLSPulseExtraction._pulse_extraction"]}
{"id": "C115", "title": "Merging pulses keeps charge and mean time", "statement": "Merging joins a pulse to the group before it if and only if it comes less than the bin width after the weighted mean time of that group; total charge and weighted mean time are kept; merged pulses are at least the bin width apart and merging again changes nothing.", "quantifier": "every list of pulses of positive charge (ascending times for the distances) and every bin width", "why_tests_cant": "all lists; a recurrence whose state is a running mean", "anchors": ["CHECLabPy/waveform_reducers/nnls_pulse_extraction.py::NNLSPulseExtraction._merge_pulses"]}
{"id": "C116", "title": "The camera geometry matches its mapping", "statement": "The ctapipe geometry made from a mapping has one identifier for each position, numbered from 0 in the order of the mapping, with the positions of the mapping converted to degrees; also for the mappings of superpixels and modules made from it.", "quantifier": "every mapping and the coarse mappings made from it", "why_tests_cant": "all mappings; metadata are shared between mappings of different sizes", "anchors": ["CHECLabPy/utils/mapping.py::get_ctapipe_camera_geometry", "CHECLabPy/utils/mapping.py::get_superpixel_mapping", "CHECLabPy/utils/mapping.py::get_tm_mapping"]}
{"id": "C117", "title": "Conversion to ROOT keeps data and metadata", "statement": "convert_hd52root converts every DL1 file of at most 8e9 bytes: each metadata entry is stored once with its value, times as integers of ns, all columns and the mapping as they are; the default output replaces the extension of the input; a failed conversion changes no file.", "quantifier": "every DL1 file, output path and state of the file system", "why_tests_cant": "all metadata and paths", "anchors": ["CHECLabPy/scripts/convert_hd52root.py"]}
{"id": "C118", "title": "Labels of modules and pixels", "statement": "annotate_tm_edge_label labels exactly the modules holding the highest or lowest pixel of some column of the camera, each once per edge, with its number in at least two digits, centred on its pixels and beyond its outermost pixel; add_pixel_text places one text on each pixel or refuses the array as a whole.", "quantifier": "every mapping with distinct positions, every pixel size, every array of texts", "why_tests_cant": "all shapes of cameras and all assignments of modules", "anchors": ["CHECLabPy/plotting/camera.py::CameraImage.annotate_tm_edge_label", "CHECLabPy/plotting/camera.py::CameraImageImshow.annotate_tm_edge_label", "CHECLabPy/plotting/camera.py::CameraImage.add_pixel_text", "CHECLabPy/plotting/camera.py::CameraImageImshow.add_pixel_text"]}
{"id": "C119", "title": "Marks beside the camera", "statement": "The arrow of annotate_on_telescope_up leads from the lower to the upper point in the metadata and the four flashers of annotate_led_flasher lie symmetrically around the centre; on the image of superpixels or modules of a camera they mark the same places as on the image of its pixels.", "quantifier": "every mapping with its metadata and the coarse mappings made from it", "why_tests_cant": "all metadata; the coarse mappings share entries with the mapping they are made from", "anchors": ["CHECLabPy/plotting/camera.py::CameraImage.annotate_on_telescope_up", "CHECLabPy/plotting/camera.py::CameraImageImshow.annotate_on_telescope_up", "CHECLabPy/plotting/camera.py::CameraImage.annotate_led_flasher"]}
{"id": "C120", "title": "Error bars of charge resolution plots", "statement": "Each point of a charge resolution plot stands at the means of the charges and resolutions of one non-empty bin, with the error bar sqrt(sum of 1/charge)/n of the same points, at most 1/sqrt(n x) when every charge is at least x; on the plot relative to the requirement points, curves and error bars are divided by the requirement at the mean charge.", "quantifier": "every list of edges and of points with positive charges", "why_tests_cant": "all data sets", "anchors": ["CHECLabPy/plotting/resolutions.py::ChargeResolutionPlotter._plot", "CHECLabPy/plotting/resolutions.py::ChargeResolutionWRRPlotter._plot"]}
{"id": "C121", "title": "Which columns can be extracted", "statement": "A reducer chain of the shipped reducers can be built exactly when each reducer with an enabled column has what it needs (reference pulse, mapping, ctapipe) and the configuration has no entry with the name of a parameter of its own (n_pixels, n_samples, cls, self); the columns of the others do not matter, a missing ctapipe surfaces as ImportError only for the reducers that use it, the default columns need the reference pulse alone, and each window setting is the one in the configuration or the reducer's own default.", "quantifier": "every configuration file, every set of keyword arguments, every installation, every order of the reducers", "why_tests_cant": "all combinations of columns and installations", "anchors": ["CHECLabPy/core/chain.py::WaveformReducerChain.__init__", "CHECLabPy/core/reducer.py::WaveformReducer.__init__", "CHECLabPy/waveform_reducers/cross_correlation.py::CrossCorrelation.__init__", "CHECLabPy/waveform_reducers/ctapipe_integrators.py::CtapipeNeighbourPeakIntegrator.__init__"]}
{"id": "C122", "title": "The recorded configuration reproduces the extraction", "statement": "extract_dl1 stores the configuration of the extraction in the DL1 file; extracting the same run again with the stored configuration as configuration file makes the same reducers with the same active columns and settings.", "quantifier": "every configuration file and every run", "why_tests_cant": "all configurations", "anchors": ["CHECLabPy/scripts/extract_dl1.py::DL1Extractor.__init__", "CHECLabPy/scripts/extract_dl1.py::main", "CHECLabPy/core/io/hdf5_writer.py::HDF5Writer.add_metadata"]}
{"id": "C123", "title": "Charge and time of one window", "statement": "For the extractors with sliding windows the charge and the pulse time of a pixel are taken from the same window of the pixel's own waveform: the first window with the largest sum of the camera, of the pixel or of its neighbours' average. A window of no samples raises.", "quantifier": "every event with rows of one non-zero length, every window of at least one sample, every rule for the time within a window", "why_tests_cant": "all waveforms", "anchors": ["CHECLabPy/waveform_reducers/sliding_window.py::SlidingWindow._prepare", "CHECLabPy/waveform_reducers/sliding_window.py::SlidingWindow.t_sliding"]}
{"id": "C124", "title": "The plot of pixel masks", "statement": "The image shows a colour exactly at the pixels that are masked for some reason, the colour tells for which reason, and masks of another size raise.", "quantifier": "every three masks", "why_tests_cant": "all combinations of masks", "anchors": ["CHECLabPy/calib/pixel_masks.py::PixelMasks.plot"]}
{"id": "C125", "title": "Axes of the plots of all modules", "statement": "In the plot of the waveforms of all modules a module has amplitude labels exactly when it is the leftmost of its row and time labels exactly when it is the lowest of its column; labels of neighbours do not collide, each module stands at its place in the camera, and the grid lines go through the ticks of both axes.", "quantifier": "every layout of modules, number of samples and list of ticks", "why_tests_cant": "all layouts", "anchors": ["CHECLabPy/plotting/waveform.py::WaveformPlotter"]}
{"id": "C126", "title": "Saving a figure", "statement": "Saving a figure makes the missing directories of its path, writes the figure with its labels to the file given, reports that file, closes the figure and leaves all other files as they were; a camera image in a PDF file gets a cropped copy beside it when PyPDF2 is installed. A file in the way of a directory raises.", "quantifier": "every disk, path and figure", "why_tests_cant": "all paths and contents of the disk", "anchors": ["CHECLabPy/utils/files.py::create_directory", "CHECLabPy/plotting/setup.py::Plotter.save", "CHECLabPy/plotting/camera.py::CameraImage.save", "CHECLabPy/plotting/camera.py::CameraImage.crop"]}
{"id": "C127", "title": "Reading simulated events", "statement": "A file whose first event has data of a telescope with its pixels inside the camera can be opened; one without events or without data in the first event raises IndexError. A loop over the reader hands out one waveform per event of the file, as many as its length says, in order, each with the samples and the true charges of the reader's telescope, the pixels reordered so that each camera pixel has the data of the simulated pixel at its place.", "quantifier": "every list of array events and every arrangement of the pixels of simulation and camera", "why_tests_cant": "all files", "anchors": ["CHECLabPy/core/io/simtel.py::SimtelReader.__init__", "CHECLabPy/core/io/simtel.py::SimtelReader._build_waveform", "CHECLabPy/core/io/simtel.py::SimtelReader.__iter__", "CHECLabPy/core/io/simtel.py::SimtelReader.n_events"]}
{"id": "C128", "title": "Columns read from a reducer", "statement": "The columns of a reducer can be read as attributes: before the first event that raises ValueError, and after an event was given to the reducer they have the values of this event, the same as in the dictionary it returned, whatever events came before. A class that only inherits columns returns an empty dictionary.", "quantifier": "every class of columns, every sequence of events", "why_tests_cant": "histories of events", "anchors": ["CHECLabPy/core/reducer.py::column.__get__", "CHECLabPy/core/reducer.py::WaveformReducer._prepare", "CHECLabPy/core/reducer.py::WaveformReducer._get_dict", "CHECLabPy/core/reducer.py::WaveformReducer.process"]}
{"id": "C129", "title": "Memory of the writer", "statement": "A writer keeps less than half a gigabyte of frames in memory for each table: frames wait until half a gigabyte is reached and then all go to the file. At every moment the rows in the file followed by the waiting ones are all the rows that were appended, in order; when writing fails the frames are kept.", "quantifier": "every history of calls, every measure of memory, every initial content of the file", "why_tests_cant": "arbitrarily long histories", "anchors": ["CHECLabPy/core/io/hdf5_writer.py::HDF5Writer.append", "CHECLabPy/core/io/hdf5_writer.py::HDF5Writer._append_to_store"]}
{"id": "C130", "title": "Pedestals of pixels", "statement": "With a run of at least 50 events, a constant pedestal added to the samples of each pixel leaves the baseline-subtracted waveforms and the average waveforms (of the camera and per pixel) unchanged. A shorter run leaves a part of the pedestal: the part of the buffer that is still empty.", "quantifier": "every run of events of one shape, every pedestal per pixel", "why_tests_cant": "all pedestals and all waveforms", "anchors": ["CHECLabPy/utils/waveform.py::BaselineSubtractor.__init__", "CHECLabPy/utils/waveform.py::BaselineSubtractor.subtract", "CHECLabPy/utils/waveform.py::get_average_wf", "CHECLabPy/utils/waveform.py::get_average_wf_per_pixel"]}
{"id": "C131", "title": "Numbering of the pixels", "statement": "When the pixels of a camera are numbered differently, the columns of the reducers AverageWF, Saturation, Common, CrossCorrelation, CrossCorrelationLocal, SlidingWindow and SlidingWindowLocal have the same values with the pixels numbered differently; the extraction times of the event are the same.", "quantifier": "every event, every renumbering, every configuration", "why_tests_cant": "all permutations of all events", "anchors": ["CHECLabPy/waveform_reducers/average_wf.py::AverageWF._prepare", "CHECLabPy/waveform_reducers/saturation.py::Saturation.saturation_sum", "CHECLabPy/waveform_reducers/common.py::Common.waveform_max", "CHECLabPy/waveform_reducers/cross_correlation.py::CrossCorrelation._prepare", "CHECLabPy/waveform_reducers/cross_correlation.py::CrossCorrelationLocal._prepare", "CHECLabPy/waveform_reducers/sliding_window.py::SlidingWindow._prepare", "CHECLabPy/waveform_reducers/sliding_window.py::SlidingWindowLocal._prepare"]}
{"id": "C132", "title": "Gain", "statement": "When all samples of an event are multiplied by the same positive gain, the reducers AverageWF, Saturation, Common, CrossCorrelation, CrossCorrelationLocal, SlidingWindow, SlidingWindowLocal and SPAmplitude find the same extraction times and pulse times, and multiply charges, heights, means, standard deviations and maxima by the gain.", "quantifier": "every event, every positive gain, every configuration", "why_tests_cant": "all gains and all events", "anchors": ["CHECLabPy/waveform_reducers/average_wf.py::AverageWF.charge_averagewf", "CHECLabPy/waveform_reducers/common.py::Common.waveform_rms", "CHECLabPy/waveform_reducers/cross_correlation.py::CrossCorrelation.t_cc", "CHECLabPy/waveform_reducers/cross_correlation.py::CrossCorrelation.charge_cc", "CHECLabPy/waveform_reducers/sliding_window.py::SlidingWindow.charge_sliding", "CHECLabPy/waveform_reducers/superpixel.py::SPAmplitude.sp_max"]}
{"id": "C133", "title": "Matching with a run without events", "statement": "Processing a run without events raises ValueError while a superpixel that is not masked has not finished: no requested DAC value, previous DAC value or step counter changes (apart from the reset for the second pass that was due), so that the same run can be taken again. With all superpixels finished in both passes the table is returned as for any other run.", "quantifier": "every state of the matcher, every number of pixels", "why_tests_cant": "all states reachable in all histories of runs", "anchors": ["CHECLabPy/calib/amplitude_matcher.py::AmplitudeMatcher.process", "CHECLabPy/calib/amplitude_matcher.py::AmplitudeMatcher._get_next_dac_nb"]}
{"id": "C134", "title": "Interpolation between samples", "statement": "The line interpolation of the timing reducer returns, for every entry of its arrays on its own, the value of the line through the two points: the given values at the two positions and a value between them in between; two points at one position give the first value (NaN if the values are equal or the position itself is asked for). The peak interpolation returns position and height of the vertex of the parabola through three samples: for a sample that is not below its neighbours and above one of them, the position is within half a sample and the height at least that of the sample; three equal samples give NaN.", "quantifier": "all rational positions and values, arrays of any length", "why_tests_cant": "all values, including the singular ones", "anchors": ["CHECLabPy/waveform_reducers/timing.py::Timing.interpolate", "CHECLabPy/waveform_reducers/timing.py::Timing.interpolate_peak"]}
{"id": "C135", "title": "Running statistics of modules", "statement": "The running statistics of the cookbook give one row for each module with data, in ascending order, with the sum, the sum of squares, the number, the mean and the standard deviation of its charges. They depend neither on the memory limit nor on the division into events nor on their order, and the means calculated by pandas from the whole table stand beside them.", "quantifier": "all sequences of events, all memory limits", "why_tests_cant": "all orders and divisions of the data", "anchors": ["examples/pandas_cookbook.py::get_running_mean"]}
{"id": "C136", "title": "Extraction of the reference pulse", "statement": "The extracted reference pulse has one row per sample, one nanosecond apart from zero on, and area one; with an area of zero no value is a number. Identical pulses arriving at different times give the shape of the pulse with its largest value in row 60. The pulse does not depend on the gain of the run, nor (for at least 50 events) on the pedestals.", "quantifier": "all runs, all numbers of pixels and samples, all positive gains", "why_tests_cant": "all runs and gains", "anchors": ["examples/extract_reference_pulse.py::main", "CHECLabPy/utils/waveform.py::get_average_wf"]}
{"id": "C137", "title": "Amplitude matching ends at the best DAC value", "statement": "When the amplitude matching reports completion, the DAC value of every superpixel that is not flagged brings its average amplitude as close to the aim as any allowed DAC value (10 to 255) does, for every response that does not increase with the DAC value and every allowed table of starting values.", "quantifier": "all non-increasing responses, all starting tables, all flags, any number of calls", "why_tests_cant": "no test covers all responses and histories of calls", "anchors": ["CHECLabPy/calib/amplitude_matcher.py::AmplitudeMatcher.process", "CHECLabPy/calib/amplitude_matcher.py::AmplitudeMatcher._get_next_dac_nb"]}
{"id": "C138", "title": "Results of a spectrum fitter belong together", "statement": "After any use of a spectrum fitter (fits, completed or not, loading of configurations, updates of parameters) the fitted values it reports are those found for the charge histogram it reports, and the fitted curve it reports runs from the first to the last edge of that histogram.", "quantifier": "every sequence of fits, configurations and updates, every minimiser, including one that raises", "why_tests_cant": "failures of the minimiser and sequences of operations cannot be enumerated", "anchors": ["CHECLabPy/core/spectrum_fitter.py::SpectrumFitter.apply", "CHECLabPy/core/spectrum_fitter.py::SpectrumFitter.fit_result_curve", "CHECLabPy/core/spectrum_fitter.py::SpectrumFitter.charge_histogram", "CHECLabPy/core/spectrum_fitter.py::SpectrumFitter.load_config"]}
{"id": "C139", "title": "Arrival time", "statement": "If all pulses of an event arrive the same number of samples later and stay inside the readout, the extracted charges, heights, widths and rise times are the same and every extracted time is larger by that number of samples.", "quantifier": "every event, delay, configuration of the windows and reference pulse; all reducers of the chain", "why_tests_cant": "arrival times, pulse shapes and their interplay with the edges of the readout cannot be enumerated", "anchors": ["CHECLabPy/waveform_reducers/average_wf.py::AverageWF", "CHECLabPy/waveform_reducers/saturation.py::Saturation", "CHECLabPy/waveform_reducers/common.py::Common", "CHECLabPy/waveform_reducers/superpixel.py::SPAmplitude", "CHECLabPy/waveform_reducers/sliding_window.py::SlidingWindow", "CHECLabPy/waveform_reducers/sliding_window.py::SlidingWindowLocal", "CHECLabPy/waveform_reducers/cross_correlation.py::CrossCorrelation", "CHECLabPy/waveform_reducers/cross_correlation.py::CrossCorrelationLocal", "CHECLabPy/waveform_reducers/timing.py::Timing"]}
{"id": "C140", "title": "Calibration with the shipped tables", "statement": "With the time corrections shipped with the package the time calibration accepts every R1 event of at most 2048 pixels and at least two samples: each pixel is shifted by its own correction, every corrected sample away from the edges is a weighted mean of two neighbouring samples at most three samples away, and flat waveforms are unchanged; raw (integer) samples raise TypeError. With the shipped illumination profile folding and unfolding undo each other for every image of the camera and change no pixel by more than ten percent.", "quantifier": "every event (number of pixels up to 2048, number of samples, sample values), every image of the camera, every rounding of the numbers in the files by at most a millionth", "why_tests_cant": "a single correction that is a whole number would raise ZeroDivisionError for every event; no test uses the tables with all waveforms", "anchors": ["CHECLabPy/calib/time_calibrator.py::TimeCalibrator.__init__", "CHECLabPy/calib/time_calibrator.py::TimeCalibrator.__call__", "CHECLabPy/calib/data/time_correction.dat", "CHECLabPy/calib/illumination_profile.py::IlluminationProfile", "CHECLabPy/calib/data/illumination_profile/mpik_190414.dat"]}
{"id": "C141", "title": "Rows of an extracted run", "statement": "Each row written for a processed event has the pixel's index, the times and first cell of the event, the pixel's rolling baseline over the samples read so far, and the values of the enabled reducer columns computed from the time-corrected samples minus that baseline. Every column has one entry per pixel or one value for the event; others are refused, never padded or cut. A run of raw (R0) data produces a file without events whose every lookup fails; a reducer column named like one of the extractor's own columns stops every extraction before the first event is written.", "quantifier": "every run (numbers of events and pixels, samples, skipped events), every chain of reducers, simulation or data", "why_tests_cant": "runs, chains and configurations cannot be enumerated; the state of baseline and reducers is carried from event to event", "anchors": ["CHECLabPy/scripts/extract_dl1.py::DL1Extractor.__init__", "CHECLabPy/scripts/extract_dl1.py::DL1Extractor.__call__", "CHECLabPy/scripts/extract_dl1.py::main", "CHECLabPy/utils/waveform.py::BaselineSubtractor", "CHECLabPy/core/chain.py::WaveformReducerChain"]}
{"id": "C142", "title": "Pedestals end to end", "statement": "Adding a constant to all samples of each pixel (its pedestal) changes nothing in the extracted file but the column of the subtracted baseline, which is larger by exactly that constant.", "quantifier": "every run of at least 50 events, every pedestal per pixel, every chain of reducers, with or without time correction, every cast of the stored columns", "why_tests_cant": "runs, pedestals and reducers cannot be enumerated", "anchors": ["CHECLabPy/scripts/extract_dl1.py::DL1Extractor.__call__", "CHECLabPy/scripts/extract_dl1.py::main", "CHECLabPy/utils/waveform.py::BaselineSubtractor", "CHECLabPy/calib/time_calibrator.py::TimeCalibrator.__call__", "CHECLabPy/scripts/extract_dl1.py::DL1Writer"]}
{"id": "C143", "title": "Skipped events leave no trace", "statement": "What is extracted for the processed events does not depend on the samples of stale events and events with missing packets, which are skipped.", "quantifier": "every pair of runs with the same processed events", "why_tests_cant": "the number and position of skipped events cannot be enumerated", "anchors": ["CHECLabPy/scripts/extract_dl1.py::main", "CHECLabPy/scripts/extract_dl1.py::DL1Extractor.__init__", "CHECLabPy/utils/waveform.py::BaselineSubtractor"]}
{"id": "C144", "title": "The fit minimises a likelihood", "statement": "The function handed to the minimiser by a spectrum fit is, for all charges and all parameter values inside their limits with positive width and light level, a finite number: minus twice the logarithm of the probability of the histogram counts, with expectations proportional to the spectrum and with the histogram's area. It never raises. With a single bin it is infinite everywhere.", "quantifier": "every number of illuminations, all charges, every number of bins and range, every earlier use of the fitter, all parameter values", "why_tests_cant": "charges and parameter values are continuous; the division by the area of the spectrum happens at values the minimiser chooses", "anchors": ["CHECLabPy/core/spectrum_fitter.py::SpectrumFitter._minimize_function", "CHECLabPy/core/spectrum_fitter.py::SpectrumFitter.apply", "CHECLabPy/spectrum_fitters/mapm.py::MAPMFitter", "CHECLabPy/spectrum_fitters/gentile.py::SiPMGentileFitter", "CHECLabPy/stats/pdf.py"]}
{"id": "C145", "title": "Units of the charges", "statement": "Expressing all charges, and the range of the histogram, in other units and with another origin changes neither histogram counts nor the function that is minimised once pedestal position, widths and the charge of a photo-electron are expressed likewise; the best parameters are the same.", "quantifier": "all charges, every positive factor and every offset, all parameter values, both fitters", "why_tests_cant": "factors, offsets and charges are continuous", "anchors": ["CHECLabPy/core/spectrum_fitter.py::SpectrumFitter._minimize_function", "CHECLabPy/core/spectrum_fitter.py::SpectrumFitter.apply", "CHECLabPy/spectrum_fitters/mapm.py::MAPMFitter", "CHECLabPy/spectrum_fitters/gentile.py::SiPMGentileFitter", "CHECLabPy/stats/pdf.py"]}
{"id": "C146", "title": "No crosstalk", "statement": "Without optical crosstalk the SiPM spectrum equals the MAPM spectrum at every charge exactly for the light levels at which one photo-electron has a probability of at least 1e-4; for the others it consists of the pedestal alone and lies below the MAPM spectrum everywhere.", "quantifier": "all charges, parameters and light levels", "why_tests_cant": "the loops leave out terms depending on the values reached; parameters are continuous", "anchors": ["CHECLabPy/spectrum_fitters/gentile.py::sipm_gentile_spe", "CHECLabPy/spectrum_fitters/mapm.py::mapm_spe", "CHECLabPy/stats/pdf.py"]}
{"id": "C147", "title": "Simultaneous fits", "statement": "The function minimised for several illuminations is the sum of those minimised for each illumination alone at the shared parameters and its own light level; the order in which the illuminations are given does not matter.", "quantifier": "every number of illuminations, all charges, every order, all parameter values", "why_tests_cant": "numbers of illuminations, orders and charges cannot be enumerated", "anchors": ["CHECLabPy/core/spectrum_fitter.py::SpectrumFitter._minimize_function", "CHECLabPy/core/spectrum_fitter.py::SpectrumFitter.apply", "CHECLabPy/spectrum_fitters/mapm.py::MAPMFitter", "CHECLabPy/spectrum_fitters/gentile.py::SiPMGentileFitter", "CHECLabPy/stats/pdf.py"]}
{"id": "C148", "title": "Plot mode of extract_spe", "statement": "Called with --pixel, extract_spe shows the fit to the charges of that pixel on its own, titled with the number as given, with the recorded initial values, and writes nothing. It is what plot_spe draws for the pixel from the file the extraction would write, with any number of processes. Numbers below zero count from the last pixel of each file; numbers that are no pixel of one of the files raise IndexError.", "quantifier": "every list of input files, every fitter, minimiser and configuration, every number, every schedule of the extraction it is compared with", "why_tests_cant": "the comparison is with all schedules of the other mode, for all charges and pixels", "anchors": ["CHECLabPy/scripts/extract_spe.py::main", "CHECLabPy/plotting/spe.py::SpectrumFitPlotter.plot", "CHECLabPy/scripts/plot_spe.py::main"]}
{"id": "C149", "title": "Opening a file by its path", "statement": "WaveformReader.from_path gives, for every existing file, a TIOReader if the file is an R0 or R1 file, otherwise a SimtelReader if it is a simulation, and otherwise None; it raises for none of them. extract_dl1 stops at the first file that is neither, keeping the outputs of the files before it.", "quantifier": "every content of the file, compressed or not, every class hierarchy for the search itself, every list of inputs", "why_tests_cant": "the outcome depends on the order of the classes and on every possible content, including contents too short for the markers", "anchors": ["CHECLabPy/core/io/waveform.py::WaveformReader.from_path", "CHECLabPy/core/io/tio.py::TIOReader.is_compatible", "CHECLabPy/core/io/simtel.py::SimtelReader.is_compatible", "CHECLabPy/scripts/extract_dl1.py::main"]}
{"id": "C150", "title": "A load of pixel masks that fails changes nothing", "statement": "If PixelMasks._load_file raises, with or without merging, the masks dead, low and bad_hv are what they were before the call.", "quantifier": "every file, every masks, both values of merge", "why_tests_cant": "the state after an exception depends on which of three assignments already happened, for every combination of sizes", "anchors": ["CHECLabPy/calib/pixel_masks.py::PixelMasks._load_file"]}
{"id": "C151", "title": "The default number of passes is enough for the unfolding", "statement": "nnls(A, b) with the default number of iterations returns amplitudes that no non-negative amplitudes beat.", "quantifier": "every basis and waveform, exact least-squares solver, no ties", "why_tests_cant": "how many passes an active-set method needs is not bounded by any sample of bases; optimality is over a continuum of alternatives", "anchors": ["CHECLabPy/waveform_reducers/nnls_pulse_extraction.py::nnls"]}
{"id": "C152", "title": "Gain end to end", "statement": "Multiplying all samples of a run by the same positive gain changes nothing in the extracted file but the amplitudes: the subtracted baseline and the charges, means and maxima of AverageWF, Saturation and Common are multiplied by the gain, their standard deviations too, and event numbers, pixels, times, cells, true charges and extraction times stay. Either both runs can be extracted or both fail with the same exception.", "quantifier": "every run (any number of events, skipped ones included), every positive gain, every configuration of these reducers, with or without time correction, every cast of the stored columns", "why_tests_cant": "the rolling baseline mixes the samples of all earlier events and the reducers look for maxima, so no set of sample runs settles that everything in the pipeline is homogeneous", "anchors": ["CHECLabPy/scripts/extract_dl1.py::DL1Extractor.__call__", "CHECLabPy/utils/waveform.py::BaselineSubtractor", "CHECLabPy/calib/time_calibrator.py::TimeCalibrator", "CHECLabPy/core/chain.py::WaveformReducerChain.process"]}
{"id": "C153", "title": "Shape of the DAC table", "statement": "Every table of DAC values that AmplitudeMatcher.process returns has the shape (32, 16) that its documentation promises: entry [module, superpixel] is the value to set in superpixel 16 * module + superpixel. The third value of the result has the mean amplitude of each pixel over the events of the file.", "quantifier": "every matcher (any number of pixels, starting values and flags), every history of calls and of writes into the arrays shared with the caller", "why_tests_cant": "the two return statements give different shapes, and which of them is reached depends on the whole history of measured amplitudes", "anchors": ["CHECLabPy/calib/amplitude_matcher.py::AmplitudeMatcher.process"]}
{"id": "C154", "title": "Ownership of the DAC table", "statement": "A table of DAC values returned by AmplitudeMatcher.process belongs to the caller: editing it (to clip or to mask superpixels before setting them) changes no later result of the matcher.", "quantifier": "every matcher, every history of calls, every entry and value written into the table, every sequence of calls afterwards", "why_tests_cant": "whether an edit has an effect depends on which later call reads the shared memory; a test compares the values of one call", "anchors": ["CHECLabPy/calib/amplitude_matcher.py::AmplitudeMatcher.process", "CHECLabPy/calib/amplitude_matcher.py::AmplitudeMatcher._get_next_dac"]}
{"id": "C155", "title": "Extraction with the built-in configuration", "statement": "extract_dl1 on a camera or simulated run, with the time corrections shipped with the package, a readable reference pulse of positive area and no configuration file, finishes without an exception. Each processed event can then be read from the file by its number and has one row per pixel, with the columns t_cpu, t_tack, first_cell_id, baseline_subtracted, mc_true if the reader has it, and the twelve columns of the built-in table, no others. Their values are those of the time-aligned waveforms minus the rolling baseline: charge_averagewf sums six samples around the clamped maximum of the camera average, charge_cc and height_cc weight the waveform with the reference pulse at the best match of the camera average, t_cc is the vertex at that match, saturation_sum adds the last four samples, the others are means and standard deviations of the first twenty, last twenty and all samples. Stale and incomplete events raise IndexError. Without a reference pulse the program stops before it looks at an event.", "quantifier": "every run of at most 2048 pixels and at least 20 samples per waveform, every content of the waveforms, every order in which the reducer classes are found, every pulse, whatever the classes not switched on do and whatever is in memory behind the arrays", "why_tests_cant": "a test has one run and one order of the classes; the values depend on the history of the run through the rolling baseline", "anchors": ["CHECLabPy/scripts/extract_dl1.py::DL1Extractor", "CHECLabPy/scripts/extract_dl1.py::main", "CHECLabPy/core/chain.py::WaveformReducerChain", "CHECLabPy/waveform_reducers/cross_correlation.py::CrossCorrelation", "CHECLabPy/waveform_reducers/average_wf.py::AverageWF", "CHECLabPy/waveform_reducers/common.py::Common", "CHECLabPy/waveform_reducers/saturation.py::Saturation"]}
{"id": "C156", "title": "The charges of the fits are those of the DL1 files", "statement": "extract_spe on files made by extract_dl1 fits, for each pixel of the camera, exactly the entries of the chosen column in the rows of this pixel, one per processed event and in the order of the events, one list per file in the order of the command line; what other pixels hold, or how they are distributed over processes, makes no difference, and plot_spe shows this fit. In one process the script writes a file exactly when every pixel can be fitted. A column one of the files does not have is a KeyError. With the built-in configuration of extract_dl1 and the column charge_cc, the charges of a pixel are its waveforms (time-aligned, minus the rolling baseline) weighted with the reference pulse at the best match of the camera.", "quantifier": "every list of DL1 files with the same number of pixels and at least one processed event each, every column of numbers, every fitter, every minimiser, every distribution of the pixels over processes, every way the tables were flushed while the files were written", "why_tests_cant": "the rows of all pixels and events are reshaped by position: a test on one file does not show that no order of flushing or of events puts the charges of one pixel into the spectrum of another", "anchors": ["CHECLabPy/scripts/extract_spe.py::main", "CHECLabPy/core/io/dl1_reader.py::DL1Reader.select_column", "CHECLabPy/scripts/extract_dl1.py::DL1Extractor"]}
{"id": "C157", "title": "A configuration file decides which columns are extracted, and with which windows", "statement": "extract_dl1 with a configuration file that switches on any of the columns of AverageWF, Common (but waveform_max), CrossCorrelation and Saturation and sets window_size, window_shift, t_extract or t_event extracts every run without an exception and writes exactly the columns switched on. charge_averagewf is the sum of window_size samples from window_shift samples before the time on (t_extract, or the time of the camera between samples 10 and n-10), saturation_sum the sum from window_shift samples before t_event (or the time of the camera) to the end, counted from the end of the waveform if that is before its start. An entry window_shift moves both; without it they use 3 and 4. The reference pulse is needed exactly if a column of CrossCorrelation is switched on: without it the program then stops before the first event, and otherwise the path is not looked at.", "quantifier": "every set of these columns, all window settings whose window does not start before the waveform, every run, every order of the classes, every flushing of the tables", "why_tests_cant": "a test covers one file; the settings of one reducer are handed to all of them, and that no combination of columns and settings changes the others or fails needs all files", "anchors": ["CHECLabPy/core/chain.py::WaveformReducerChain", "CHECLabPy/waveform_reducers/average_wf.py::AverageWF", "CHECLabPy/waveform_reducers/saturation.py::Saturation", "CHECLabPy/scripts/extract_dl1.py::DL1Extractor"]}
{"id": "C158", "title": "Flagging a superpixel while the matching is under way", "statement": "A superpixel that is flagged in the array given to AmplitudeMatcher as bad_hv while the matching is under way is treated like one flagged from the start: it has the DAC value 255 in every table returned from then on.", "quantifier": "every matcher with an array of flags, every history of calls and writes before, every superpixel, every sequence of calls afterwards", "why_tests_cant": "whether the flag has an effect depends on the stage the superpixel and the passes have reached; a test flags at one moment", "anchors": ["CHECLabPy/calib/amplitude_matcher.py::AmplitudeMatcher.__init__", "CHECLabPy/calib/amplitude_matcher.py::AmplitudeMatcher._get_next_dac_nb"]}
{"id": "C159", "title": "Colour limits of the camera image made of cells", "statement": "After any sequence of images, chosen limits and resets of a CameraImageImshow, the colour limits are the ones chosen if they were not reset since, and otherwise the smallest and largest number of the image shown.", "quantifier": "every number of rows and columns, every different positions of the pixels inside them, every sequence of images of any size with missing values, set_limits_minmax and reset_limits", "why_tests_cant": "limits depend on the whole history and on which cells of the grid have no pixel; a test shows one image of the full camera", "anchors": ["CHECLabPy/plotting/camera.py::CameraImageImshow.__init__", "CHECLabPy/plotting/camera.py::CameraImageImshow.image", "CHECLabPy/plotting/camera.py::CameraImageImshow.set_limits_minmax", "CHECLabPy/plotting/camera.py::CameraImageImshow.reset_limits"]}
{"id": "C160", "title": "Charge spectrum of a pixel beside that of all pixels", "statement": "The charge spectrum plot of an extracted file has a thousand equal bins between the least and the largest charge of the camera; the first curve is the distribution of the charges of all pixels and events, the second that of the chosen pixel alone, in the same bins, and each encloses the area 1. A pixel outside the camera gives no curve and a column outside the file a KeyError.", "quantifier": "every file made by extract_dl1 with any number of pixels and events, every column of numbers, every pixel number", "why_tests_cant": "the curves are normalised separately and share edges taken from the data of both; a test has one file and cannot see whether a value is in the wrong bin or curve", "anchors": ["examples/plot_charge_spectrum.py::main"]}
{"id": "C161", "title": "Settings of a plotter do not depend on earlier plotters", "statement": "The matplotlib settings in force after a plotter was made are those its class and arguments give in a new session, whatever plotters were made and closed before.", "quantifier": "every session, every sequence of plotters of all classes made with any arguments and closed, every class and arguments of the last one, every setting", "why_tests_cant": "settings are global and updated by every constructor; a test makes one plotter in a new process", "anchors": ["CHECLabPy/plotting/setup.py::Plotter.__init__", "CHECLabPy/plotting/setup.py::Plotter.golden_figsize", "CHECLabPy/plotting/camera.py::CameraImage.__init__", "CHECLabPy/plotting/waveform.py::CameraPixelWaveformPlotter.__init__"]}
{"id": "C162", "title": "Closed plotters leave no figure open", "statement": "A program that closes (or successfully saves) every plotter it makes leaves no figure of theirs open, and figures of the caller whose axes it did not use stay open.", "quantifier": "every sequence of plotters of all classes, with axes of the caller or of earlier plotters or without, closed in any order", "why_tests_cant": "open figures accumulate over a program and depend on which plotters share them; a test closes everything between cases", "anchors": ["CHECLabPy/plotting/setup.py::Plotter.close", "CHECLabPy/plotting/setup.py::Plotter.save", "CHECLabPy/plotting/waveform.py::CameraTMWaveformPlotter.__init__", "CHECLabPy/plotting/waveform.py::CameraPixelWaveformPlotter.__init__", "CHECLabPy/plotting/spe.py::SpectrumFitPlotter.__init__", "CHECLabPy/scripts/plot_spe.py::SPECamera.__init__"]}
{"id": "C163", "title": "Conversions with the shipped SiPM data sheet", "statement": "In a data sheet whose queried column has missing cells, a measured value gives the cells of its row, and a value between two neighbouring measured values gives the point on the straight line through the cells of their two rows, NaN where one of them is missing. In the shipped sheet every value in the measured range of any quantity is accepted and comes back as given, and converting any known result back gives the value.", "quantifier": "every table, every order of its rows, missing cells anywhere, distinct numbers in the queried column with at least three of them (or at most four rows), every query", "why_tests_cant": "the gain of the shipped sheet is missing at both ends; a test converts one value in the middle of the complete columns", "anchors": ["CHECLabPy/calib/sipm_data_sheet.py::SiPMDataSheetConverter.__call__", "CHECLabPy/calib/sipm_data_sheet.py::SiPMDataSheetConverter.__init__"]}
{"id": "C164", "title": "Gain of a run extracted by the program's own chain", "statement": "extract_dl1, with its built-in table or any configuration file of the columns of AverageWF, Common (but waveform_max), CrossCorrelation and Saturation, extracts a run and the same run with all samples multiplied by a positive gain. Both files have the same events, pixels and columns; charges, heights, means and the subtracted baseline are multiplied by the gain, variances by its square, and all other columns are the same, the time of the correlation if the best match is inside the readout.", "quantifier": "every run of at most 2048 pixels and at least 20 samples, every positive gain, every configuration of these columns and windows, every pulse of positive area, every order of the classes, every flushing of the tables and cast of the columns", "why_tests_cant": "a test has one run; the program is never run on the same run with another gain", "anchors": ["CHECLabPy/scripts/extract_dl1.py::DL1Extractor.__call__", "CHECLabPy/core/chain.py::WaveformReducerChain.process", "CHECLabPy/waveform_reducers/cross_correlation.py::CrossCorrelation._prepare", "CHECLabPy/utils/waveform.py::BaselineSubtractor.subtract"]}
{"id": "C165", "title": "Charge resolution and charge statistics of the same charges agree", "statement": "A ChargeResolution and a ChargeStatistics that were given the same charges (none of them NaN) list the same pixels and true charges (but for a true charge of 0, which has no resolution) with the same counts, and the square of the absolute resolution is the square of the standard deviation plus the square of the difference between mean and true charge, plus the true charge for simulations. For simulations no resolution is below the photon-statistics limit drawn by the plots, and it is at the limit exactly if every measured charge is the true one.", "quantifier": "every pair of sessions of add and finish with the same charges in any portions and order, every size of the frames in memory, both values of mc_true", "why_tests_cant": "the two classes are tested apart, with a few charges each; the relation must hold whatever is added in whatever portions", "anchors": ["CHECLabPy/utils/resolutions.py::ChargeResolution.finish", "CHECLabPy/utils/resolutions.py::ChargeStatistics.finish", "CHECLabPy/plotting/resolutions.py::ChargeResolutionPlotter.poisson"]}
{"id": "C166", "title": "Limiting the number of events only cuts the file", "statement": "extract_dl1 --maxevents N makes the file which the extraction of the whole run makes, cut after the first N events: the same rows for every event that it has, in the same order, and it succeeds if the other does.", "quantifier": "every run, every N, every chain of reducers with any state, every flushing of the tables and cast of the columns", "why_tests_cant": "a test extracts one short run; nobody compares a limited with a full extraction for every N", "anchors": ["CHECLabPy/scripts/extract_dl1.py::main", "CHECLabPy/scripts/extract_dl1.py::DL1Writer.write_dl1_file", "CHECLabPy/core/io/tio.py::TIOReader.__init__", "CHECLabPy/utils/waveform.py::BaselineSubtractor.__init__"]}
{"id": "C167", "title": "The numbers of the pixels do not matter to the extracted file", "statement": "extract_dl1, with the chain it builds from its table of columns or a configuration file, makes of the same run with its pixels numbered otherwise a file with the same rows under the other numbers: the row of a pixel is, before the conversion to the type of the column, the row it had under its old number, in every column; the time of the correlation if the best match is inside the readout. For a run which is not simulated the pixels that change places need the same entry in the table of time corrections, and that condition is needed.", "quantifier": "every run of up to 2048 pixels, every renumbering of its pixels, every configuration with columns of the four default reducers, every reference pulse of positive area, every event and pixel", "why_tests_cant": "tests feed one recorded file; no test extracts the same run twice with other pixel numbers", "anchors": ["CHECLabPy/scripts/extract_dl1.py::DL1Extractor.__call__", "CHECLabPy/utils/waveform.py::BaselineSubtractor.subtract", "CHECLabPy/calib/time_calibrator.py::TimeCalibrator.__call__", "CHECLabPy/core/chain.py::WaveformReducerChain.process"]}
{"id": "C168", "title": "Other pixels reach the row of a pixel only through two times", "statement": "If two runs are the same for a pixel, whatever its neighbours and all other pixels recorded, the files extract_dl1 makes with its own chain have equal rows for that pixel, before the conversion to the type of the column, in all columns but those which need a time of the camera. t_averagewf and charge_averagewf are equal if the sum over the camera has its maximum at the same sample or t_extract is set, saturation_sum likewise or if t_event is set (as it is in the built-in table), charge_cc and height_cc if the reference pulse fits both cameras best at the same sample, t_cc too if that sample is inside the readout.", "quantifier": "every pair of runs that agree in one pixel, every pixel, every configuration with columns of the four default reducers, every reference pulse of positive area, every event", "why_tests_cant": "tests look at single events; the influence of all possible contents of 2047 other pixels cannot be sampled", "anchors": ["CHECLabPy/scripts/extract_dl1.py::DL1Extractor.__call__", "CHECLabPy/utils/waveform.py::BaselineSubtractor.subtract", "CHECLabPy/waveform_reducers/average_wf.py::AverageWF", "CHECLabPy/waveform_reducers/cross_correlation.py::CrossCorrelation"]}
{"id": "C169", "title": "An event reaches only the rows of the fifty events after it", "statement": "In the file extract_dl1 makes with its own chain the rows of a processed event depend, before the conversion to the type of the column, on this event and the 49 processed events before it and on nothing else recorded; for the first 49 processed events also on the recorded events, skipped ones included, which still fill the buffer of the baseline, and that exception is real. The time of the correlation is included if the best match is inside the readout.", "quantifier": "every pair of runs with the same events skipped, every processed event at which the two agree in these events, every configuration with columns of the four default reducers, every reference pulse of positive area", "why_tests_cant": "an influence of an event on far later ones through state kept in an object is not seen by tests of short runs", "anchors": ["CHECLabPy/scripts/extract_dl1.py::DL1Extractor.__call__", "CHECLabPy/utils/waveform.py::BaselineSubtractor", "CHECLabPy/core/chain.py::WaveformReducerChain.process"]}
{"id": "C170", "title": "What an SPE fit takes from the charges", "statement": "The entries of a pixel in the file extract_spe writes depend on the charges of this pixel within the range of the fitter only, and not on their order: events may be shuffled, charges outside the range and other pixels may be anything. With the same numbers of events, files of shuffled events give the same SPE file or the same exception.", "quantifier": "every minimiser and spectrum, every fitter, all charges of all files, every distribution of the pixels over processes, whatever was fitted before", "why_tests_cant": "a dependence on the order of events or on other pixels needs pairs of runs, which tests do not compare", "anchors": ["CHECLabPy/core/spectrum_fitter.py::SpectrumFitter.apply", "CHECLabPy/scripts/extract_spe.py::PixelFitApplier._apply_pixel", "CHECLabPy/scripts/extract_spe.py::main"]}
{"id": "C171", "title": "Check plot of the timing", "statement": "With plot_timing the Timing reducer shows, for every event it can process, the pixel with the largest and the one with the smallest sample at the event time with the values it reports for them; the dot of the pulse is at the tip of the drawn pulse, the columns are those extracted without the plot, and figures of the user stay open.", "quantifier": "every event, every setting, every set of open figures", "why_tests_cant": "the plot is shown for a second and closed; no test looks at it, and its effect on other figures shows only in interactive sessions", "anchors": ["CHECLabPy/waveform_reducers/timing.py::Timing._post", "CHECLabPy/core/reducer.py::WaveformReducer.process"]}
{"id": "C172", "title": "Units of the timing", "statement": "The pulse times, widths, rise times and crossings the Timing reducer reports do not depend on the units of the samples nor on the pedestals of the pixels: multiplying all samples of an event by a positive gain and adding a constant to each pixel keeps them, keeps the event time, multiplies the pulse heights by the gain, and raises the same exception if there was one. What lies in memory behind a row does not matter if the window ends before the last sample and no pulse is within the last half sample.", "quantifier": "every event, every setting, every positive gain, every pedestal of every pixel, whatever lies behind the rows", "why_tests_cant": "tests use one set of waveforms; a threshold in absolute units, or a level taken without the baseline, shows only under another gain or pedestal", "anchors": ["CHECLabPy/waveform_reducers/timing.py::obtain_pulse_timing", "CHECLabPy/waveform_reducers/timing.py::Timing._prepare"]}
{"id": "C173", "title": "Gain of the unfolded charges", "statement": "NNLSPulseExtraction gives for waveforms multiplied by a gain the charges multiplied by the gain and the same number of pulses.", "quantifier": "every event, every basis, every positive gain", "why_tests_cant": "tests use one amplitude scale; which pulses are found depends on the scale of the samples", "anchors": ["CHECLabPy/waveform_reducers/nnls_pulse_extraction.py::nnls", "CHECLabPy/waveform_reducers/nnls_pulse_extraction.py::NNLSPulseExtraction._pulse_extraction", "CHECLabPy/waveform_reducers/nnls_pulse_extraction.py::NNLSPulseExtraction._prepare"]}
{"id": "C174", "title": "What amplitude matching takes from the amplitudes", "statement": "The DAC values AmplitudeMatcher requests depend on a file only through its number of events being positive and the mean amplitude of each superpixel: the order of the events and the spread over the four pixels do not matter. Aim and amplitudes in other units give the same values. A superpixel's values depend on other superpixels only through the calls in which the passes end. Numbering the superpixels in another way permutes the table and nothing else.", "quantifier": "every camera, every sequence of files, every unit, every numbering of the superpixels", "why_tests_cant": "tests match one camera in one unit; an absolute step or threshold, a mixed-up pixel order or leakage between superpixels shows only in comparisons of whole procedures", "anchors": ["CHECLabPy/calib/amplitude_matcher.py::AmplitudeMatcher._calculate_average", "CHECLabPy/calib/amplitude_matcher.py::AmplitudeMatcher._get_next_dac_nb", "CHECLabPy/calib/amplitude_matcher.py::AmplitudeMatcher.process"]}
{"id": "C175", "title": "Units of charges in charge resolutions and charge statistics", "statement": "Entries whose true and measured charges are both multiplied by a positive number give ChargeResolution tables (mc_true False) with the same rows in the same order: charges and absolute resolutions multiplied by it, numbers of entries and relative resolutions unchanged, per pixel and for the camera. With mc_true True the true charge has to be in photoelectrons: in other units the square of the resolution changes by (1/g - 1)/charge. Entries measured with another gain and zero give ChargeStatistics tables with the same rows, means with that gain and zero and standard deviations times the size of the gain.", "quantifier": "every session of add and finish calls, any portions, order and amalgamations in both, every gain and zero", "why_tests_cant": "tests use one unit; an absolute cut or a term without units shows only when whole tables in two units are compared", "anchors": ["CHECLabPy/utils/resolutions.py::ChargeResolution.finish", "CHECLabPy/utils/resolutions.py::ChargeResolution.add", "CHECLabPy/utils/resolutions.py::ChargeStatistics.finish", "CHECLabPy/utils/resolutions.py::ChargeStatistics.add"]}
{"id": "C176", "title": "What the time correction does to pulses", "statement": "Where TimeCalibrator gives corrected waveforms, the correction is linear: events added with any factors give the corrected events added with the same factors, and gain and pedestal of a pixel reach its corrected samples unchanged. Whether the call raises depends only on the shape of the event and the corrections. Away from the edges a corrected sample lies between the two samples around its time. A pulse that stays inside the readout keeps its charge (sum of the samples), and its charge-weighted mean time moves by exactly the correction of the pixel; with the shipped table this holds for every pixel that is zero in its first two and last three samples.", "quantifier": "all events, corrections, factors and pulse shapes", "why_tests_cant": "tests compare a few corrected samples; that charge is conserved and time moved exactly is a statement about every pulse shape and every correction", "anchors": ["CHECLabPy/calib/time_calibrator.py::apply_t_cor", "CHECLabPy/calib/time_calibrator.py::TimeCalibrator.__call__"]}
{"id": "C177", "title": "Importing the packages of reducers and fitters", "statement": "CHECLabPy.waveform_reducers and CHECLabPy.spectrum_fitters can be imported like ordinary packages: a module of the package can be imported from it, importing everything from the package leaves the importing module its own name and file, modules of the user are not changed, and a class reached through the package or through its module is the class the chain of reducers and the factory of fitters use.", "quantifier": "all interpreter states, all sets of module files in the packages, all importing modules", "why_tests_cant": "whether an import works and which copy of a class it gives depends on everything that was imported before and on the names of the modules; a test sees one order of imports in one interpreter", "anchors": ["CHECLabPy/waveform_reducers/__init__.py", "CHECLabPy/spectrum_fitters/__init__.py", "CHECLabPy/core/chain.py::WaveformReducerChain", "CHECLabPy/core/factory.py"]}
{"id": "C178", "title": "Columns and types of appended frames", "statement": "The table that HDF5Writer.append (or the DL1 writer) leaves does not depend on when its memory was full: the same frames give the same columns with the same types and values, or fail alike. A DL1 file holds floating point columns in single precision, each value the closest number of single precision.", "quantifier": "all frames with columns of integers and floating point numbers including NaN, all schedules of flushes, all tolerances of the conversion, all numbers", "why_tests_cant": "tests write a few frames which never fill the 0.5 GB of memory; failures come from the combination of the types of frames far apart in a run", "anchors": ["CHECLabPy/core/io/hdf5_writer.py::HDF5Writer._append_to_store", "CHECLabPy/core/io/hdf5_writer.py::HDF5Writer.append", "CHECLabPy/scripts/extract_dl1.py::DL1Writer._prepare_before_append"]}
{"id": "C179", "title": "Row labels of tables", "statement": "The rows of a table that is read back are labelled by their position: a label names one row, df.loc[[i]] is row i, a column from select_column put into the frame (df[name] = reader.select_column(...)) gives each row its own value, and the lookup by label in the cookbook (camera_first_half) is right.", "quantifier": "all histories of calls on the writer and all sizes of frames, both writers; all tables and columns for the assignment; all modules for the cookbook", "why_tests_cant": "tests write a few rows, which are always labelled by position; labels repeat only in files that exceed 0.5 GB", "anchors": ["CHECLabPy/core/io/hdf5_writer.py::HDF5Writer._append_to_store", "CHECLabPy/core/io/hdf5_reader.py::HDF5Reader.select_column", "CHECLabPy/scripts/extract_dl1.py::DL1Writer._prepare_before_append", "examples/pandas_cookbook.py::apply_custom_function_agg"]}
{"id": "C180", "title": "Images of superpixels and of modules", "statement": "CameraImage.from_mapping given get_superpixel_mapping(m) or get_tm_mapping(m) draws value i over exactly the pixels of the i-th superpixel (module) present in m, in increasing order of number: the centre of a pixel lies on square i if and only if the pixel belongs to it (pixels of side s in square blocks with pitch p, s <= p < 2s and (n-1)p <= ns). With numbers 0..N-1 value i is superpixel (module) i. In CameraImageImshow the cell of each pixel shows the value of its superpixel (module), every other cell is zero or a masked corner. An image of another size is refused.", "quantifier": "all mappings whose superpixels/modules are square blocks of pixels (any number, any order of rows, any positions, sizes and gaps in the stated range), all images", "why_tests_cant": "an image test looks at one camera by eye; that squares cover the right pixels for any gaps and any order of rows needs the geometry", "anchors": ["examples/camera_image.py::plot_superpixel", "examples/camera_image.py::plot_tm", "CHECLabPy/plotting/camera.py::CameraImage.from_mapping", "CHECLabPy/plotting/camera.py::CameraImageImshow.from_mapping", "CHECLabPy/utils/mapping.py::get_superpixel_mapping", "CHECLabPy/utils/mapping.py::get_tm_mapping"]}
{"id": "C181", "title": "Simulated events of the CHEC camera", "statement": "For simulations of the CHEC camera (six by six modules of eight by eight pixels without the corners, the middle of the camera at the origin) SimtelReader opens the file and pixel i of every event, its samples and its true charge, is the simulated pixel that lies at the row and column of pixel i of the camera mapping, counted from the lowest y and x.", "quantifier": "all distances of the pixels, all gaps between modules, all orders in which the simulation numbers its pixels, all orders of the mapping, all events", "why_tests_cant": "tests have one simulated file with one numbering and one geometry; a wrong order of the pixels gives plausible images", "anchors": ["CHECLabPy/core/io/simtel.py::SimtelReader.__init__", "CHECLabPy/core/io/simtel.py::SimtelReader._build_waveform", "CHECLabPy/utils/mapping.py::get_row_column"]}
{"id": "C182", "title": "Camera images of a DL1 file", "statement": "Showing the events of a DL1 file with the image classes and the mapping of the file puts the charge extracted for pixel p of the k-th processed event of the raw file at the position the raw file's mapping gives pixel p, in image k. The loop with squares shows the first eleven events, the loop with the grid shows all; nothing of an earlier event remains in a picture. A mapping of another number of pixels shows nothing and raises AssertionError, one without a pixel size KeyError.", "quantifier": "all raw files with increasing event ids, all extractors, all mappings, all flush schedules, all events", "why_tests_cant": "the picture is the end of a chain of writer, file, reader, mapping and plotting; tests look at one link with one event, and a shuffled camera image looks plausible", "anchors": ["examples/camera_image.py::plot_from_dl1", "examples/camera_image.py::plot_imshow", "CHECLabPy/plotting/camera.py::CameraImage.from_mapping", "CHECLabPy/core/io/dl1_reader.py::DL1Reader.iterate_over_events"]}
{"id": "C183", "title": "Statistics per module of a DL1 table", "statement": "Selecting a module of the whole table gives the rows of its 64 pixels unchanged and in order, every row belonging to exactly one module. The tables of statistics per module list each module with data once in ascending order. Minimum and maximum are charges of the module that bound the others, the mean lies between; missing charges are skipped and a module without charges has NaN. The deviation of pandas exceeds that of numpy by the factor n/(n-1) in the square, unless all charges of the module are the same; of one charge the first is NaN, the second zero. Weighted with their numbers of charges the means of the modules give the mean of the table, and the spreads of the modules with the distances of their means give the spread of the table. For tables of whole events the first pixel of a module is 64 times its number.", "quantifier": "all tables, all charges, missing ones too, all modules", "why_tests_cant": "statistics of a few rows agree by chance; skipped values, modules without data and the two definitions of the deviation show only in some tables", "anchors": ["examples/pandas_cookbook.py::select_subset", "examples/pandas_cookbook.py::get_mean_per_tm", "examples/pandas_cookbook.py::get_multiple_statistics", "examples/pandas_cookbook.py::apply_custom_function"]}
{"id": "C184", "title": "What plots carry when they are saved or shown", "statement": "A plot carries the curves drawn on it in the order of the calls, each with its label and its points, and the labels of the axes, the title, the scales and the legend of its class, in every file saved and in every window shown, whatever was called before.", "quantifier": "all plotter classes, all sequences of calls, all curves", "why_tests_cant": "tests compare no pictures; which decorations a picture has depends on the calls made before it", "anchors": ["CHECLabPy/plotting/setup.py::Plotter.save", "CHECLabPy/plotting/setup.py::Plotter.show", "CHECLabPy/plotting/waveform.py::WaveformPlotter.finish", "CHECLabPy/plotting/spe.py::SpectrumFitPlotter.finish", "CHECLabPy/scripts/extract_spe.py::main"]}
{"id": "C185", "title": "Module statistics of a produced DL1 file", "statement": "For every DL1 file produced from at least one processed event, however large, the running statistics of the table example print one line per module with the number, the mean and the variance of the charges extracted for its pixels in all processed events, and beside it the same mean calculated by pandas on the whole table; the means of the whole table are those of the extracted charges.", "quantifier": "all raw files, extractors, memory sizes and orders of storage", "why_tests_cant": "tests do not run the examples; that the module index of pandas fits the row numbers depends on the pixels stored for every event", "anchors": ["examples/pandas_cookbook.py::get_running_mean", "examples/pandas_cookbook.py::get_mean_per_tm", "examples/pandas_cookbook.py::get_numpy_mean", "CHECLabPy/core/io/dl1_reader.py::DL1Reader.load_entire_table", "CHECLabPy/scripts/extract_dl1.py::main"]}
{"id": "C186", "title": "Camera images of a raw file and of a camera version", "statement": "Showing the events of a raw file puts sample 60 of every pixel of each event read, in order, into a square centred where the mapping of the file's camera version (of a single module, if the file has one module) has that pixel, and the arrow where the mapping has it. A file of at most 60 samples is an IndexError and one whose number of pixels is not that of the mapping an AssertionError, both at the first event with nothing shown. Images made from a TargetCalib mapping or from a camera version have exactly the squares of that mapping.", "quantifier": "all raw files, camera configurations, mappings and limits on the number of events", "why_tests_cant": "the examples need the TARGET libraries and are not run by any test; a wrong axis of the waveform, a shifted pixel or swapped coordinates still give a plausible picture", "anchors": ["examples/camera_image.py::plot_from_tio", "examples/camera_image.py::plot_from_tc_mapping", "examples/camera_image.py::plot_from_camera_version", "CHECLabPy/plotting/camera.py::CameraImage.from_tc_mapping", "CHECLabPy/plotting/camera.py::CameraImage.from_camera_version", "CHECLabPy/plotting/camera.py::CameraImageImshow.from_camera_version", "CHECLabPy/core/io/tio.py::TIOReader"]}
{"id": "C187", "title": "The numbers written on the plots of single-photoelectron fits", "statement": "The labels and the table of the plots made by plot_spe and extract_spe state the fitted values, their errors, the initial values, and the mean and standard deviation over the pixels, to three significant digits: read as decimal numbers they are within half a percent. There is one row for each fitted parameter in order; a parameter without initial value is a KeyError.", "quantifier": "all real numbers, lists of values and dictionaries of parameters", "why_tests_cant": "a test compares a few formatted numbers; rounding, stripped zeros, exponents, the carry to the next power of ten and the sign have to be right for every number", "anchors": ["CHECLabPy/scripts/plot_spe.py::SPEHist.plot", "CHECLabPy/plotting/spe.py::SpectrumFitPlotter.plot"]}
{"id": "C188", "title": "The same camera in every image of a run", "statement": "For a run of a camera TargetCalib knows, every image of the raw file, every image of the DL1 file extracted from it and the image made from the version of the camera have the same squares, one for each pixel: sample 60 and the extracted charge of a pixel are shown at the same place.", "quantifier": "every camera mapping, run, extractor, order of tables, limit of events", "why_tests_cant": "the places pass through TargetCalib's mapping, the extraction, the file and two ways of making the image; a test compares pictures of one camera", "anchors": ["CHECLabPy/plotting/camera.py::CameraImage.from_mapping", "CHECLabPy/plotting/camera.py::CameraImage.from_camera_version", "CHECLabPy/scripts/extract_dl1.py::main", "CHECLabPy/core/io/dl1_reader.py::DL1Reader.mapping", "CHECLabPy/core/io/tio.py::TIOReader.mapping"]}
{"id": "C189", "title": "Calibrating a raw file with the calibrator made from its reader", "statement": "WaveformCalibrator.from_tio_reader makes, for every reader, a calibrator with the serial number of the module in each slot, in the order of the slots. Calibrating the events of that reader with it raises nothing and gives one result for each event read, in order, with the samples TargetCalib computes from the samples of that event with the pedestals of these modules and the first cell of the event in every pixel, and with the number, times, flags and first cell of the event.", "quantifier": "every file, number of modules, serial numbers, limit of events and behaviour of TargetCalib", "why_tests_cant": "a test has one file and one set of pedestals; that no slot is mixed up or left out has to hold for every number of modules", "anchors": ["CHECLabPy/calib/waveform.py::WaveformCalibrator.from_tio_reader", "CHECLabPy/calib/waveform.py::WaveformCalibrator.__init__", "CHECLabPy/calib/waveform.py::WaveformCalibrator.__call__", "CHECLabPy/core/io/tio.py::TIOReader.get_sn"]}
{"id": "C190", "title": "The example that loops over the events of a file", "statement": "examples/simple_r0r1_loop.py prints the number of events and, for each event in order, its number, the numbers of pixels and samples, the time since the first event and the peak of the waveform, and ERROR exactly when the two files have different numbers of events.", "quantifier": "every pair of files, number of events and content of the events", "why_tests_cant": "the example is not run by any test, and a run with one file does not say what happens for other numbers of events", "anchors": ["examples/simple_r0r1_loop.py", "CHECLabPy/core/io/tio.py::TIOReader", "CHECLabPy/core/io/waveform.py::WaveformReader.__getitem__", "CHECLabPy/core/io/waveform.py::WaveformReader.__iter__"]}
