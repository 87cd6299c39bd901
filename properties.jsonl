{"id": "C01", "title": "Stacking yields the stack-weighted mean", "statement": "After any sequence of successful stack_append calls on a record, every sample equals the average of the corresponding samples of the original record and of all appended records, each weighted by its own nstacks, and nstacks equals the sum of all nstacks. The result does not depend on the order of the appended records.", "quantifier": "every record, every finite history of appended records (any length, any nstacks), every permutation of that history", "why_tests_cant": "tests stack two literal records; histories and orders are unbounded", "anchors": ["swprocess/activetimeseries.py:ActiveTimeSeries.stack_append"]}
{"id": "C02", "title": "A refused stack changes nothing", "statement": "stack_append succeeds exactly when the two records have the same dt, delay and number of samples; otherwise it raises ValueError and the record (samples, nstacks, delay, multiple) is unchanged.", "quantifier": "every pair of records", "why_tests_cant": "absence of side effects on every rejected input cannot be enumerated", "anchors": ["swprocess/activetimeseries.py:ActiveTimeSeries.stack_append", "swprocess/activetimeseries.py:ActiveTimeSeries._is_similar"]}
{"id": "C03", "title": "Zero padding preserves data and reaches the requested frequency step", "statement": "A successful zero_pad(df) keeps every original sample in place, appends only zeros (fewer than one target record length of them when the record is already longer than the target), and afterwards the reported frequency step is 1/(N*dt) with N the integer nearest 1/(df*dt); it is exactly df whenever 1/(df*dt) is an integer.", "quantifier": "every record, every df>0 for which N>=1", "why_tests_cant": "three branches selected by arithmetic relations between nsamples and N, over unbounded sizes", "anchors": ["swprocess/activetimeseries.py:ActiveTimeSeries.zero_pad", "swprocess/activetimeseries.py:ActiveTimeSeries.df"]}
{"id": "C04", "title": "A refused zero_pad changes nothing", "statement": "zero_pad(df) with df<=0 raises ValueError and leaves the record, including the reported frequency step, unchanged.", "quantifier": "every record (with any padding history) and every df<=0", "why_tests_cant": "needs all prior padding histories", "anchors": ["swprocess/activetimeseries.py:ActiveTimeSeries.zero_pad"]}
{"id": "C05", "title": "Reported frequency step depends only on the last padding request", "statement": "After any sequence of successful zero_pad calls the reported frequency step is determined by dt and the last requested df alone, and repeating a request changes nothing. Before any request it is 1/(nsamples*dt).", "quantifier": "every record and every finite sequence of df values", "why_tests_cant": "histories of in-place mutation are unbounded", "anchors": ["swprocess/activetimeseries.py:ActiveTimeSeries.zero_pad", "swprocess/activetimeseries.py:ActiveTimeSeries.df"]}
{"id": "C06", "title": "Trimming keeps every retained sample at its own time", "statement": "A successful trim(start, end) keeps a contiguous block of samples and, for each retained sample, the time reported afterwards is the time reported before; the first and last retained samples are those nearest start and end.", "quantifier": "every record, every start/end inside the record", "why_tests_cant": "off-grid start times are a continuum; tests use on-grid values", "anchors": ["swprocess/activetimeseries.py:ActiveTimeSeries.trim", "swprocess/activetimeseries.py:ActiveTimeSeries.time"]}
{"id": "C07", "title": "The pre-trigger delay is never positive", "statement": "In every state reachable from the constructor by the public operations, delay<=0 (the documented constraint on delay).", "quantifier": "every constructor call and every finite sequence of trim, zero_pad and stack_append", "why_tests_cant": "invariant over all histories", "anchors": ["swprocess/activetimeseries.py:ActiveTimeSeries._check_input", "swprocess/activetimeseries.py:ActiveTimeSeries.trim"]}
{"id": "C08", "title": "Copies are faithful", "statement": "from_activetimeseries, from_sensor1c and from_array1d applied to any reachable object return an object with the same samples, dt, delay, nstacks, frequency step and position.", "quantifier": "every object reachable through trim, zero_pad and stack_append", "why_tests_cant": "reachable states include padded and trimmed ones in any combination", "anchors": ["swprocess/activetimeseries.py:ActiveTimeSeries.from_activetimeseries", "swprocess/sensor1c.py:Sensor1C.from_sensor1c", "swprocess/array1d.py:Array1D.from_array1d"]}
{"id": "C09", "title": "Cross-correlation alignment is optimal", "statement": "For two similar records of equal length, crosscorr_shift returns a record of the same length, which is b moved by the returned shift with zeros moved in, and no other shift of b has a larger correlation with a.", "quantifier": "every pair of equal-length records with at least one sample", "why_tests_cant": "an optimum over all shifts for all sample values", "anchors": ["swprocess/activetimeseries.py:ActiveTimeSeries.crosscorr_shift", "swprocess/activetimeseries.py:ActiveTimeSeries.crosscorr"]}
{"id": "C10", "title": "Cross-stacking", "statement": "from_cross_stack(a, b) returns the stack-weighted mean of a and the optimally shifted b with nstacks summed and length unchanged, and raises ValueError whenever the lengths differ. This also holds for sensors at one position, cross-stacked through their own class.", "quantifier": "every pair of records, every pair of sensors", "why_tests_cant": "all lengths and shift directions", "anchors": ["swprocess/activetimeseries.py:ActiveTimeSeries.from_cross_stack"]}
{"id": "C11", "title": "Compatibility is an equivalence", "statement": "For any set of excluded attributes the similarity check between records (and between sensors) is reflexive, symmetric and transitive, so whether a group of records can be combined does not depend on which one is taken as reference.", "quantifier": "every triple of records and every exclusion set", "why_tests_cant": "relational laws quantify over all triples", "anchors": ["swprocess/activetimeseries.py:ActiveTimeSeries._is_similar", "swprocess/sensor1c.py:Sensor1C._is_similar"]}
{"id": "C12", "title": "Record equality is an equivalence", "statement": "a == b iff b == a, and a == b and b == c imply a == c, for records.", "quantifier": "every triple of records", "why_tests_cant": "relational laws quantify over all triples", "anchors": ["swprocess/activetimeseries.py:ActiveTimeSeries.__eq__"]}
{"id": "C13", "title": "Header coordinates follow the SEG-Y scalar rule", "statement": "For SU and SEGY traces the receiver x and y equal the header integers multiplied by the scalar when it is positive, divided by its magnitude when negative, unchanged when zero, for every scalar allowed by the format (plus or minus a power of ten).", "quantifier": "every pair of header integers and every power-of-ten scalar", "why_tests_cant": "unbounded integers times scalars", "anchors": ["swprocess/sensor1c.py:Sensor1C._from_trace_su", "swprocess/sensor1c.py:Sensor1C._from_trace_segy"]}
{"id": "C14", "title": "Trace reading dispatches on the stated format", "statement": "from_trace uses the explicit format argument when given and the trace's own format otherwise, case-insensitively; SEG2, SU and SEGY are read, any other identified format raises NotImplementedError, an unidentifiable one raises ValueError; with read_header=False no header value influences the result.", "quantifier": "every trace, format argument and header", "why_tests_cant": "all header contents", "anchors": ["swprocess/sensor1c.py:Sensor1C.from_trace"]}
{"id": "C15", "title": "Missing or malformed header fields fall back to documented defaults", "statement": "Reading an SU, SEGY or SEG2 trace header never fails because a stack count, coordinate scalar, coordinate or SEG2 field is missing or malformed; defaults (1, 1, 0, 0) are used and a zero stack count or scalar is read as one.", "quantifier": "every combination of present, missing and malformed fields", "why_tests_cant": "combinatorially many header states", "anchors": ["swprocess/sensor1c.py:Sensor1C._safely_get_header", "swprocess/sensor1c.py:Sensor1C._from_trace_seg2", "swprocess/sensor1c.py:Sensor1C._from_trace_su"]}
{"id": "C16", "title": "An array orders its sensors by position", "statement": "Array1D(sensors, source) succeeds exactly when all sensors are mutually similar and have distinct x; the resulting sensors are a permutation of the input in strictly increasing x, and the result is the same for every input order.", "quantifier": "every non-empty list of sensors and every permutation of it", "why_tests_cant": "all permutations and sizes", "anchors": ["swprocess/array1d.py:Array1D._check_array", "swprocess/array1d.py:Array1D.__init__"]}
{"id": "C17", "title": "Array operations preserve the array's consistency and are all-or-nothing", "statement": "After any sequence of trim, trim_offsets, zero_pad and mute calls (successful or refused) the sensors are still strictly ordered by x and mutually similar, and a refused trim leaves every sensor unchanged.", "quantifier": "every array and every finite sequence of operations", "why_tests_cant": "invariant over all operation histories", "anchors": ["swprocess/array1d.py:Array1D.trim", "swprocess/array1d.py:Array1D.trim_offsets", "swprocess/array1d.py:Array1D.zero_pad", "swprocess/array1d.py:Array1D.mute"]}
{"id": "C18", "title": "Offset trimming keeps exactly the sensors in range", "statement": "After trim_offsets(min, max) the array consists of exactly the sensors whose offset from the source is strictly between min and max, in their original order.", "quantifier": "every array, every source position, every min and max", "why_tests_cant": "all geometries, including sources on either side", "anchors": ["swprocess/array1d.py:Array1D.trim_offsets"]}
{"id": "C19", "title": "Offset trimming never empties an array", "statement": "trim_offsets never leaves an array without sensors: if no sensor is selected it raises ValueError and the array is unchanged.", "quantifier": "every array and limits", "why_tests_cant": "all geometries", "anchors": ["swprocess/array1d.py:Array1D.trim_offsets"]}
{"id": "C20", "title": "Traces are presented from near to far offset", "statement": "For a source that is not strictly inside the array, the traces and offsets handed to a wavefield transform are in increasing offset, and each trace is paired with the offset of its own sensor.", "quantifier": "every array and every source position not strictly inside it", "why_tests_cant": "all geometries including boundary positions", "anchors": ["swprocess/array1d.py:Array1D._flipped_tseries_and_offsets", "swprocess/array1d.py:Array1D._flip_required", "swprocess/array1d.py:Array1D._source_inside"]}
{"id": "C21", "title": "Mirror symmetry", "statement": "Reflecting all positions (source and receivers) about any point leaves the traces and offsets handed to a wavefield transform unchanged when the source is outside the array.", "quantifier": "every array, outside source and mirror point", "why_tests_cant": "all geometries", "anchors": ["swprocess/array1d.py:Array1D._flipped_tseries_and_offsets"]}
{"id": "C22", "title": "Muting silences everything outside the signal window", "statement": "After mute, each trace is zero at every sample outside its own [start, stop) window, is scaled by a window value inside it, and no trace is affected by another trace's window.", "quantifier": "every array, every pair of boundary lines whose indices lie within the record", "why_tests_cant": "indices depend on all positions, delays and times", "anchors": ["swprocess/array1d.py:Array1D.mute"]}
{"id": "C23", "title": "A one-sided mute leaves the other side alone", "statement": "mute with only signal_start leaves every sample after the taper untouched up to the end of the record when the taper is zero (rectangular window).", "quantifier": "every array and start line", "why_tests_cant": "all record lengths", "anchors": ["swprocess/array1d.py:Array1D.mute"]}
{"id": "C24", "title": "Trace normalization", "statement": "timeseriesmatrix(normalize='each') scales every trace to maximum absolute value 1 and preserves the ratio between its samples; 'all' does so for the matrix as a whole; 'none' returns the samples unchanged; a trace of zeros is the only way to obtain undefined values.", "quantifier": "every array", "why_tests_cant": "all sample values", "anchors": ["swprocess/array1d.py:Array1D.timeseriesmatrix"]}
{"id": "C25", "title": "Array geometry summaries", "statement": "kres times the smallest sensor spacing is pi; spacing is defined exactly when all spacings agree to within 1 cm and is then within half a centimetre of the smallest spacing. Positions with normalize=True begin at zero and keep all distances; array_center_distance is the mean offset, which for a source outside the array is its distance from the mean position.", "quantifier": "every array with at least two sensors", "why_tests_cant": "all geometries", "anchors": ["swprocess/array1d.py:Array1D.kres", "swprocess/array1d.py:Array1D.spacing", "swprocess/array1d.py:Array1D.position", "swprocess/array1d.py:Array1D.array_center_distance"]}
{"id": "C26", "title": "Building an array from several files", "statement": "from_files with several compatible files returns an array whose every sensor is the stack-weighted mean of that channel over all files, with the coordinate mapping applied uniformly; files with a different source raise ValueError.", "quantifier": "every list of files, coordinate mapping", "why_tests_cant": "all file counts, headers and mappings", "anchors": ["swprocess/array1d.py:Array1D.from_files"]}
{"id": "C27", "title": "SU files round-trip", "statement": "Writing an array with to_file and reading it back with from_files yields the same positions (to the millimetre), source, delay (to the millisecond), stack count and samples.", "quantifier": "every array", "why_tests_cant": "all positions, delays and stack counts", "anchors": ["swprocess/array1d.py:Array1D.to_file", "swprocess/array1d.py:Array1D.from_files", "swprocess/sensor1c.py:Sensor1C._from_trace_su"]}
{"id": "C28", "title": "A file with a different number of channels is refused", "statement": "from_files never silently stacks a file onto only some of the sensors: after a successful call all sensors have the same nstacks.", "quantifier": "every list of files", "why_tests_cant": "all channel counts", "anchors": ["swprocess/array1d.py:Array1D.from_files"]}
{"id": "C29", "title": "Array equality and similarity", "statement": "is_similar is an equivalence on arrays, equal arrays have the same channel count and source, and from_array1d of an array that has not been trimmed or padded is equal to it.", "quantifier": "every pair/triple of arrays", "why_tests_cant": "relational laws", "anchors": ["swprocess/array1d.py:Array1D.is_similar", "swprocess/array1d.py:Array1D.__eq__"]}
{"id": "C30", "title": "Cross-correlation with the source keeps zero lag at time zero", "statement": "After xcorrelate every sensor has the same number of samples and the sample reported at time t is the correlation of the record with the source signal at lag t.", "quantifier": "every array with source signal, vmin, vmax", "why_tests_cant": "index arithmetic over all lengths and velocities", "anchors": ["swprocess/array1d.py:Array1DwSource.xcorrelate"]}
{"id": "C31", "title": "Point picking", "statement": "ginput_session returns equally many x and y values, in picking order, at most npts of them, each being the last point of one non-empty selection; exactly npts unless the user exits early.", "quantifier": "every sequence of user events and every npts", "why_tests_cant": "schedules of user events are unbounded", "anchors": ["swprocess/interact.py:ginput_session"]}
{"id": "C32", "title": "Interactive mute always receives complete lines", "statement": "interactive_mute never fails because of how the user paces the clicks: each boundary line always has its two points.", "quantifier": "every schedule of user events", "why_tests_cant": "schedules of user events", "anchors": ["swprocess/array1d.py:Array1D.interactive_mute", "swprocess/interact.py:ginput_session"]}
{"id": "C33", "title": "A new Peaks object exposes exactly the peaks with a velocity", "statement": "Immediately after construction, the peaks exposed by the attribute properties are exactly those whose velocity is not NaN, in row-major order, and all attributes are aligned peak by peak.", "quantifier": "every 1D or 2D input of any size", "why_tests_cant": "all NaN patterns", "anchors": ["swprocess/peaks.py:Peaks.__init__", "swprocess/peaks.py:Peaks.frequency"]}
{"id": "C34", "title": "reject_limits_outside rejects exactly what is outside", "statement": "After reject_limits_outside(attr, (lo, hi)) a peak remains exactly when it was present before and its attribute is neither below lo nor above hi; None disables a side; values exactly on a limit remain.", "quantifier": "every Peaks, attribute and limits", "why_tests_cant": "all values including infinities and NaN", "anchors": ["swprocess/peaks.py:Peaks.reject_limits_outside"]}
{"id": "C35", "title": "reject_box_inside rejects exactly what is strictly inside", "statement": "After reject_box_inside a peak remains exactly when it was present before and is not strictly inside the box; the order in which the two bounds of a side are given is irrelevant.", "quantifier": "every Peaks, attribute pair and box", "why_tests_cant": "all values and boxes", "anchors": ["swprocess/peaks.py:Peaks.reject_box_inside"]}
{"id": "C36", "title": "Rejections compose as set intersection", "statement": "For any sequence of rejections the remaining peaks are the initial ones minus the union of all rejected regions: rejections never resurrect a peak, repeating one changes nothing and their order is irrelevant; recorded values are never altered.", "quantifier": "every Peaks and every finite sequence of rejections", "why_tests_cant": "histories and permutations", "anchors": ["swprocess/peaks.py:Peaks._reject"]}
{"id": "C37", "title": "simplify_mpeaks keeps the strongest valid peak per frequency", "statement": "For multi-peak data with power, simplify_mpeaks returns for each column having a valid peak exactly one value: that of the valid peak with the largest power (the first on ties); columns without valid peaks contribute nothing.", "quantifier": "every 2D Peaks with finite powers", "why_tests_cant": "all matrix sizes and validity patterns", "anchors": ["swprocess/peaks.py:Peaks.simplify_mpeaks"]}
{"id": "C38", "title": "simplify_mpeaks is aligned across attributes", "statement": "simplify_mpeaks applied to two attributes of the same Peaks returns lists of equal length whose k-th entries belong to the same peak.", "quantifier": "every Peaks and pair of attributes", "why_tests_cant": "all validity patterns", "anchors": ["swprocess/peaks.py:Peaks.simplify_mpeaks", "swprocess/peakssuite.py:PeaksSuite.to_array"]}
{"id": "C39", "title": "Peaks survive a JSON round trip", "statement": "Peaks.from_json after Peaks.to_json returns the same identifier, values (including NaN), attribute set and set of rejected peaks.", "quantifier": "every Peaks, 1D or 2D", "why_tests_cant": "all contents", "anchors": ["swprocess/peaks.py:Peaks.to_json", "swprocess/peaks.py:Peaks.from_json", "swprocess/peaks.py:Peaks.from_dict"]}
{"id": "C40", "title": "Appending to a JSON file never damages it", "statement": "to_json(append=True) keeps every data set already in the file and adds the new one; if the identifier exists it raises KeyError and the file is unchanged.", "quantifier": "every file content and Peaks", "why_tests_cant": "all file contents", "anchors": ["swprocess/peaks.py:Peaks.to_json"]}
{"id": "C41", "title": "Building Peaks from a dictionary leaves the dictionary alone", "statement": "Peaks.from_dict (and PeaksSuite.from_dict) does not modify the dictionary passed by the caller, so building twice from the same dictionary gives the same result.", "quantifier": "every dictionary", "why_tests_cant": "histories of calls", "anchors": ["swprocess/peaks.py:Peaks.from_dict", "swprocess/peakssuite.py:PeaksSuite.from_dict"]}
{"id": "C42", "title": "A crash while appending never loses saved peaks", "statement": "If the process dies at any point while appending to a JSON file, every data set that was in the file can still be read.", "quantifier": "every crash point", "why_tests_cant": "crash points cannot be exercised by unit tests", "anchors": ["swprocess/peaks.py:Peaks.to_json", "swprocess/peakssuite.py:PeaksSuite.to_json"]}
{"id": "C43", "title": "Peaks equality is an equivalence and equal Peaks have the same peaks", "statement": "Peaks equality is reflexive and symmetric, and equal Peaks have the same identifier and the same number of remaining peaks.", "quantifier": "every pair of Peaks", "why_tests_cant": "relational laws", "anchors": ["swprocess/peaks.py:Peaks.__eq__"]}
{"id": "C44", "title": "Derived attributes are consistent", "statement": "For every remaining peak with non-zero finite frequency and velocity, wavelength*frequency = velocity, slowness*velocity = 1 and wavenumber*wavelength = 2*pi. A peak with velocity zero has infinite slowness and one with frequency zero an infinite wavelength of the sign of its velocity; no attribute raises.", "quantifier": "every Peaks", "why_tests_cant": "all values", "anchors": ["swprocess/peaks.py:Peaks.wavelength", "swprocess/peaks.py:Peaks.slowness", "swprocess/peaks.py:Peaks.wavenumber"]}
{"id": "C45", "title": "A suite never holds two members with one identifier", "statement": "Through any sequence of appends the suite's identifiers are distinct and listed in the order of its members; appending a duplicate raises KeyError and leaves the suite unchanged.", "quantifier": "every finite sequence of appends", "why_tests_cant": "histories", "anchors": ["swprocess/peakssuite.py:PeaksSuite.append", "swprocess/peakssuite.py:PeaksSuite.from_peaks"]}
{"id": "C46", "title": "A suite survives a JSON round trip", "statement": "PeaksSuite.from_json after PeaksSuite.to_json returns the members in order, each with its values and rejected peaks. Of several files the members of all are returned in order; if one of the files is missing, FileNotFoundError is raised and no suite is made of the rest.", "quantifier": "every suite", "why_tests_cant": "all sizes", "anchors": ["swprocess/peakssuite.py:PeaksSuite.to_json", "swprocess/peakssuite.py:PeaksSuite.from_json"]}
{"id": "C47", "title": "Suite rejections act on every member", "statement": "reject_limits_outside and reject_box_inside on a suite reject in each member exactly what the member's own method would.", "quantifier": "every suite", "why_tests_cant": "all sizes", "anchors": ["swprocess/peakssuite.py:PeaksSuite.reject_limits_outside", "swprocess/peakssuite.py:PeaksSuite.reject_box_inside"]}
{"id": "C48", "title": "Combining suites concatenates them", "statement": "from_peakssuite returns the members of all suites in order, or raises KeyError when two members share an identifier.", "quantifier": "every list of suites", "why_tests_cant": "all sizes", "anchors": ["swprocess/peakssuite.py:PeaksSuite.from_peakssuite"]}
{"id": "C49", "title": "Resolution-limit curves lie on the limit", "statement": "Every point of the curves returned by calc_resolution_limits has, when converted to the requested attribute, exactly the limit value, for every supported combination of axes and attribute; unsupported combinations raise NotImplementedError.", "quantifier": "all positive axis values and limits, all combinations", "why_tests_cant": "continuum of values times combinations", "anchors": ["swprocess/peakssuite.py:PeaksSuite.calc_resolution_limits"]}
{"id": "C50", "title": "Interactive trimming removes exactly the confirmed boxes", "statement": "When an interactive trimming session ends, the remaining peaks are the initial ones minus those strictly inside a box that was drawn since the previous pause and then confirmed (continue or quit); boxes that were undone have no effect.", "quantifier": "every sequence of boxes and prompt answers", "why_tests_cant": "user schedules are unbounded", "anchors": ["swprocess/peakssuite.py:PeaksSuite.interactive_trimming"]}
{"id": "C51", "title": "Suite resampling", "statement": "to_array gives one row per member; an entry is missing exactly when the sample lies outside the member's range; at a sample equal to one of the member's abscissae it is the member's value there and between two neighbouring abscissae it lies between their values.", "quantifier": "every suite with distinct abscissae and every list of samples", "why_tests_cant": "all values", "anchors": ["swprocess/peakssuite.py:PeaksSuite.to_array"]}
{"id": "C52", "title": "Dropping incomplete data keeps samples and columns aligned", "statement": "The matrix returned by the drop procedure is the input with some rows and columns removed, the returned sample locations are exactly those of the remaining columns, and of the two removal orders the one with the larger utility is returned.", "quantifier": "every matrix and thresholds", "why_tests_cant": "all matrix sizes and NaN patterns", "anchors": ["swprocess/peakssuite.py:PeaksSuite._drop", "swprocess/stats.py:Statistics._drop"]}
{"id": "C53", "title": "Every reported statistic rests on enough data", "statement": "Every sample location reported by statistics() is backed by at least drop_sample_if_fewer_count valid observations.", "quantifier": "every suite and list of samples", "why_tests_cant": "all NaN patterns and sizes", "anchors": ["swprocess/peakssuite.py:PeaksSuite.statistics", "swprocess/peakssuite.py:PeaksSuite._drop"]}
{"id": "C54", "title": "Statistics are those of the valid entries", "statement": "statistics() refuses suites with fewer than three members; otherwise the mean and standard deviation at each sample are those of the valid entries of that column.", "quantifier": "every suite", "why_tests_cant": "all NaN patterns", "anchors": ["swprocess/peakssuite.py:PeaksSuite.statistics"]}
{"id": "C55", "title": "Mean substitution does not bias the mean", "statement": "Replacing the missing entries of a column by its mean leaves the column mean unchanged and leaves no missing entries.", "quantifier": "every column with at least one valid entry", "why_tests_cant": "all sizes and values", "anchors": ["swprocess/peakssuite.py:PeaksSuite.statistics"]}
{"id": "C56", "title": "Sorting observations only reorders them", "statement": "The row sort returns a permutation of the rows, ordered so that the first sampled column of each row is non-decreasing and empty rows come last.", "quantifier": "every matrix", "why_tests_cant": "all sizes and NaN patterns", "anchors": ["swprocess/stats.py:Statistics._sort"]}
{"id": "C57", "title": "Identified regions are dense and tile the samples", "statement": "Whenever region identification returns, the regions' column ranges tile all columns from left to right, the last one ends at the last row and column, and each region that starts at a valid entry has at least the requested density.", "quantifier": "every matrix and threshold <= 1", "why_tests_cant": "greedy search over all matrices", "anchors": ["swprocess/stats.py:Statistics._identify_regions"]}
{"id": "C58", "title": "Region identification always returns", "statement": "For every matrix whose every column has a valid entry, region identification returns a list of regions.", "quantifier": "every such matrix", "why_tests_cant": "all matrices", "anchors": ["swprocess/stats.py:Statistics._identify_regions"]}
{"id": "C59", "title": "Random replacement fills exactly the gaps", "statement": "Filling replaces every missing entry, draws exactly one random number per missing entry with that column's mean and deviation, and leaves every valid entry unchanged.", "quantifier": "every matrix and random source", "why_tests_cant": "all NaN patterns", "anchors": ["swprocess/stats.py:Statistics._fill_data"]}
{"id": "C60", "title": "A Statistics object can be created", "statement": "Statistics(xx, mean, stddev, corr) creates an object for well-formed arguments.", "quantifier": "every argument", "why_tests_cant": "a universally failing constructor is only visible as a claim about every input", "anchors": ["swprocess/stats.py:Statistics.__init__", "swprocess/stats.py:Statistics.from_peakssuite"]}
{"id": "C61", "title": "Trial vectors", "statement": "The trial velocity vector has exactly nvel entries, starts at vmin, ends at vmax (nvel>=2), is strictly increasing for vmin<vmax and equally spaced; an unknown spacing name raises KeyError.", "quantifier": "every vmin, vmax, nvel", "why_tests_cant": "all sizes", "anchors": ["swprocess/wavefieldtransforms.py:AbstractWavefieldTransform._create_vector"]}
{"id": "C62", "title": "Frequency selection", "statement": "The selected frequency bins start at the bin nearest fmin, advance by the padding multiple and stop at or before the bin nearest fmax; all are valid bins; when fmin lies on the user's frequency grid every selected frequency is a multiple of the user's frequency step.", "quantifier": "every frequency vector, fmin, fmax, multiple", "why_tests_cant": "all sizes and values", "anchors": ["swprocess/wavefieldtransforms.py:AbstractWavefieldTransform._frequency_keep_ids"]}
{"id": "C63", "title": "Normalization can be changed at will", "statement": "After any sequence of normalize calls the power equals the original magnitude normalized by the last requested method; in particular 'none' restores the original magnitude.", "quantifier": "every power matrix and every finite sequence of methods", "why_tests_cant": "histories of in-place mutation", "anchors": ["swprocess/wavefieldtransforms.py:AbstractWavefieldTransform.normalize"]}
{"id": "C64", "title": "Frequency-domain stacking is the mean", "statement": "Stacking any sequence of transforms onto an empty one yields the n-weighted mean of their powers, independent of order, with n their total.", "quantifier": "every finite sequence of transforms", "why_tests_cant": "histories and permutations", "anchors": ["swprocess/wavefieldtransforms.py:EmptyWavefieldTransform.stack"]}
{"id": "C65", "title": "Peak picking picks a maximum", "statement": "find_peak_power returns at each frequency the trial velocity of a cell holding the column maximum, the first such; unknown methods raise NotImplementedError.", "quantifier": "every power matrix", "why_tests_cant": "all sizes and values", "anchors": ["swprocess/wavefieldtransforms.py:AbstractWavefieldTransform.find_peak_power"]}
{"id": "C66", "title": "Slant stack never reads outside the record", "statement": "Every sample index used by the slant stack lies within the record, for every trial velocity.", "quantifier": "every geometry, record length and set of positive velocities", "why_tests_cant": "index arithmetic over all sizes", "anchors": ["swprocess/wavefieldtransforms.py:SlantStack.slant_stack"]}
{"id": "C67", "title": "Slant stack computes the slant stack", "statement": "Entry (velocity, tau) of the slant stack is the trapezoidal integral over offset of the traces linearly interpolated at time tau + (offset - min offset)/velocity, regardless of the order of the trial velocities.", "quantifier": "every geometry, record and velocities", "why_tests_cant": "incremental index update across velocities", "anchors": ["swprocess/wavefieldtransforms.py:SlantStack.slant_stack"]}
{"id": "C68", "title": "Phase-shift power is bounded and peaks at the true velocity", "statement": "Phase-shift power never exceeds the array length, and for a plane wave of velocity v it reaches the array length at trial velocity v at every frequency where the trace spectra do not vanish.", "quantifier": "every array, record, frequency and velocity", "why_tests_cant": "continuum of inputs", "anchors": ["swprocess/wavefieldtransforms.py:PhaseShift.transform"]}
{"id": "C69", "title": "Phase-shift power ignores trace amplitudes", "statement": "Multiplying each trace by its own positive gain does not change the phase-shift power.", "quantifier": "every array, gains", "why_tests_cant": "continuum of inputs", "anchors": ["swprocess/wavefieldtransforms.py:PhaseShift.transform"]}
{"id": "C70", "title": "Beamforming power is real and non-negative", "statement": "FDBF power is real and non-negative for every weighting and steering, so that ranking velocities by power is meaningful.", "quantifier": "every array, record, weighting, steering", "why_tests_cant": "continuum of inputs", "anchors": ["swprocess/wavefieldtransforms.py:FDBF.transform", "swprocess/wavefieldtransforms.py:FDBF._spatiospectral_correlation_matrix"]}
{"id": "C71", "title": "Beamforming peaks at the true velocity", "statement": "For a plane wave of velocity v, FDBF with plane steering attains its largest power over all trial velocities at v.", "quantifier": "every array, spectrum, frequency, trial velocity", "why_tests_cant": "continuum of inputs", "anchors": ["swprocess/wavefieldtransforms.py:FDBF.transform"]}
{"id": "C72", "title": "FK is plane-wave beamforming and leaves the caller's settings alone", "statement": "The fk transform equals FDBF with weighting 'none' and plane steering whatever the user's FDBF settings, and running it does not change the caller's settings.", "quantifier": "every settings dictionary and array; every sequence of runs with one settings dictionary", "why_tests_cant": "histories of runs sharing settings", "anchors": ["swprocess/wavefieldtransforms.py:FK.from_array"]}
{"id": "C73", "title": "Registries", "statement": "After any sequence of registrations, looking up a name yields the class registered last under it, making an instance by name calls this class with the given arguments only, an unregistered name raises KeyError, and the two registries are independent.", "quantifier": "every finite sequence of registrations", "why_tests_cant": "histories", "anchors": ["swprocess/register.py:AbstractRegistry"]}
{"id": "C74", "title": "SNR is reported at the right frequencies", "statement": "The signal-to-noise ratio reported at frequency f is computed from the spectral bin whose physical frequency is f.", "quantifier": "every pair of windows, every padding request", "why_tests_cant": "all padding multiples", "anchors": ["swprocess/snr.py:SignaltoNoiseRatio.from_array1ds"]}
{"id": "C75", "title": "SNR is a ratio of mean spectral magnitudes", "statement": "Windows of different length raise IndexError unless padded to equal length; scaling the signal by c scales the ratio by |c|; equal windows give 1 wherever the noise spectrum is non-zero.", "quantifier": "every pair of windows", "why_tests_cant": "continuum of inputs", "anchors": ["swprocess/snr.py:SignaltoNoiseRatio.from_array1ds"]}
{"id": "C76", "title": "Workflow pre-processing order", "statement": "The time-domain workflow selects the noise window before trimming and muting, selects the signal window after, pads last, and refuses a source inside the array before any processing.", "quantifier": "every settings combination and array", "why_tests_cant": "all combinations of optional steps", "anchors": ["swprocess/maswworkflows.py:TimeDomainWorkflow.run", "swprocess/maswworkflows.py:AbstractMaswWorkflow"]}
{"id": "C77", "title": "The user's mute window settings are honoured", "statement": "The window settings given to create_settings_dict(window_kwargs=...) are the ones used by every mute performed by a workflow.", "quantifier": "every window setting, every workflow", "why_tests_cant": "claim about every call", "anchors": ["swprocess/maswworkflows.py:AbstractMaswWorkflow.mute", "swprocess/masw.py:Masw.create_settings_dict"]}
{"id": "C78", "title": "Frequency-domain workflow", "statement": "The frequency-domain workflow returns the mean of the per-file transforms, uses the mute window selected on the first file for all files and the noise and signal windows of the first file, and raises ValueError at the first file dissimilar from the first.", "quantifier": "every list of files", "why_tests_cant": "all file counts", "anchors": ["swprocess/maswworkflows.py:FrequencyDomainMaswWorkflow.run"]}
{"id": "C79", "title": "Single workflow", "statement": "The single workflow processes exactly one file: the given one, or the first of several.", "quantifier": "every fnames argument", "why_tests_cant": "all list lengths", "anchors": ["swprocess/maswworkflows.py:SingleMaswWorkflow.run"]}
{"id": "C80", "title": "Workflow dispatch", "statement": "Masw.run runs the workflow registered under settings['workflow'] on the given files for every registered workflow name, and raises KeyError for an unknown one.", "quantifier": "every registry history and workflow name", "why_tests_cant": "histories", "anchors": ["swprocess/masw.py:Masw.run", "swprocess/masw.py:MaswXcorr.run"]}
{"id": "C81", "title": "Settings are recorded faithfully", "statement": "Every argument of create_settings_dict is retrievable unchanged from the documented place in the result.", "quantifier": "every argument combination", "why_tests_cant": "all combinations", "anchors": ["swprocess/masw.py:Masw.create_settings_dict"]}
{"id": "C82", "title": "Least-squares update", "statement": "The least-squares update returns the prior when prediction and data agree at the prior, and for a linear forward model it does not depend on the previous iterate; it satisfies the normal equations.", "quantifier": "all vectors, matrices of any size", "why_tests_cant": "continuum of inputs, all sizes", "anchors": ["swprocess/inversion.py:leastsquare_iterativealgorithm"]}
{"id": "C83", "title": "Posterior covariance", "statement": "The posterior covariance is symmetric and never exceeds the prior covariance (data never increase uncertainty).", "quantifier": "all symmetric positive definite inputs of any size", "why_tests_cant": "continuum, all sizes", "anchors": ["swprocess/inversion.py:leastsquare_posterioricovmatrix"]}
{"id": "C84", "title": "miniSEED extraction reads every hour once", "statement": "For a block from start to end, extract_mseed reads exactly the hourly files from the start hour to the end hour inclusive, each once, in order; a block ending before it starts raises ValueError. (End hours before the last hour of the year 9999, where datetime itself overflows.)", "quantifier": "every start and end hour", "why_tests_cant": "unbounded durations", "anchors": ["swprocess/utils.py:extract_mseed"]}
{"id": "C85", "title": "miniSEED extraction never overwrites its own output", "statement": "Every row of the start/end table yields its own output file: no row's output is overwritten by a later row.", "quantifier": "every table", "why_tests_cant": "all tables", "anchors": ["swprocess/utils.py:extract_mseed"]}
{"id": "C86", "title": "Only supported geopsy versions are read", "statement": "A .max file is parsed only when its geopsypack version is supported; otherwise ValueError is raised before any peak is read.", "quantifier": "every version string", "why_tests_cant": "all strings", "anchors": ["swprocess/meta.py:check_geopsy_version", "swprocess/peakssuite.py:PeaksSuite.from_max"]}
{"id": "C87", "title": "Wave types", "statement": "Only the five documented wave types are accepted and every other string raises ValueError.", "quantifier": "every string", "why_tests_cant": "all strings", "anchors": ["swprocess/regex.py:validate_wavetypes"]}
{"id": "C88", "title": "Each .max file is read with the requested wave type", "statement": "PeaksSuite.from_max reads each file with the wave type requested by the caller (vertical for single-component Rayleigh files), independently of the other files in the list.", "quantifier": "every list of files", "why_tests_cant": "histories across files", "anchors": ["swprocess/peakssuite.py:PeaksSuite.from_max"]}
{"id": "C89", "title": "Plot options expand per member", "statement": "Expanding plot options for n members gives n option sets: a string or None is repeated, the k-th entry of a list goes to member k; other values raise NotImplementedError and short lists raise IndexError.", "quantifier": "every option dictionary and n", "why_tests_cant": "all sizes", "anchors": ["swprocess/peakssuite.py:PeaksSuite._prepare_plot_kwargs", "swprocess/peaks.py:Peaks._prepare_types"]}
{"id": "C90", "title": "All sensors of an array share one frequency step", "statement": "After any sequence of array operations, successful or refused, every sensor of an array reports the same frequency step df.", "quantifier": "every array built by the constructor and every finite sequence of operations", "why_tests_cant": "The state reached depends on the whole history, including refused calls that tests rarely replay.", "anchors": ["swprocess/array1d.py:221-236", "swprocess/activetimeseries.py:234-287"]}
{"id": "C91", "title": "A refused mute changes nothing", "statement": "If mute raises an exception no sensor's samples have changed.", "quantifier": "every array and every pair of boundary lines", "why_tests_cant": "The failing sensor can be any one of arbitrarily many; tests use lines that succeed.", "anchors": ["swprocess/array1d.py:541-598"]}
{"id": "C92", "title": "Mute boundaries are times", "statement": "A sample is kept by mute exactly when its reported time lies in the window given by the boundary lines at its sensor's position, up to one time step.", "quantifier": "every record (delay, time step), line and sample", "why_tests_cant": "Holds or fails depending on delay and time step for every sample index.", "anchors": ["swprocess/array1d.py:557-583"]}
{"id": "C93", "title": "First arrivals are the first exceedance", "statement": "auto_pick_first_arrivals returns, for each sensor in order of position, the time of the first sample of its normalized trace which leaves the threshold band around the mean of its first ten samples, and raises IndexError when some trace never does. An unknown algorithm raises NotImplementedError.", "quantifier": "every array and threshold", "why_tests_cant": "First-ness is a statement about all earlier samples of every trace.", "anchors": ["swprocess/array1d.py:413-439"]}
{"id": "C94", "title": "Source signal is the mean over the source files", "statement": "Building an array with source signal from several source files gives as signal, sample by sample, the arithmetic mean of the chosen channel over all files, whatever their order; signals of different lengths are refused.", "quantifier": "every non-empty list of source files", "why_tests_cant": "Number of files and samples is unbounded; order independence quantifies over all permutations.", "anchors": ["swprocess/array1d.py:823-843"]}
{"id": "C95", "title": "Source and receiver coordinates obey one scalar rule", "statement": "For every coordinate scalar which SEG-Y allows, from_files reads the source coordinates by the same rule as the receivers' x: divide by a negative scalar, multiply by a positive one, a scalar of zero meaning one.", "quantifier": "every scalar (0, plus or minus a power of ten) and every header integer", "why_tests_cant": "Tests use one scalar; the rule must hold for every scalar, integer and both formats.", "anchors": ["swprocess/array1d.py:673-717", "swprocess/sensor1c.py:202-214"]}
{"id": "C96", "title": "Suites do not interfere", "statement": "Rejecting peaks through one suite changes only that suite: the members of every other suite, and of the suites it was combined from, keep their remaining peaks. An object's remaining peaks are determined by the rejections made on it, directly or through the suites it is a member of.", "quantifier": "every program that makes objects, builds suites from objects and from other suites, appends and rejects in any order", "why_tests_cant": "histories with shared objects", "anchors": ["swprocess/peakssuite.py:PeaksSuite.from_peakssuite", "swprocess/peakssuite.py:PeaksSuite.from_peaks", "swprocess/peakssuite.py:PeaksSuite.append"]}
{"id": "C97", "title": "Refused normalization changes nothing", "statement": "A normalize call with an unknown method raises and leaves the power unchanged, so that later calls behave as if it had never been made.", "quantifier": "every power matrix, every earlier history of normalize calls", "why_tests_cant": "histories with caught exceptions", "anchors": ["swprocess/wavefieldtransforms.py:AbstractWavefieldTransform.normalize"]}
{"id": "C98", "title": "Peak search uses the magnitude of the power", "statement": "The dispersion peak reported at each frequency is at the trial velocity where the magnitude of the stored power is largest, also when the stored power is complex.", "quantifier": "every power matrix", "why_tests_cant": "continuum of inputs", "anchors": ["swprocess/wavefieldtransforms.py:AbstractWavefieldTransform.find_peak_power"]}
{"id": "C99", "title": "Padding resolves unequal signal and noise windows", "statement": "With pad_snr=True signal and noise windows of different length never raise IndexError, as the error message promises.", "quantifier": "every pair of windows and frequency step", "why_tests_cant": "all lengths and steps", "anchors": ["swprocess/snr.py:SignaltoNoiseRatio.from_array1ds"]}
{"id": "C100", "title": "One file name is a list of one file name", "statement": "For every workflow, giving one file as a string and giving a list with that one name produce the same result.", "quantifier": "every workflow, settings and file name", "why_tests_cant": "all settings and workflows", "anchors": ["swprocess/maswworkflows.py:SingleMaswWorkflow.run", "swprocess/maswworkflows.py:FrequencyDomainMaswWorkflow.run", "swprocess/masw.py:Masw.run"]}
{"id": "C101", "title": "The signal-to-noise ratio has no side effects", "statement": "Whether and how the signal-to-noise ratio is computed changes neither the processed array nor the transform returned by a workflow.", "quantifier": "every settings combination, file and user", "why_tests_cant": "all combinations of optional steps", "anchors": ["swprocess/maswworkflows.py:AbstractMaswWorkflow.select_noise", "swprocess/maswworkflows.py:AbstractMaswWorkflow.select_signal", "swprocess/maswworkflows.py:AbstractMaswWorkflow.calculate_snr"]}
{"id": "C102", "title": "Asking for the signal-to-noise ratio does not break a run", "statement": "A run which returns without a signal-to-noise ratio also returns with one, if the noise window lies in the record and the signal window lies in the trimmed record.", "quantifier": "every settings combination and file", "why_tests_cant": "all combinations of optional steps", "anchors": ["swprocess/maswworkflows.py:AbstractMaswWorkflow.select_signal", "swprocess/array1d.py:Array1D.from_array1d"]}
{"id": "C103", "title": "A stack in the frequency domain has one frequency axis", "statement": "Every file stacked by the frequency-domain workflow is transformed at the frequencies of the result, so values at different frequencies are never averaged.", "quantifier": "every list of files", "why_tests_cant": "all file contents", "anchors": ["swprocess/maswworkflows.py:FrequencyDomainMaswWorkflow.run", "swprocess/array1d.py:Array1D.is_similar", "swprocess/wavefieldtransforms.py:EmptyWavefieldTransform.stack"]}
{"id": "C104", "title": "Every peak of a .max file is in its own time window and frequency", "statement": "Reading a .max file gives one set of peaks per time window, and in it every valid peak of the requested wave type at that time, at its own frequency and with its own velocity, azimuth, ellipticity, noise and power, and no other peak.", "quantifier": "every .max file, every order of its lines, every number of windows, frequencies and maxima", "why_tests_cant": "time and frequency strings are put into regular expressions, and which lines they match depends on every other line of the file", "anchors": ["swprocess/peaks.py:Peaks._parse_peaks", "swprocess/peaks.py:Peaks.from_max", "swprocess/peakssuite.py:PeaksSuite.from_max", "swprocess/regex.py:get_peak_from_max"]}
{"id": "C105", "title": "A waterfall shows every trace at its receiver", "statement": "waterfall draws one curve per sensor; each curve shows that sensor's own times and its own normalized, scaled samples about its own position, with time on the requested axis; a time axis other than x or y is refused.", "quantifier": "every array, normalization, scale, orientation", "why_tests_cant": "all arrays and all combinations of options", "anchors": ["swprocess/array1d.py:Array1D.waterfall", "swprocess/array1d.py:Array1D._normalize_timematrix"]}
{"id": "C106", "title": "Traces of a default waterfall stay apart and inside the plot", "statement": "With the default amplitude, normalized traces stay within the limits of the plot and no trace is drawn beyond its neighbour.", "quantifier": "every array", "why_tests_cant": "depends on every spacing and every sample", "anchors": ["swprocess/array1d.py:Array1D.waterfall"]}
{"id": "C107", "title": "Manual first arrivals are returned as distances and times", "statement": "manual_pick_first_arrivals returns the distances and times of all picked points, none missing and none twice, in either orientation of the plot.", "quantifier": "every sequence of user actions, every array", "why_tests_cant": "unbounded interaction histories", "anchors": ["swprocess/array1d.py:Array1D.manual_pick_first_arrivals", "swprocess/interact.py:ginput_session"]}
{"id": "C108", "title": "A plot of peaks shows exactly the peaks that were not rejected", "statement": "Peaks.plot draws on one axes object per pair of types one line with exactly the peaks that are still valid, or those of the given mask, with the values of the attributes named by the types; a type the object does not have is refused.", "quantifier": "every Peaks object, after any history of rejections, every pair of types, every mask", "why_tests_cant": "all data, all masks, all pairs of types", "anchors": ["swprocess/peaks.py:Peaks.plot", "swprocess/peaks.py:Peaks._plot"]}
{"id": "C109", "title": "A plot of a suite shows every member once", "statement": "PeaksSuite.plot draws every member exactly once on every axes object, with the member's own mask, without removing what the axes already show; a wrong number of masks or axes is refused before anything is drawn.", "quantifier": "every suite, types, masks, axes and options", "why_tests_cant": "all suites and all combinations of arguments", "anchors": ["swprocess/peakssuite.py:PeaksSuite.plot"]}
{"id": "C110", "title": "The legend of a suite's plot lists every label once", "statement": "After PeaksSuite.plot the legend of every axes object contains the label of every member exactly once.", "quantifier": "every suite, every choice of labels, every axes object", "why_tests_cant": "all labels and all earlier drawings", "anchors": ["swprocess/peakssuite.py:PeaksSuite.plot"]}
{"id": "C111", "title": "Drawn resolution limits are at the limits", "statement": "plot_resolution_limits adds two curves each point of which has exactly the respective limit as its attribute value, or nothing when the limit cannot be expressed on the axes; earlier drawings stay.", "quantifier": "every pair of limits, every axes range, every combination of types", "why_tests_cant": "all limits and ranges", "anchors": ["swprocess/peakssuite.py:PeaksSuite.plot_resolution_limits", "swprocess/peakssuite.py:PeaksSuite.calc_resolution_limits"]}
{"id": "C112", "title": "A plotted dispersion image shows the power normalized as requested", "statement": "Whatever was plotted or normalized before, plot shows the original power normalized by the requested method over the transform's frequencies and velocities, and the marked peaks are the maxima of the image.", "quantifier": "every power matrix, every history of plots and normalizations", "why_tests_cant": "all histories", "anchors": ["swprocess/wavefieldtransforms.py:AbstractWavefieldTransform.plot", "swprocess/wavefieldtransforms.py:AbstractWavefieldTransform.normalize"]}
{"id": "C113", "title": "Plotting a transform does not change it", "statement": "plot leaves the power of the transform as it was, also when it is refused.", "quantifier": "every power matrix, every argument", "why_tests_cant": "all histories and failure points", "anchors": ["swprocess/wavefieldtransforms.py:AbstractWavefieldTransform.plot"]}
{"id": "C114", "title": "The velocity of a single wave is recovered", "statement": "If a single pulse crosses the array at one velocity, with any gains at the receivers, and that velocity is among the trial velocities, then find_peak_power of the phase-shift, plane-steered beamforming and frequency-wavenumber transforms returns exactly that velocity at every processed frequency at which the pulse has energy and two receivers are closer than the shortest trial wavelength; the same holds for the transform returned by a time-domain run with receiver selection, trimming to a window which holds the pulses, and padding; the time of the shot within the record does not matter.", "quantifier": "every pulse, gain, receiver layout on one side of the source, set of positive trial velocities, shot time, trimming window, padding and receiver selection", "why_tests_cant": "Uniqueness of the maximum over all trial velocities and all layouts; tests compare a few synthetic records on a grid.", "anchors": ["swprocess/wavefieldtransforms.py:PhaseShift.transform", "swprocess/wavefieldtransforms.py:FDBF.transform", "swprocess/wavefieldtransforms.py:AbstractWavefieldTransform.find_peak_power", "swprocess/maswworkflows.py:TimeDomainWorkflow.run"]}
{"id": "C115", "title": "SPAC ratios found in a file", "statement": "The pattern of get_spac_ratio finds in the text of a SPAC file exactly the ratios asked for, once each and in the order of the file, with every field as written: by default those of all times and rings, and with a time and a ring those of this time and ring. Components other than the vertical one are refused.", "quantifier": "every file, every time, ring and component", "why_tests_cant": "Quantifies over every text; backtracking patterns are decided by their shape, and tests read one file.", "anchors": ["swprocess/regex.py:get_spac_ratio"]}
{"id": "C116", "title": "Rings found in a file", "statement": "The pattern of get_spac_ring finds in the log of an analysis the smallest and largest distance of every ring, once each, in order and as written, and nothing else.", "quantifier": "every file", "why_tests_cant": "Quantifies over every text; tests read one file.", "anchors": ["swprocess/regex.py:get_spac_ring"]}
{"id": "C117", "title": "The power at a velocity and a frequency", "statement": "Every value of the phase-shift transform, of the beamformers and of the slant-stack transform stands at a trial velocity and a frequency in Hz and depends only on the Fourier components of the recorded traces at that frequency: phase shift gives the magnitude of the integral over offset of the phases advanced by travel time, beamforming the squared magnitude of the weighted, advanced sum over all receivers, slant stack the component at that frequency of the stack at that velocity.", "quantifier": "for all arrays, record lengths, sampling intervals, frequency ranges, trial velocities, weightings and steerings", "why_tests_cant": "A test compares a power matrix with stored numbers for one recording; an error of bin, order of axes or of a receiver's offset can hide in any other recording.", "anchors": ["swprocess/wavefieldtransforms.py:438-527", "swprocess/wavefieldtransforms.py:530-574", "swprocess/wavefieldtransforms.py:583-655", "swprocess/array1d.py:600-609"]}
{"id": "C118", "title": "Weighting balances receivers of a spreading wave", "statement": "With weighting \"sqrt\", the recommended option of the beamformer, each receiver contributes equally to the power at the velocity of a surface wave, whose amplitude decreases with the inverse square root of the offset. (Expected from the name of the option; the project's own text does not define it.)", "quantifier": "for all arrays, offsets, frequencies and wave amplitudes", "why_tests_cant": "A test fixes one array; the weight of each receiver shows only against a wave with known spreading, at every offset.", "anchors": ["swprocess/wavefieldtransforms.py:626-632", "examples/masw/masw.ipynb"]}
{"id": "C119", "title": "Trigger time, gain, polarity and side of the shot", "statement": "The phase-shift transform and the beamformer do not change when all records start earlier by a common number of samples, or when array and source are mirrored. A common factor of either sign leaves the phase-shift transform and the beamformer with weighting \"invamp\" unchanged, and multiplies other beamforming powers by its square. The slant-stack transform is not changed by the mirror either, and multiplied by a common factor.", "quantifier": "for all arrays, delays, non-zero factors, mirrors and settings", "why_tests_cant": "A relation between two runs on different recordings; tests compare single runs with stored numbers.", "anchors": ["swprocess/wavefieldtransforms.py:530-574", "swprocess/wavefieldtransforms.py:583-655", "swprocess/array1d.py:600-609", "swprocess/wavefieldtransforms.py:438-527"]}
{"id": "C120", "title": "Header fields of a .max file", "statement": "The process type in the identifier of peaks read from a .max file is the one written after the first PROCESS_TYPE= that has a value, in lower case (capon for RTBF of single-component files), and the number of rows is the number written after the first N_MAXIMA= that has digits, but at least 1 and at most 100. A file without one of them is refused with AttributeError.", "quantifier": "every text", "why_tests_cant": "Quantifies over every text before, between and after the fields; tests read a few files.", "anchors": ["swprocess/regex.py:58-62", "swprocess/peaks.py:155-160", "swprocess/peaks.py:177-181"]}
{"id": "C121", "title": "Records from traces", "statement": "ActiveTimeSeries.from_trace makes a record with the samples and time step of the trace and the given stack count and delay, exactly when the count is positive and the delay is not. from_trace_seg2, of records and of sensors, makes the record with the stack count and delay of the SEG2 header, and raises AttributeError when one of them is missing.", "quantifier": "every trace, header, count and delay", "why_tests_cant": "Quantifies over every header; tests build a handful of traces.", "anchors": ["swprocess/activetimeseries.py:from_trace", "swprocess/activetimeseries.py:from_trace_seg2", "swprocess/sensor1c.py:from_trace"]}
{"id": "C122", "title": "Schematic of an array", "statement": "Array1D.plot draws every sensor and the source at their coordinates, states the number of sensors, the source position to the centimetre and, exactly when the spacing is even, the spacing; options of the caller replace the defaults of the same name; nothing that was within the limits of the axes is put outside them.", "quantifier": "every array, options and axes", "why_tests_cant": "Quantifies over every array and every state of the axes.", "anchors": ["swprocess/array1d.py:343-411"]}
{"id": "C123", "title": "Plot of the signal-to-noise ratio", "statement": "After every run of every workflow plot_snr adds to the axes one curve, the ratio of the spectra of the signal and noise windows of this run, when the ratio was asked for, and nothing otherwise.", "quantifier": "every run of every workflow", "why_tests_cant": "Quantifies over every run.", "anchors": ["swprocess/wavefieldtransforms.py:142-167"]}
{"id": "C124", "title": "Correlation of the statistics", "statement": "statistics with correlations reports the locations, means and deviations it reports without; the matrix has a row and a column for each location, is symmetric, has coefficients between -1 and 1 and one on the diagonal, and the coefficient of two locations is the correlation of the values there of the members which have both.", "quantifier": "every suite and sample locations", "why_tests_cant": "Quantifies over every set of curves with gaps in any places.", "anchors": ["swprocess/peakssuite.py:536-588"]}
{"id": "C125", "title": "Filling of missing correlations", "statement": "Statistics._fill_corr returns the given matrix with every missing coefficient replaced by a number and all others unchanged.", "quantifier": "every matrix and fit", "why_tests_cant": "Quantifies over every pattern of missing coefficients.", "anchors": ["swprocess/stats.py:348-400"]}
{"id": "C126", "title": "Near-field line", "statement": "plot with nearfield=n draws over the dispersion image the line on which n wavelengths are as long as the mean distance between source and receivers, over the whole frequency range shown, and leaves the velocity range shown as it was. Without nearfield nothing is drawn.", "quantifier": "every array, criterion and axes", "why_tests_cant": "Quantifies over every geometry and every range of the axes.", "anchors": ["swprocess/wavefieldtransforms.py:254-263", "swprocess/array1d.py:154-156"]}
{"id": "C127", "title": "Error bars", "statement": "plot_statistics can be given whatever statistics returns and draws at every reported location the mean of the values there, with a bar of one standard deviation up and down. Options of the caller replace the defaults of the same name.", "quantifier": "every suite, locations and options", "why_tests_cant": "Quantifies over every suite and pattern of gaps.", "anchors": ["swprocess/peakssuite.py:633-640"]}
{"id": "C128", "title": "Velocity picked from a slant stack", "statement": "When a signal passes an array at one of the trial velocities, the slant stack at that velocity is the signal times the aperture, no value of the stack exceeds the aperture times the largest value of the signal, and the velocity picked from the slant-stack transform is that of the signal, whatever its polarity and whenever the recording was triggered. (Refuted for the pick from the complex transform. Proved for the magnitudes: at every frequency at which the pulse has energy and two receivers are closer than the shortest trial wavelength, the magnitude is larger at the velocity of the pulse than at every other trial velocity, so that velocity is picked from the normalized transform, provided the pulse stays inside the stack.)", "quantifier": "for all arrays, velocities, signals, polarities and trigger times", "why_tests_cant": "A statement about every signal and arrival time; tests look at one stored record.", "anchors": ["swprocess/wavefieldtransforms.py:438-527", "swprocess/wavefieldtransforms.py:113-138"]}
{"id": "C129", "title": "Zero padding in floating point", "statement": "With the sampling time T and the requested frequency step D given as float64 numbers, and 1/(D*T) a whole number N, zero_pad computed in float64 finds N: the record is extended by zeros to the next multiple of N samples and the reported df differs from D only by rounding.", "quantifier": "every record and every D, T with a whole quotient below 2^49", "why_tests_cant": "Rounding errors depend on every input; tests check a few sizes with tolerances.", "anchors": ["swprocess/activetimeseries.py:234-287"]}
{"id": "C130", "title": "Selected frequencies in floating point", "statement": "After zero padding to D, the frequencies kept for a range of multiples p*D to q*D are computed in float64 as exactly the bins p*m to q*m in steps of m, the same bins as in exact arithmetic.", "quantifier": "every record, range and D, T with a whole quotient, below 2^40 samples", "why_tests_cant": "Rounding errors depend on every input; tests check a few sizes with tolerances.", "anchors": ["swprocess/wavefieldtransforms.py:76-85", "swprocess/activetimeseries.py:100-111"]}
{"id": "C131", "title": "Stacking in floating point", "statement": "After any sequence of stack_append calls in float64 every sample is the stack-weighted mean of all records up to a relative error of (1+2^-53)^(3k)-1 of the mean absolute value, where k is the number of appended records; the order of the records matters only within twice that bound; which records are accepted does not depend on rounding.", "quantifier": "every sequence of records of any length", "why_tests_cant": "Rounding errors depend on every input; tests check a few sizes with tolerances.", "anchors": ["swprocess/activetimeseries.py:121-149"]}
{"id": "C132", "title": "Millimetres in SU files", "statement": "Coordinates and delays given in thousandths as float64 literals are written to and read from an SU file without any change; other coordinates are moved by half a millimetre at most, and a second round trip changes nothing.", "quantifier": "every coordinate the header can hold", "why_tests_cant": "Rounding errors depend on every input; tests check a few sizes with tolerances.", "anchors": ["swprocess/array1d.py:756-789", "swprocess/array1d.py:680-696", "swprocess/sensor1c.py:201-222"]}
{"id": "C133", "title": "Spacing in floating point", "statement": "An array whose sensors are at float64 positions c hundredths of a metre apart is found to be equally spaced and reports the spacing c/100, although the computed differences are not equal.", "quantifier": "every origin, spacing and number of sensors within a thousand kilometres", "why_tests_cant": "Rounding errors depend on every input; tests check a few sizes with tolerances.", "anchors": ["swprocess/array1d.py:158-166"]}
{"id": "C134", "title": "Thresholds on fractions in floating point", "statement": "Which samples and observations are dropped for want of data, and which regions of a data matrix are identified as dense, is decided in float64 as in exact arithmetic, for thresholds such as 0.3 which float64 cannot represent.", "quantifier": "every matrix and every fractional threshold, up to astronomic sizes", "why_tests_cant": "Rounding errors depend on every input; tests check a few sizes with tolerances.", "anchors": ["swprocess/peakssuite.py:643-729", "swprocess/stats.py:123-310"]}
{"id": "C135", "title": "Trimming at sample times in floating point", "statement": "trim(start, end) with the times of two samples of the record, given as float64 literals, keeps exactly the samples between them, for every begin and sampling time of the record.", "quantifier": "every record, begin, sampling time and pair of samples, below 2^44 samples", "why_tests_cant": "Rounding errors depend on every input; tests check a few sizes with tolerances.", "anchors": ["swprocess/activetimeseries.py:117-120", "swprocess/activetimeseries.py:213-232"]}
{"id": "C136", "title": "Mute boundaries in floating point", "statement": "The sample at which a boundary line of mute cuts a trace is computed in float64 as in exact arithmetic.", "quantifier": "every line, array and record below 2^38 samples", "why_tests_cant": "Rounding errors depend on every input; tests check a few sizes with tolerances.", "anchors": ["swprocess/array1d.py:561-585"]}
{"id": "C137", "title": "Values of the slant stack in floating point", "statement": "Computed in float64, every value the slant stack returns differs from the trapezoidal integral of the linearly interpolated traces by at most a stated multiple of the rounding unit, the number of samples, the largest amplitude and the length of the array, also where a delay falls on a sample and rounding makes the code read other samples.", "quantifier": "every record, array, sampling time and set of velocities for which a result is returned", "why_tests_cant": "Rounding errors depend on every input; tests compare a few arrays with tolerances.", "anchors": ["swprocess/wavefieldtransforms.py:438-490"]}
{"id": "C138", "title": "The order of the curves does not matter for the statistics", "statement": "Two suites holding the same dispersion curves, added in different orders, give the same mean, standard deviation and correlation from statistics, and if one is refused so is the other.", "quantifier": "every suite, every reordering of its members, every vector of frequencies and both settings of ignore_corr and drop", "why_tests_cant": "A test compares one or two orders of one suite.", "anchors": ["swprocess/peakssuite.py:PeaksSuite.statistics", "swprocess/peakssuite.py:PeaksSuite._drop", "swprocess/peakssuite.py:PeaksSuite.to_array"]}
{"id": "C139", "title": "The order of the files does not matter", "statement": "Array1D.from_files gives the same array for every order of the additional files; for files which each state one source and one format, list the same number of receivers in order of position and are accepted on their own, also for every choice of the first file.", "quantifier": "every file system, every list of files and every reordering of it", "why_tests_cant": "The number of orders grows with the factorial of the number of files; tests read two or three files in one order.", "anchors": ["swprocess/array1d.py:Array1D.from_files", "swprocess/sensor1c.py:Sensor1C.stack_append", "swprocess/activetimeseries.py:ActiveTimeSeries.stack_append"]}
{"id": "C140", "title": "Equality of suites", "statement": "Two PeaksSuites are equal exactly if they have the same number of members and the members at the same positions are equal; equal suites list the same identifiers; a suite which was saved and loaded is equal to the original.", "quantifier": "every pair of suites", "why_tests_cant": "Tests compare a few suites of two or three members.", "anchors": ["swprocess/peakssuite.py:PeaksSuite.__eq__", "swprocess/peaks.py:Peaks.__eq__"]}
{"id": "C141", "title": "Saving and loading in any history of rejections", "statement": "After any history of rejections, saves and loads, failed calls included, loading gives back the suite as it was last saved, and saving and loading at any moment does not change what the rest of the history leads to.", "quantifier": "every suite which can be saved and every history of calls", "why_tests_cant": "Histories are unbounded; tests save and load once.", "anchors": ["swprocess/peakssuite.py:PeaksSuite.to_json", "swprocess/peakssuite.py:PeaksSuite.from_json", "swprocess/peakssuite.py:PeaksSuite.reject_limits_outside", "swprocess/peakssuite.py:PeaksSuite.reject_box_inside"]}
{"id": "C142", "title": "An interrupted save leaves the old or the new suite", "statement": "If the process ends at any moment while PeaksSuite.to_json runs, from_json of the file gives the suite it held before or the new one.", "quantifier": "every suite, every file and every moment", "why_tests_cant": "A test cannot end the process at every moment of a call.", "anchors": ["swprocess/peakssuite.py:731-749", "swprocess/peaks.py:513-551"]}
{"id": "C143", "title": "Working in other units of frequency and velocity", "statement": "If all frequencies of a suite are multiplied by a positive number and all velocities by another (for instance Hz to kHz, m/s to km/s), every attribute of its peaks is multiplied by its own factor (slowness, wavelength and wavenumber included); rejections with limits or boxes given in the new units reject the same peaks; simplify_mpeaks picks the same peaks; and the statistics at the same locations in the new units have the same means and standard deviations in the new units and identical correlation coefficients, with the same samples and members dropped. A call is refused in one unit exactly if it is in the other.", "quantifier": "All suites, all positive factors, all attributes, limits, boxes, sample locations and options.", "why_tests_cant": "A test compares a few values in one unit; that no threshold, tie-break or drop rule depends on the unit is a statement about every data set and every pair of factors.", "anchors": ["swprocess/peaks.py:93-139", "swprocess/peaks.py:368-511", "swprocess/peakssuite.py:536-729"]}
{"id": "C144", "title": "Another unit of length", "statement": "If the coordinates of all receivers and of the source are multiplied by a positive number and so are the limits of the trial velocities, the phase shift, the beamformer and the slant stack give an image at the same frequencies whose velocities are multiplied by that number and whose powers are all multiplied by one positive number; so the velocities picked from it are the old ones in the new unit.", "quantifier": "All arrays, all positive factors, all settings.", "why_tests_cant": "The images are sums over all receivers for every velocity and frequency; a test shows it for one array and one factor.", "anchors": ["swprocess/wavefieldtransforms.py:51-70", "swprocess/wavefieldtransforms.py:113-138", "swprocess/wavefieldtransforms.py:438-656", "swprocess/array1d.py:600-609"]}
{"id": "C145", "title": "Several programs append to one file", "statement": "When several programs append Peaks with different identifiers to one file at the same time, every entry of a program which ended without an error is in the file at the end, and what was in the file before stays. (As implemented only the second half holds for every interleaving: a program which reads the file before another one writes it, and writes after it, erases the other's entry without an error. An entry stays if no other program has read and not yet written at the moment it is written; in particular when the programs run one after another.)", "quantifier": "All files, all numbers of programs, all interleavings of their reads and writes.", "why_tests_cant": "The loss depends on the order in which the operating system runs the programs; a test runs one order.", "anchors": ["swprocess/peaks.py:513-551"]}
{"id": "C146", "title": "Another unit of time", "statement": "Multiply every time by the same positive number: the time steps and delays of the records, the times handed to trim, the times of the mute lines, and divide the frequency step of zero_pad, the frequency limits and the limits of the trial velocities by it. Then every operation on records and arrays does the same to the same samples and refuses in the same cases, first arrivals are picked at the times multiplied by that number, and phase shift, beamforming and slant stack give the same image, whose frequencies and velocities, and the velocities picked from it, are divided by that number.", "quantifier": "for every positive rational factor, every record and array, all times, frequency steps, lines, windows, settings, and the three transforms", "why_tests_cant": "The nearest sample, the number of padded zeros, the truncation of the slant stack's delays and the selection of the frequencies each depend on a product or quotient of two quantities with a unit of time; a test fixes one unit.", "anchors": ["swprocess/activetimeseries.py:121-149", "swprocess/activetimeseries.py:213-287", "swprocess/array1d.py:174-236", "swprocess/array1d.py:421-439", "swprocess/array1d.py:541-598", "swprocess/wavefieldtransforms.py:51-82", "swprocess/wavefieldtransforms.py:438-655"]}
{"id": "C147", "title": "An interrupted extraction", "statement": "When a process running extract_mseed ends at any moment, the output directory holds the files of a number of rows of the table, each as an extraction of those rows alone leaves it, and besides these at most the file of the next row is in part written; no file not named by the table has been touched. Running the same extraction again gives the same files and ends in the same way as an extraction that was never interrupted; extracting twice is extracting once. (The complete file of an earlier extraction is not kept while it is being replaced.)", "quantifier": "every table, every set of hourly files, every earlier content of the output directory, every moment at which the process ends", "why_tests_cant": "a test cannot stop the process at every moment, nor try every table and every earlier content of the directory", "anchors": ["swprocess/utils.py:85-156"]}
{"id": "C148", "title": "Arrays do not interfere", "statement": "In a program which obtains its arrays from files or with from_array1d and works with trim, trim_offsets, zero_pad, mute and from_array1d on them in any order, every array is at any time what it would be if only the calls addressed to it had been made, and every call raises what it would raise then. A method of an array never changes an array that shares no Sensor1C object with it. from_array1d gives an array with the contents of from_array1d's argument whose sensors are new objects. Arrays made of the same Sensor1C objects see each other's changes.", "quantifier": "every program of any length on any number of arrays, every exception caught", "why_tests_cant": "interleavings of calls on several arrays are unbounded; tests work on one array at a time", "anchors": ["swprocess/array1d.py:Array1D.from_array1d", "swprocess/array1d.py:Array1D.__init__", "swprocess/array1d.py:Array1D.trim", "swprocess/array1d.py:Array1D.mute", "swprocess/masw.py"]}
{"id": "C149", "title": "One entry per peak", "statement": "Peaks refuses frequencies, velocities and further attributes of different lengths. In any case no operation of a Peaks object takes the value of one peak for that of another: what is read are the recorded values of the peaks not rejected, a rejection by limits rejects exactly the peaks whose own value is outside, and a rejection that raises an exception has rejected nothing.", "quantifier": "every Peaks object made of one-dimensional arrays of any lengths, every attribute and limits", "why_tests_cant": "tests use arrays of one length", "anchors": ["swprocess/peaks.py:Peaks.__init__", "swprocess/peaks.py:Peaks.reject_limits_outside", "swprocess/peaks.py:Peaks.reject_box_inside", "swprocess/peaks.py:93-139"]}
{"id": "C150", "title": "The same survey in other coordinates", "statement": "Measuring positions along the line from another origin and in another unit (map_x returns k*x + c, map_y k*y, the user clicks at the same places, offsets and velocities in the settings are multiplied by k) does not change what a run does: a run on one record, a stack of any number of records in the frequency domain and a run with cross-correlation raise the same exceptions, and otherwise return the same samples, times, frequencies and signal-to-noise ratio, the positions in the other coordinates, the velocities times k, and powers times one common factor, so that the picked velocities are k times those picked before.", "quantifier": "every positive k, every c, every file contents, settings, user and registered transform", "why_tests_cant": "an equality of two runs for all surveys and all coordinates; tests use one coordinate system", "anchors": ["swprocess/maswworkflows.py", "swprocess/array1d.py:Array1D.from_files", "swprocess/sensor1c.py:Sensor1C.from_trace", "swprocess/interact.py:ginput_session", "swprocess/wavefieldtransforms.py"]}
{"id": "C151", "title": "Cross-correlation workflow", "statement": "The time-domain-xcorr workflow reads the records of the receivers and the source signal, cuts the records at time zero, refuses a source between the receivers, and then selects receivers by offset, detrends, trims, mutes, correlates with the source signal, pads and transforms, in this order. The noise window is taken from the detrended record before trimming and muting and the signal window from the muted record; neither is correlated. It returns whenever these steps succeed.", "quantifier": "every environment, settings, list of files, source files and channel", "why_tests_cant": "order of steps for all settings and inputs", "anchors": ["swprocess/maswworkflows.py:TimeDomainXcorrMaswWorkflow.run", "swprocess/masw.py:MaswXcorr.run", "swprocess/array1d.py:Array1DwSource"]}
{"id": "C152", "title": "The velocity of a sweep is recovered by the cross-correlation workflow", "statement": "If a sweep crosses the array at one velocity, with any gains at the receivers, and the lags kept by the correlation hold the whole wavelet (the correlation of the sweep with the source signal, apart from zeros) at every receiver, then the peaks of the transform returned by the cross-correlation workflow are at exactly that velocity, if it is among the trial velocities, at every frequency at which the sweep and the source signal have energy and two receivers are closer than the shortest trial wavelength. The shift by one sample and half a second which the correlation leaves in the records does not matter.", "quantifier": "every sweep, source signal, gain, receiver layout on one side of the source, shot time, padding and receiver selection", "why_tests_cant": "The chain correlation, slicing by truncated indices, padding, transform, maximum over all trial velocities has to be followed for all signals; tests look at one record.", "anchors": ["swprocess/array1d.py:Array1DwSource.xcorrelate", "swprocess/maswworkflows.py:TimeDomainXcorrMaswWorkflow.run", "swprocess/wavefieldtransforms.py:AbstractWavefieldTransform.find_peak_power"]}
{"id": "C153", "title": "Records are correlated only with a source signal of the same sampling interval", "statement": "xcorrelate multiplies samples of the receivers with samples of the source signal taken at the same times; a source signal sampled at another interval than the receivers is refused. (Refuted: the two intervals are never compared. Whatever the interval of the source signal, apart from zero, the call returns and the samples are multiplied one by one; the interval of the source signal only decides which lags are kept.)", "quantifier": "every array with a source signal, every pair of sampling intervals, every pair of velocities", "why_tests_cant": "A test uses one recording system, where the two intervals agree; that no pair of intervals is ever refused is a statement about all of them.", "anchors": ["swprocess/array1d.py:Array1DwSource.xcorrelate", "swprocess/array1d.py:Array1DwSource.from_files"]}
{"id": "C154", "title": "Lags kept by the cross-correlation, in floating point", "statement": "With positive velocities and sampling interval and counts of samples up to 2^40, xcorrelate keeps the lags from (nearest offset)/vmax - 0.5 s to (farthest offset)/vmin, in samples cut to whole numbers, up to one sample at either end although every operation is rounded; an end which is more than 1/1024 of a sample away from a whole number is exact. The one sample can be lost: at 35 m, 50 m/s and 1 ms, 699 samples are kept after lag zero instead of 700.", "quantifier": "every array with a source signal, every pair of velocities, every sampling interval", "why_tests_cant": "Whether the rounded quotient falls below a whole number depends on the offset, the velocity and the interval together; a test has one triple.", "anchors": ["swprocess/array1d.py:Array1DwSource.xcorrelate", "swprocess/array1d.py:Array1D.offsets"]}
{"id": "C155", "title": "Mean of a column of statistics, in floating point", "statement": "The mean of the values at one frequency lies between the smallest and the largest of them, and equal values have that value as mean and no standard deviation. (Refuted for binary64: three values of 0.1 have a mean above 0.1 and a positive variance, whatever the order of the additions. Partial: for every order of the additions the error is at most the part (1+2^-53)^n - 1 of the mean of the magnitudes, the variance is that of the numbers up to such a part and the square of the error of the mean, and for values with few digits, such as whole numbers, the mean is the correctly rounded one and the property holds.)", "quantifier": "every column of values with missing entries, every order in which the sum may be formed", "why_tests_cant": "numpy may add in any order, and the bound has to hold for every number of values and every order.", "anchors": ["swprocess/peakssuite.py:PeaksSuite.statistics", "swprocess/stats.py:Statistics"]}
{"id": "C156", "title": "Limits and boxes on slowness and wavelength, in floating point", "statement": "Rejecting by limits on slowness or wavelength keeps every peak whose value is within the closed limits although the value is rounded before it is compared, and rejects every peak outside by more than the part 2^-53 of its value; rejecting by a box rejects only peaks strictly inside, and every peak inside by more than that part. Limits on recorded values compare the values themselves.", "quantifier": "every record of peaks, every pair of limits, every box", "why_tests_cant": "The rounding of a quotient may move it across a limit; that it never moves a peak from inside the limits to outside is a statement about all pairs of doubles.", "anchors": ["swprocess/peaks.py:Peaks.reject_limits_outside", "swprocess/peaks.py:Peaks.reject_box_inside", "swprocess/peaks.py:Peaks.wavelength", "swprocess/peaks.py:Peaks.slowness"]}
{"id": "C157", "title": "The velocity of a wave is recovered from shots stacked in the frequency domain", "statement": "When in every file of a frequency-domain run a pulse crosses the receivers at one velocity, each file with its own pulse, shot time and gains, all recorded with one number of samples, time step and delay, then the peak picked from the stacked transform (phase shift, FK, or beamforming with plane steering) is at that velocity, at every frequency at which all pulses have energy and in every file some two of the selected receivers are closer than the shortest trial wavelength. This holds with and without trimming to a window holding the pulses, padding and selection of receivers by offset.", "quantifier": "for every number of files, pulses, gains, shot times, receivers, settings without muting", "why_tests_cant": "The stack is a mean of complex matrices which are each known only through a strict inequality between two rows; a test can check a few synthetic shots but not that no combination of pulses, gains and shot times moves the maximum of the mean.", "anchors": ["swprocess/maswworkflows.py:257-305", "swprocess/wavefieldtransforms.py:336-366", "swprocess/wavefieldtransforms.py:72-150"]}
{"id": "C158", "title": "The description of a workflow is what it does", "statement": "str() of a workflow lists, below its title, the steps of a run in the order in which they are done: a run which returns has read the files, checked the array, selected receivers, detrended, trimmed, muted, padded and transformed exactly as listed (for the frequency domain: for every file, stacking the transforms), and the title is the name of the workflow. (Refuted for cross-correlation: the records are correlated after trimming and muting, not before as described, which gives another result, and the title is that of the time-domain workflow. Proved for the three other workflows, and for cross-correlation without trimming and muting.)", "quantifier": "for every workflow, settings, files, user's picks and transforms", "why_tests_cant": "Whether two orders of processing steps agree depends on the data and the settings; a test comparing a text with a text, or one run with another, does not show that the listed order is the order of all runs.", "anchors": ["swprocess/maswworkflows.py:135-154", "swprocess/maswworkflows.py:168-179", "swprocess/maswworkflows.py:186-197", "swprocess/maswworkflows.py:214-254", "swprocess/maswworkflows.py:260-319"]}
{"id": "C159", "title": "Every attribute a Peaks lists can be read", "statement": "Peaks.extended_attrs lists exactly the frequency, the velocity, the attributes given at construction and the computed wavelength, slowness and wavenumber. Reading any listed attribute gives the recorded or computed values of the peaks not rejected, in order and one per peak; an attribute that is not listed cannot be read and cannot be used to reject peaks.", "quantifier": "for every Peaks object in any state of rejection and every attribute name", "why_tests_cant": "Attribute names are arbitrary keyword arguments; a test reads the names it knows.", "anchors": ["swprocess/peaks.py:59-145 (__init__, attribute properties, extended_attrs)", "swprocess/peaks.py:368-410 (reject_limits_outside)"]}
{"id": "C160", "title": "Muting lets a wave through and takes everything else away", "statement": "If every record of an array is a wave which lies between the start and the end line of a mute, away from the lines by the length of the window's tapers (and two samples at the end line), plus anything at all before the start line and after the end line, then Array1D.mute succeeds and what is left of every record is exactly the wave. Arrays whose records differ only off the lines are equal after muting. A time-domain MASW run with interactive muting on such records returns peaks at the velocity of the wave, as if the rest had never been recorded; so does a frequency-domain run over several such shots, each with its own pulse and noise, muted between the lines picked on the first.", "quantifier": "for all records, all lines inside the records, all windows with flat middle and all noise off the lines", "why_tests_cant": "The noise, the wave, the lines and the receivers are arbitrary; a test mutes one record with one pair of lines.", "anchors": ["swprocess/array1d.py:475-598", "swprocess/maswworkflows.py:83-104"]}
{"id": "C161", "title": "Looking at a stack while it grows does not change it", "statement": "Plotting or normalizing an (empty-started) wavefield stack between calls of stack, or plotting a transform before it is stacked, has no influence on the final stack: its power is the mean of the powers of all stacked transforms weighted by their numbers of records, normalized by the method asked for last.", "quantifier": "for all sequences of stack and normalize/plot calls on one stack, all numbers of transforms and all their weights and powers", "why_tests_cant": "the effect depends on where in the history of calls the normalization was, and on the maximum found there; tests normalize once after stacking", "anchors": ["swprocess/wavefieldtransforms.py:84-111", "swprocess/wavefieldtransforms.py:218", "swprocess/wavefieldtransforms.py:336-366"]}
{"id": "C162", "title": "A workflow object can be run again", "statement": "run() on a time-domain, frequency-domain, or cross-correlation workflow object which has already run returns what a new object with the same settings and file names would return: the same array, transform, and signal-to-noise ratio; any number of times, and also after its fnames were replaced.", "quantifier": "for all settings, files, users, transforms, and numbers of runs of one object", "why_tests_cant": "mute lines and signal/noise windows are kept in attributes between runs, so the result depends on the history of the object; tests run every object once", "anchors": ["swprocess/maswworkflows.py:38-52", "swprocess/maswworkflows.py:69-75", "swprocess/maswworkflows.py:83-121", "swprocess/maswworkflows.py:135-154", "swprocess/snr.py:30-36", "swprocess/maswworkflows.py:214-240", "swprocess/maswworkflows.py:261-305"]}
{"id": "C163", "title": "Noise which is small against the signal does not change the picked velocities", "statement": "If the samples of every sensor change by noise whose spectrum at a frequency is at most the part eps of the spectrum of the record, then every value of the phase-shift image at this frequency changes by at most 2*eps times the length of the array, and the square root of every value of the beamforming and frequency-wavenumber images by at most eps times the sum of the (weighted) magnitudes (2*eps with invamp); frequencies and trial velocities stay the same. Hence a trial velocity which stands out by more than twice this bound is picked from the noisy record too; for a plane wave this is a condition on the response of the array alone.", "quantifier": "for all arrays on one side of the source (any spacing and order for beamforming), all records and all noise, all settings, all frequencies and trial velocities", "why_tests_cant": "the noise is an arbitrary change of all samples; tests use fixed records without noise and compare with stored images", "anchors": ["swprocess/wavefieldtransforms.py:113-138", "swprocess/wavefieldtransforms.py:530-574", "swprocess/wavefieldtransforms.py:577-712", "swprocess/wavefieldtransforms.py:715-723"]}
{"id": "C164", "title": "Twice the resolution wavenumber is the limit of what an array can tell apart", "statement": "On an evenly spaced array kres is pi divided by the spacing, and two trial velocities whose wavenumbers 2*pi*f/v differ at a frequency by a multiple of 2*kres have the same power there, whatever was recorded (phase shift, plane-steered beamforming, frequency-wavenumber); of the two the later in the list is never picked, even if it is the velocity of the wave. On any array, if the wavenumbers of all trial velocities at a frequency are below 2*kres, the velocity of a wave crossing the array is picked there.", "quantifier": "for all arrays with the source outside, all records, settings, frequencies and trial velocities", "why_tests_cant": "a statement about all pairs of velocities and all recordings; tests look at kres as a number and at single images", "anchors": ["swprocess/array1d.py:144-147", "swprocess/wavefieldtransforms.py:113-138", "swprocess/wavefieldtransforms.py:530-574", "swprocess/wavefieldtransforms.py:577-712", "swprocess/wavefieldtransforms.py:715-723"]}
{"id": "C165", "title": "Statistics of a suite stay between the curves of its members", "statement": "If the points of every member of a suite lie between a convex function L of the location and a concave function U (in particular between two constants or two straight lines), then every mean PeaksSuite.statistics reports at a location x lies between L(x) and U(x), and every standard deviation is at most (U(x)-L(x))/sqrt(2). If all points lie on one straight line, each mean is the value of that line and each standard deviation is zero; if all members have the same points, each mean is the value of their common broken line and each standard deviation is zero.", "quantifier": "all suites, attribute pairs, sample locations, minimum numbers of members, and bounding functions", "why_tests_cant": "A test compares the statistics of one or two suites; the bound must hold for every suite, however its members overlap and whichever samples and members are dropped.", "anchors": ["swprocess/peakssuite.py:PeaksSuite.statistics", "swprocess/peakssuite.py:PeaksSuite.to_array", "swprocess/peakssuite.py:PeaksSuite._drop"]}
{"id": "C166", "title": "A survey over ground of one velocity is summarised by that velocity", "statement": "Take three or more shots in each of which a pulse crosses the array at velocity v (any gains, any pulse, any geometry with the source off the array), process each with a time-domain run (phase-shift, FK, or FDBF with plane steering; any trimming that keeps the pulse, any padding, settings may differ between shots), pick each returned transform with find_peak_power, put the picks in Peaks objects, collect these with PeaksSuite.from_peaks, and reject frequencies outside (lo, hi) with reject_limits_outside. If v is a trial velocity and, inside (lo, hi), the pulse has energy and the array resolves the trial velocities, then PeaksSuite.statistics at any locations inside the picked frequencies of every shot drops nothing, reports the mean v everywhere, and the standard deviation zero. The same holds if the members come from different workflows: single shots with noise that interactive muting removes, stacks of several files in the frequency domain with and without muting, and sweeps with cross-correlation, in any mixture.", "quantifier": "for all numbers of shots (at least three), records, pulses, settings, limits, sample locations, and minimum numbers of members up to the number of shots", "why_tests_cant": "the result depends on the composition of reading, preprocessing, transform, picking, rejection, resampling, dropping of incomplete data, and statistics; tests exercise these one at a time", "anchors": ["swprocess/maswworkflows.py:TimeDomainMaswWorkflow.run", "swprocess/wavefieldtransforms.py:AbstractWavefieldTransform.find_peak_power", "swprocess/peaks.py:Peaks.__init__", "swprocess/peakssuite.py:PeaksSuite.from_peaks", "swprocess/peakssuite.py:PeaksSuite.reject_limits_outside", "swprocess/peakssuite.py:PeaksSuite.statistics", "swprocess/maswworkflows.py:FrequencyDomainMaswWorkflow.run", "swprocess/maswworkflows.py:TimeDomainXcorrMaswWorkflow.run"]}
{"id": "C167", "title": "Read options apply to every file", "statement": "Options given to Array1D.from_files as obspy_read_kwargs are used for reading all of the files: the array is the one obtained from the files as obspy.read returns them with these options. Without options, or with a single file, nothing else is read than obspy.read returns for them.", "quantifier": "for all file contents, options, lists of files and coordinate mappings", "why_tests_cant": "A test reads one or two files of one folder with one option; that no option and no list of files lets some file be read otherwise is a statement about all of them.", "anchors": ["swprocess/array1d.py:611-736"]}
{"id": "C168", "title": "Random replacement changes no recorded value", "statement": "When Statistics.from_data_matrix replaces missing values at random, no recorded value is changed, every missing value inside a region is replaced, by a draw of its own with the mean and deviation of its column, and no other; data are accepted only if in every column the mean is within five percent and the coefficient of variation within 0.01 of those of the recorded values. A refused attempt leaves nothing in the data: the accepted data are those of the first acceptable attempt on the recorded values, and ValueError is raised exactly if none of the permitted attempts is acceptable. Data with nothing to replace, two values per column and no mean of zero are accepted as they are. The means and deviations used for the object are those of the recorded values.", "quantifier": "for all matrices, regions, numbers of attempts and random sources", "why_tests_cant": "The replacement depends on a random source; a test sees a few draws, and that a refused attempt never leaks into the next one is a statement about all sequences of draws.", "anchors": ["swprocess/stats.py:82-107", "swprocess/stats.py:410-414"]}
{"id": "C169", "title": "Correlation coefficients of from_data_matrix", "statement": "The correlation coefficients Statistics.from_data_matrix stores are, for every pair of samples inside one region, those of the two columns of data after replacement; the coefficients depend on nothing but the data and the random source, and the number of observations is free. The sample locations used are those of the samples that are kept.", "quantifier": "for all matrices, regions and contents of uninitialised memory", "why_tests_cant": "A test compares one matrix on one machine; uninitialised memory is often zero in a fresh process, and data with as many observations as samples hide the confusion of the two sizes.", "anchors": ["swprocess/stats.py:109-120"]}
{"id": "C170", "title": "Stacking before or after the slant stack", "statement": "With the slant-stack transform and positive trial velocities, a time-domain run over several files returns, at every trial velocity and frequency, the mean of the powers that runs over the single files return, weighted by the files' stack counts, on the same frequencies. For files with equal stack counts the frequency-domain workflow returns the same image as the time-domain workflow; for unequal counts it need not.", "quantifier": "for all numbers of files, records, stack counts, receiver selections, trim times, mute lines, paddings, frequency and velocity grids and linear detrend operations", "why_tests_cant": "A test compares one set of files within a tolerance; that the order of stacking and transforming does not matter is a statement about every record, and it holds only because every pre-processing step is linear in the samples and chosen independently of them.", "anchors": ["swprocess/maswworkflows.py:133-159", "swprocess/maswworkflows.py:258-305", "swprocess/wavefieldtransforms.py:438-527", "swprocess/activetimeseries.py:121-149", "swprocess/array1d.py:541-600"]}
{"id": "C171", "title": "The axes of the image do not depend on the transform", "statement": "Transforming one array with two registered transforms and the same frequency range and trial velocities gives images on the same frequencies with one row per trial velocity and one column per frequency; with linear spacing both list the equally spaced trial velocities. Two time-domain runs which differ in the transform and its specific settings only transform the same pre-processed array and report the same signal-to-noise ratio.", "quantifier": "for all arrays, files, settings, environments and pairs of registered transforms", "why_tests_cant": "The transforms compute their frequencies in four different places; tests compare two of them for one record.", "anchors": ["swprocess/wavefieldtransforms.py:51-70", "swprocess/wavefieldtransforms.py:333-400", "swprocess/wavefieldtransforms.py:490-527", "swprocess/wavefieldtransforms.py:530-574", "swprocess/wavefieldtransforms.py:583-655", "swprocess/wavefieldtransforms.py:715-723", "swprocess/maswworkflows.py:133-159"]}
{"id": "C172", "title": "Looking at an image does not change the picks", "statement": "The velocities find_peak_power returns are the same before and after normalize (which plot calls), whatever methods were used and in whatever order, also for images whose power is complex.", "quantifier": "for all rectangular complex images with some power at every frequency, all trial velocities and all sequences of documented methods", "why_tests_cant": "normalize replaces complex powers by magnitudes in place while peaks are found by numpy's order of complex numbers; tests use real powers and one call.", "anchors": ["swprocess/wavefieldtransforms.py:84-111", "swprocess/wavefieldtransforms.py:113-138", "swprocess/wavefieldtransforms.py:218"]}
{"id": "C173", "title": "A rejected peak has no influence any more", "statement": "Once a peak is rejected, its recorded values do not matter: whatever they are, every attribute reads the same, simplify_mpeaks gives the same, every later rejection ends alike and rejects the same peaks, and to_array and statistics of the suite (with and without correlations and mean substitution) give the same, after any history of rejections.", "quantifier": "for all suites of 1D or 2D peaks with any attributes, all values of the rejected peaks including NaN and infinities, all histories of rejections including failed ones, all locations and options", "why_tests_cant": "It compares two executions for every possible value of hidden data and every later history.", "anchors": ["swprocess/peaks.py:93-139", "swprocess/peaks.py:368-511", "swprocess/peakssuite.py:83-123", "swprocess/peakssuite.py:536-632"]}
{"id": "C174", "title": "Receivers outside the offset range have no influence", "statement": "Two records of the same shot which agree in the receivers within the offset limits of the settings give the same result of a run (transform, array, signal-to-noise ratio, or exception), whatever other receivers they contain.", "quantifier": "for all pairs of files, settings, transforms and external procedures", "why_tests_cant": "It compares two executions for arbitrary additional data.", "anchors": ["swprocess/maswworkflows.py:54-62", "swprocess/maswworkflows.py:135-166", "swprocess/array1d.py:192-219"]}
{"id": "C175", "title": "Zero padding changes no power", "statement": "Two runs of the time-domain workflow which differ in zero padding and nothing else give the same signal-to-noise ratio and the same trial velocities, and wherever both dispersion images have a column at the same frequency, and the spectra do not vanish there, the power is the same at every trial velocity: padding adds frequencies and changes no value.", "quantifier": "for all files, settings, transforms, padding steps and external procedures", "why_tests_cant": "It compares two executions over all recordings and frequency steps; the powers are complex exponential sums over arbitrarily many samples.", "anchors": ["swprocess/maswworkflows.py:117-121", "swprocess/activetimeseries.py:234-286", "swprocess/wavefieldtransforms.py:438-527", "swprocess/wavefieldtransforms.py:529-723"]}
{"id": "C176", "title": "The order of the channels in a file does not matter", "statement": "A record whose traces state one format and one source gives the same array, and the same result of a run of each workflow, in whatever order the traces are listed in the file.", "quantifier": "for all files, all reorderings of their traces, all settings, transforms and external procedures", "why_tests_cant": "It compares executions over all permutations of arbitrarily many traces.", "anchors": ["swprocess/array1d.py:611-736", "swprocess/array1d.py:37-84", "swprocess/maswworkflows.py:135-166", "swprocess/maswworkflows.py:261-305"]}
{"id": "C177", "title": "Several programs save suites to one file", "statement": "When several programs save their suites to one file, then after all have ended the file holds the suite of one of them, and none of them ends with an exception.", "quantifier": "for all numbers of programs, all suites, all files at the start and all interleavings of the reads and writes", "why_tests_cant": "It depends on how the reads and writes of programs running at the same time are interleaved.", "anchors": ["swprocess/peakssuite.py:731-749", "swprocess/peaks.py:501-551"]}
{"id": "C178", "title": "SU files written and read again and again", "statement": "An array read from an SU file which to_file has written can be written and read again any number of times, and what is read is always the same.", "quantifier": "for all arrays which can be written and all numbers of repetitions", "why_tests_cant": "It is about arbitrarily many repetitions and every array; one round trip of one array shows neither.", "anchors": ["swprocess/array1d.py:756-789", "swprocess/array1d.py:611-736", "swprocess/sensor1c.py:72-236"]}
{"id": "C179", "title": "Other trial velocities and frequencies change no power", "statement": "The power an image shows at a trial velocity and a frequency does not depend on which other trial velocities and frequencies are asked for; with more trial velocities the picked velocity changes only to one which was not among the trial velocities before, or to one of the same power.", "quantifier": "for all arrays, files, settings, pairs of frequency ranges and trial velocities, and transforms", "why_tests_cant": "It compares executions with different settings at all points where the images overlap.", "anchors": ["swprocess/wavefieldtransforms.py:51-70", "swprocess/wavefieldtransforms.py:438-655", "swprocess/wavefieldtransforms.py:715-723", "swprocess/maswworkflows.py:135-166"]}
{"id": "C180", "title": "Tables extracted at the same time", "statement": "If several programs extract different tables of time blocks into one directory at the same time, and no two tables name the same output file, each ends as if it had been run alone and leaves the files it would have left alone, in whatever order their steps are interleaved; no other file is touched, and none waits for another.", "quantifier": "for all tables, hourly files, initial contents of the directory, numbers of programs and interleavings of their steps", "why_tests_cant": "It quantifies over all interleavings of any number of processes; a test runs one program, or meets one interleaving.", "anchors": ["swprocess/utils.py:85-156", "swprocess/utils.py:137-140"]}
{"id": "C181", "title": "Stacking in stages", "statement": "Shots may be stacked in stages: stacking them in groups, and the groups with one another, in any grouping and order, with or without saving a group to a file in between, gives the mean over all shots weighted with their stack counts.", "quantifier": "for all shots, numbers of shots, groupings and orders", "why_tests_cant": "It quantifies over all trees of groupings of any number of shots.", "anchors": ["swprocess/activetimeseries.py:121-149", "swprocess/array1d.py:756-796"]}
{"id": "C182", "title": "One file: the same from every workflow", "statement": "Run over a single file, the time-domain, the frequency-domain and the single workflow are interchangeable: with the same settings either all of them return or none does, and they return the same image, frequencies, trial velocities, record, signal-to-noise ratio and mute lines.", "quantifier": "for all files, settings, preprocessing steps and registered transforms", "why_tests_cant": "It compares three programs over all files and settings, including those on which they fail.", "anchors": ["swprocess/maswworkflows.py:135-166", "swprocess/maswworkflows.py:261-305", "swprocess/wavefieldtransforms.py:336-366"]}
{"id": "C183", "title": "Narrowing a record in steps", "statement": "A record or an array may be trimmed in any number of steps, each window within the one before: the result is that of the last window alone, and the same window asked for again changes nothing.", "quantifier": "for all records and arrays, numbers of steps and windows", "why_tests_cant": "It quantifies over sequences of windows of any length and over windows which do not begin or end at a sample.", "anchors": ["swprocess/activetimeseries.py:213-232", "swprocess/array1d.py:174-190"]}
{"id": "C184", "title": "Receivers may be selected at any time", "statement": "trim_offsets can be called before or after any sequence of trim, zero_pad and mute with given lines: both ways return the same array.", "quantifier": "for all arrays, offset limits and sequences of calls", "why_tests_cant": "It quantifies over all sequences of calls and over the place of one call among them.", "anchors": ["swprocess/array1d.py:174-236", "swprocess/array1d.py:541-598"]}
{"id": "C185", "title": "A common factor in the stack counts has no influence", "statement": "A list of files given several times over is read as the list given once, with all stack counts multiplied; source files given several times over have the same mean signal. A time-domain or cross-correlation run on them returns the same image, signal-to-noise ratio and mute lines, or stops at the same point for the same reason.", "quantifier": "for all lists of files, numbers of repetitions, settings and users, and all five transforms", "why_tests_cant": "It relates two runs of the whole pipeline for lists of any length repeated any number of times.", "anchors": ["swprocess/activetimeseries.py:121-149", "swprocess/array1d.py:611-736", "swprocess/array1d.py:823-843", "swprocess/maswworkflows.py:54-154", "swprocess/maswworkflows.py:214-240"]}
{"id": "C186", "title": "In a frequency-domain stack only the share of each file counts", "statement": "A frequency-domain run over the files in another order, or over the list given several times, returns if the first run returns, and gives the same image at the same frequencies; in general two runs in which every file has the same share give the same image. With muting this needs the same first file and the same window for all files; with the same first file the mute lines and the signal-to-noise ratio are the same too.", "quantifier": "for all lists of files recorded alike, all settings and users, and the four transforms", "why_tests_cant": "It relates two runs of the whole pipeline over lists of any length, in any order and with any multiplicities.", "anchors": ["swprocess/maswworkflows.py:258-305", "swprocess/wavefieldtransforms.py:359-366"]}
{"id": "C187", "title": "A frequency-domain stack can be made in parts", "statement": "If a frequency-domain run over a list of files returns, so does the run over every part of the list, however it is cut, and stacking the images of the parts with one another gives the image of the whole run: frequencies, trial velocities, power and the number of files behind it. Without muting and signal-to-noise ratio.", "quantifier": "for all lists of files recorded alike, all ways of cutting them into parts, all settings and the four transforms", "why_tests_cant": "It relates any number of runs of the whole pipeline over lists of any length to one run.", "anchors": ["swprocess/maswworkflows.py:258-305", "swprocess/wavefieldtransforms.py:336-366"]}
{"id": "C188", "title": "Several source files make one source signal", "statement": "The source signal of the cross-correlation workflow is the mean of the signals in the source files, sample by sample, whatever the order of the files; files whose signals differ in length or sampling interval are refused. (Refuted in two points: the sampling intervals are never compared and the result has that of the first file, so the order matters; a signal of one sample is added to every sample of the signals before it, but refused if it is first.)", "quantifier": "for all lists of source files, channels, lengths and sampling intervals", "why_tests_cant": "It holds for any number of files, in any order, and the refuted points only show for files which differ.", "anchors": ["swprocess/array1d.py:823-843", "swprocess/maswworkflows.py:214-240"]}
{"id": "C189", "title": "Statistics of combined suites", "statement": "Two suites are combined with PeaksSuite.from_peakssuite. At a sample location for which both have statistics, the combined suite has statistics, too: its mean is the mean of the two means, weighted with the numbers of curves that reach the location, and (n+m-1) times its variance is (n-1) and (m-1) times the two variances plus nm/(n+m) times the squared difference of the means.", "quantifier": "for all pairs of suites with together at most 100 members and at most 100 sample locations, of which some have values in each suite (beyond that, see C53)", "why_tests_cant": "It relates three calls on arbitrary curves of arbitrary ranges, with samples and members dropped by rules that compare the whole matrix.", "anchors": ["swprocess/peakssuite.py:536-588", "swprocess/peakssuite.py:590-631", "swprocess/peakssuite.py:642-713", "swprocess/peakssuite.py:901-925"]}
{"id": "C190", "title": "The source position is never guessed", "statement": "An array that Array1D.from_files returns has the source position that the last trace of the first file states, and the first trace of every further file states the same: a source location (SEG2), or units that are lengths, a coordinate scalar and both source coordinates (SU, SEGY), read by the SEG-Y scalar rule and mapped. When one of these fields is missing from an SU or SEGY header, KeyError is raised and no default is used, unlike for the receivers (C15).", "quantifier": "every list of files with arbitrary headers, and all coordinate mappings", "why_tests_cant": "Headers may lack any combination of fields, in any of arbitrarily many files.", "anchors": ["swprocess/array1d.py:664-734"]}
{"id": "C191", "title": "The user's beamforming options are honoured", "statement": "Frequency-domain beamforming weighs and advances the receivers by the weighting and steering which stand in the settings under processing, fdbf-specific (as create_settings_dict(weighting=..., steering=...) puts them there); without a text there, the weights are one and the wavefront is plane. Nothing else in the settings influences the weights or the wavefront.", "quantifier": "every settings dictionary, every recording whose spectra do not vanish at the frequency, every trial velocity and frequency", "why_tests_cant": "The options pass through a file and two dictionaries, and wrong ones give images of the same shape.", "anchors": ["swprocess/masw.py:89-155", "swprocess/wavefieldtransforms.py:583-655"]}
{"id": "C192", "title": "The order of the rows of an extraction table", "statement": "Two tables with the same rows, in any order and with any repetitions, in which different rows are for different output files: extract_mseed succeeds for both or for none of them, and if it succeeds it leaves the same folders and files: in the file of every row the data of this row, and every other file as it was. A table cut into parts that are extracted one after the other gives what the whole table gives, exceptions included.", "quantifier": "all tables, orders and contents of the output directory", "why_tests_cant": "The number of orders of a table is not bounded, and a wrong one would show only in files that overwrite each other.", "anchors": ["swprocess/utils.py:extract_mseed"]}
