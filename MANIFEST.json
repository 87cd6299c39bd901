{
 "claims": [
  {
   "property": "C01",
   "status": "proved",
   "theorems": [
    "Verif.Props.C01_stack_history_is_weighted_mean",
    "Verif.Props.C01_stack_history_order_irrelevant",
    "Verif.Props.C01_stack_base_irrelevant"
   ],
   "note": "Weighted mean, order and choice of base record, for all histories, in exact arithmetic; C131 is the same with rounding."
  },
  {
   "property": "C02",
   "status": "proved",
   "theorems": [
    "Verif.Props.C02_stack_succeeds_iff_compatible",
    "Verif.Props.C02_refused_stack_changes_nothing",
    "Verif.Props.C02_refused_stacks_are_invisible"
   ],
   "note": "Acceptance condition and unchanged state, also over histories with caught failures."
  },
  {
   "property": "C03",
   "status": "proved",
   "theorems": [
    "Verif.Props.C03_zero_pad_reaches_step",
    "Verif.Props.C03_zero_pad_exact",
    "Verif.Props.C03_zero_pad_succeeds_iff"
   ],
   "note": "A successful `zero_pad(df)` keeps the samples, appends only zeros and reaches the frequency step `1/(N*dt)` with `N` an integer nearest `1/(df*dt)`; the number of samples becomes the smallest admissible one. If `1/(df*dt)` is an integer the requested step is reached exactly. For a non-empty record `zero_pad(df)` succeeds exactly when `df` is positive and at least one sample is requested (`1/(df*dt)` does not round to zero, i.e. is above one half)."
  },
  {
   "property": "C04",
   "status": "partial",
   "theorems": [
    "Verif.Props.C04_refused_zero_pad_changes_df_counterexample",
    "Verif.Props.C04_refused_zero_pad_keeps_record_partial",
    "Verif.Props.C04_nonpositive_step_refused"
   ],
   "note": "The code resets the multiple before checking the argument; counterexample and the part that holds."
  },
  {
   "property": "C05",
   "status": "proved",
   "theorems": [
    "Verif.Props.C05_new_record",
    "Verif.Props.C05_zero_pad_idempotent",
    "Verif.Props.C05_zero_pad_last_request_wins"
   ],
   "note": "Before any request the reported step is the one of the record's own length. Repeating a request changes nothing. After any history of successful requests the original samples are still in place, followed by zeros only, and the reported step is the one of the last request alone: two records with the same time step report the same step whatever their lengths and earlier requests."
  },
  {
   "property": "C06",
   "status": "partial",
   "theorems": [
    "Verif.Props.C06_trim_keeps_nearest_block",
    "Verif.Props.C06_trim_moves_samples_counterexample",
    "Verif.Props.C06_trim_sample_times_partial",
    "Verif.Props.C06_trim_refuses_illogical_times"
   ],
   "note": "Exact for start times on the sample grid, within half a step otherwise; counterexample off the grid."
  },
  {
   "property": "C07",
   "status": "partial",
   "theorems": [
    "Verif.Props.C07_trim_makes_delay_positive_counterexample",
    "Verif.Props.C07_delay_and_stacks_invariant_partial"
   ],
   "note": "trim with a positive start makes the delay positive; invariant proved for all other histories."
  },
  {
   "property": "C08",
   "status": "partial",
   "theorems": [
    "Verif.Props.C08_sensor_copy_partial",
    "Verif.Props.C08_sensor_of_record_partial",
    "Verif.Props.C08_array_copy_partial",
    "Verif.Props.C08_copy_of_padded_record_counterexample",
    "Verif.Props.C08_copy_of_trimmed_record_counterexample",
    "Verif.Props.C08_copy_is_faithful_partial"
   ],
   "note": "Copies lose the multiple and refuse positive delays; counterexamples and the part that holds."
  },
  {
   "property": "C09",
   "status": "proved",
   "theorems": [
    "Verif.Props.C09_crosscorr_shift_is_optimal",
    "Verif.Props.C09_correlation_of_returned_record"
   ],
   "note": "`crosscorr_shift(a, b)` of two records of equal length returns a shift `s` and the record `b` moved by `s` samples, filled with zeros, of unchanged length; no overlapping shift correlates better with `a`, and among equally good shifts the most negative one is taken. the reported correlation is the plain dot product of `a` with the returned record."
  },
  {
   "property": "C10",
   "status": "partial",
   "theorems": [
    "Verif.Props.C10_cross_stack_is_weighted_mean",
    "Verif.Props.C10_cross_stack_refuses_unequal_lengths",
    "Verif.Props.C10_cross_stack_succeeds_iff",
    "Verif.Props.C10_sensors_fails"
   ],
   "note": "Does not hold in full: C10 fails for sensors. Sensors are records with a position, yet cross-stacking two of them through their own class never gives a sensor: it raises `TypeError`, also when their records can be cross-stacked. Proved: A successful `from_cross_stack(a, b)` is the stack-weighted mean of `a` and of `b` moved by a shift of best correlation, with the sum of the stack counts. They are always refused with `ValueError`. "
  },
  {
   "property": "C11",
   "status": "proved",
   "theorems": [
    "Verif.Props.C11_sensor_similarity_iff",
    "Verif.Props.C11_sensor_similarity_is_equivalence",
    "Verif.Props.C11_similarity_is_equivalence",
    "Verif.Props.C11_similarity_means_same_metadata"
   ],
   "note": "For every set of excluded attributes two sensors are similar exactly when they agree in each attribute of position and record which is not excluded. It is an equivalence relation. For every `exclude` argument, similarity is an equivalence relation. Without exclusions it is agreement on time step, stacks, delay and length."
  },
  {
   "property": "C12",
   "status": "partial",
   "theorems": [
    "Verif.Props.C12_eq_iff",
    "Verif.Props.C12_eq_not_symmetric_counterexample",
    "Verif.Props.C12_eq_not_transitive_counterexample",
    "Verif.Props.C12_eq_reflexive_and_sound_partial",
    "Verif.Props.C12_eq_almost_symmetric_partial"
   ],
   "note": "allclose is neither symmetric nor transitive; counterexamples, characterisation and reflexivity."
  },
  {
   "property": "C13",
   "status": "partial",
   "theorems": [
    "Verif.Props.C13_receiver_x_follows_scalar_rule",
    "Verif.Props.C13_receiver_y_follows_scalar_rule_partial",
    "Verif.Props.C13_receiver_y_right_iff_partial",
    "Verif.Props.C13_receiver_y_counterexample"
   ],
   "note": "Does not hold in full: C13 does not hold for y: with scalar 1 (or unset) a receiver at (5, 7) is read as (5, 5). Proved: For SU and SEGY traces with an allowed scalar the receiver's x is the SEG-Y value of the header integer, passed through the coordinate mapping. in the cases which hold: a negative scalar. Missing: zero and positive scalars, where the code uses the x coordinate (refuted below). With a mapping that tells coordinates apart, the receiver's y is right exactly when the scalar is negative or both header integers are the same."
  },
  {
   "property": "C14",
   "status": "partial",
   "theorems": [
    "Verif.Props.C14_unidentified_format_refused",
    "Verif.Props.C14_other_formats_not_implemented",
    "Verif.Props.C14_explicit_format_wins",
    "Verif.Props.C14_explicit_format_refused_counterexample",
    "Verif.Props.C14_no_own_format_fails",
    "Verif.Props.C14_no_header_influence",
    "Verif.Props.C14_dispatch_partial"
   ],
   "note": "Does not hold in full: C14 does not hold for a trace without a format of its own: an explicit, supported format is refused, because the header readers look for the format again. fails for every trace without a format of its own: whichever format is stated, no header is ever read. Proved: Neither an argument nor a format of the trace: `ValueError`. `NotImplementedError` exactly when headers are to be read from an identified format other than SEG2, SU, SEGY. For a trace of any identified format, asking for format `f` gives the same sensor as the trace being of format `f` itself, in whatever case `f` is spelled. With `read_header=False` the result depends only on the samples, the time step and the arguments. together the four statements above give the dispatch rule; missing is an explicit format for a trace without own format."
  },
  {
   "property": "C15",
   "status": "partial",
   "theorems": [
    "Verif.Props.C15_su_header_defaults",
    "Verif.Props.C15_seg2_header_defaults_partial",
    "Verif.Props.C15_seg2_refused_exactly_partial",
    "Verif.Props.C15_su_refused_exactly",
    "Verif.Props.C15_count_with_fraction",
    "Verif.Props.C15_seg2_zero_stack_counterexample"
   ],
   "note": "Does not hold in full: C15 does not hold for a SEG2 stack count of zero: it is refused rather than read as one. Proved: Reading succeeds for every header, whatever is missing or malformed, unless a readable stack count is negative or a readable delay positive; and the values are the documented ones. Reading succeeds for every SEG2 header unless a readable stack count is not positive or a readable delay is positive. Missing: a zero stack count, which is refused (see below). A SEG2 header is refused, with `ValueError`, exactly if a stack count which can be read is not positive or a delay which can be read is positive. Such a header is refused, with `ValueError`, exactly if a stack count which can be read is negative or a delay which can be read is positive. A stack count `q ≥ 1` in a SEG2 or SU header is read as the largest whole number not above it."
  },
  {
   "property": "C16",
   "status": "proved",
   "theorems": [
    "Verif.Props.C16_construction_iff",
    "Verif.Props.C16_construction_order_independent"
   ],
   "note": "Construction succeeds exactly when the records agree in time step, stack count, delay and length and the x positions are distinct; the sensors are then the given ones in strictly increasing x, with the given source. Any permutation of the sensors gives the same array."
  },
  {
   "property": "C17",
   "status": "proved",
   "theorems": [
    "Verif.Props.C17_operations_preserve_consistency",
    "Verif.Props.C17_refused_trim_changes_nothing"
   ],
   "note": "Whatever sequence of operations is applied to a constructed array, refused ones included, it keeps at least one sensor, its sensors stay strictly ordered by x, and their records still agree. A refused `trim` leaves the array as it was."
  },
  {
   "property": "C18",
   "status": "partial",
   "theorems": [
    "Verif.Props.C18_kept_sensors_are_in_range",
    "Verif.Props.C18_far_source_drops_sensors_counterexample",
    "Verif.Props.C18_far_first_sensor_always_refused_fails",
    "Verif.Props.C18_exactly_the_sensors_in_range_partial",
    "Verif.Props.C18_right_iff_partial"
   ],
   "note": "Does not hold in full: C18 does not hold for a source at the far end: a sensor in range is dropped because a sensor before it is too far. C18 fails for every far-side source whose first (farthest) sensor is beyond the upper limit: the call is refused no matter how many sensors are in range. Proved: A successful `trim_offsets` keeps only sensors strictly between the limits, in their original order, and keeps the source. If no sensor at or before the source position is farther than the upper limit - in particular whenever the source is at or before the first sensor - the sensors afterwards are exactly those in range. Missing: arrays with a too far sensor on the low-x side of the source. If some sensor is in range, the call leaves exactly the sensors in range if and only if none of them comes, in the order of the array, after one which is farther than the upper limit."
  },
  {
   "property": "C19",
   "status": "proved",
   "theorems": [
    "Verif.Props.C19_never_empties"
   ],
   "note": "`trim_offsets` never leaves an array without sensors; when it refuses, it raises `ValueError` and nothing changes; when no sensor is in range it refuses."
  },
  {
   "property": "C20",
   "status": "partial",
   "theorems": [
    "Verif.Props.C20_traces_keep_their_offsets",
    "Verif.Props.C20_source_at_last_sensor_counterexample",
    "Verif.Props.C20_source_at_last_sensor_fails",
    "Verif.Props.C20_near_to_far_partial"
   ],
   "note": "Does not hold in full: C20 does not hold for a source exactly at the last sensor: the view runs from far to near. C20 fails for every array of at least two sensors whose source is exactly at the last one: the offsets are strictly decreasing. Proved: For every array and source position the view consists of all sensors, each trace beside the offset of its own sensor. For a source at or before the first sensor, or beyond the last, the offsets are strictly increasing. Missing: a source exactly at the last sensor (refuted above)."
  },
  {
   "property": "C21",
   "status": "proved",
   "theorems": [
    "Verif.Props.C21_mirror_symmetry"
   ],
   "note": "Mirroring an array and its outside source about any point gives an array again, and the view handed to a wavefield transform is unchanged."
  },
  {
   "property": "C22",
   "status": "proved",
   "theorems": [
    "Verif.Props.C22_mute_multiplies_by_own_window"
   ],
   "note": "If no boundary line is vertical and all signal windows lie within the record, `mute` succeeds, and sample `k` of every sensor is multiplied by the value at `k` of that sensor's own window: zero outside `[start, stop)`, the window function of length `stop - start` inside. Positions, source and metadata stay."
  },
  {
   "property": "C23",
   "status": "partial",
   "theorems": [
    "Verif.Props.C23_last_sample_silenced_fails",
    "Verif.Props.C23_one_sided_mute_partial"
   ],
   "note": "Does not hold in full: C23 does not hold: with only a start line the last sample of every trace is silenced, even by a rectangular window. Proved: With a rectangular window every sample inside the signal window is untouched; with only a start line that is every sample from the start of the window up to but excluding the last one, with only an end line every sample before the end of the window. Missing: the last sample after a start line (refuted above)."
  },
  {
   "property": "C24",
   "status": "proved",
   "theorems": [
    "Verif.Props.C24_none_returns_samples",
    "Verif.Props.C24_each_scales_every_trace",
    "Verif.Props.C24_all_scales_the_matrix"
   ],
   "note": "Without normalization the rows are the samples. Row by row, with or without a detrending step: a trace with a non-zero sample is divided by one positive number so that its largest absolute value is one; a trace of zeros becomes NaN. The whole matrix is divided by one positive number so that its largest absolute value is one, unless all samples are zero, which gives NaN everywhere."
  },
  {
   "property": "C25",
   "status": "proved",
   "theorems": [
    "Verif.Props.C25_kres_times_smallest_spacing_is_pi",
    "Verif.Props.C25_pyPi_decimals",
    "Verif.Props.C25_spacing",
    "Verif.Props.C25_normalized_positions",
    "Verif.Props.C25_center_distance"
   ],
   "note": "For an array with at least two sensors `kres` is defined, and times the smallest distance between any two of its sensors it is (the float) pi. `np.pi` is pi to within 10⁻¹⁵; the bounds used are those of its decimals. `spacing` is defined exactly when all neighbour distances agree to within 1 cm, and is then within half a centimetre of the smallest; otherwise it raises `ValueError`. Every array can be viewed with positions measured from its first sensor: they begin at zero, keep all distances, and are not negative if the sensors are in order. It is the mean offset: bounds of the offsets are bounds of it, and as many times the number of sensors it is their sum; with the source before (behind) all sensors it is the distance from the source to the mean position."
  },
  {
   "property": "C26",
   "status": "partial",
   "theorems": [
    "Verif.Props.C26_from_files_weighted_mean_partial",
    "Verif.Props.C26_different_source_refused",
    "Verif.Props.C26_mapping_counterexample",
    "Verif.Props.C26_descending_file_counterexample"
   ],
   "note": "Does not hold in full: the full property fails, the coordinate mapping is not applied to the additional files. The same file given twice is refused as soon as there is a mapping, though each file alone is accepted. the full property fails, the sensors have been sorted but the additional traces have not. A file which lists its receivers from far to near cannot be stacked with itself. Proved: A sensor of the array returned by `from_files` is the stack-weighted mean of channel `i` of all files. What is missing: with a coordinate mapping, or when a file lists its receivers in another order than increasing x, the call fails although the files are compatible, see the counterexamples. Once the files before it have been read, a file whose source differs makes `from_files` raise ValueError, whatever follows."
  },
  {
   "property": "C27",
   "status": "partial",
   "theorems": [
    "Verif.Props.C27_su_round_trip_partial",
    "Verif.Props.C27_su_exact_round_trip_partial",
    "Verif.Props.C27_stack_count_counterexample",
    "Verif.Props.C27_close_sensors_counterexample"
   ],
   "note": "Does not hold in full: the full property fails. A stack count of two comes back as one, of five as four. the full property fails. Two sensors within a millimetre can be written but not read back. Proved: Every consistent array whose constructor conditions hold and whose positions stay apart at millimetre resolution is read back with the same number of sensors in the same order, positions to the millimetre, delay to the millisecond and the same samples; other files are untouched. What is missing is the stack count, which comes back one too small unless it is one. If positions are whole millimetres, the delay whole milliseconds, the time step whole microseconds and the samples single precision numbers, the array read back is the array written."
  },
  {
   "property": "C28",
   "status": "partial",
   "theorems": [
    "Verif.Props.C28_same_stack_counts_partial",
    "Verif.Props.C28_channels_partial",
    "Verif.Props.C28_fewer_channels_fails",
    "Verif.Props.C28_channel_count_counterexample"
   ],
   "note": "Does not hold in full: fails for every file with fewer channels: whenever the files can be read at all (each with one stack count for its channels) and an additional file has fewer channels than the array has sensors, the array returned has sensors of unequal stack count, the last less than the first. the full property fails. A file with fewer channels is stacked onto the first sensors only, a file with more channels is accepted and its last channels ignored, and so is a file with unequal stack counts. Proved: If every additional file has a trace for every sensor and the traces of each additional file report one stack count, all sensors have the same stack count after a successful call. Sensor `i` of the array is the stack-weighted mean of channel `i` of the first file and of those additional files which have a channel `i`; the other files, and channels beyond the last sensor, leave no trace."
  },
  {
   "property": "C29",
   "status": "proved",
   "theorems": [
    "Verif.Props.C29_similarity_is_equivalence",
    "Verif.Props.C29_equality_iff",
    "Verif.Props.C29_equality_reflexive",
    "Verif.Props.C29_copy_equals_original"
   ],
   "note": " Arrays are equal exactly when they have equally many sensors and the same source and their sensors agree pairwise in position and record.  The copy of an array which starts at or before time zero exists and equals it; if no sensor was padded to a multiple the copy is identical."
  },
  {
   "property": "C30",
   "status": "partial",
   "theorems": [
    "Verif.Props.C30_xcorrelate_samples_partial",
    "Verif.Props.C30_zero_lag_counterexample",
    "Verif.Props.C30_short_source_counterexample"
   ],
   "note": "Does not hold in full: the full property fails. The source signal is a unit impulse at time zero, so the correlation at lag `t` is the record itself; but `xcorrelate` moves the record's second sample (time 0.1 s) to sample 4 (time 0.4 s). when the source signal is shorter than half a second the start of the slice is negative and counts from the end of the correlation, so that nothing of the record before or at its arrival is kept. Proved: After `xcorrelate` on sensors with equally long records there is one number `first` such that sample `j` of every sensor is the correlation of its record with the source signal at lag `first + j`, all sensors have the same number of samples, and position, time step and stack count are kept with no delay. The full property asks for `first = 0`; here `first` is one more than `(tmin - 0.5) / dt` truncated, when this does not reach before the beginning of the correlation."
  },
  {
   "property": "C31",
   "status": "proved",
   "theorems": [
    "Verif.Props.C31_session_returns_last_points",
    "Verif.Props.C31_session_completes"
   ],
   "note": "A finished session has consumed some selections `used` and returned exactly the last points of the non-empty ones, in order, as equally many x and y values, at most `npts`. There are exactly `npts`, unless the user exited: the last press consumed was a key, preceded by the key that ended the pause if the session pauses after each point. Given `npts` non-empty selections and, after each, one answer which is no key, a session without pauses finishes with all `npts` points."
  },
  {
   "property": "C32",
   "status": "partial",
   "theorems": [
    "Verif.Props.C32_interactive_mute_complete_lines_partial",
    "Verif.Props.C32_key_press_counterexample",
    "Verif.Props.C32_one_sensor_fails"
   ],
   "note": "Does not hold in full: the full property fails. A key pressed within 0.3 s of the first point ends the session with one point, and `interactive_mute` raises IndexError. nor are the lines asked for when the array has only one sensor: the plot on which they are to be drawn cannot be made, whatever the user does. Proved: If the array has two sensors or more, the user gives enough points and presses no key in the pauses after them, the lines are made of the points in picking order, the first two for the start and the next two for the end of the signal, and the array is muted with these lines."
  },
  {
   "property": "C33",
   "status": "proved",
   "theorems": [
    "Verif.Props.C33_new_peaks",
    "Verif.Props.C33_derived_names_refused"
   ],
   "note": "A new object remembers its arguments, exactly the peaks with a velocity remain, and every attribute property lists the values of these peaks in row-major order: entry `k` of each attribute belongs to the `k`-th remaining peak. The derived attributes cannot be given to the constructor."
  },
  {
   "property": "C34",
   "status": "proved",
   "theorems": [
    "Verif.Props.C34_reject_limits_outside",
    "Verif.Props.C34_closed_interval",
    "Verif.Props.C34_unknown_attribute"
   ],
   "note": "`reject_limits_outside` keeps exactly the remaining peaks which are not outside the limits, and alters no recorded value. a peak remains exactly when its value is within the closed interval. AttributeError, nothing changes."
  },
  {
   "property": "C35",
   "status": "proved",
   "theorems": [
    "Verif.Props.C35_reject_box_inside",
    "Verif.Props.C35_bounds_in_any_order"
   ],
   "note": "`reject_box_inside` keeps exactly the remaining peaks which are not strictly inside the box, and alters no recorded value. The order in which the bounds of either side are given is irrelevant."
  },
  {
   "property": "C36",
   "status": "proved",
   "theorems": [
    "Verif.Props.C36_rejections_compose",
    "Verif.Props.C36_order_and_repetition_irrelevant",
    "Verif.Props.C36_no_resurrection",
    "Verif.Props.C36_shared_members"
   ],
   "note": "After any sequence of rejections, failed ones included, the remaining peaks are the initial ones which lie in none of the rejected regions; no recorded value, name or identifier has changed. Two sequences with the same set of requests lead to the same object. A rejected peak stays rejected. In every program without exceptions the remaining peaks of an object are the earlier ones that lie in none of the regions rejected directly or through any of its suites; recorded values never change."
  },
  {
   "property": "C37",
   "status": "partial",
   "theorems": [
    "Verif.Props.C37_strongest_per_column",
    "Verif.Props.C37_first_without_power",
    "Verif.Props.C37_any_power_partial",
    "Verif.Props.C37_nan_power_counterexample"
   ],
   "note": "Does not hold in full: A remaining peak of unknown power is dropped although it is the only one of its column. Proved: For multi-peak data with finite powers, `simplify_mpeaks` picks one peak in each column which has a remaining one, and no peak in any other column: the strongest, the first on ties; the columns are visited in order. One and the same choice of peaks serves every attribute. Without power, when the frequency is constant along each column, the first remaining peak of each column is chosen. Whatever the powers, also NaN and infinite ones, `simplify_mpeaks` picks one peak in exactly those columns which have a remaining peak of known power (not NaN, not negative infinity), and it is the strongest of these, the first on ties. One and the same choice of peaks serves every attribute."
  },
  {
   "property": "C38",
   "status": "proved",
   "theorems": [
    "Verif.Props.C38_aligned"
   ],
   "note": "`simplify_mpeaks` of any two attributes gives lists of one length whose entries at each position belong to the same peak."
  },
  {
   "property": "C39",
   "status": "proved",
   "theorems": [
    "Verif.Props.C39_json_round_trip",
    "Verif.Props.C39_validity_as_numbers",
    "Verif.Props.C39_truth_values_as_data",
    "Verif.Props.C39_incomplete_data",
    "Verif.Props.C39_exact"
   ],
   "note": "Reading a file written by `to_json` gives an object with the same identifier, the same attribute names in the same order, the same values and the same rejected peaks. A file which gives the validity of the peaks in numbers, as other programs may write it, is read as the file which gives it in truth values: zero is rejected, anything else (NaN as well) is not. Apart from the validity, truth values in a file are read as the numbers one and zero. A data set without frequencies or without velocities, or with an identifier of its own, is not read: `TypeError`. One-dimensional data, and two-dimensional data with at least one row, come back unchanged in every respect."
  },
  {
   "property": "C40",
   "status": "proved",
   "theorems": [
    "Verif.Props.C40_append_keeps",
    "Verif.Props.C40_append_refused",
    "Verif.Props.C40_nothing_is_lost"
   ],
   "note": "Appending keeps every data set of the file and adds the new one at the end. If the identifier exists the file is unchanged and `KeyError` is raised; if the file does not exist none is created. After any sequence of appends, refused ones included, every data set that was ever in the file is still there."
  },
  {
   "property": "C41",
   "status": "partial",
   "theorems": [
    "Verif.Props.C41_without_valid_partial",
    "Verif.Props.C41_dictionary_changed_counterexample",
    "Verif.Props.C41_second_build_forgets_rejections_fails",
    "Verif.Props.C41_suite_fails"
   ],
   "note": "Does not hold in full: is violated: building twice from one dictionary resurrects a rejected peak the second time. Whatever was rejected, the second build from the same dictionary has every peak with a velocity again. fails for suites as it does for single objects: after a suite has been built from a dictionary no data set in it says any longer which peaks were rejected. Proved: A dictionary without `valid` is left alone."
  },
  {
   "property": "C42",
   "status": "partial",
   "theorems": [
    "Verif.Props.C42_refused_append_partial",
    "Verif.Props.C42_before_and_after_partial",
    "Verif.Props.C42_crash_loses_everything_fails"
   ],
   "note": "Does not hold in full: is violated at every append: there is a moment at which the file cannot be read at all, so that a crash then loses every data set saved before. Proved: A refused append never touches the file, and outside the moments of writing the file holds either the old text or the complete new text, from which every old data set can be read. "
  },
  {
   "property": "C43",
   "status": "partial",
   "theorems": [
    "Verif.Props.C43_reflexive_partial",
    "Verif.Props.C43_equal_iff_partial",
    "Verif.Props.C43_equal_count_partial",
    "Verif.Props.C43_custom_attribute_counterexample",
    "Verif.Props.C43_count_counterexample",
    "Verif.Props.C43_asymmetry_counterexample"
   ],
   "note": "Does not hold in full: An object with a custom attribute is not equal to itself. Equal objects with different numbers of remaining peaks: all of its peaks rejected against one remaining. Equality is not symmetric: the tolerance is relative to the right-hand side. Proved:  Two objects are equal exactly when they have one identifier, the same number of attributes, and each attribute of the first, as the users read it, agrees within numpy's tolerance with that of the second. Missing: the same number of remaining peaks is implied only if neither side has exactly one (`C43_count_counterexample`), and the tolerance is relative to one side (`C43_asymmetry_counterexample`). If neither of two equal objects has exactly one remaining peak, they have the same number of them."
  },
  {
   "property": "C44",
   "status": "proved",
   "theorems": [
    "Verif.Props.C44_derived_attributes",
    "Verif.Props.C44_zero_values"
   ],
   "note": "All attribute lists run over the remaining peaks in order. For a peak with finite non-zero frequency and velocity, wavelength times frequency is the velocity, slowness times velocity is one and wavenumber times wavelength is two pi. A peak with velocity zero has infinite slowness, and one with frequency zero an infinite wavelength of the sign of its velocity; no division raises. (Zero has no sign in the model.)"
  },
  {
   "property": "C45",
   "status": "proved",
   "theorems": [
    "Verif.Props.C45_append_history",
    "Verif.Props.C45_append_refused_iff",
    "Verif.Props.C45_from_peaks",
    "Verif.Props.C45_shared_members",
    "Verif.Props.C45_shared_building"
   ],
   "note": "Through any sequence of appends, refused ones included, the identifiers are those of the members in order and distinct; the members are the initial ones followed by some of the appended ones in order, and every appended object's identifier is in the suite. It is refused exactly for an identifier in use, and then nothing changes. Distinct identifiers: the suite of exactly these members; a repeated identifier: `KeyError`; no members: `IndexError`. In every program, however suites are built from each other and whatever is rejected, every suite lists the identifiers of its members in order and no two members have the same identifier. In every program `from_peaks`, `from_peakssuite` and `append` accept, refuse and build what they do for suites that hold values - a second member with an identifier is refused with `KeyError` - and change no object and no other suite."
  },
  {
   "property": "C46",
   "status": "proved",
   "theorems": [
    "Verif.Props.C46_missing_file",
    "Verif.Props.C46_json_round_trip",
    "Verif.Props.C46_several_files"
   ],
   "note": "If one of the files is missing, `from_json` raises `FileNotFoundError`, whatever the others hold: no suite is made of the rest. Reading the file written by a suite gives back the suite: members in order, values and rejected peaks, whatever was in the file before. Reading the files of several suites gives the members of all, in order, when the identifiers are distinct, and `KeyError` otherwise."
  },
  {
   "property": "C47",
   "status": "proved",
   "theorems": [
    "Verif.Props.C47_every_member",
    "Verif.Props.C47_missing_attribute",
    "Verif.Props.C47_shared_members"
   ],
   "note": "When every member has the attributes, the suite's rejections act on each member as its own method would, members and identifiers stay in place. The members before it are changed, it and the later ones are not, and `AttributeError` is raised. In every program a suite's rejections act on the contents of its members as if the suite held values: the theorems on suites of values apply."
  },
  {
   "property": "C48",
   "status": "proved",
   "theorems": [
    "Verif.Props.C48_combine"
   ],
   "note": "Combining suites gives all members in order, provided all identifiers are distinct; otherwise `KeyError`."
  },
  {
   "property": "C49",
   "status": "partial",
   "theorems": [
    "Verif.Props.C49_unsupported",
    "Verif.Props.C49_points_on_limit",
    "Verif.Props.C49_unequal_axes_counterexample"
   ],
   "note": "Does not hold in full: With axes of unequal length the curve has unequal numbers of abscissae and ordinates. Proved:  For every supported combination two curves are returned and every point of each has exactly the respective limit as its attribute value."
  },
  {
   "property": "C50",
   "status": "proved",
   "theorems": [
    "Verif.Props.C50_confirmed_boxes",
    "Verif.Props.C50_pause_iff_empty",
    "Verif.Props.C50_finished_iff"
   ],
   "note": "At every point of a session, in particular at its end, the remaining peaks of each member are its initial ones minus those strictly inside a confirmed box; no other data of the members has changed. Drawing a box pauses the session exactly when no member has a remaining peak strictly inside it. The session ends by the answer `0` only."
  },
  {
   "property": "C51",
   "status": "proved",
   "theorems": [
    "Verif.Props.C51_resampling",
    "Verif.Props.C51_nan_refused"
   ],
   "note": "`to_array` gives one row per member and one column per sample; each entry is the value at the sample of the broken line through the member's (simplified) points: missing exactly outside the member's range, the member's value at one of its abscissae, and between the values of the neighbouring abscissae otherwise. `to_array` refuses a suite with a member whose simplified values contain NaN."
  },
  {
   "property": "C52",
   "status": "proved",
   "theorems": [
    "Verif.Props.C52_aligned"
   ],
   "note": "Dropping incomplete data returns the sub-matrix of some rows `R` and columns `C` (each in their original order) together with the sample locations of exactly those columns. There are two candidates - first drop columns with too few values, then rows, or the other way around - and the one with the larger benefit (missing entries removed per value removed) is returned, the second one on a tie."
  },
  {
   "property": "C53",
   "status": "partial",
   "theorems": [
    "Verif.Props.C53_at_most_100_samples_partial",
    "Verif.Props.C53_more_than_100_samples_fails",
    "Verif.Props.C53_no_data_fails"
   ],
   "note": "Does not hold in full: is violated with more than 100 samples: a member with less than one per cent of the samples is dropped after the columns have been counted. Here `statistics` with the default count of 3 reports the first location although only two of the retained values are there; a mean over the two of them is reported. is violated when no member has a value at any sample: all locations are reported, backed by nothing. Proved: partial: at most 100 samples, and at least one member with a value at one of them. Every reported location is then backed by at least `drop_sample_if_fewer_count` values: the reported mean and standard deviation are those of all values that the members have there, and these are that many. With at most 100 members, conversely, every location with that many values (and at least one) is reported. Missing: more than 100 samples, and suites without any value in range, where the claim is false (below)."
  },
  {
   "property": "C54",
   "status": "proved",
   "theorems": [
    "Verif.Props.C54_statistics"
   ],
   "note": "`statistics` refuses suites with fewer than three members. Otherwise, when it returns, there are members `R` and sample indices `C` such that the reported locations are the samples `C` and the reported mean and standard deviation of each of them are those of the values that the members `R` have there. `R` and `C` are what is left of the resampled values after dropping samples for which fewer than `count` members or less than one per cent of them have a value, and members with values at less than one per cent of the samples."
  },
  {
   "property": "C55",
   "status": "proved",
   "theorems": [
    "Verif.Props.C55_mean_substitution"
   ],
   "note": "Replacing the missing entries of a column with at least one value by the column mean leaves no missing entry, keeps every value, and leaves the mean unchanged."
  },
  {
   "property": "C56",
   "status": "proved",
   "theorems": [
    "Verif.Props.C56_sort"
   ],
   "note": "Sorting returns the same rows in another order, in which the first sampled column of the rows is non-decreasing; empty rows, whose first sampled column is taken to be the number of columns, come last."
  },
  {
   "property": "C57",
   "status": "proved",
   "theorems": [
    "Verif.Props.C57_regions",
    "Verif.Props.C57_density"
   ],
   "note": "When region identification of a non-empty matrix returns, the regions' column ranges tile all columns from left to right and the last one ends in the last row and column; every region that starts at a value has at least the requested density and cannot be extended by a row or a column without losing it; every region but the first starts at a value. `_calc_density` of a region which starts at a value, given by its first and last entry, is at least the requested density."
  },
  {
   "property": "C58",
   "status": "partial",
   "theorems": [
    "Verif.Props.C58_failure_kind_partial",
    "Verif.Props.C58_complete_matrix_partial",
    "Verif.Props.C58_last_column_fails",
    "Verif.Props.C58_many_regions_fails"
   ],
   "note": "Does not hold in full: is violated by two observations of one sample, one of them missing: the region cannot take in the second row and the search looks for a column after the last. is violated by a matrix with more than 100 regions. Proved: partial: with at most 100 columns, region identification either returns or raises `IndexError`; it never runs out of passes. (Missing: the claim itself, which is false, see below.) partial: a matrix without missing entries is one region. (Missing: matrices with missing entries.)"
  },
  {
   "property": "C59",
   "status": "proved",
   "theorems": [
    "Verif.Props.C59_fill"
   ],
   "note": "Filling asks the random source exactly once per missing entry - column by column, from top to bottom - with the mean and the deviation of that column; the missing entries become the numbers obtained, in that order; every value is left unchanged and no entry is missing afterwards."
  },
  {
   "property": "C60",
   "status": "partial",
   "theorems": [
    "Verif.Props.C60_constructor_fails",
    "Verif.Props.C60_class_methods_fails"
   ],
   "note": "Does not hold in full: is violated: `Statistics(...)` raises `TypeError` for every argument (a keyword of `np.array` is misspelt). is violated: neither `from_peakssuite` nor `from_data_matrix` ever returns a `Statistics` object."
  },
  {
   "property": "C61",
   "status": "proved",
   "theorems": [
    "Verif.Props.C61_linear",
    "Verif.Props.C61_logarithmic",
    "Verif.Props.C61_unknown_spacing",
    "Verif.Props.C61_of_the_run"
   ],
   "note": "With linear spacing and `n ≥ 2` points the vector has `n` entries, starts at `vmin`, ends at `vmax`, has equal differences, and is strictly increasing when `vmin < vmax`. With logarithmic spacing, `n ≥ 2` points and positive bounds the vector has `n` entries, starts at `vmin`, ends at `vmax`, has equal ratios, and is strictly increasing when `vmin < vmax`. `KeyError` is raised exactly for names other than the four documented ones. Whatever the workflow, the transform and the files: if a run returns, the velocities of its transform are the trial vector of the settings `vmin`, `vmax`, `nvel` and `vspace` (`C61_linear`, `C61_logarithmic`). For the slant stack in the time domain, which is modelled in rational numbers, with linear spacing."
  },
  {
   "property": "C62",
   "status": "proved",
   "theorems": [
    "Verif.Props.C62_selected_bins",
    "Verif.Props.C62_on_user_grid"
   ],
   "note": "For a non-empty frequency vector and a positive multiple the selection succeeds: it holds exactly the bins from the one nearest `fmin` to the one nearest `fmax` in steps of the multiple, in increasing order, all valid. With the bins `0, d, 2d, ...` of a record whose step was refined by the padding multiple `m`, and `fmin` on the user's grid of step `m*d` within the bins, every selected frequency lies on the user's grid, at or above `fmin`."
  },
  {
   "property": "C63",
   "status": "partial",
   "theorems": [
    "Verif.Props.C63_complex_power",
    "Verif.Props.C63_last_method_wins",
    "Verif.Props.C63_none_restores",
    "Verif.Props.C63_zero_column_fails"
   ],
   "note": "Does not hold in full: fails without the non-vanishing hypothesis: a frequency with only zero power turns into NaN under `frequency-maximum`, and `none` does not bring it back. Proved: Whatever `normalize` calls came before, the power is the magnitude of the original complex power, normalized by the last method. After any sequence of `normalize` calls with documented methods, none of which fails, the power is the original magnitude normalized by the last requested method. After any history, `normalize(\"none\")` brings back the original magnitudes."
  },
  {
   "property": "C64",
   "status": "proved",
   "theorems": [
    "Verif.Props.C64_weighted_mean",
    "Verif.Props.C64_plain_mean",
    "Verif.Props.C64_order_independent"
   ],
   "note": "Stacking any non-empty sequence of transforms of one shape onto an empty transform gives the mean of their powers weighted by their `n`, with `n` the total. Transforms made from single records (`n = 1`) give the arithmetic mean. The result does not depend on the order of stacking."
  },
  {
   "property": "C65",
   "status": "proved",
   "theorems": [
    "Verif.Props.C65_peak",
    "Verif.Props.C65_unknown_method"
   ],
   "note": "For a rectangular real power matrix with one row per trial velocity, `find_peak_power` returns for each frequency the velocity of the first row holding the column's maximum. Any other method raises `NotImplementedError`."
  },
  {
   "property": "C66",
   "status": "partial",
   "theorems": [
    "Verif.Props.B64.C66_binary64_outside_iff",
    "Verif.Props.B64.C66_binary64_partial",
    "Verif.Props.B64.C66_binary64_fails",
    "Verif.Props.C66_reads_inside",
    "Verif.Props.C66_refused_iff"
   ],
   "note": "Does not hold in full: C66 fails with binary64 arithmetic. Whatever the traces, on a spread of 22 m (12 receivers 2 m apart, say) with a sampling step of one millisecond and a slowest trial velocity of 110 m/s, where the longest delay is 200 samples, the slant stack of every record of more than 200 samples ends in `IndexError`: the code counts the delays with a longest delay of 199 samples. Proved: The slant stack reads outside of the record, so that `IndexError` is raised, exactly when at least one delay is computed and the longest shift as the code rounds it where it reads, `used`, is larger than the longest shift as the code rounds it where it counts the delays, `reserved`. If the longest delay in samples is not a whole number up to a relative difference of `2^-50`, the slant stack does not read outside of the record: it is refused as too short when the record is, and otherwise returns for every velocity as many delays as with exact numbers. Missing: longest delays which are a whole number of samples, see `C66_binary64_fails`. Every sample the slant stack interpolates between lies within the record: for each trial velocity, receiver and delay the two sample indices are between 0 and the last sample. The slant stack is refused exactly when the record has fewer samples than the largest delay in samples (rounded down) plus one."
  },
  {
   "property": "C67",
   "status": "proved",
   "theorems": [
    "Verif.Props.C67_slant_stack"
   ],
   "note": "On every valid input the slant stack either refuses the record as too short (`ValueError`), or returns for each trial velocity, in the given order, one value per delay `0, dt, 2dt, ...`: the trapezoidal integral over offset of the traces linearly interpolated at `delay + (offset - smallest offset)/velocity`. The delays are as many as fit: `nt` of them leave the interpolation inside the record for every receiver and velocity, one more would not."
  },
  {
   "property": "C68",
   "status": "proved",
   "theorems": [
    "Verif.Props.C68_bounded",
    "Verif.Props.C68_plane_wave_peak",
    "Verif.Props.C68_recorded_wave_peak"
   ],
   "note": "With offsets in increasing order and non-vanishing spectra at the selected bins, every phase-shift power lies between 0 and the array length. If at the selected bin `k` the record is a plane wave of velocity `v` with a non-vanishing spectrum, the power of every trial velocity equal to `v` at that bin is the array length: the bound is attained. A wavelet travelling across the array at velocity `v`, recorded with whole-sample delays, reaches the array length at trial velocity `v` at every selected bin where the wavelet has energy; no trial velocity exceeds it (`C68_bounded`)."
  },
  {
   "property": "C69",
   "status": "proved",
   "theorems": [
    "Verif.Props.C69_gain_invariant"
   ],
   "note": "Giving each trace its own positive gain does not change the result of the phase-shift transform."
  },
  {
   "property": "C70",
   "status": "proved",
   "theorems": [
    "Verif.Props.C70_real_nonneg_any_steering",
    "Verif.Props.C70_real_nonneg"
   ],
   "note": "The beamforming power of any recorded blocks, for every weighting and every steering vector, is a non-negative real number. Every power returned by FDBF is real and non-negative, for every weighting and steering setting (for `invamp` the spectra at the selected bins must not vanish: numpy gives NaN there)."
  },
  {
   "property": "C71",
   "status": "proved",
   "theorems": [
    "Verif.Props.C71_peak_at_true_velocity",
    "Verif.Props.C71_matching_wavefront"
   ],
   "note": "If at the selected bin `k` the record is a plane wave of velocity `v` and the steering is plane, then no trial velocity has a larger FDBF power at that bin than `v`, whatever the weighting. If at a selected bin the record is a wave of velocity `v` with the wavefront the steering is made for — cylindrical for `\"cylindrical\"`, plane otherwise — and any positive gains, then no trial velocity has a larger power at that bin than `v`, whatever the weighting."
  },
  {
   "property": "C72",
   "status": "partial",
   "theorems": [
    "Verif.Props.C72_fk_is_plane_fdbf_partial",
    "Verif.Props.C72_settings_fails",
    "Verif.Props.C72_settings_partial"
   ],
   "note": "Does not hold in full: fails in two ways: running fk changes the caller's settings dictionary, so that a later FDBF run with the same dictionary silently uses other settings; and without an `fdbf-specific` entry, which FDBF itself does not need, fk raises `KeyError`. Proved: Whatever FDBF settings the caller's dictionary holds, the fk transform returns what FDBF returns with weighting `none` and plane steering. Only the two FDBF settings change: every other key of the dictionary keeps its value."
  },
  {
   "property": "C73",
   "status": "proved",
   "theorems": [
    "Verif.Props.C73_registries",
    "Verif.Props.C73_create_instance"
   ],
   "note": "After any history of registrations in the two registries, looking up a name in one of them yields the class registered last under that name in that registry, whatever was registered in the other one, and raises `KeyError` if there is none. After any history of registrations, making an instance by name calls the constructor registered last under that name in that registry with the given arguments, and with no others; whatever it returns or raises is the result. An unregistered name raises `KeyError`."
  },
  {
   "property": "C74",
   "status": "partial",
   "theorems": [
    "Verif.Props.C74_right_frequency_partial",
    "Verif.Props.C74_physical_spectrum_partial",
    "Verif.Props.C74_multiple_fails",
    "Verif.Props.C74_different_interval_fails"
   ],
   "note": "Does not hold in full: fails once the windows are padded by a multiple: asking for a 1/2 Hz step on four samples at 1 s reports a ratio at 3/2 Hz, which is not the physical frequency of any bin (they are 0, 1/4, 1/2 and 3/4 Hz). fails for windows with different sampling intervals: the signal is taken to be sampled like the noise. Here a signal sampled every 2 s has nothing at 1/4 Hz, but the ratio reported at 1/4 Hz is not zero. Proved: When the padding multiple of the noise window is one, every reported ratio is the ratio of the mean spectral magnitudes at the bin whose physical frequency is the reported one. If all channels of both windows are sampled alike and the padding multiple is one, the ratio reported at a frequency is the mean magnitude of the Fourier component of the signal at exactly this frequency, in Hz, over that of the noise. Missing: a multiple larger than one (`C74_multiple_fails`) and windows with different sampling intervals (`C74_different_interval_fails`)."
  },
  {
   "property": "C75",
   "status": "proved",
   "theorems": [
    "Verif.Props.C75_unequal_windows",
    "Verif.Props.C75_ratio",
    "Verif.Props.C75_equal_windows",
    "Verif.Props.C75_scaling"
   ],
   "note": "Windows which, after the optional padding, have different numbers of samples raise `IndexError`. A successful call reports, in order, the frequencies of some bins of the noise window, and at each of them the ratio of the mean spectral magnitudes of signal and noise at this bin. With the same window as signal and noise every ratio is 1, provided the noise spectrum does not vanish at any bin. Multiplying every sample of the signal window by `c` multiplies every reported ratio by `|c|` and leaves the frequencies unchanged, with or without padding."
  },
  {
   "property": "C76",
   "status": "proved",
   "theorems": [
    "Verif.Props.C76_run_returns",
    "Verif.Props.C76_source_inside_refused",
    "Verif.Props.C76_steps",
    "Verif.Props.C76_noise_independent"
   ],
   "note": "A source which is not between the receivers is no reason to refuse a run: if the receiver selection, trimming, muting (between the lines the user picks), the windows, the ratio, padding and the transform succeed one by one, the run returns exactly their results, and keeps the lines. A source between the receivers is refused with `ValueError`, whatever the settings, the user and the transforms are: the check comes before all processing. A time-domain run which returns has done exactly this: the source is not between the receivers; receivers were selected by offset, then detrended, trimmed, muted between the lines picked by the user, padded, and the padded array was transformed. The noise window is taken from the detrended array before trimming and muting, the signal window from the muted array before padding. The noise window does not depend on trimming, muting, padding or the processing settings: it is the same in two runs which differ in these only."
  },
  {
   "property": "C77",
   "status": "partial",
   "theorems": [
    "Verif.Props.C77_window_settings_ignored_fails",
    "Verif.Props.C77_default_window_partial"
   ],
   "note": "Does not hold in full: fails: the window settings given to `create_settings_dict` have no effect on any run of any workflow, whatever is registered, read, picked or otherwise set. Proved: Every mute of a run with a dictionary made by `create_settings_dict` uses the default window of `Array1D.mute`: no other window changes the run."
  },
  {
   "property": "C78",
   "status": "proved",
   "theorems": [
    "Verif.Props.C78_run_returns",
    "Verif.Props.C78_mean",
    "Verif.Props.C78_first_windows",
    "Verif.Props.C78_dissimilar_refused",
    "Verif.Props.C78_all_similar",
    "Verif.Props.C78_registered_mean"
   ],
   "note": "A frequency-domain run returns if every step it asks for succeeds: the first file gives a frequency axis; every file has the channels and the source of the first, its source is not between the receivers, it can be pre-processed with the mute lines picked on the first and be transformed, all transforms being of the shape of the axis; and the windows of the first file (if asked for) have a ratio. The lines picked on the first file stay. The result of a frequency-domain run over a list of files is, at every trial velocity and frequency, the mean of the transforms of the single files, all muted between the lines which the run leaves. The per-file transforms are of the shape of the result (as they are for files of one length and time step) and count as one each. The signal-to-noise ratio of a frequency-domain run is that of the noise and signal windows of the first file. A successful run over some files, continued with a file of another number of channels or another source position than the first, raises `ValueError`. Every file of a run which returns has the number of channels and the source position of the first. The result of a frequency-domain run with a registered transform over files recorded with one number of samples, time step and delay is, at every trial velocity and frequency, the mean of the transforms of the single files."
  },
  {
   "property": "C79",
   "status": "proved",
   "theorems": [
    "Verif.Props.C79_first_file",
    "Verif.Props.C79_other_files_irrelevant"
   ],
   "note": "The single workflow does to one name, to a list of one name and to the first name of a longer list exactly what the time-domain workflow does to that name alone; an empty list raises `IndexError`. What the single workflow returns depends on the file it processes only: changing, adding or removing other files makes no difference."
  },
  {
   "property": "C80",
   "status": "partial",
   "theorems": [
    "Verif.Props.C80_dispatch_partial",
    "Verif.Props.C80_builtin_partial",
    "Verif.Props.C80_xcorr_fails",
    "Verif.Props.C80_xcorr_run"
   ],
   "note": "Does not hold in full: fails for the fourth registered name: `Masw.run` with the workflow \"time-domain-xcorr\" raises `TypeError` for all settings and files. Proved: After any history of registrations, `Masw.run` with settings naming a workflow runs the class registered last under that name on the given files, with the settings given; an unregistered name raises `KeyError`. Missing from the full statement: the built-in class for cross-correlation cannot be made in this way, see `C80_xcorr_fails`. In the package as imported, the three names run the three workflows and every other name but the cross-correlation raises `KeyError`. `MaswXcorr.run` runs the cross-correlation workflow on the receiver and source files and raises `NotImplementedError` for every other workflow name, registered or not."
  },
  {
   "property": "C81",
   "status": "proved",
   "theorems": [
    "Verif.Props.C81_every_argument",
    "Verif.Props.C81_injective"
   ],
   "note": "Every argument of `create_settings_dict` is found unchanged at its documented place; an integer number of velocities and given window settings are too, and no window settings are an empty dictionary. Arguments with an integer number of velocities are determined by the dictionary, up to the difference between no window settings and empty ones."
  },
  {
   "property": "C82",
   "status": "proved",
   "theorems": [
    "Verif.Props.C82_unique_minimiser",
    "Verif.Props.C82_prior_is_fixed",
    "Verif.Props.C82_linear_no_memory"
   ],
   "note": "For symmetric positive definite covariances the update exists and is the unique parameter vector with the smallest misfit to the linearized data and to the prior. If prediction and data agree at the prior, the prior is returned. When the predictions are linear in the parameters, the update does not depend on the previous iterate."
  },
  {
   "property": "C83",
   "status": "proved",
   "theorems": [
    "Verif.Props.C83_posterior"
   ],
   "note": "For symmetric positive definite covariances the posterior covariance exists, is symmetric and positive definite, does not exceed the prior covariance, and is the inverse of the sum of the prior information and the information in the data."
  },
  {
   "property": "C84",
   "status": "proved",
   "theorems": [
    "Verif.Props.C84_every_hour_once",
    "Verif.Props.C84_stamp_hour",
    "Verif.Props.C84_reversed_refused",
    "Verif.Props.C84_reversed_never_written",
    "Verif.Props.C84_names_distinct"
   ],
   "note": "A row from one hour to another (not the last hour of the year 9999), all of whose hourly files are there, is made from exactly the hourly files from the start hour to the end hour inclusive, each once, in order. The date and hour in the table are read as they stand: they are refused with `ValueError` exactly when they are no date and hour of the calendar of the years 1 to 9999, and otherwise the hour is the one of that year, month, day and hour. An end hour before the start hour raises `ValueError`: nothing is read or written, and no later row is processed. The hours being in order is all that `extract_mseed` itself checks; the trimming of obspy refuses an end before the start. So with a trimming that does, a block ending before it starts is never written, and its error is `ValueError` when its hourly files are there. Different hours, and different stations, have differently named files: no hourly file stands for two."
  },
  {
   "property": "C85",
   "status": "partial",
   "theorems": [
    "Verif.Props.C85_own_file_partial",
    "Verif.Props.C85_stops_at_failure",
    "Verif.Props.C85_overwrite_fails"
   ],
   "note": "Does not hold in full: Two blocks of the same folder, station and array: the extraction ends without an error and the data of the first block are nowhere. Proved: What holds: a row whose folder, station and array no later row has keeps its file — after the whole table is extracted, it holds the data of that row. Missing: rows sharing all three, see `C85_overwrite_fails`. When a row fails, the run stops with its error; the files of the rows before it are there and nothing of the rows from it on is."
  },
  {
   "property": "C86",
   "status": "partial",
   "theorems": [
    "Verif.Props.C86_version_gate_partial",
    "Verif.Props.C86_supported_is_read",
    "Verif.Props.C86_read_names_version",
    "Verif.Props.C86_wildcard_counterexample"
   ],
   "note": "Does not hold in full: The gate is on the text between the digits too: version `31210` passes for 3.2.0. Proved: A file whose first version, written `a.b.c`, is not a supported one raises `ValueError`, whatever else is in it, whatever the wave type, before any number is converted. A file whose first version is written 3.2.0 is let through. A file that is read names the version 3.2.0, with some character between the digits."
  },
  {
   "property": "C87",
   "status": "proved",
   "theorems": [
    "Verif.Props.C87_accepted",
    "Verif.Props.C87_refused",
    "Verif.Props.C87_never_read",
    "Verif.Props.C87_never_read_suite"
   ],
   "note": "The accepted wave types are the five documented ones, each standing for its name with a capital. Every other text is refused. No file is read with a wave type that is not one of the five. Nor any list of files."
  },
  {
   "property": "C88",
   "status": "partial",
   "theorems": [
    "Verif.Props.C88_files_independent_partial",
    "Verif.Props.C88_files_interfere_fails",
    "Verif.Props.C88_inf_hides_wave_fails",
    "Verif.Props.C88_wave_of_first_line_partial",
    "Verif.Props.C88_noise_inf_hides_wave_counterexample"
   ],
   "note": "Does not hold in full: After a single-component file, the peaks of a three-component file are dropped without notice; alone they are read. The word `inf` before the first data line (`geopsy` writes `MAXIMUM_DISTANCE=inf`) hides that a file is single-component, and its peaks are not found. A first data line with noise `inf` hides the wave. Proved: If no file that is not single-component comes after one that is, each file is read as it is by itself. The wave type found in a file is the one of its first data line, if that line has a number for the noise and the pattern has no match in the lines before."
  },
  {
   "property": "C89",
   "status": "proved",
   "theorems": [
    "Verif.Props.C89_expand",
    "Verif.Props.C89_accepted",
    "Verif.Props.C89_refused",
    "Verif.Props.C89_never_accepted",
    "Verif.Props.C89_types"
   ],
   "note": "Options expanded for `n` members are `n` option sets; every one has the options of the dictionary in its order, member `k` with the string or `None` given for all, or the `k`-th entry of the list. Strings, `None` and lists of at least `n` entries are accepted. `NotImplementedError` comes only from an option that is no string, `None` or list, `IndexError` only from a list with fewer than `n` entries, and nothing else is raised. With at least one member, an option of another kind or a short list is never accepted. Accepted axis types come as two lists of one length, a string as a list of one; lists of different lengths raise `IndexError`, anything but a string or a list `TypeError`."
  },
  {
   "property": "C90",
   "status": "partial",
   "theorems": [
    "Verif.Props.C90_refused_zero_pad_splits_frequency_step_counterexample",
    "Verif.Props.C90_sensors_share_frequency_step_partial"
   ],
   "note": "Does not hold in full: C90 does not hold: a refused `zero_pad` resets the frequency step of the first sensor only. Proved: If every `zero_pad` of the history asks for a positive frequency step that is at most the sampling rate, then all sensors keep reporting one frequency step. Missing: histories with a refused `zero_pad` (refuted above)."
  },
  {
   "property": "C91",
   "status": "partial",
   "theorems": [
    "Verif.Props.C91_refused_mute_changes_earlier_sensors_counterexample",
    "Verif.Props.C91_refused_mute_partial"
   ],
   "note": "Does not hold in full: C91 does not hold: when the window of the second sensor is refused, the first sensor has already been muted. Proved: A vertical boundary line is refused with `ZeroDivisionError` and changes nothing; in every refused call the sensor at which it failed and all later ones keep their samples. Missing: the sensors before the failing one (refuted above)."
  },
  {
   "property": "C92",
   "status": "partial",
   "theorems": [
    "Verif.Props.C92_window_shifted_for_positive_delay_counterexample",
    "Verif.Props.C92_window_follows_line_times_partial"
   ],
   "note": "Does not hold in full: C92 does not hold for records which start after time zero: the window is shifted. The record below has samples at times 2, 3, 4, 5, 6, 7, 8; asked to keep times from 3 to 5 it keeps times 7 and up. Proved: For a record which starts at or before time zero and lines which meet the trace at or after its start: the sample at time `t` lies in the signal window exactly when `tstart < t + dt ≤ tstop`. So a sample before `tstart` by a step or more is silenced and so is a sample at or after `tstop`. Missing: records which start after time zero (refuted above)."
  },
  {
   "property": "C93",
   "status": "proved",
   "theorems": [
    "Verif.Props.C93_first_arrivals",
    "Verif.Props.C93_algorithms"
   ],
   "note": "Threshold picking returns the sensor positions and, for each sensor, the time of the first sample of its detrended trace which is further from the mean of the first ten samples than the threshold, as a part of the largest absolute value of the trace; if there is none for one of the traces the call raises `IndexError`. `auto_pick_first_arrivals` knows the algorithm \"threshold\" (for which see `C93_first_arrivals`; 5% by default) and raises `NotImplementedError` for every other, whatever the array."
  },
  {
   "property": "C94",
   "status": "partial",
   "theorems": [
    "Verif.Props.C94_floats_partial",
    "Verif.Props.C94_integers_refused_partial",
    "Verif.Props.C94_integers_fails",
    "Verif.Props.C94_source_signal_is_mean",
    "Verif.Props.C94_source_signal_order_irrelevant",
    "Verif.Props.C94_unequal_lengths_refused_partial",
    "Verif.Props.C94_exactly_partial",
    "Verif.Props.C94_single_sample_counterexample",
    "Verif.Props.C94_from_files",
    "Verif.Props.C94_file_order"
   ],
   "note": "Does not hold in full: the property fails for records of integers, a single one included; and the order of the files matters. a source signal of a single sample is not refused but added to every sample. Proved: If the first source record has floating point samples, the types of the others do not matter: the result is that of the numbers. Missing: integers in the first record, see `C94_integers_fails`. If the first source record has integer samples the call never returns an array. With signals of one length the result has this length and is their arithmetic mean, sample by sample. The order of the source files does not matter. A signal whose length differs from the first one's is refused, unless it has a single sample, which numpy adds to every sample: this is why this part is partial. The signals are accepted exactly if every one has the length of the first or a single sample, and refused with `ValueError` otherwise; sample by sample the result is the mean of what the signals contribute, where a single sample counts for all of them. The property asks for the refusal of single samples too. If the receiver files give an array and channel `ch` of every source file has `N` samples, the array with source signal has these receivers, and its signal is, sample by sample, the mean of that channel over all source files, with the position of the shot and the time step of the first source file. The order of the source files makes no difference to the signal."
  },
  {
   "property": "C95",
   "status": "partial",
   "theorems": [
    "Verif.Props.C95_source_scalar_rule_partial",
    "Verif.Props.C95_source_of_the_array",
    "Verif.Props.C95_segy_zero_scalar_counterexample"
   ],
   "note": "Does not hold in full: the full property fails, a scalar of zero makes reading a SEGY file's source raise OverflowError, although the receivers of the same header are read with a scalar of one. Proved: The source is read by the SEG-Y rule for every allowed scalar, then mapped. For a scalar of zero the SEGY branch fails, see below. The source of the array which `from_files` returns is the one stated in the last trace of the first file, by its format, after the mapping: for SEG2 the source location, for SU and SEGY the source coordinates by the rule above."
  },
  {
   "property": "C96",
   "status": "partial",
   "theorems": [
    "Verif.Props.C96_unshared_partial",
    "Verif.Props.C96_combined_suite_fails",
    "Verif.Props.C96_rejections_through_any_suite"
   ],
   "note": "Does not hold in full: fails: a combined suite has the members of its parts themselves, so a rejection on the combined suite changes the suites it was made from, and a rejection on one of these changes the combined suite. Proved: In every program, a statement that acts on no member of a suite (a rejection on another suite without common members, on an object that is not a member, or any making of objects and suites) leaves what the suite's methods see unchanged. Missing: suites with common members, where this is false. In every program without exceptions an object has, at the end, exactly the rejections that were made on it directly or through any suite it was then a member of."
  },
  {
   "property": "C97",
   "status": "partial",
   "theorems": [
    "Verif.Props.C97_refused_call_fails",
    "Verif.Props.C97_refused_call_partial"
   ],
   "note": "Does not hold in full: fails: a call with an unknown method raises `KeyError` but has already multiplied the power by the stored factor, so that the next documented call gives a wrong result. Proved: A refused first call (before any normalization) leaves the power as it was, and a refused call never changes the stored factor."
  },
  {
   "property": "C98",
   "status": "partial",
   "theorems": [
    "Verif.Props.C98_complex_power_fails",
    "Verif.Props.C98_real_power_partial",
    "Verif.Props.C98_picked_partial"
   ],
   "note": "Does not hold in full: fails: picking peaks on the un-normalized power of a slant stack (complex numbers) compares real parts. Here the cell of magnitude 5 at 200 m/s loses against the cell of magnitude 1 at 100 m/s. Proved: Where the stored power is real and not negative (phase shift, beamforming, and every transform after normalization), the peak at each frequency is at the first trial velocity where the magnitude of the stored power is largest. Missing: complex power, where the claim is false (`C98_complex_power_fails`). what is picked from complex power: the first trial velocity with the largest real part, and among equal real parts with the largest imaginary part."
  },
  {
   "property": "C99",
   "status": "partial",
   "theorems": [
    "Verif.Props.C99_padding_equalizes_partial",
    "Verif.Props.C99_padding_exactly_partial",
    "Verif.Props.C99_padding_fails"
   ],
   "note": "Does not hold in full: fails for longer windows: with a requested step of 1/10 Hz at 1 s sampling, a noise window of 8 samples is padded to 10 and a signal window of 15 samples to 20, and the call still raises `IndexError`, advising to set `pad_snr=True`. Proved: With `pad_snr=True`, windows recorded at one sampling interval, each at most as long as the padded length `1/(df*dt)`, never raise the `IndexError` about unequal windows. With `pad_snr=True`, windows of `n` and `s` samples recorded at one sampling interval are padded to the next multiples of the requested length `N`, and the call raises the `IndexError` about unequal windows exactly if these multiples differ."
  },
  {
   "property": "C100",
   "status": "partial",
   "theorems": [
    "Verif.Props.C100_one_name_partial",
    "Verif.Props.C100_frequency_domain_fails"
   ],
   "note": "Does not hold in full: fails for the frequency-domain workflow: the name is taken for a list of names of one character each, so the run on a readable file fails unless there is a file named by its first character. Proved: For the single and the time-domain workflow, a file name and a list of this one name give the same run. Missing: the frequency-domain workflow, see below."
  },
  {
   "property": "C101",
   "status": "proved",
   "theorems": [
    "Verif.Props.C101_frequency_domain",
    "Verif.Props.C101_cross_correlation",
    "Verif.Props.C101_single",
    "Verif.Props.C101_switched_off",
    "Verif.Props.C101_snr_no_effect"
   ],
   "note": "Also in the frequency-domain workflow, where the windows of the first file are kept, two runs with settings which differ only in the signal-to-noise part return the same array and transform. The same for the workflow which correlates the records with the source signal. The same for the workflow which takes the first file only. A run of any workflow which returns with a signal-to-noise ratio also returns without, with the same array and the same transform. Whether and how the signal-to-noise ratio is computed does not change the result: two runs with settings which differ only in the signal-to-noise part return the same array and transform, for transforms which do not read that part."
  },
  {
   "property": "C102",
   "status": "partial",
   "theorems": [
    "Verif.Props.C102_early_record_partial",
    "Verif.Props.C102_late_trim_fails"
   ],
   "note": "Does not hold in full: fails: a run with a trim which starts after the trigger returns, and the same run with a signal-to-noise ratio raises `ValueError`, although both windows are within the data they are taken from: the copy made for the signal window refuses a record which starts after the trigger. Proved: A run which returns without a signal-to-noise ratio also returns with one, and with the same array, if the sensors of the file agree, both windows are within the records they are taken from, the record of the signal window does not start after the trigger, and the ratio of the two windows can be formed. Missing: a trim which starts after the trigger, where the claim is false (`C102_late_trim_fails`)."
  },
  {
   "property": "C103",
   "status": "partial",
   "theorems": [
    "Verif.Props.C103_mixed_frequencies_fails",
    "Verif.Props.C103_same_recording_partial"
   ],
   "note": "Does not hold in full: fails: files with different time steps count as similar, and the frequency-domain workflow averages their transforms column by column although the columns belong to different frequencies. The file \"slow\" alone is transformed at 0 and 250 Hz; in the run over both files its second column is averaged into the value reported at 500 Hz: (2 + 6) / 2. Proved: In a run of the frequency-domain workflow with a registered transform over files recorded with one number of samples, time step and delay, every file is transformed at the frequencies of the result, whatever is trimmed, muted or padded. Missing: files recorded differently, which the workflow does not refuse (`C103_mixed_frequencies_fails`)."
  },
  {
   "property": "C104",
   "status": "partial",
   "theorems": [
    "Verif.Props.C104_header_from_text_partial",
    "Verif.Props.C104_suite_member_per_window_partial",
    "Verif.Props.C104_first_window_partial",
    "Verif.Props.C104_suffix_time_counterexample",
    "Verif.Props.C104_frequency_pattern_counterexample",
    "Verif.Props.C104_numbers",
    "Verif.Props.C104_not_numbers"
   ],
   "note": "Does not hold in full: Times `0` and `60`: the window at 0 also gets the peak of the window at 60 (frequency and velocity are those of both lines), and the count of peaks does not notice. Frequency `1.5` as a pattern also matches `105`, and a frequency written `1e+02` does not match itself: a file with such lines is refused. Proved: partial, with the header read from the text: the members are named after the process type written in the file and have as many rows as it has maxima, between 1 and 100. Missing as in `C104_suite_member_per_window_partial`. A file in which the times and frequencies of the wave can be told apart: each time has its own member, in the order of the file; row `i` of column `f` of a member is the `i`-th peak of that time and that frequency, and NaN when there are not so many. `Peaks.from_max` reads the first time of such a file, with the frequencies of that time. Every decimal number, with or without sign, point and exponent, is read as the number it stands for. "
  },
  {
   "property": "C105",
   "status": "proved",
   "theorems": [
    "Verif.Props.C105_traces_at_receivers",
    "Verif.Props.C105_refused"
   ],
   "note": "For an array of at least two sensors with at least one sample, and time on either axis, `waterfall` draws one curve per sensor in the order of the array. Every curve has the times of its own record on the time axis and, on the other, each (detrended) sample divided by the requested divisor, times the amplitude factor, plus the position of the sensor; a trace whose divisor is zero is drawn as NaN throughout, so not at all. The time axis runs from the first to the last time, downwards if vertical; the other axis exceeds the array by its first spacing on either side. A time axis other than \"x\" and \"y\" is refused."
  },
  {
   "property": "C106",
   "status": "partial",
   "theorems": [
    "Verif.Props.C106_evenly_spaced_partial",
    "Verif.Props.C106_uneven_spacing_counterexample",
    "Verif.Props.C106_single_sensor_fails"
   ],
   "note": "Does not hold in full: fails: with uneven spacing the default amplitude is half the mean spacing, but the margin is the first spacing. Here a sample of the first trace is drawn at -5/2, left of the limit -1, and beyond its neighbour's. fails for arrays of one sensor: there is no spacing, and the plot raises `IndexError`. Proved: On an evenly spaced array whose traces are not all zero, normalized each by itself or all together and drawn with the default amplitude, every sample is drawn within half the spacing of its own receiver and inside the limits of the plot, and no sample of a trace is drawn beyond one of the next trace. Missing: unevenly spaced arrays and arrays of one sensor, where this is false."
  },
  {
   "property": "C107",
   "status": "proved",
   "theorems": [
    "Verif.Props.C107_picks",
    "Verif.Props.C107_picks_returned"
   ],
   "note": "When `manual_pick_first_arrivals` returns, it returns the distances and the times of the last points of the user's non-empty selections, in the order made, none twice and none missing; on a plot with time on the vertical axis a point is (distance, time), otherwise (time, distance). There is no limit on the number of picks: the session ends only when the user presses a key twice. A user who presses a key to begin, picks the points `pts ++ [last]` one at a time, presses a key after each to go on, lets the time for leaving pass after all but the last and presses a key after the last gets exactly these points."
  },
  {
   "property": "C108",
   "status": "proved",
   "theorems": [
    "Verif.Props.C108_plot_shows_peaks",
    "Verif.Props.C108_unknown_attribute",
    "Verif.Props.C108_wrong_mask",
    "Verif.Props.C108_refused_types",
    "Verif.Props.C108_plot_is_attribute"
   ],
   "note": "`Peaks.plot` makes one axes object per pair of types; on each it draws one line, labelled with the identifier unless a label is given, that shows exactly the peaks not yet rejected, or those of the given mask. A type that the object does not have raises `AttributeError`. A mask with as many axes as the peaks but other numbers of entries along them raises `IndexError`. The kinds of argument that are refused before anything is drawn: lists of different lengths with `IndexError`, empty lists with `ValueError`, anything but a name or a list of names with `TypeError`. Without a mask the plotted values are what the attribute of that name returns."
  },
  {
   "property": "C109",
   "status": "proved",
   "theorems": [
    "Verif.Props.C109_every_member",
    "Verif.Props.C109_wrong_lengths"
   ],
   "note": "`PeaksSuite.plot` draws every member once on every axes object, in the order of the suite, each line showing exactly the member's peaks not yet rejected or those of its mask; new axes are made when none are given, and what the caller's axes already show stays. A list of masks or of axes of the wrong length raises `IndexError` before anything is drawn."
  },
  {
   "property": "C110",
   "status": "partial",
   "theorems": [
    "Verif.Props.C110_legend_partial",
    "Verif.Props.C110_given_axes_counterexample",
    "Verif.Props.C110_lost_label_fails"
   ],
   "note": "Does not hold in full: fails on axes of the caller: the label of the first member is not compared with the legend, so plotting two suites on the same axes lists a common label twice. fails on axes of the caller: a label already in the legend of one axes object is dropped on all that follow, so the second of two axes has no entry \"B\" although the data are drawn there. Proved: The legend of every axes object lists each label of a member once: the identifiers if no labels are given, otherwise the given labels, common ones only once. Missing: this fails on axes given by the caller (see the counterexamples)."
  },
  {
   "property": "C111",
   "status": "proved",
   "theorems": [
    "Verif.Props.C111_limits_drawn",
    "Verif.Props.C111_limits_undefined"
   ],
   "note": "If the limit can be expressed on the axes, the call adds two curves of as many points as the axes have samples; every point has exactly the respective limit as its attribute value; only the first curve is labelled, and what was drawn before stays. Otherwise nothing is drawn and no exception is raised."
  },
  {
   "property": "C112",
   "status": "proved",
   "theorems": [
    "Verif.Props.C112_plot_shows_power"
   ],
   "note": "Whatever was plotted or normalized before, a plot shows the original power normalized by the requested method, over the transform's own frequencies and velocities, with levels from zero to at least every value, and, if asked for, for every frequency the velocity of the first largest value shown."
  },
  {
   "property": "C113",
   "status": "partial",
   "theorems": [
    "Verif.Props.C113_plot_changes_power_fails",
    "Verif.Props.C113_refused_plot_fails",
    "Verif.Props.C113_axes_without_figure_partial",
    "Verif.Props.C113_magnitudes_kept_partial",
    "Verif.Props.C113_peaks_kept_partial"
   ],
   "note": "Does not hold in full: fails: plotting changes the power of the transform that is plotted. fails: a plot refused because of its peak method has already normalized the transform. Proved: This refusal comes before any change. After any plots and normalizations the magnitudes are still recovered by `normalize(by=\"none\")`. For power that is never negative, plotting and normalizing do not change which velocities `find_peak_power` returns."
  },
  {
   "property": "C114",
   "status": "proved",
   "theorems": [
    "Verif.Props.C114_phase_shift_recovers",
    "Verif.Props.C114_beamforming_recovers",
    "Verif.Props.C114_fk_recovers",
    "Verif.Props.C114_run_recovers",
    "Verif.Props.C114_phase_shift_maximum_iff",
    "Verif.Props.C114_phase_shift_unique",
    "Verif.Props.C114_beamforming_unique"
   ],
   "note": "A pulse crossing an array with the source on one side, whatever the gains of the receivers: if its velocity `v` is a trial velocity, the phase-shift transform's peak is at `v` at every selected frequency at which the pulse has energy and some two receivers are closer than the shortest trial wavelength. The same for frequency-domain beamforming with plane steering and any weighting, where the two receivers are away from the source. The same for the frequency-wavenumber transform, whatever steering and weighting the settings ask for. A time-domain run without muting, with or without trimming, padding and receiver selection, with any of the three frequency-domain transforms, on files in which a pulse crosses the array at velocity `v` (after the trend has been removed from the records) inside the time window kept by the trimming: if the run returns and `v` is one of its trial velocities, then the peak of the returned transform is at `v` at every frequency at which the pulse has energy and some two of the receivers left are closer than the shortest trial wavelength. If at a selected bin the record is a plane wave of velocity `v`, whatever the gains of the traces, then the power of a trial velocity is at most the array length, and it reaches the array length exactly if between any two receivers the trial velocity and `v` differ by a whole number of periods. If at a selected bin the record is a plane wave of velocity `v` and some two receivers are closer together than the wavelengths of `v` and of another trial velocity at that frequency, then the other trial velocity has less power than the array length, which is the power of `v`. With plane steering: if at a selected bin the record is a plane wave of velocity `v` and some two receivers, of non-zero offset for square-root weighting, are closer together than the wavelengths of `v` and of another trial velocity at that frequency, then the other trial velocity has less power than `v`."
  },
  {
   "property": "C115",
   "status": "partial",
   "theorems": [
    "Verif.Props.C115_all_ratios",
    "Verif.Props.C115_one_curve_partial",
    "Verif.Props.C115_other_components_refused",
    "Verif.Props.C115_longer_time_fails",
    "Verif.Props.C115_absolute_time_fails"
   ],
   "note": "Does not hold in full: Asked for the time `7201`, the pattern also finds the ratios of the time `17201`. Asked for a time as the file has it, such as `2.4282e+07`, the pattern finds nothing: its `+` is read as a repetition. Proved: With the default arguments the pattern finds in a SPAC file every ratio of the vertical component, once, in the order of the file, with its time, frequency, component and ring exactly as written, and nothing else. Asked for a time written without exponent and a ring, the pattern finds the frequencies and ratios of exactly this time and ring, in the order of the file, if no time of the file has an ending which looks like the time asked for without being it. Missing: times with an exponent (`C115_absolute_time_fails`) and times which end like others (`C115_longer_time_fails`). Components other than the vertical one are refused, whatever the time and the ring."
  },
  {
   "property": "C116",
   "status": "proved",
   "theorems": [
    "Verif.Props.C116_rings"
   ],
   "note": "The pattern finds the smallest and largest distance of every ring of the file, in order, exactly as written, and nothing else."
  },
  {
   "property": "C117",
   "status": "proved",
   "theorems": [
    "Verif.Props.C117_phase_shift",
    "Verif.Props.C117_beamforming",
    "Verif.Props.C117_slant_stack"
   ],
   "note": "Every power reported by the phase-shift transform of an array with the source on one side is, at its trial velocity and its frequency in Hz, the magnitude of the integral over offset of the phase of the spectrum at that frequency advanced by the travel time. Every power reported by FDBF is, at its trial velocity and its frequency in Hz, the squared magnitude of the sum over all receivers of the weighted spectrum at that frequency, advanced by the phase lag of the chosen wavefront: wherever the source, and whatever the order of the traces. Every value reported by the slant-stack transform of an array with the source on one side is, at its trial velocity and its frequency in Hz, the Fourier component at that frequency of the slant stack at that velocity: of the integral over offset of the traces delayed by the travel time from the nearest receiver, over all delays for which the traces are recorded."
  },
  {
   "property": "C118",
   "status": "partial",
   "theorems": [
    "Verif.Props.C118_inverse_offset_partial",
    "Verif.Props.C118_surface_wave_power",
    "Verif.Props.C118_surface_wave_fails"
   ],
   "note": "Does not hold in full: is violated: a surface wave of unit amplitude, with amplitudes 1 and 1/2 at 1 m and 4 m, has power 9 at its velocity. Two receivers in balance would give 4. Proved: partial: with `weighting=\"sqrt\"` the receivers of a wave whose amplitude decreases with the inverse of the offset contribute equally: the power at its velocity is the square of the number of receivers times the source amplitude. Missing: decrease with the inverse square root of the offset, that of a surface wave (`C118_surface_wave_fails`). Of a wave whose amplitude decreases with the inverse square root of the offset, each receiver contributes with the square root of its offset: far receivers outweigh near ones."
  },
  {
   "property": "C119",
   "status": "proved",
   "theorems": [
    "Verif.Props.C119_gain_phase_shift",
    "Verif.Props.C119_gain_beamforming",
    "Verif.Props.C119_common_delay",
    "Verif.Props.C119_mirror",
    "Verif.Props.C119_gain_slant_stack",
    "Verif.Props.C119_mirror_slant_stack"
   ],
   "note": "Multiplying all records by a common factor, of either sign, changes nothing of the phase-shift transform. ... and multiplies all powers of the beamformer by the square of the factor; with `weighting=\"invamp\"` by nothing. Recording the same arrivals later, by a common number of samples, changes nothing of the phase-shift transform and of the beamformer: they do not depend on when the recording was triggered. An array and its source seen in a mirror give the same transforms: a shot off the far end is treated as one off the near end. Multiplying all records by a common factor multiplies every value of the slant-stack transform by it. An array and its source seen in a mirror give the same slant-stack transform."
  },
  {
   "property": "C120",
   "status": "proved",
   "theorems": [
    "Verif.Props.C120_process_type",
    "Verif.Props.C120_number_of_maxima"
   ],
   "note": "The process type in the name of the peaks is the one written after the first `PROCESS_TYPE=` with a value, in lower case; `capon` for `RTBF` of single-component files. Without one the file is refused with `AttributeError`. The number of peaks kept for each frequency is the number written after the first `N_MAXIMA=` with digits, but at least 1 and at most 100. Without one the file is refused with `AttributeError`."
  },
  {
   "property": "C121",
   "status": "partial",
   "theorems": [
    "Verif.Props.C121_from_trace",
    "Verif.Props.C121_from_trace_seg2",
    "Verif.Props.C121_missing_field",
    "Verif.Props.C121_sensor_seg2",
    "Verif.Props.C121_sensor_other_format_fails"
   ],
   "note": "Does not hold in full: does not hold for sensors whose trace is in another format: both fields are in the SEG2 header and well formed, but `Sensor1C.from_trace_seg2` reads the other header. Proved: A record is made from a trace exactly when the stack count is positive and the delay is not: it has the samples and time step of the trace and the given stack count and delay, and reports every frequency bin; otherwise the call raises `ValueError`. No header of the trace is read. `from_trace_seg2` makes exactly the record which `from_trace` makes with the stack count and delay of the header; it needs both fields. A missing header or field raises `AttributeError`: never is a default used. On a trace in the format SEG2, `Sensor1C` inherits a `from_trace_seg2` which gives what `Sensor1C.from_trace` gives, and whose record is the one of `ActiveTimeSeries.from_trace_seg2`."
  },
  {
   "property": "C122",
   "status": "partial",
   "theorems": [
    "Verif.Props.C122_schematic",
    "Verif.Props.C122_options",
    "Verif.Props.C122_limits_partial",
    "Verif.Props.C122_reversed_axis_fails"
   ],
   "note": "Does not hold in full: fails on axes with a reversed vertical axis: the sensor at y = 9 was within the limits 10 to -10, and is outside those set. Proved: The schematic can be drawn of every array, also of one with a single sensor or uneven spacing. It shows every sensor and the source where they are; the text gives the number of sensors, the source position to the centimetre, and a spacing exactly when there are at least two sensors all of whose neighbour distances agree to 1 cm. An option given by the caller (the last one of a name) replaces the default of that name, for sensors and source separately; options not given keep the default: triangles for sensors, diamonds for the source. The vertical axis covers -2 to 5. Everything matplotlib's limits show, where the lower one is not above the upper one, is shown. Missing: axes with a reversed vertical axis, see `C122_reversed_axis_fails`."
  },
  {
   "property": "C123",
   "status": "proved",
   "theorems": [
    "Verif.Props.C123_plot_snr"
   ],
   "note": "After every run of every workflow, `plot_snr` draws nothing unless a signal-to-noise ratio was asked for; otherwise it adds exactly one curve to the axes, the ratio of the mean spectral magnitudes of the signal and noise windows of this run, over the frequencies of the noise window."
  },
  {
   "property": "C124",
   "status": "partial",
   "theorems": [
    "Verif.Props.C124_correlations_partial",
    "Verif.Props.C124_symmetric_bounded",
    "Verif.Props.C124_missing_value_fails"
   ],
   "note": "Does not hold in full: fails with a missing value. The three members which have both values agree perfectly, the coefficient is one. Reported is no number, or, with `mean_substitution`, a smaller one. Proved: `statistics` with correlation coefficients reports the same locations, means and standard deviations as without. With the members `R` and samples `C` on which these rest (see `C54_statistics`), the coefficient of two samples at which all members `R` have a value is Pearson's, whether or not means are substituted. If one of the values is missing, it is not a number, or, with `mean_substitution`, the coefficient of the values with the mean of each sample in the gaps. Missing from the full statement: the coefficient of the members which have both values (`C124_missing_value_fails`). Whatever is missing and whether or not means are substituted, the reported coefficients form a symmetric matrix, all of them lie between -1 and 1, and those of a sample with itself are one (or not a number)."
  },
  {
   "property": "C125",
   "status": "partial",
   "theorems": [
    "Verif.Props.C125_nothing_missing_partial",
    "Verif.Props.C125_missing_coefficient_fails",
    "Verif.Props.C125_never_filled"
   ],
   "note": "Does not hold in full: fails: as soon as one coefficient is missing, whatever the matrix and the fitting procedure, the call raises `ValueError` instead of filling it. (Which entries to fill is decided by the sample locations instead of the coefficients, so that the missing ones are handed to the fit.) The sample locations are such that their logarithms are numbers. Proved: Without missing coefficients the matrix is returned unchanged. fails, for any sample locations (also those without a logarithm): whatever the fitting procedure, as long as the fitted function at a location which is not a number is not a number, a returned matrix has in every place the given coefficient or none. In particular no missing coefficient is ever filled with a number."
  },
  {
   "property": "C126",
   "status": "proved",
   "theorems": [
    "Verif.Props.C126_nearfield_line",
    "Verif.Props.C126_without_array"
   ],
   "note": "The near-field line of an array with mean distance `d` between source and receivers: nothing is drawn unless asked for; otherwise one curve of 30 points evenly spaced from the lower to the upper frequency limit of the axes, and at each of them `nearfield` wavelengths are as long as `d`: with the velocity `v` of the line at frequency `f`, the wavelength is `v / f`. The velocity limits of the axes stay as they are, whatever matplotlib does when a curve is added; the frequency limits are those matplotlib chooses. A transform that did not come from a workflow has no array: the near-field line cannot be drawn."
  },
  {
   "property": "C127",
   "status": "proved",
   "theorems": [
    "Verif.Props.C127_error_bars",
    "Verif.Props.C127_lengths_refused"
   ],
   "note": "What `statistics` reports can be plotted, whatever the suite: one set of error bars is added, a bar at each location `C` kept, from the mean of the values of the members `R` there down and up by their standard deviation (`R` and `C` are those of `C54_statistics`). An option given by the caller (the last one of a name) replaces the default. Places, means and deviations of different lengths are refused and nothing is drawn."
  },
  {
   "property": "C128",
   "status": "partial",
   "theorems": [
    "Verif.Props.C128_normalized_partial",
    "Verif.Props.C128_stack_of_signal_partial",
    "Verif.Props.C128_pick_fails"
   ],
   "note": "Does not hold in full: is violated: a pulse passes two receivers at 1000 m/s. Recorded from its arrival, its velocity is picked. Recorded from four samples earlier, 500 m/s is picked instead, where the magnitude is smaller, because the largest complex number is taken as the one with the largest real part; with reversed polarity the pulse's velocity is picked again. Proved: partial. A pulse crosses an array at velocity `v`, the receivers having any gains, and stays inside the slant stack at all trial velocities, of which `v` is one. Then at every frequency below the sampling frequency at which the pulse has energy and two receivers are closer than the shortest trial wavelength, the *magnitude* of the slant-stack transform is larger at `v` than at every other trial velocity; so `v` is what is picked after the transform was normalized (magnitudes, divided at each frequency by some positive number). Missing: picking before normalizing (`C128_pick_fails`). partial. In the slant stack of a signal passing the array at a velocity among the trial velocities, the row of that velocity is the signal times the aperture, and no value of any row is larger than the aperture times the largest value of the signal. Missing: that the transform's peak is there (`C128_pick_fails`)."
  },
  {
   "property": "C129",
   "status": "proved",
   "theorems": [
    "Verif.Props.B64.C129_zero_pad_binary64",
    "Verif.Props.B64.C129_refused_binary64"
   ],
   "note": "Let a record be sampled at `T` seconds and padded to `D` Hz, where `1/(D*T)` is a whole number `N` (below `2^49`), both given as binary64 numbers. The computation in binary64 finds `N`: the record is extended by zeros to the next whole multiple of `N`, and reports a frequency step which differs from `D` by at most `D * 2^-50`. A step which is not positive is refused with `ValueError`, whatever the record."
  },
  {
   "property": "C130",
   "status": "proved",
   "theorems": [
    "Verif.Props.B64.C130_selection_binary64"
   ],
   "note": "A record sampled at `T` seconds is padded to `D` Hz (`1/(D*T)` a whole number) and its frequencies are selected from `p*D` to `q*D` Hz, everything given and computed in binary64. The bins selected are exactly those of the frequencies `p*D, (p+1)*D, ..., q*D`, in this order, and the reported frequencies differ from these by at most a relative `2^-49`."
  },
  {
   "property": "C131",
   "status": "proved",
   "theorems": [
    "Verif.Props.B64.C131_stack_binary64",
    "Verif.Props.B64.C131_accepts_binary64",
    "Verif.Props.B64.C131_order_binary64",
    "Verif.Props.B64.C131_order_matters_binary64"
   ],
   "note": "After any history of successful `stack_append` calls computed in binary64, every sample differs from the stack-weighted mean of the original record and the `k` appended records by at most `(1 + 2^-53)^(3k) - 1` times the stack-weighted mean of their absolute values; the stack count is the total and nothing else has changed. A history of appends is accepted if and only if every record agrees with the first one in the time step, the delay and the number of samples: the rounding of the samples plays no part in it. In binary64 stacking two groups of the same records in different orders gives samples which differ by at most twice that bound. In binary64 the order in which records are appended can change the result: a record of the value 1 and the records 0.3 and 0.4."
  },
  {
   "property": "C132",
   "status": "proved",
   "theorems": [
    "Verif.Props.B64.C132_su_thousandths_binary64",
    "Verif.Props.B64.C132_su_any_coordinate_binary64"
   ],
   "note": "A coordinate or a delay of `k` thousandths, held as the binary64 number nearest to it, is written to an SU file as the integer `k` and is read from it as the very same binary64 number, for all `k` which the header can hold. Any other coordinate is read as the binary64 number nearest to a whole number of millimetres, which is within half a millimetre (and a rounding below one nanometre) of it, and writing and reading again changes nothing."
  },
  {
   "property": "C133",
   "status": "proved",
   "theorems": [
    "Verif.Props.B64.C133_spacing_binary64",
    "Verif.Props.B64.C133_no_spacing_binary64"
   ],
   "note": "Let the sensors stand `c` hundredths of a metre apart, at binary64 positions nearest to `A + i*c/100` (each within a thousand kilometres of the origin). Although the computed differences are not all equal, the array is found equally spaced and its `spacing` is the binary64 number nearest to `c/100`. If two gaps between neighbouring sensors differ by more than 1.01 cm, or if there are fewer than two sensors, there is no spacing: `ValueError`."
  },
  {
   "property": "C134",
   "status": "proved",
   "theorems": [
    "Verif.Props.B64.C134_drop_binary64",
    "Verif.Props.B64.C134_regions_binary64"
   ],
   "note": "With the fractions `c1/d1` and `c2/d2` given and compared as binary64 numbers, `_drop` removes the same samples and observations as with exact numbers, for every data matrix which is not astronomically large. With the density threshold `c/d` given and compared as a binary64 number, the same regions are identified as with exact numbers, for every data matrix which is not astronomically large."
  },
  {
   "property": "C135",
   "status": "partial",
   "theorems": [
    "Verif.Props.B64.C135_trim_binary64",
    "Verif.Props.B64.C135_trim_binary64_partial",
    "Verif.Props.B64.C135_refused_binary64",
    "Verif.Props.B64.C135_last_sample_fails"
   ],
   "note": "Does not hold in full: fails for the last sample. A record of two samples from -0.01 s at 1 ms ends at -0.009 s, and trimming it to the very interval it covers, -0.01 s to -0.009 s, is refused with `IndexError`: the computed time of the last sample is -0.009000000000000001. Proved: A record begins at `D` and is sampled at intervals of `T`, both given as the nearest binary64 numbers. It is trimmed from the time of sample `p` to the time of sample `q`, also given as the nearest binary64 numbers. If the reported time of some sample is not before the requested end, the samples `p` to `q` are kept and the new begin is reported; otherwise the trim is refused with `IndexError` and nothing changes. If the trim does not end with the last sample of the record it is never refused: the samples `p` to `q` are kept. A begin before the first sample, an end after the reported time of the last and an end before the begin are refused with `IndexError` and change nothing."
  },
  {
   "property": "C136",
   "status": "partial",
   "theorems": [
    "Verif.Props.B64.C136_vertical_line_binary64",
    "Verif.Props.B64.C136_mute_line_binary64_partial",
    "Verif.Props.B64.C136_line_through_sample_fails"
   ],
   "note": "Does not hold in full: fails for lines through a sample. A record is sampled at 0.1 s and muted before 0.3 s, the time of sample 3; in binary64 the line is placed at sample 2, which is before 0.3 s and is not silenced. Proved: A vertical line, and in binary64 no other, raises `ZeroDivisionError`. At every sensor the boundary line of a mute is placed in binary64 at the sample where exact arithmetic places it, if it does not pass within a thousandth of a step of a sample; in any case at this sample or one next to it."
  },
  {
   "property": "C137",
   "status": "proved",
   "theorems": [
    "Verif.Props.B64.C137_slant_value_binary64"
   ],
   "note": "With binary64 arithmetic every value the slant stack returns is the trapezoidal integral of the interpolated traces (`slantSpec`, exact) up to the stated error: `g` is the number of gaps between receivers, `A` the largest amplitude, `X` the length of the array. `A*X*g` is the size the integral can have, so that the relative error is about `10*npts/2^53`."
  },
  {
   "property": "C138",
   "status": "proved",
   "theorems": [
    "Verif.Props.C138_order_of_curves",
    "Verif.Props.C138_order_of_curves_refused"
   ],
   "note": "Two suites with the same members in another order have the same statistics: sample locations, means, standard deviations and correlation coefficients, for every choice of options. … and if one order is refused, so is every other."
  },
  {
   "property": "C139",
   "status": "proved",
   "theorems": [
    "Verif.Props.C139_order_of_additional_files",
    "Verif.Props.C139_order_of_files",
    "Verif.Props.C139_first_file_matters"
   ],
   "note": "Reading the additional files in another order gives the same array, whatever they contain and whatever the mappings are. For files which each state one format and one source (the same for all files), list the same number of receivers in order of their positions, and are accepted on their own, any order of the files gives the same array. without these hypotheses the choice of the first file matters. A file whose channels carry unequal stack counts is refused as the first file and accepted as an additional one; a file which lists its receivers in descending order is accepted only as the first one."
  },
  {
   "property": "C140",
   "status": "partial",
   "theorems": [
    "Verif.Props.C140_equal_iff",
    "Verif.Props.C140_identifiers",
    "Verif.Props.C140_saved_and_loaded_partial",
    "Verif.Props.C140_custom_attribute_counterexample"
   ],
   "note": "Does not hold in full: A suite with an attribute of the user's own is not equal to itself. Proved: Two suites are equal exactly if they have the same number of members and the members at the same positions are equal. Equal suites list the same identifiers in the same order. partial. A suite which was saved and loaded is equal to itself as it was. Missing: members with an attribute which the class cannot read back (`C140_custom_attribute_counterexample`)."
  },
  {
   "property": "C141",
   "status": "proved",
   "theorems": [
    "Verif.Props.C141_load_restores_the_last_save",
    "Verif.Props.C141_save_and_load_anywhere"
   ],
   "note": "After any history of rejections, saves and loads, with or without exceptions: saving, rejecting more, and loading gives the suite as it was saved, with the same file. Saving and loading at any moment of a history has no effect on the suite at its end."
  },
  {
   "property": "C142",
   "status": "partial",
   "theorems": [
    "Verif.Props.C142_uninterrupted",
    "Verif.Props.C142_states_of_the_file_partial",
    "Verif.Props.C142_interrupted_save_fails",
    "Verif.Props.C142_agrees_with_save"
   ],
   "note": "Does not hold in full: fails for every suite and every file: there is a moment at which the file cannot be read, so that a process which ends then leaves neither the old nor the new suite; and if the suite has several members, for every smaller number of members there is a moment at which the file holds just these, and is read without complaint. Proved: A call of `to_json` which is not interrupted leaves the file in the last of the states considered by C142 and raises what the step-by-step account says, for every suite and every earlier file; and reading a complete file in C142 is `from_json`. While a suite is saved the file is first as it was, at the end the suite can be loaded from it, and whenever it can be loaded in between it holds the first members of the suite, each as it is. Missing: in between the file may be unreadable, or hold fewer members (`C142_interrupted_save_fails`). The last state is the one `Suite.toJson` gives."
  },
  {
   "property": "C143",
   "status": "proved",
   "theorems": [
    "Verif.Props.C143_attributes",
    "Verif.Props.C143_limits",
    "Verif.Props.C143_boxes",
    "Verif.Props.C143_strongest",
    "Verif.Props.C143_statistics"
   ],
   "note": "In other units every attribute is the old one times its factor. Limits in the new units reject the peaks which the old limits reject. A box in the new units rejects the peaks which the old box rejects. The strongest peaks are the same ones in other units. A suite in other units, resampled at the same locations in those units, has the same statistics in those units and the same correlation coefficients; it is refused exactly if the old suite is."
  },
  {
   "property": "C144",
   "status": "proved",
   "theorems": [
    "Verif.Props.C144_phase_shift",
    "Verif.Props.C144_beamforming",
    "Verif.Props.C144_slant_stack",
    "Verif.Props.C144_picked",
    "Verif.Props.C144_dispersion_curve"
   ],
   "note": "With all lengths and all trial velocities multiplied by `k` the image is the same, its powers multiplied by `k`. … and the same for the beamformer, whose powers are multiplied by `k²` if they are weighted by the offsets, and else by nothing. … and the same for the slant stack, whose powers are multiplied by `k`. With logarithmically spaced velocities this asks that `np.geomspace` multiplies its values by `k` when both limits are (`geom`, not specified). From such an image the same velocities are picked, multiplied by `k`. With lengths and trial velocities in another unit, every one of the transforms gives an image at the same frequencies, from which the same velocities are picked, in that unit."
  },
  {
   "property": "C145",
   "status": "partial",
   "theorems": [
    "Verif.Props.C145_old_entries_stay_partial",
    "Verif.Props.C145_kept_partial",
    "Verif.Props.C145_agrees_with_append",
    "Verif.Props.C145_one_after_another_partial",
    "Verif.Props.C145_lost_entry_fails"
   ],
   "note": "Does not hold in full: fails: for any two `Peaks` with different identifiers, and any file with neither, there is an interleaving in which both programs end without an error and the file has only one of the entries. Proved: whatever the programs do, the entries which were in the file before stay, in their order. if no other program has read the file and not yet written it at the moment a program writes, then the entry of this program is in the file from then on, whatever the programs do. Two steps of one program, with no step of another between, are one call of `to_json`. if the programs run one after another, in any order, all entries are in the file, in this order."
  },
  {
   "property": "C146",
   "status": "proved",
   "theorems": [
    "Verif.Props.C146_trim",
    "Verif.Props.C146_zero_pad",
    "Verif.Props.C146_stack",
    "Verif.Props.C146_array_trim",
    "Verif.Props.C146_array_zero_pad",
    "Verif.Props.C146_mute",
    "Verif.Props.C146_first_arrivals",
    "Verif.Props.C146_phase_shift",
    "Verif.Props.C146_beamforming",
    "Verif.Props.C146_slant_stack",
    "Verif.Props.C146_dispersion_curve"
   ],
   "note": "With all times multiplied by `k`, `trim` keeps the same samples, and refuses in the same cases. … `zero_pad` adds as many zeros for a frequency step divided by `k`. … and records are stacked alike.   … `mute` silences the same samples between lines whose times are multiplied by `k`. … the first arrivals are picked at times multiplied by `k`. With all times multiplied by `k`, and frequencies and velocities divided by it, the image is the same. … and the same for the beamformer. … and the same for the slant stack. With logarithmically spaced velocities this asks that `np.geomspace` divides its values by `k` when both limits are (`geom`, not specified). With times in another unit, and frequencies and trial velocities accordingly, every one of the transforms gives the same image at the same frequencies and velocities in that unit, and the same velocities are picked."
  },
  {
   "property": "C147",
   "status": "proved",
   "theorems": [
    "Verif.Props.C147_at_any_moment",
    "Verif.Props.C147_again",
    "Verif.Props.C147_twice",
    "Verif.Props.C147_other_files",
    "Verif.Props.C147_agrees_with_run",
    "Verif.Props.C147_earlier_file_not_kept"
   ],
   "note": "Whenever the extraction is interrupted, a number of rows has been carried out and at most the next one has been begun: all other files are as they are when the extraction ends after those rows, and the file of the next row is as it was then, or torn, or complete. After an interruption at any moment, running the same extraction again gives the directory, and ends in the way, of an extraction which has not been interrupted. Extracting twice is extracting once. At no moment is a file touched that is not named by a row whose data can be read. Run to its end, the steps are those of `extract_mseed`: the files are complete and what they would be if every file were written at once. An interruption can leave a file in part written where a complete one of an earlier extraction was: the file is not written elsewhere first."
  },
  {
   "property": "C148",
   "status": "proved",
   "theorems": [
    "Verif.Props.C148_arrays_are_values",
    "Verif.Props.C148_no_interference",
    "Verif.Props.C148_copy_is_new",
    "Verif.Props.C148_same_sensors",
    "Verif.Props.C148_sensor_by_itself"
   ],
   "note": "In a program which obtains its arrays from files or as copies and uses their methods, every array is what it would be if the statements addressed to it were the only ones: the arrays after any number of statements, and the exception of the next one, are those of a program whose arrays are values. In any state, a method of one array changes no array that shares no sensor with it. Whatever the program did before, an array made by `from_array1d` is the copy of the array it was made from, and its sensors are new: they belong to no other array and are not known to the program by another name. Arrays made of the same sensors are not independent: whatever is done, by a method of one of them or otherwise, is seen in both. `trim` and `zero_pad` of a sensor which the program knows by name act on that sensor alone, raise what they raise for a record, and are seen in every array the sensor belongs to."
  },
  {
   "property": "C149",
   "status": "partial",
   "theorems": [
    "Verif.Props.C149_equal_lengths",
    "Verif.Props.C149_unequal_accepted_fails",
    "Verif.Props.C149_reading",
    "Verif.Props.C149_refused_rejects_nothing",
    "Verif.Props.C149_rejecting",
    "Verif.Props.C149_one_frequency_for_all_fails",
    "Verif.Props.C149_derived_values",
    "Verif.Props.C149_which_exception"
   ],
   "note": "Does not hold in full: The constructor accepts frequencies and velocities of different numbers; the object has velocities, but asking for its frequencies, wavelengths or wavenumbers raises `IndexError`. A single frequency is silently taken for the frequency of every velocity when wavelengths are the limits. Proved: With one entry per peak everything is as `Peaks` is modelled otherwise: no length is ever compared in vain, and no value is used for another peak. Whatever the lengths, an attribute that is read is read at its own peaks: there are as many recorded values as peaks, and those of the peaks not rejected are returned. Whatever the lengths, a rejection that raises an exception has rejected nothing. Whatever the lengths, a rejection by limits that is carried out had as many values as there are peaks, and rejected the peaks whose own value is outside. The wavelengths and wavenumbers by which peaks are rejected: frequencies and velocities of equal numbers, or one of either, give for each peak its own quotient; other numbers are refused with `ValueError`. A rejection by limits on values of another number than the peaks raises `ValueError` if there is a limit to compare with and more or less than one peak, and `IndexError` otherwise."
  },
  {
   "property": "C150",
   "status": "proved",
   "theorems": [
    "Verif.Props.C150_one_file",
    "Verif.Props.C150_frequency_domain",
    "Verif.Props.C150_cross_correlation",
    "Verif.Props.C150_picked"
   ],
   "note": "Positions along the line are measured from another origin and in another unit, and the limits of offset and of velocity are stated in that unit: `x` becomes `k * x + c`, a velocity `k * v`. A run on one file then raises or waits exactly if it did before, at the same point and with the same exception; otherwise it returns the same samples, times and frequencies, the same signal-to-noise ratio, the positions and velocities in the other unit, and powers which differ by one common factor. The same for the workflow which reads any number of files and stacks their transforms. The same for the workflow which correlates the record of one file with the source signal of any number of files. The velocities picked from the returned transform are those picked before, in the other unit."
  },
  {
   "property": "C151",
   "status": "proved",
   "theorems": [
    "Verif.Props.C151_steps",
    "Verif.Props.C151_run_returns",
    "Verif.Props.C151_source_files"
   ],
   "note": "A run of the cross-correlation workflow which returns has done exactly this: the record was read and cut at time zero and at its last sample; the source is not between the receivers; receivers were selected by offset, detrended, trimmed, muted between the lines picked by the user, then correlated with the source signal, and only then padded and transformed. The noise window is taken from the detrended record before trimming and muting, the signal window from the muted record; neither is correlated. If these steps succeed one by one, the run returns exactly their results. The source signals are read exactly if every file can be read and has the channel; each is the data of that channel with its sampling interval, in the order of the files."
  },
  {
   "property": "C152",
   "status": "proved",
   "theorems": [
    "Verif.Props.C152_run_recovers"
   ],
   "note": "A run of the cross-correlation workflow without trimming and muting, with or without padding and receiver selection, with any of the three frequency-domain transforms, on records in which a sweep crosses the array at velocity `v` (after the trend has been removed). Correlated with the source signal the sweep is a wavelet; apart from zeros it has the samples `core`, and the lags kept by the workflow hold these samples at every receiver. If the run returns and `v` is one of its trial velocities, then the peak of the returned transform is at `v` at every frequency at which the recorded sweep and the source signal have energy and some two of the receivers left are closer than the shortest trial wavelength."
  },
  {
   "property": "C153",
   "status": "partial",
   "theorems": [
    "Verif.Props.C153_other_sampling_accepted_fails",
    "Verif.Props.C153_only_for_the_lags_partial"
   ],
   "note": "Does not hold in full: The sampling interval of the source signal is not compared with that of the receivers: whatever it is, apart from zero, `xcorrelate` returns, and every sensor is the correlation of its samples with the samples of the source signal as if both were taken at the interval of the sensor. Proved: The interval of the source signal is used for nothing but the choice of the lags that are kept: with two intervals which give the same truncated numbers of samples the result is the same."
  },
  {
   "property": "C154",
   "status": "proved",
   "theorems": [
    "Verif.Props.B64.C154_lags_binary64",
    "Verif.Props.B64.C154_one_sample_less"
   ],
   "note": "Let the nearest receiver be at `near` and the farthest at `far` from the source, with reasonable sizes. The lags which are kept are, in binary64, those between `near/vmax - 0.5 s` and `far/vmin`, counted in samples of the source signal and cut to whole numbers, up to one sample at either end; an end which is not close to a whole number of samples is exact. The first two arguments of the slice count from the number of samples of the source signal. One sample less: at 35 m, 50 m/s and 1 ms the slowest arrival is 700 samples late, 699 are kept after lag zero: the one sample cannot be left out of the statement above. (The array also meets its hypotheses, with `near = far = 35`.)"
  },
  {
   "property": "C155",
   "status": "partial",
   "theorems": [
    "Verif.Props.B64.C155_mean_binary64_partial",
    "Verif.Props.B64.C155_variance_binary64_partial",
    "Verif.Props.B64.C155_few_digits_partial",
    "Verif.Props.B64.C155_equal_values_counterexample"
   ],
   "note": "Does not hold in full: fails: three curves with the same value, a tenth, have (in binary64) a mean which is larger than each of them, and a variance which is not zero, in whatever order the sums are taken. Proved: In whatever order the sum is taken, the reported mean of a column of `n` entries differs from the mean of its numbers by at most `(1 + 2^-53)^n - 1` times the mean of their magnitudes. In whatever order the sums are taken, the reported variance of a column of `n` entries with `k ≥ 2` numbers is, up to the part `(1 + 2^-53)^(n+3) - 1`, the variance of its numbers enlarged by `k/(k-1)` times the square of the error of the mean. If the numbers of the column are multiples of one power of two with factors whose magnitudes add up to less than 2^53 (whole numbers, say), then in whatever order the sum is taken the reported mean is the binary64 number nearest to the mean, it lies between bounds of the numbers which are binary64 numbers, and if all numbers are the same it is that number."
  },
  {
   "property": "C156",
   "status": "proved",
   "theorems": [
    "Verif.Props.B64.C156_limits_binary64",
    "Verif.Props.B64.C156_boxes_binary64",
    "Verif.Props.B64.C156_recorded_values"
   ],
   "note": "A peak whose slowness or wavelength is within the closed limits, which are binary64 numbers, is not rejected although the value is rounded before it is compared; a peak which is outside by more than the part 2^-53 of its value is rejected; and nothing else is changed. A peak is rejected by a box in the wavelength-slowness, wavelength-velocity, ... plane, with corners at binary64 numbers, only if it is strictly inside, although the derived value is rounded before it is compared; and it is rejected if it is inside by more than the part 2^-53 of its derived value. Limits on frequency, velocity and other recorded values compare the values themselves."
  },
  {
   "property": "C157",
   "status": "proved",
   "theorems": [
    "Verif.Props.C157_stack_recovers"
   ],
   "note": "Several shots stacked in the frequency domain: in every file a pulse crosses the receivers at the velocity `v`, each file with its own pulse, shot time, gains and side of the source. If the run returns and `v` is one of its trial velocities, then the peak of the stacked transform is at `v` at every frequency at which all pulses have energy and in every file some two of the receivers left are closer than the shortest trial wavelength."
  },
  {
   "property": "C158",
   "status": "partial",
   "theorems": [
    "Verif.Props.C158_time_domain",
    "Verif.Props.C158_single",
    "Verif.Props.C158_frequency_domain",
    "Verif.Props.C158_cross_correlation_partial",
    "Verif.Props.C158_correlation_is_last_fails",
    "Verif.Props.C158_title_counterexample"
   ],
   "note": "Does not hold in full: The description says that the traces are correlated before they are trimmed; the run trims them first. The result is another one: with the first 4 ms kept it has five samples, not four. Two workflows have the same title. Proved: A run of the time-domain workflow which returns has done the steps of its description, in their order. The same for the workflow of a single file, which is the first one given. In a run of the frequency-domain workflow over a list of files the steps of the description, up to its last line, are done for every file; as the last line says, the transforms are stacked, on a stack which is empty before the first file. A run of the cross-correlation workflow which neither trims in time nor mutes has done the steps of its description. Missing: runs which do (`C158_correlation_is_last_fails`)."
  },
  {
   "property": "C159",
   "status": "partial",
   "theorems": [
    "Verif.Props.C159_listed",
    "Verif.Props.C159_documented_partial",
    "Verif.Props.C159_other_names_fails"
   ],
   "note": "Does not hold in full: Every other name accepted by the constructor is listed, and peaks can be rejected by it, but reading it raises AttributeError: there is no property of that name. Proved: Exactly the frequency, the velocity, the names given at construction and the three computed attributes are listed; a name that is not listed cannot be read. Every listed attribute with a documented name can be read. Missing: the other names accepted by the constructor, `C159_other_names_fails`."
  },
  {
   "property": "C160",
   "status": "proved",
   "theorems": [
    "Verif.Props.C160_stack_recovers",
    "Verif.Props.C160_mute_leaves_wave",
    "Verif.Props.C160_off_lines_irrelevant",
    "Verif.Props.C160_run_recovers"
   ],
   "note": "A frequency-domain run with muting over files in which every record is a wave between the two lines the run ends with, plus anything off the lines, each file with its own pulse, shot time, gains and noise: if the run returns and the velocity `v` of the waves is one of its trial velocities, the peak of the stacked transform is at `v` at every frequency at which all pulses have energy and in every file some two of the selected receivers are closer than the shortest trial wavelength. If at every receiver the record is a wave between the lines, past the tapers of the window, plus anything off the lines, muting succeeds and leaves exactly the wave. Two arrays whose records differ only off the lines are the same after muting, whatever the window function is. A time-domain run with muting between two picked lines, with any of the three frequency-domain transforms, on files in which every record, when it comes to muting, is a pulse crossing the array at velocity `v` between the lines, past the tapers, plus anything else off the lines: if the run returns and `v` is one of its trial velocities, the peak of the returned transform is at `v` at every frequency at which the pulse has energy and some two receivers left are closer than the shortest trial wavelength."
  },
  {
   "property": "C161",
   "status": "partial",
   "theorems": [
    "Verif.Props.C161_look_moves_peak_counterexample",
    "Verif.Props.C161_plotted_record_counterexample",
    "Verif.Props.C161_weighted_by_maximum_fails",
    "Verif.Props.C161_mean_shown_partial"
   ],
   "note": "Does not hold in full: Two velocities and one frequency: the first transform has its peak at the first velocity and so has the mean; if the stack is plotted after the first transform, the peak of the final stack is at the second velocity. The transform which is stacked may have been plotted, too: its normalized power is stacked then. What is stacked after a normalization counts with the maximum by which the power was divided: for a stack of `n` records with magnitudes `x`, normalized by its largest value `M`, then one more transform of `m` records with powers `y`, then normalized by \"none\", every entry is `|x n + M y m| / (n + m)`. Proved: A stack may be plotted or normalized as one likes once the last transform is stacked, and before that without normalization: the power is then the mean of everything stacked, normalized by the last method. Missing: looks with normalization before the last transform is stacked, and transforms which were normalized before they were stacked (refuted above)."
  },
  {
   "property": "C162",
   "status": "partial",
   "theorems": [
    "Verif.Props.C162_same_again_partial",
    "Verif.Props.C162_second_run_fails",
    "Verif.Props.C162_window_settings_counterexample",
    "Verif.Props.C162_other_file_counterexample",
    "Verif.Props.C162_frequency_same_again_partial",
    "Verif.Props.C162_frequency_second_run_fails",
    "Verif.Props.C162_settles",
    "Verif.Props.C162_xcorr_same_again_partial",
    "Verif.Props.C162_frequency_window_counterexample",
    "Verif.Props.C162_xcorr_second_run_fails",
    "Verif.Props.C162_xcorr_settles"
   ],
   "note": "Does not hold in full: It mutes between the lines of the first run with the window of the settings (the first run uses the default window), and reports the signal-to-noise ratio of the first run. fails for muting with window settings: the second run on the same file returns half the amplitudes. fails for another file: an object which has processed \"a\" reports for \"c\" a ratio at the frequencies of \"a\", not at those a new object reports. It mutes all files between the lines of the first run with the window of the settings, also the first file (which the first run muted with the default window), and reports the signal-to-noise ratio of the first run. fails in the frequency domain for muting with window settings: the second run on the same file returns half the amplitudes. The record is that of the files named now and is correlated with the source signal named now, but it is muted between the lines of the first run with the window of the settings, and the signal-to-noise ratio reported is that of the first run. Proved: With the same settings and files, and a mute window given by the defaults (or no muting), running a workflow object again, any number of times, returns what the first run returned. Missing: muting with window settings, and other files or settings (refuted below). With the same settings and list of files, and a mute window given by the defaults (or no muting), running a frequency-domain workflow object again, any number of times, returns what the first run returned. Missing: muting with window settings, and other files or settings (refuted below). Whatever the settings, further runs on the same files return what the second run returned: for records stacked in the time domain and for files stacked in the frequency domain. As for the other workflows: with the same settings and files, and a mute window given by the defaults (or no muting), every further run returns what the first run returned. Whatever the settings, further runs on the same files return what the second run returned."
  },
  {
   "property": "C163",
   "status": "proved",
   "theorems": [
    "Verif.Props.C163_phase_shift",
    "Verif.Props.C163_phase_shift_picks",
    "Verif.Props.C163_wave_in_noise",
    "Verif.Props.C163_full_response",
    "Verif.Props.C163_noise_spectrum",
    "Verif.Props.C163_beamforming",
    "Verif.Props.C163_beamforming_picks",
    "Verif.Props.C163_fk"
   ],
   "note": "Take a recording and the same recording with other samples. At every frequency at which no sensor's spectrum changed by more than the part `ε` of its magnitude, no power of the image changed by more than `2 ε` times the length of the array; the frequencies and velocities of the image are the same. At every frequency at which the power of one trial velocity exceeds the power of all others by more than `4 ε` times the length of the array, this velocity is picked from the recording with the other samples too. If at a frequency the sensors record a plane wave of one of the trial velocities, each with a gain of its own, and noise of at most the part `ε` of what it records of the wave, and if for every other trial velocity the response of the array is smaller than its length by more than the part `4 ε`, then the velocity of the wave is picked. At the velocity of the wave the response is the length of the array. If the absolute values of the noise of every sensor add up to at most the part `ε` of the magnitude of its spectrum at a frequency, then its spectrum changes by at most the part `ε`. The same for the beamformer: the square root of a power changes by at most `ε` times the sum of the weighted magnitudes of the spectra (twice as much with `weighting=\"invamp\"`, which divides by the magnitude). A trial velocity whose power is larger than all others by enough is picked from the recording with the other samples too. The square root of a power changes by at most `ε` times the sum of the magnitudes of the spectra, and a trial velocity which stands out by twice this is picked from the recording with the other samples."
  },
  {
   "property": "C164",
   "status": "proved",
   "theorems": [
    "Verif.Props.C164_kres",
    "Verif.Props.C164_phase_shift_alias",
    "Verif.Props.C164_beamforming_alias",
    "Verif.Props.C164_fk_alias",
    "Verif.Props.C164_phase_shift_alias_pick",
    "Verif.Props.C164_phase_shift_unaliased",
    "Verif.Props.C164_beamforming_unaliased",
    "Verif.Props.C164_fk_unaliased"
   ],
   "note": "`kres` of an evenly spaced array is π divided by its spacing. On an evenly spaced array two trial velocities whose wavenumbers differ by a multiple of twice `kres` have the same power, whatever was recorded. The same for the beamformer with plane steering. The same, whatever steering the settings ask for. Of two trial velocities which the array cannot tell apart the one which comes later in the list is never picked, even if it is the velocity of the wave. On any array, if at a frequency the wavenumbers of all trial velocities are below twice `kres`, then the velocity of a wave crossing the array is picked. The same for the beamformer with plane steering and sensors away from the source. "
  },
  {
   "property": "C165",
   "status": "proved",
   "theorems": [
    "Verif.Props.C165_between",
    "Verif.Props.C165_straight_line",
    "Verif.Props.C165_same_curve"
   ],
   "note": "If the points of every member lie between a convex function `L` of the location and a concave function `U`, then so does every mean that `statistics` reports, and the standard deviation it reports is at most the distance of the two functions divided by the square root of two. If the points of all members lie on one straight line, every mean that `statistics` reports is the value of that line and every standard deviation is zero. If all members have the same points, every mean that `statistics` reports is the value of their common broken line, and every standard deviation is zero."
  },
  {
   "property": "C166",
   "status": "proved",
   "theorems": [
    "Verif.Props.C166_picks",
    "Verif.Props.C166_survey",
    "Verif.Props.C166_any_workflow"
   ],
   "note": "The picks of three or more transforms which show the velocity `v` at the frequencies from `lo` to `hi` are collected in a suite and the frequencies outside of these limits rejected. Then the mean at every location inside the frequencies of each of them is `v` and the standard deviation zero. Three or more shots over ground of velocity `v`, each processed by a time-domain run with settings of its own, their picks collected in a suite and limited to the frequencies from `lo` to `hi`: at every location inside the frequencies of each run, `statistics` gives the mean `v` and the standard deviation zero. Three or more results over ground of velocity `v`, each from a workflow and settings of its own - single shots, shots muted interactively, stacks in the frequency domain with and without muting, sweeps with cross-correlation; their picks collected in a suite and limited to the frequencies from `lo` to `hi`: at every location inside the frequencies of each result, `statistics` gives the mean `v` and the standard deviation zero."
  },
  {
   "property": "C167",
   "status": "partial",
   "theorems": [
    "Verif.Props.C167_without_options",
    "Verif.Props.C167_single_file",
    "Verif.Props.C167_options_partial",
    "Verif.Props.C167_others_unread_partial",
    "Verif.Props.C167_options_fails"
   ],
   "note": "Does not hold in full: the property fails. Two files read with `apply_calib=True`: the mean is taken of one calibrated and one uncalibrated record. Proved: Without options the files are read as they are. A single file is read with the options. If the options make no difference for the additional files, the call reads all files with the options. Missing: options which do make a difference, see `C167_options_fails`. What the additional files look like with the options does not matter."
  },
  {
   "property": "C168",
   "status": "proved",
   "theorems": [
    "Verif.Props.C168_recorded_statistics",
    "Verif.Props.C168_replacement",
    "Verif.Props.C168_first_accepted",
    "Verif.Props.C168_regions_found",
    "Verif.Props.C168_nothing_missing",
    "Verif.Props.C168_own_draws",
    "Verif.Props.C168_refused"
   ],
   "note": "The means and deviations which `from_data_matrix` hands on are, for every sample, those of the recorded values, of which there are at least two: random replacement has no part in them. Data returned by random replacement: no recorded value is changed, every gap in a region is filled, other gaps stay, and in every column mean and coefficient of variation are close to those of the recorded values. A refused attempt leaves no trace in the data: every attempt starts from the recorded values, only the random source has moved on; the first attempt close to the recorded statistics is the result, and `ValueError` is raised exactly if none of the permitted attempts is. The regions found in the data are rectangles of it. If nothing is missing inside the regions, every column has two numbers and no mean is zero, the first attempt is accepted and the data stay as they are, whatever the random source. Every value put in is a draw of its own. The `k`-th attempt asks the random source - where the attempts before have left it - exactly once for every missing entry in a region, with the mean and the deviation of the recorded values of its column; the numbers obtained, one after the other, are the values put in. Without attempts, or with a column of mean zero, the data are refused."
  },
  {
   "property": "C169",
   "status": "partial",
   "theorems": [
    "Verif.Props.C169_of_replaced_data_partial",
    "Verif.Props.C169_square_data_partial",
    "Verif.Props.C169_kept_data_partial",
    "Verif.Props.C169_shapes_partial",
    "Verif.Props.C169_coefficient_partial",
    "Verif.Props.C169_observations_fails",
    "Verif.Props.C169_outside_partial",
    "Verif.Props.C169_uninitialised_fails"
   ],
   "note": "Does not hold in full: is violated: complete data of several samples, with more observations than samples or fewer, are refused with `ValueError`, for every random source and every number of attempts. is violated: of three observations of three samples in two regions, the coefficient of the first and the last sample is whatever number the memory held before. Proved: partial: the coefficients which `from_data_matrix` hands on are, inside a square region on the diagonal that no other region meets, those of the data after random replacement, and all of them are there. (Missing: coefficients outside of such regions.) partial: data with as many observations as samples, all of them one region. The coefficients are found exactly if random replacement succeeds and, in the data after replacement, every two samples have a coefficient. (Missing: other numbers of observations, for which `C169_observations_fails`.) partial: `from_data_matrix` does on the data what it does on the samples and observations that are kept, with their locations, when nothing is to be dropped. (Missing: a returned object, for which `C60_class_methods_fails`.) partial: the coefficients are computed exactly if every region has one column or as many rows as columns; otherwise `ValueError` is raised. (Missing: regions of other shapes, see below.) partial: inside a square region that starts on the diagonal, the coefficient in row `i` and column `j` is that of the samples `i` and `j`. (Missing: everything outside of the regions and regions of other shapes.) partial: what is written lies inside the regions; a coefficient outside of them stays what the memory held before. (Missing: a value for these, see below.)"
  },
  {
   "property": "C170",
   "status": "proved",
   "theorems": [
    "Verif.Props.C170_time_domain",
    "Verif.Props.C170_same_image",
    "Verif.Props.C170_counts_matter"
   ],
   "note": "With the slant stack, the image of several files, whose records are stacked before the transform, is at every trial velocity and frequency the mean of the images of the single files, weighted by their stack counts. If muting is asked for, the same lines are picked in all runs. With the slant stack it makes no difference whether the records are stacked or the images are: for files with equal stack counts the time-domain and the frequency-domain workflow give the same frequencies and the same power at every trial velocity and frequency. If muting is asked for, the same lines are picked in both, and the window of the settings is the one used for the first file. equal stack counts are needed. For a file with one shot and a file with three the time-domain workflow weights the images by these counts, the frequency-domain workflow does not."
  },
  {
   "property": "C171",
   "status": "proved",
   "theorems": [
    "Verif.Props.C171_axes",
    "Verif.Props.C171_workflow"
   ],
   "note": "Two registered transforms of one array with the same frequency range and trial velocities give images on the same frequencies, with `nvel` rows and one column per frequency. The trial velocities are the same as well: for linear spacing they are the equally spaced ones; for other spacings this is stated for all transforms but the slant stack. Two time-domain runs over the same files which differ in the transform, its specific settings and nothing else give images of the same pre-processed array on the same frequencies and (linear spacing) the same trial velocities, with the same signal-to-noise ratio."
  },
  {
   "property": "C172",
   "status": "partial",
   "theorems": [
    "Verif.Props.C172_after_normalizing",
    "Verif.Props.C172_any_history",
    "Verif.Props.C172_real_power_partial",
    "Verif.Props.C172_first_look_fails",
    "Verif.Props.C172_slantstack_fails"
   ],
   "note": "Does not hold in full: The power 1 at 100 m/s and -2 at 200 m/s: 100 m/s is picked before, 200 m/s after any documented normalization. Two sensors recorded a pulse in the first sample, of opposite sign. The image of the slant stack has its peak at 2000 m/s at every frequency; after the normalization which is the default of `normalize` and `plot` it has its peak at 4000 m/s at every frequency. Proved: After any non-empty sequence of documented `normalize` calls the velocities picked are, at each frequency, that of the first row with the largest magnitude of the original power. Two histories of documented `normalize` calls, neither empty, give the same picks. When the powers are real and not negative, the picks are the same before and after normalizing. Missing: complex powers, for which `C172_first_look_fails` shows the picks change."
  },
  {
   "property": "C173",
   "status": "proved",
   "theorems": [
    "Verif.Props.C173_attributes",
    "Verif.Props.C173_simplify",
    "Verif.Props.C173_rejection",
    "Verif.Props.C173_history",
    "Verif.Props.C173_statistics"
   ],
   "note": "Every attribute reads the same. `simplify_mpeaks` gives the same. Every rejection ends alike, and again only the values of rejected peaks differ. After any history of rejections, failed ones included, two suites which differed in the values of rejected peaks only still do, the same peaks are rejected in both, and the next call ends alike. After any history of rejections the suites resample alike and have the same statistics, with and without correlations."
  },
  {
   "property": "C174",
   "status": "partial",
   "theorems": [
    "Verif.Props.C174_time_domain_partial",
    "Verif.Props.C174_single_partial",
    "Verif.Props.C174_other_side_fails",
    "Verif.Props.C174_far_receiver_fails",
    "Verif.Props.C174_frequency_domain_partial",
    "Verif.Props.C174_same_frame_partial",
    "Verif.Props.C174_cross_correlation_partial"
   ],
   "note": "Does not hold in full: fails: a receiver on the other side of the source, too far away to be used, makes the run refuse the record, because the position of the source is checked before the receivers are selected. fails: with the source beyond the last receiver, one receiver too far away to be used makes the run refuse the record, although the receivers within the offset range are the same. Proved: Two arrays from the same shot, with the same receivers within the offset range, the source not between the receivers and no receiver before the source beyond the upper limit: the run ends the same way for both - with the same transform, the same array, the same signal-to-noise ratio and the same mute lines, or with the same exception. Missing: the two conditions, see `C174_other_side_fails` and `C174_far_receiver_fails`. for single files: what is read from one file is a valid array. Two lists of files of the same shots, file by file with the same receivers within the offset range, whose example arrays give the same frequencies: the runs end the same way. Missing: the conditions on the source and the receivers before it (as above), and the similarity of every file to the example array of its own list. The example arrays give the same frequencies whenever their first receivers have records of the same length, step and multiple. Two recordings with the same source signal which, from time zero on, are of the same shot and have the same receivers within the offset range, the source not between the receivers and no receiver before the source beyond the upper limit: the cross-correlation workflow ends the same way for both. Missing: the conditions, see `C174_other_side_fails` and `C174_far_receiver_fails`."
  },
  {
   "property": "C175",
   "status": "partial",
   "theorems": [
    "Verif.Props.C175_phase_shift",
    "Verif.Props.C175_beamforming",
    "Verif.Props.C175_fk",
    "Verif.Props.C175_workflow_partial",
    "Verif.Props.C175_slant_stack_fails"
   ],
   "note": "Does not hold in full: fails for the slant stack. Of two receivers 2 m apart the four samples at 1 kHz are stacked at 2000 m/s. Without padding two delays are stacked, with padding to 125 Hz six, and the two images, which both have a column at 0 Hz, have the values 4 and 13 in it. Proved:  With the weights of the inverse amplitude no spectrum must vanish.  Two time-domain runs over the same files, the second with zero padding and otherwise with the same settings: the array of the second is that of the first with zeros after the samples, the signal-to-noise ratios and the trial velocities are the same, and wherever the two images have a column at the same frequency the powers are the same, for all transforms but the slant stack (and \"empty\", whose powers are all zero)."
  },
  {
   "property": "C176",
   "status": "partial",
   "theorems": [
    "Verif.Props.C176_first_file",
    "Verif.Props.C176_one_file",
    "Verif.Props.C176_runs_partial",
    "Verif.Props.C176_additional_file_fails"
   ],
   "note": "Does not hold in full: fails for additional files of a stack in the time domain. The run over \"first\" and \"three\" returns; if the traces of \"three\" are listed from far to near it is refused. Proved: The traces of the first file may be in any order, if the additional files are the same. An array read from a file is the same for every order of the traces in the file. A run of the time-domain workflow and of the single-shot workflow over one file, and a run of the frequency-domain workflow over any number of files, returns the same for every order of the traces in each of the files."
  },
  {
   "property": "C177",
   "status": "partial",
   "theorems": [
    "Verif.Props.C177_entries_partial",
    "Verif.Props.C177_uninterrupted_partial",
    "Verif.Props.C177_agrees_with_save",
    "Verif.Props.C177_mixed_fails"
   ],
   "note": "Does not hold in full: fails for interleaved saves. For any two suites of two members with different identifiers there is an interleaving after which both programs have ended without an error and the file holds neither suite but three of the four members; if the two suites have the same identifiers, one of the programs ends with `KeyError`. Proved: Whatever the interleaving, the file is the one at the start until a program writes, and from then on it holds members of the suites, each in full and once: no entry of the old file, and nothing which cannot be read. If no other program makes a step between the first and the last step of a program, then after its last step the file holds exactly its suite, whatever the others have done before. A program which saves alone leaves what `PeaksSuite.to_json` leaves."
  },
  {
   "property": "C178",
   "status": "partial",
   "theorems": [
    "Verif.Props.C178_again_partial",
    "Verif.Props.C178_stack_counts_fails"
   ],
   "note": "Does not hold in full: fails for the stack counts: whatever the array with counts of three or more, the array read the second time is not the one read the first time; and after sufficiently many times every count is one, so that the record weighs in a stack as much as a single shot. Proved: If an array can be written to an SU file, then what is read from it can be written and read again, any number of times: positions, source, sampling interval, delay and samples stay those of the first time, and other files are not touched. Missing: the stack counts, which go down by one every time until they are one."
  },
  {
   "property": "C179",
   "status": "partial",
   "theorems": [
    "Verif.Props.C179_phase_shift",
    "Verif.Props.C179_beamforming",
    "Verif.Props.C179_fk",
    "Verif.Props.C179_slant_stack_partial",
    "Verif.Props.C179_workflow_partial",
    "Verif.Props.C179_picks",
    "Verif.Props.C179_slant_stack_fails"
   ],
   "note": "Does not hold in full: fails for the slant stack. The same file, first with the trial velocities 2000 m/s and 4000 m/s, then with 4000 m/s and 8000 m/s: the number of delays stacked depends on the slowest trial velocity, and the two images have the values 4 and 8 at 4000 m/s and 0 Hz. Proved: What is shown at a velocity and a frequency does not depend on which other velocities and frequencies are shown.    Two time-domain runs over the same files with settings which differ in the frequency range and the trial velocities: the same array is transformed, and wherever the two images have the same velocity and the same frequency they have the same power. The signal-to-noise ratio is the same if the frequency range is. Of two images which agree where they overlap, the second with more trial velocities: if the second picks a velocity which is also in the first, then the first picks a velocity with the same power."
  },
  {
   "property": "C180",
   "status": "partial",
   "theorems": [
    "Verif.Props.C180_as_alone_partial",
    "Verif.Props.C180_ends",
    "Verif.Props.C180_folder_fails"
   ],
   "note": "Does not hold in full: fails if two tables name a folder which is not there. For any two rows in one new folder, with data which can be read and output files which differ, there is an interleaving after which the first process has extracted its row and the second has ended with `FileExistsError`, its file missing. Proved: Tables which name different output files are extracted at the same time, in any interleaving of the processes. At any moment, for every process which has ended: it has ended as an extraction of its table alone does, and the files its table names are as that extraction leaves them, whatever the other processes are doing. Files named by no table are not touched, folders are not removed, and only folders named by the tables are made. nobody waits for another: a process which makes four steps for each row of its table has ended, whatever the others do."
  },
  {
   "property": "C181",
   "status": "partial",
   "theorems": [
    "Verif.Props.C181_stages_partial",
    "Verif.Props.C181_grouping_partial",
    "Verif.Props.C181_through_files_fails"
   ],
   "note": "Does not hold in full: fails through files. An array whose numbers an SU file can hold is written and read. For every receiver which holds a stack of two shots or more: a further shot stacked onto what was read gives another record than stacked onto what was written, at every sample at which the stack and the shot differ. Proved: Shots stacked in stages, in any grouping: the stack is made exactly if the shots have one sampling interval, delay and length, and every sample is the mean over all shots, weighted with their stack counts, with the total as its stack count. Two ways to stack the same shots, in whatever grouping and order, give the same samples, stack count, sampling interval and delay."
  },
  {
   "property": "C182",
   "status": "proved",
   "theorems": [
    "Verif.Props.C182_one_file"
   ],
   "note": "With one file, the time-domain workflow and the frequency-domain workflow either both return or neither does, and if they return the results are the same: image, frequencies, trial velocities, record, signal-to-noise ratio and mute lines, for every registered transform (but the empty one). (Trial velocities of a slant stack in logarithmic spacing are not compared: there the model keeps the two workflows' velocities as rational and as real numbers.) The single workflow gives what the time-domain workflow gives, by `C79_first_file`. `scipy.signal.detrend` keeps the number of samples."
  },
  {
   "property": "C183",
   "status": "partial",
   "theorems": [
    "Verif.Props.C183_steps_partial",
    "Verif.Props.C183_narrower_partial",
    "Verif.Props.C183_drift_fails",
    "Verif.Props.C183_again_counterexample",
    "Verif.Props.C183_array_steps_partial"
   ],
   "note": "Does not hold in full: C183 does not hold in general: steps which begin between samples add up. However long a record of two or more samples is, and for every number `n` of steps, there are `n` trims, each beginning and ending within the record as it then is, which all return, keep every sample, and leave each of them `n` times 2/5 of a time step later than it was recorded. C183 does not hold in general: a window which ends between samples cannot be asked for again. Proved: Trimming in any number of steps which all return gives what the last step alone gives, if every step before the last begins at the time of a sample. After a trim to a window which begins and ends at times of samples, every narrower window gives what it gives on the untrimmed record, and the same window again changes nothing. The same for `Array1D.trim`, if every step before the last begins at the time of a sample of the sensors, which have one time step and one delay."
  },
  {
   "property": "C184",
   "status": "partial",
   "theorems": [
    "Verif.Props.C184_select_first",
    "Verif.Props.C184_select_last_partial",
    "Verif.Props.C184_mute_fails"
   ],
   "note": "Does not hold in full: C184 does not hold for `mute` the other way round: lines which cross within the records of the receivers selected may not do so beyond them; then `mute` refuses the whole array. Proved: Whatever sequence of `trim`, `zero_pad` and `mute` with given lines is done, if it returns and the receivers can be selected by offset, then the receivers may as well be selected before: the same sequence returns on the receivers selected, with the same array. For `trim` and `zero_pad`: if the sequence returns on the receivers selected, then it returns on the whole array, and selecting the receivers afterwards gives the same array."
  },
  {
   "property": "C185",
   "status": "proved",
   "theorems": [
    "Verif.Props.C185_common_factor",
    "Verif.Props.C185_repeated_files",
    "Verif.Props.C185_repeated_run",
    "Verif.Props.C185_descending_refused",
    "Verif.Props.C185_repeated_sources",
    "Verif.Props.C185_cross_correlation"
   ],
   "note": "If two lists of files give arrays which differ only by a common positive factor of all stack counts, time-domain runs on them agree: both stop at the same point for the same reason, or both return the same image, signal-to-noise ratio and mute lines, and arrays which differ by that factor only. A list of files given `m + 1` times over is read as the list given once, with all stack counts multiplied by `m + 1`; it is refused for the same reason if the list is. The first file states one format and one source and lists its receivers in order of their positions; the others are of any kind. Repeating the whole list of files changes nothing in what a time-domain run returns but the stack counts. A file whose receivers are listed in descending order is refused when it is listed twice. The source files given `m + 1` times over have the same mean signal. Every shot listed `m + 1` times over, with its source file: the cross-correlation workflow returns the same image and signal-to-noise ratio, and the stack counts are multiplied; or it stops for the same reason. The number of repetitions of the source files may be another."
  },
  {
   "property": "C186",
   "status": "proved",
   "theorems": [
    "Verif.Props.C186_shares",
    "Verif.Props.C186_other_lists_return",
    "Verif.Props.C186_reordered"
   ],
   "note": "Two frequency-domain runs in which every file has the same share (`k` times its number in the one list is `m` times its number in the other: lists in another order, or a list given several times over) give the same image, at the same frequencies. The files are recorded with one number of samples, time step and delay. With muting, the lines are picked on the first file, which must be the same, and the same window must be used for the first file and the further ones; two runs with the same first file also end with the same lines and the same signal-to-noise ratio. If a frequency-domain run returns, so does a run over any other list of its files: in another order, some of them, or some of them several times. With muting or a signal-to-noise ratio, which are decided on the first file, the first file must be the same; with muting, also the window. What `C186_shares` and `C186_other_lists_return` say of the two simplest cases, without muting and signal-to-noise ratio: the run over the files in another order returns, with the same image; so does the run over the list given `m + 1` times."
  },
  {
   "property": "C187",
   "status": "proved",
   "theorems": [
    "Verif.Props.C187_in_parts"
   ],
   "note": "A frequency-domain stack can be made in parts. If a run over some files returns, so does the run over each part of the list, however it is cut; and stacking the images of the parts with one another (with `stack`, in their order) gives the image of the whole run: the same frequencies, trial velocities and power, and the same number of files behind it. The files are recorded alike; there is no muting and no signal-to-noise ratio (both are decided on the first file of a run, and each part has its own)."
  },
  {
   "property": "C188",
   "status": "partial",
   "theorems": [
    "Verif.Props.C188_mean_partial",
    "Verif.Props.C188_order_partial",
    "Verif.Props.C188_sampling_fails",
    "Verif.Props.C188_one_sample_fails",
    "Verif.Props.C188_other_length_refused_partial"
   ],
   "note": "Does not hold in full: fails for signals with other sampling intervals: they are averaged sample by sample all the same, and the result has the sampling interval of whichever is listed first. fails for a signal of one sample: listed after a longer one, its sample is added to every sample of the other; listed before it, the two are refused. Proved: Source files with signals of one length: the source signal is their mean, sample by sample, with the sampling interval of the first. Source files with signals of one length and one sampling interval may be listed in any order, and only the share of each counts: the same source signal is read, and the cross-correlation workflow gives the same result, or stops for the same reason. Two source files whose signals have different lengths, the second having more than one sample, are refused, whatever the records are."
  },
  {
   "property": "C189",
   "status": "proved",
   "theorems": [
    "Verif.Props.C189_combined"
   ],
   "note": "Two suites put together: at a sample location for which both have statistics the combination has them, too. With `n` values at this location in one suite and `m` in the other, its mean is the mean of the two means with weights `n` and `m`, and its variance is made of the two variances and the difference of the means."
  },
  {
   "property": "C190",
   "status": "proved",
   "theorems": [
    "Verif.Props.C190_stated",
    "Verif.Props.C190_missing",
    "Verif.Props.C190_taken"
   ],
   "note": "The array that `from_files` returns has the source that the last trace of the first file states, and the first trace of every further file, read in the format of the first file, states the same. An SU or SEGY header with units that are lengths, in which the scalar or a coordinate of the source is missing and what is there can be read, is refused with `KeyError`; so is one without units. A SEGY scalar of zero is refused before the second coordinate is looked at. Conversely, a header that states a source with an allowed scalar, zero only in SU, gives this source."
  },
  {
   "property": "C191",
   "status": "proved",
   "theorems": [
    "Verif.Props.C191_honoured",
    "Verif.Props.C191_arguments"
   ],
   "note": "Whatever else the settings say: beamforming weighs the receivers as the text at `processing`/`fdbf-specific`/`weighting` says and advances them as the one at `steering` says; without such a text the weights are one and the wavefront is plane. The arguments `weighting` and `steering` of `create_settings_dict` are the ones used."
  },
  {
   "property": "C192",
   "status": "proved",
   "theorems": [
    "Verif.Props.C192_any_order",
    "Verif.Props.C192_afterwards",
    "Verif.Props.C192_in_parts"
   ],
   "note": "Two tables with the same rows, in any order and repeated any number of times, no two different rows being for the same output file: both extractions succeed or both raise, and if they succeed they leave the same folders and files. A successful extraction of such a table leaves in the file of every row the data of this row, every other file as it was, and the folders that were there and those of the rows. A table may be cut into any number of tables, extracted one after the other: the directory afterwards and the exception, if any, are those of the whole table."
  }
 ]
}
