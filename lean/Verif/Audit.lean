import Verif.Props.Alias
import Verif.Props.ArrayHeap
import Verif.Props.ArrayMute
import Verif.Props.ArrayOffsets
import Verif.Props.ArrayStructure
import Verif.Props.ArrayViews
import Verif.Props.BeamOptions
import Verif.Props.Beamforming
import Verif.Props.ChannelOrder
import Verif.Props.CombinedStats
import Verif.Props.Concurrent
import Verif.Props.ConcurrentExtract
import Verif.Props.ConcurrentSave
import Verif.Props.Copies
import Verif.Props.Correlation
import Verif.Props.CrashAgree
import Verif.Props.CrashExtract
import Verif.Props.CrossCorr
import Verif.Props.Describe
import Verif.Props.Extract
import Verif.Props.ExtractNames
import Verif.Props.FileOrder
import Verif.Props.Files
import Verif.Props.Fill
import Verif.Props.Float64
import Verif.Props.FreqMuted
import Verif.Props.FreqParts
import Verif.Props.FreqReturns
import Verif.Props.FreqShares
import Verif.Props.FreqVelocity
import Verif.Props.FrequencyDomain
import Verif.Props.GrowingStack
import Verif.Props.Headers
import Verif.Props.Interact
import Verif.Props.Invariance
import Verif.Props.Inversion
import Verif.Props.Lengths
import Verif.Props.Lines
import Verif.Props.ListedAttributes
import Verif.Props.Looking
import Verif.Props.MaxFile
import Verif.Props.MaxHeader
import Verif.Props.MaxTable
import Verif.Props.MaxWave
import Verif.Props.MeanRecords
import Verif.Props.MutedWave
import Verif.Props.Noise
import Verif.Props.Normalize
import Verif.Props.NumberText
import Verif.Props.OffsetRange
import Verif.Props.OffsetRangeFreq
import Verif.Props.OffsetRangeXcorr
import Verif.Props.OffsetsLast
import Verif.Props.OneAxis
import Verif.Props.OneFile
import Verif.Props.OtherTrials
import Verif.Props.Padding
import Verif.Props.PassedOn
import Verif.Props.PeaksJson
import Verif.Props.PeaksReject
import Verif.Props.PeaksShapes
import Verif.Props.PeaksSimplify
import Verif.Props.PhaseShift
import Verif.Props.PlotKwargs
import Verif.Props.PlotPeaks
import Verif.Props.PlotSuite
import Verif.Props.PlotTransform
import Verif.Props.Power
import Verif.Props.ReadOptions
import Verif.Props.RecordEquality
import Verif.Props.Recount
import Verif.Props.RecountXcorr
import Verif.Props.Recovery
import Verif.Props.Regex
import Verif.Props.Regions
import Verif.Props.Register
import Verif.Props.RejectedPeaks
import Verif.Props.Replacement
import Verif.Props.Rerun
import Verif.Props.RerunFreq
import Verif.Props.RerunXcorr
import Verif.Props.Rewriting
import Verif.Props.RoundedDecimal
import Verif.Props.RoundedFractions
import Verif.Props.RoundedLags
import Verif.Props.RoundedLimits
import Verif.Props.RoundedMute
import Verif.Props.RoundedRecord
import Verif.Props.RoundedSlant
import Verif.Props.RoundedSlantValue
import Verif.Props.RoundedStack
import Verif.Props.RoundedStats
import Verif.Props.RoundedTrim
import Verif.Props.RunReturns
import Verif.Props.SameAxes
import Verif.Props.Schematic
import Verif.Props.Selection
import Verif.Props.Sessions
import Verif.Props.Settings
import Verif.Props.SlantLook
import Verif.Props.SlantMean
import Verif.Props.SlantMeanRun
import Verif.Props.SlantStack
import Verif.Props.SlantVelocity
import Verif.Props.SlantWave
import Verif.Props.Snr
import Verif.Props.SnrEffect
import Verif.Props.SourceOrder
import Verif.Props.SourceSampling
import Verif.Props.SourceStated
import Verif.Props.Spac
import Verif.Props.StackTransform
import Verif.Props.Stacking
import Verif.Props.Stages
import Verif.Props.StatBounds
import Verif.Props.StatOrder
import Verif.Props.Statistics
import Verif.Props.Suite
import Verif.Props.SuiteHeap
import Verif.Props.Survey
import Verif.Props.SurveyRun
import Verif.Props.SurveyStats
import Verif.Props.SurveyWorkflows
import Verif.Props.SweepVelocity
import Verif.Props.TableOrder
import Verif.Props.Times
import Verif.Props.Traces
import Verif.Props.TrialVector
import Verif.Props.TrialVelocities
import Verif.Props.Trim
import Verif.Props.TrimSteps
import Verif.Props.Trimming
import Verif.Props.TrueVelocity
import Verif.Props.Units
import Verif.Props.Waterfall
import Verif.Props.Workflow
import Verif.Props.WorkflowExamples
import Verif.Props.XCorrelate
import Verif.Props.XcorrWorkflow
import Verif.Props.ZeroPad

/-! # Axioms of every property theorem (generated by tools/gen.py) -/

#print axioms Verif.Props.C164_kres
#print axioms Verif.Props.C164_phase_shift_alias
#print axioms Verif.Props.C164_beamforming_alias
#print axioms Verif.Props.C164_fk_alias
#print axioms Verif.Props.C164_phase_shift_alias_pick
#print axioms Verif.Props.C164_phase_shift_unaliased
#print axioms Verif.Props.C164_beamforming_unaliased
#print axioms Verif.Props.C164_fk_unaliased
#print axioms Verif.Props.C148_arrays_are_values
#print axioms Verif.Props.C148_no_interference
#print axioms Verif.Props.C148_copy_is_new
#print axioms Verif.Props.C148_same_sensors
#print axioms Verif.Props.C148_sensor_by_itself
#print axioms Verif.Props.C22_mute_multiplies_by_own_window
#print axioms Verif.Props.C23_last_sample_silenced_fails
#print axioms Verif.Props.C23_one_sided_mute_partial
#print axioms Verif.Props.C91_refused_mute_changes_earlier_sensors_counterexample
#print axioms Verif.Props.C91_refused_mute_partial
#print axioms Verif.Props.C92_window_shifted_for_positive_delay_counterexample
#print axioms Verif.Props.C92_window_follows_line_times_partial
#print axioms Verif.Props.C18_kept_sensors_are_in_range
#print axioms Verif.Props.C18_far_source_drops_sensors_counterexample
#print axioms Verif.Props.C18_far_first_sensor_always_refused_fails
#print axioms Verif.Props.C18_exactly_the_sensors_in_range_partial
#print axioms Verif.Props.C18_right_iff_partial
#print axioms Verif.Props.C19_never_empties
#print axioms Verif.Props.C20_traces_keep_their_offsets
#print axioms Verif.Props.C20_source_at_last_sensor_counterexample
#print axioms Verif.Props.C20_source_at_last_sensor_fails
#print axioms Verif.Props.C20_near_to_far_partial
#print axioms Verif.Props.C21_mirror_symmetry
#print axioms Verif.Props.C16_construction_iff
#print axioms Verif.Props.C16_construction_order_independent
#print axioms Verif.Props.C17_operations_preserve_consistency
#print axioms Verif.Props.C17_refused_trim_changes_nothing
#print axioms Verif.Props.C90_refused_zero_pad_splits_frequency_step_counterexample
#print axioms Verif.Props.C90_sensors_share_frequency_step_partial
#print axioms Verif.Props.C24_none_returns_samples
#print axioms Verif.Props.C24_each_scales_every_trace
#print axioms Verif.Props.C24_all_scales_the_matrix
#print axioms Verif.Props.C25_kres_times_smallest_spacing_is_pi
#print axioms Verif.Props.C25_pyPi_decimals
#print axioms Verif.Props.C25_spacing
#print axioms Verif.Props.C29_similarity_is_equivalence
#print axioms Verif.Props.C29_equality_iff
#print axioms Verif.Props.C29_equality_reflexive
#print axioms Verif.Props.C29_copy_equals_original
#print axioms Verif.Props.C93_first_arrivals
#print axioms Verif.Props.C25_normalized_positions
#print axioms Verif.Props.C25_center_distance
#print axioms Verif.Props.C191_honoured
#print axioms Verif.Props.C191_arguments
#print axioms Verif.Props.C70_real_nonneg_any_steering
#print axioms Verif.Props.C70_real_nonneg
#print axioms Verif.Props.C71_peak_at_true_velocity
#print axioms Verif.Props.C72_fk_is_plane_fdbf_partial
#print axioms Verif.Props.C72_settings_fails
#print axioms Verif.Props.C72_settings_partial
#print axioms Verif.Props.C176_first_file
#print axioms Verif.Props.C176_one_file
#print axioms Verif.Props.C176_runs_partial
#print axioms Verif.Props.C176_additional_file_fails
#print axioms Verif.Props.C189_combined
#print axioms Verif.Props.C145_old_entries_stay_partial
#print axioms Verif.Props.C145_kept_partial
#print axioms Verif.Props.C145_agrees_with_append
#print axioms Verif.Props.C145_one_after_another_partial
#print axioms Verif.Props.C145_lost_entry_fails
#print axioms Verif.Props.C180_as_alone_partial
#print axioms Verif.Props.C180_ends
#print axioms Verif.Props.C180_folder_fails
#print axioms Verif.Props.C177_entries_partial
#print axioms Verif.Props.C177_uninterrupted_partial
#print axioms Verif.Props.C177_agrees_with_save
#print axioms Verif.Props.C177_mixed_fails
#print axioms Verif.Props.C08_sensor_copy_partial
#print axioms Verif.Props.C08_sensor_of_record_partial
#print axioms Verif.Props.C08_array_copy_partial
#print axioms Verif.Props.C11_sensor_similarity_iff
#print axioms Verif.Props.C11_sensor_similarity_is_equivalence
#print axioms Verif.Props.C124_correlations_partial
#print axioms Verif.Props.C124_symmetric_bounded
#print axioms Verif.Props.C124_missing_value_fails
#print axioms Verif.Props.C125_nothing_missing_partial
#print axioms Verif.Props.C125_missing_coefficient_fails
#print axioms Verif.Props.C125_never_filled
#print axioms Verif.Props.C142_uninterrupted
#print axioms Verif.Props.C46_missing_file
#print axioms Verif.Props.C147_at_any_moment
#print axioms Verif.Props.C147_again
#print axioms Verif.Props.C147_twice
#print axioms Verif.Props.C147_other_files
#print axioms Verif.Props.C147_agrees_with_run
#print axioms Verif.Props.C147_earlier_file_not_kept
#print axioms Verif.Props.C09_crosscorr_shift_is_optimal
#print axioms Verif.Props.C09_correlation_of_returned_record
#print axioms Verif.Props.C10_cross_stack_is_weighted_mean
#print axioms Verif.Props.C10_cross_stack_refuses_unequal_lengths
#print axioms Verif.Props.C10_cross_stack_succeeds_iff
#print axioms Verif.Props.C10_sensors_fails
#print axioms Verif.Props.C158_time_domain
#print axioms Verif.Props.C158_single
#print axioms Verif.Props.C158_frequency_domain
#print axioms Verif.Props.C158_cross_correlation_partial
#print axioms Verif.Props.C158_correlation_is_last_fails
#print axioms Verif.Props.C158_title_counterexample
#print axioms Verif.Props.C84_every_hour_once
#print axioms Verif.Props.C84_stamp_hour
#print axioms Verif.Props.C84_reversed_refused
#print axioms Verif.Props.C84_reversed_never_written
#print axioms Verif.Props.C84_names_distinct
#print axioms Verif.Props.C85_own_file_partial
#print axioms Verif.Props.C85_stops_at_failure
#print axioms Verif.Props.C85_overwrite_fails
#print axioms Verif.Props.C139_order_of_additional_files
#print axioms Verif.Props.C139_order_of_files
#print axioms Verif.Props.C139_first_file_matters
#print axioms Verif.Props.C26_from_files_weighted_mean_partial
#print axioms Verif.Props.C26_different_source_refused
#print axioms Verif.Props.C26_mapping_counterexample
#print axioms Verif.Props.C26_descending_file_counterexample
#print axioms Verif.Props.C28_same_stack_counts_partial
#print axioms Verif.Props.C28_channels_partial
#print axioms Verif.Props.C28_fewer_channels_fails
#print axioms Verif.Props.C28_channel_count_counterexample
#print axioms Verif.Props.C27_su_round_trip_partial
#print axioms Verif.Props.C27_su_exact_round_trip_partial
#print axioms Verif.Props.C27_stack_count_counterexample
#print axioms Verif.Props.C27_close_sensors_counterexample
#print axioms Verif.Props.C59_fill
#print axioms Verif.Props.C160_stack_recovers
#print axioms Verif.Props.C187_in_parts
#print axioms Verif.Props.C78_run_returns
#print axioms Verif.Props.C186_shares
#print axioms Verif.Props.C186_other_lists_return
#print axioms Verif.Props.C186_reordered
#print axioms Verif.Props.C157_stack_recovers
#print axioms Verif.Props.C78_mean
#print axioms Verif.Props.C78_first_windows
#print axioms Verif.Props.C78_dissimilar_refused
#print axioms Verif.Props.C78_all_similar
#print axioms Verif.Props.C103_mixed_frequencies_fails
#print axioms Verif.Props.C161_look_moves_peak_counterexample
#print axioms Verif.Props.C161_plotted_record_counterexample
#print axioms Verif.Props.C161_weighted_by_maximum_fails
#print axioms Verif.Props.C161_mean_shown_partial
#print axioms Verif.Props.C13_receiver_x_follows_scalar_rule
#print axioms Verif.Props.C13_receiver_y_follows_scalar_rule_partial
#print axioms Verif.Props.C13_receiver_y_right_iff_partial
#print axioms Verif.Props.C13_receiver_y_counterexample
#print axioms Verif.Props.C14_unidentified_format_refused
#print axioms Verif.Props.C14_other_formats_not_implemented
#print axioms Verif.Props.C14_explicit_format_wins
#print axioms Verif.Props.C14_explicit_format_refused_counterexample
#print axioms Verif.Props.C14_no_own_format_fails
#print axioms Verif.Props.C14_no_header_influence
#print axioms Verif.Props.C14_dispatch_partial
#print axioms Verif.Props.C15_su_header_defaults
#print axioms Verif.Props.C15_seg2_header_defaults_partial
#print axioms Verif.Props.C15_seg2_refused_exactly_partial
#print axioms Verif.Props.C15_su_refused_exactly
#print axioms Verif.Props.C15_count_with_fraction
#print axioms Verif.Props.C15_seg2_zero_stack_counterexample
#print axioms Verif.Props.C31_session_returns_last_points
#print axioms Verif.Props.C31_session_completes
#print axioms Verif.Props.C32_interactive_mute_complete_lines_partial
#print axioms Verif.Props.C32_key_press_counterexample
#print axioms Verif.Props.C32_one_sensor_fails
#print axioms Verif.Props.C118_inverse_offset_partial
#print axioms Verif.Props.C118_surface_wave_power
#print axioms Verif.Props.C118_surface_wave_fails
#print axioms Verif.Props.C119_gain_phase_shift
#print axioms Verif.Props.C119_gain_beamforming
#print axioms Verif.Props.C119_common_delay
#print axioms Verif.Props.C119_mirror
#print axioms Verif.Props.C82_unique_minimiser
#print axioms Verif.Props.C82_prior_is_fixed
#print axioms Verif.Props.C82_linear_no_memory
#print axioms Verif.Props.C83_posterior
#print axioms Verif.Props.C144_phase_shift
#print axioms Verif.Props.C144_beamforming
#print axioms Verif.Props.C144_slant_stack
#print axioms Verif.Props.C144_picked
#print axioms Verif.Props.C144_dispersion_curve
#print axioms Verif.Props.C126_nearfield_line
#print axioms Verif.Props.C126_without_array
#print axioms Verif.Props.C127_error_bars
#print axioms Verif.Props.C127_lengths_refused
#print axioms Verif.Props.C159_listed
#print axioms Verif.Props.C159_documented_partial
#print axioms Verif.Props.C159_other_names_fails
#print axioms Verif.Props.C63_complex_power
#print axioms Verif.Props.C172_after_normalizing
#print axioms Verif.Props.C172_any_history
#print axioms Verif.Props.C172_real_power_partial
#print axioms Verif.Props.C172_first_look_fails
#print axioms Verif.Props.C87_accepted
#print axioms Verif.Props.C87_refused
#print axioms Verif.Props.C87_never_read
#print axioms Verif.Props.C87_never_read_suite
#print axioms Verif.Props.C86_version_gate_partial
#print axioms Verif.Props.C86_supported_is_read
#print axioms Verif.Props.C86_read_names_version
#print axioms Verif.Props.C86_wildcard_counterexample
#print axioms Verif.Props.C88_files_independent_partial
#print axioms Verif.Props.C88_files_interfere_fails
#print axioms Verif.Props.C88_inf_hides_wave_fails
#print axioms Verif.Props.C120_process_type
#print axioms Verif.Props.C120_number_of_maxima
#print axioms Verif.Props.C104_header_from_text_partial
#print axioms Verif.Props.C104_suite_member_per_window_partial
#print axioms Verif.Props.C104_first_window_partial
#print axioms Verif.Props.C104_suffix_time_counterexample
#print axioms Verif.Props.C104_frequency_pattern_counterexample
#print axioms Verif.Props.C88_wave_of_first_line_partial
#print axioms Verif.Props.C88_noise_inf_hides_wave_counterexample
#print axioms Verif.Props.C160_mute_leaves_wave
#print axioms Verif.Props.C160_off_lines_irrelevant
#print axioms Verif.Props.C160_run_recovers
#print axioms Verif.Props.C163_phase_shift
#print axioms Verif.Props.C163_phase_shift_picks
#print axioms Verif.Props.C163_wave_in_noise
#print axioms Verif.Props.C163_full_response
#print axioms Verif.Props.C163_noise_spectrum
#print axioms Verif.Props.C163_beamforming
#print axioms Verif.Props.C163_beamforming_picks
#print axioms Verif.Props.C163_fk
#print axioms Verif.Props.C63_last_method_wins
#print axioms Verif.Props.C63_none_restores
#print axioms Verif.Props.C63_zero_column_fails
#print axioms Verif.Props.C97_refused_call_fails
#print axioms Verif.Props.C97_refused_call_partial
#print axioms Verif.Props.C104_numbers
#print axioms Verif.Props.C104_not_numbers
#print axioms Verif.Props.C174_time_domain_partial
#print axioms Verif.Props.C174_single_partial
#print axioms Verif.Props.C174_other_side_fails
#print axioms Verif.Props.C174_far_receiver_fails
#print axioms Verif.Props.C174_frequency_domain_partial
#print axioms Verif.Props.C174_same_frame_partial
#print axioms Verif.Props.C174_cross_correlation_partial
#print axioms Verif.Props.C184_select_first
#print axioms Verif.Props.C184_select_last_partial
#print axioms Verif.Props.C184_mute_fails
#print axioms Verif.Props.C103_same_recording_partial
#print axioms Verif.Props.C78_registered_mean
#print axioms Verif.Props.C182_one_file
#print axioms Verif.Props.C179_phase_shift
#print axioms Verif.Props.C179_beamforming
#print axioms Verif.Props.C179_fk
#print axioms Verif.Props.C179_slant_stack_partial
#print axioms Verif.Props.C179_workflow_partial
#print axioms Verif.Props.C179_picks
#print axioms Verif.Props.C179_slant_stack_fails
#print axioms Verif.Props.C175_phase_shift
#print axioms Verif.Props.C175_beamforming
#print axioms Verif.Props.C175_fk
#print axioms Verif.Props.C175_workflow_partial
#print axioms Verif.Props.C175_slant_stack_fails
#print axioms Verif.Props.C168_recorded_statistics
#print axioms Verif.Props.C169_of_replaced_data_partial
#print axioms Verif.Props.C169_square_data_partial
#print axioms Verif.Props.C169_kept_data_partial
#print axioms Verif.Props.C39_json_round_trip
#print axioms Verif.Props.C39_validity_as_numbers
#print axioms Verif.Props.C39_truth_values_as_data
#print axioms Verif.Props.C39_incomplete_data
#print axioms Verif.Props.C39_exact
#print axioms Verif.Props.C40_append_keeps
#print axioms Verif.Props.C40_append_refused
#print axioms Verif.Props.C40_nothing_is_lost
#print axioms Verif.Props.C41_without_valid_partial
#print axioms Verif.Props.C41_dictionary_changed_counterexample
#print axioms Verif.Props.C41_second_build_forgets_rejections_fails
#print axioms Verif.Props.C42_refused_append_partial
#print axioms Verif.Props.C42_before_and_after_partial
#print axioms Verif.Props.C42_crash_loses_everything_fails
#print axioms Verif.Props.C33_new_peaks
#print axioms Verif.Props.C33_derived_names_refused
#print axioms Verif.Props.C34_reject_limits_outside
#print axioms Verif.Props.C34_closed_interval
#print axioms Verif.Props.C34_unknown_attribute
#print axioms Verif.Props.C35_reject_box_inside
#print axioms Verif.Props.C35_bounds_in_any_order
#print axioms Verif.Props.C36_rejections_compose
#print axioms Verif.Props.C36_order_and_repetition_irrelevant
#print axioms Verif.Props.C36_no_resurrection
#print axioms Verif.Props.C44_derived_attributes
#print axioms Verif.Props.C44_zero_values
#print axioms Verif.Props.C149_equal_lengths
#print axioms Verif.Props.C149_unequal_accepted_fails
#print axioms Verif.Props.C149_reading
#print axioms Verif.Props.C149_refused_rejects_nothing
#print axioms Verif.Props.C149_rejecting
#print axioms Verif.Props.C149_one_frequency_for_all_fails
#print axioms Verif.Props.C149_derived_values
#print axioms Verif.Props.C149_which_exception
#print axioms Verif.Props.C37_strongest_per_column
#print axioms Verif.Props.C37_first_without_power
#print axioms Verif.Props.C37_any_power_partial
#print axioms Verif.Props.C37_nan_power_counterexample
#print axioms Verif.Props.C38_aligned
#print axioms Verif.Props.C43_reflexive_partial
#print axioms Verif.Props.C43_equal_iff_partial
#print axioms Verif.Props.C43_equal_count_partial
#print axioms Verif.Props.C43_custom_attribute_counterexample
#print axioms Verif.Props.C43_count_counterexample
#print axioms Verif.Props.C43_asymmetry_counterexample
#print axioms Verif.Props.C68_bounded
#print axioms Verif.Props.C68_plane_wave_peak
#print axioms Verif.Props.C68_recorded_wave_peak
#print axioms Verif.Props.C69_gain_invariant
#print axioms Verif.Props.C89_expand
#print axioms Verif.Props.C89_accepted
#print axioms Verif.Props.C89_refused
#print axioms Verif.Props.C89_never_accepted
#print axioms Verif.Props.C89_types
#print axioms Verif.Props.C108_plot_shows_peaks
#print axioms Verif.Props.C108_unknown_attribute
#print axioms Verif.Props.C108_wrong_mask
#print axioms Verif.Props.C108_refused_types
#print axioms Verif.Props.C108_plot_is_attribute
#print axioms Verif.Props.C109_every_member
#print axioms Verif.Props.C109_wrong_lengths
#print axioms Verif.Props.C110_legend_partial
#print axioms Verif.Props.C110_given_axes_counterexample
#print axioms Verif.Props.C110_lost_label_fails
#print axioms Verif.Props.C111_limits_drawn
#print axioms Verif.Props.C111_limits_undefined
#print axioms Verif.Props.C112_plot_shows_power
#print axioms Verif.Props.C113_plot_changes_power_fails
#print axioms Verif.Props.C113_refused_plot_fails
#print axioms Verif.Props.C113_axes_without_figure_partial
#print axioms Verif.Props.C113_magnitudes_kept_partial
#print axioms Verif.Props.C113_peaks_kept_partial
#print axioms Verif.Props.C117_phase_shift
#print axioms Verif.Props.C117_beamforming
#print axioms Verif.Props.C117_slant_stack
#print axioms Verif.Props.C167_without_options
#print axioms Verif.Props.C167_single_file
#print axioms Verif.Props.C167_options_partial
#print axioms Verif.Props.C167_others_unread_partial
#print axioms Verif.Props.C167_options_fails
#print axioms Verif.Props.C94_floats_partial
#print axioms Verif.Props.C94_integers_refused_partial
#print axioms Verif.Props.C94_integers_fails
#print axioms Verif.Props.C11_similarity_is_equivalence
#print axioms Verif.Props.C11_similarity_means_same_metadata
#print axioms Verif.Props.C12_eq_iff
#print axioms Verif.Props.C12_eq_not_symmetric_counterexample
#print axioms Verif.Props.C12_eq_not_transitive_counterexample
#print axioms Verif.Props.C12_eq_reflexive_and_sound_partial
#print axioms Verif.Props.C12_eq_almost_symmetric_partial
#print axioms Verif.Props.C185_common_factor
#print axioms Verif.Props.C185_repeated_files
#print axioms Verif.Props.C185_repeated_run
#print axioms Verif.Props.C185_descending_refused
#print axioms Verif.Props.C185_repeated_sources
#print axioms Verif.Props.C185_cross_correlation
#print axioms Verif.Props.C114_phase_shift_recovers
#print axioms Verif.Props.C114_beamforming_recovers
#print axioms Verif.Props.C114_fk_recovers
#print axioms Verif.Props.C114_run_recovers
#print axioms Verif.Props.C56_sort
#print axioms Verif.Props.C57_regions
#print axioms Verif.Props.C57_density
#print axioms Verif.Props.C58_failure_kind_partial
#print axioms Verif.Props.C58_complete_matrix_partial
#print axioms Verif.Props.C58_last_column_fails
#print axioms Verif.Props.C58_many_regions_fails
#print axioms Verif.Props.C60_constructor_fails
#print axioms Verif.Props.C60_class_methods_fails
#print axioms Verif.Props.C73_registries
#print axioms Verif.Props.C173_attributes
#print axioms Verif.Props.C173_simplify
#print axioms Verif.Props.C173_rejection
#print axioms Verif.Props.C173_history
#print axioms Verif.Props.C173_statistics
#print axioms Verif.Props.C168_replacement
#print axioms Verif.Props.C168_first_accepted
#print axioms Verif.Props.C168_regions_found
#print axioms Verif.Props.C168_nothing_missing
#print axioms Verif.Props.C168_own_draws
#print axioms Verif.Props.C168_refused
#print axioms Verif.Props.C169_shapes_partial
#print axioms Verif.Props.C169_coefficient_partial
#print axioms Verif.Props.C169_observations_fails
#print axioms Verif.Props.C169_outside_partial
#print axioms Verif.Props.C169_uninitialised_fails
#print axioms Verif.Props.C162_same_again_partial
#print axioms Verif.Props.C162_second_run_fails
#print axioms Verif.Props.C162_window_settings_counterexample
#print axioms Verif.Props.C162_other_file_counterexample
#print axioms Verif.Props.C162_frequency_same_again_partial
#print axioms Verif.Props.C162_frequency_second_run_fails
#print axioms Verif.Props.C162_settles
#print axioms Verif.Props.C162_xcorr_same_again_partial
#print axioms Verif.Props.C162_frequency_window_counterexample
#print axioms Verif.Props.C162_xcorr_second_run_fails
#print axioms Verif.Props.C162_xcorr_settles
#print axioms Verif.Props.C178_again_partial
#print axioms Verif.Props.C178_stack_counts_fails
#print axioms Verif.Props.B64.C132_su_thousandths_binary64
#print axioms Verif.Props.B64.C132_su_any_coordinate_binary64
#print axioms Verif.Props.B64.C133_spacing_binary64
#print axioms Verif.Props.B64.C133_no_spacing_binary64
#print axioms Verif.Props.B64.C134_drop_binary64
#print axioms Verif.Props.B64.C134_regions_binary64
#print axioms Verif.Props.B64.C154_lags_binary64
#print axioms Verif.Props.B64.C154_one_sample_less
#print axioms Verif.Props.B64.C156_limits_binary64
#print axioms Verif.Props.B64.C156_boxes_binary64
#print axioms Verif.Props.B64.C156_recorded_values
#print axioms Verif.Props.B64.C136_vertical_line_binary64
#print axioms Verif.Props.B64.C136_mute_line_binary64_partial
#print axioms Verif.Props.B64.C136_line_through_sample_fails
#print axioms Verif.Props.B64.C129_zero_pad_binary64
#print axioms Verif.Props.B64.C129_refused_binary64
#print axioms Verif.Props.B64.C130_selection_binary64
#print axioms Verif.Props.B64.C66_binary64_outside_iff
#print axioms Verif.Props.B64.C66_binary64_partial
#print axioms Verif.Props.B64.C66_binary64_fails
#print axioms Verif.Props.B64.C137_slant_value_binary64
#print axioms Verif.Props.B64.C131_stack_binary64
#print axioms Verif.Props.B64.C131_accepts_binary64
#print axioms Verif.Props.B64.C131_order_binary64
#print axioms Verif.Props.B64.C131_order_matters_binary64
#print axioms Verif.Props.B64.C155_mean_binary64_partial
#print axioms Verif.Props.B64.C155_variance_binary64_partial
#print axioms Verif.Props.B64.C155_few_digits_partial
#print axioms Verif.Props.B64.C155_equal_values_counterexample
#print axioms Verif.Props.B64.C135_trim_binary64
#print axioms Verif.Props.B64.C135_trim_binary64_partial
#print axioms Verif.Props.B64.C135_refused_binary64
#print axioms Verif.Props.B64.C135_last_sample_fails
#print axioms Verif.Props.C76_run_returns
#print axioms Verif.Props.C102_early_record_partial
#print axioms Verif.Props.C171_axes
#print axioms Verif.Props.C171_workflow
#print axioms Verif.Props.C122_schematic
#print axioms Verif.Props.C122_options
#print axioms Verif.Props.C122_limits_partial
#print axioms Verif.Props.C122_reversed_axis_fails
#print axioms Verif.Props.C93_algorithms
#print axioms Verif.Props.C123_plot_snr
#print axioms Verif.Props.C62_selected_bins
#print axioms Verif.Props.C62_on_user_grid
#print axioms Verif.Props.C65_peak
#print axioms Verif.Props.C65_unknown_method
#print axioms Verif.Props.C98_complex_power_fails
#print axioms Verif.Props.C98_real_power_partial
#print axioms Verif.Props.C98_picked_partial
#print axioms Verif.Props.C140_equal_iff
#print axioms Verif.Props.C140_identifiers
#print axioms Verif.Props.C140_saved_and_loaded_partial
#print axioms Verif.Props.C140_custom_attribute_counterexample
#print axioms Verif.Props.C141_load_restores_the_last_save
#print axioms Verif.Props.C141_save_and_load_anywhere
#print axioms Verif.Props.C142_states_of_the_file_partial
#print axioms Verif.Props.C142_interrupted_save_fails
#print axioms Verif.Props.C142_agrees_with_save
#print axioms Verif.Props.C81_every_argument
#print axioms Verif.Props.C81_injective
#print axioms Verif.Props.C77_window_settings_ignored_fails
#print axioms Verif.Props.C77_default_window_partial
#print axioms Verif.Props.C172_slantstack_fails
#print axioms Verif.Props.C170_time_domain
#print axioms Verif.Props.C170_same_image
#print axioms Verif.Props.C170_counts_matter
#print axioms Verif.Props.C67_slant_stack
#print axioms Verif.Props.C66_reads_inside
#print axioms Verif.Props.C66_refused_iff
#print axioms Verif.Props.C128_normalized_partial
#print axioms Verif.Props.C128_stack_of_signal_partial
#print axioms Verif.Props.C119_gain_slant_stack
#print axioms Verif.Props.C119_mirror_slant_stack
#print axioms Verif.Props.C128_pick_fails
#print axioms Verif.Props.C74_right_frequency_partial
#print axioms Verif.Props.C74_physical_spectrum_partial
#print axioms Verif.Props.C74_multiple_fails
#print axioms Verif.Props.C74_different_interval_fails
#print axioms Verif.Props.C75_unequal_windows
#print axioms Verif.Props.C75_ratio
#print axioms Verif.Props.C75_equal_windows
#print axioms Verif.Props.C75_scaling
#print axioms Verif.Props.C99_padding_equalizes_partial
#print axioms Verif.Props.C99_padding_exactly_partial
#print axioms Verif.Props.C99_padding_fails
#print axioms Verif.Props.C101_frequency_domain
#print axioms Verif.Props.C101_cross_correlation
#print axioms Verif.Props.C101_single
#print axioms Verif.Props.C101_switched_off
#print axioms Verif.Props.C188_mean_partial
#print axioms Verif.Props.C188_order_partial
#print axioms Verif.Props.C188_sampling_fails
#print axioms Verif.Props.C188_one_sample_fails
#print axioms Verif.Props.C188_other_length_refused_partial
#print axioms Verif.Props.C153_other_sampling_accepted_fails
#print axioms Verif.Props.C153_only_for_the_lags_partial
#print axioms Verif.Props.C190_stated
#print axioms Verif.Props.C190_missing
#print axioms Verif.Props.C190_taken
#print axioms Verif.Props.C115_all_ratios
#print axioms Verif.Props.C115_one_curve_partial
#print axioms Verif.Props.C115_other_components_refused
#print axioms Verif.Props.C116_rings
#print axioms Verif.Props.C115_longer_time_fails
#print axioms Verif.Props.C115_absolute_time_fails
#print axioms Verif.Props.C64_weighted_mean
#print axioms Verif.Props.C64_plain_mean
#print axioms Verif.Props.C64_order_independent
#print axioms Verif.Props.C01_stack_history_is_weighted_mean
#print axioms Verif.Props.C01_stack_history_order_irrelevant
#print axioms Verif.Props.C01_stack_base_irrelevant
#print axioms Verif.Props.C02_stack_succeeds_iff_compatible
#print axioms Verif.Props.C02_refused_stack_changes_nothing
#print axioms Verif.Props.C02_refused_stacks_are_invisible
#print axioms Verif.Props.C181_stages_partial
#print axioms Verif.Props.C181_grouping_partial
#print axioms Verif.Props.C181_through_files_fails
#print axioms Verif.Props.C165_between
#print axioms Verif.Props.C165_straight_line
#print axioms Verif.Props.C165_same_curve
#print axioms Verif.Props.C138_order_of_curves
#print axioms Verif.Props.C138_order_of_curves_refused
#print axioms Verif.Props.C51_resampling
#print axioms Verif.Props.C51_nan_refused
#print axioms Verif.Props.C52_aligned
#print axioms Verif.Props.C54_statistics
#print axioms Verif.Props.C53_at_most_100_samples_partial
#print axioms Verif.Props.C53_more_than_100_samples_fails
#print axioms Verif.Props.C53_no_data_fails
#print axioms Verif.Props.C55_mean_substitution
#print axioms Verif.Props.C45_append_history
#print axioms Verif.Props.C45_append_refused_iff
#print axioms Verif.Props.C45_from_peaks
#print axioms Verif.Props.C48_combine
#print axioms Verif.Props.C46_json_round_trip
#print axioms Verif.Props.C46_several_files
#print axioms Verif.Props.C41_suite_fails
#print axioms Verif.Props.C47_every_member
#print axioms Verif.Props.C47_missing_attribute
#print axioms Verif.Props.C49_unsupported
#print axioms Verif.Props.C49_points_on_limit
#print axioms Verif.Props.C49_unequal_axes_counterexample
#print axioms Verif.Props.C45_shared_members
#print axioms Verif.Props.C47_shared_members
#print axioms Verif.Props.C45_shared_building
#print axioms Verif.Props.C96_unshared_partial
#print axioms Verif.Props.C96_combined_suite_fails
#print axioms Verif.Props.C96_rejections_through_any_suite
#print axioms Verif.Props.C36_shared_members
#print axioms Verif.Props.C150_one_file
#print axioms Verif.Props.C150_frequency_domain
#print axioms Verif.Props.C150_cross_correlation
#print axioms Verif.Props.C150_picked
#print axioms Verif.Props.C166_picks
#print axioms Verif.Props.C166_survey
#print axioms Verif.Props.C166_any_workflow
#print axioms Verif.Props.C152_run_recovers
#print axioms Verif.Props.C192_any_order
#print axioms Verif.Props.C192_afterwards
#print axioms Verif.Props.C192_in_parts
#print axioms Verif.Props.C146_trim
#print axioms Verif.Props.C146_zero_pad
#print axioms Verif.Props.C146_stack
#print axioms Verif.Props.C146_array_trim
#print axioms Verif.Props.C146_array_zero_pad
#print axioms Verif.Props.C146_mute
#print axioms Verif.Props.C146_first_arrivals
#print axioms Verif.Props.C146_phase_shift
#print axioms Verif.Props.C146_beamforming
#print axioms Verif.Props.C146_slant_stack
#print axioms Verif.Props.C146_dispersion_curve
#print axioms Verif.Props.C121_from_trace
#print axioms Verif.Props.C121_from_trace_seg2
#print axioms Verif.Props.C121_missing_field
#print axioms Verif.Props.C121_sensor_seg2
#print axioms Verif.Props.C121_sensor_other_format_fails
#print axioms Verif.Props.C73_create_instance
#print axioms Verif.Props.C61_linear
#print axioms Verif.Props.C61_logarithmic
#print axioms Verif.Props.C61_unknown_spacing
#print axioms Verif.Props.C61_of_the_run
#print axioms Verif.Props.C06_trim_keeps_nearest_block
#print axioms Verif.Props.C06_trim_moves_samples_counterexample
#print axioms Verif.Props.C06_trim_sample_times_partial
#print axioms Verif.Props.C06_trim_refuses_illogical_times
#print axioms Verif.Props.C07_trim_makes_delay_positive_counterexample
#print axioms Verif.Props.C07_delay_and_stacks_invariant_partial
#print axioms Verif.Props.C08_copy_of_padded_record_counterexample
#print axioms Verif.Props.C08_copy_of_trimmed_record_counterexample
#print axioms Verif.Props.C08_copy_is_faithful_partial
#print axioms Verif.Props.C183_steps_partial
#print axioms Verif.Props.C183_narrower_partial
#print axioms Verif.Props.C183_drift_fails
#print axioms Verif.Props.C183_again_counterexample
#print axioms Verif.Props.C183_array_steps_partial
#print axioms Verif.Props.C50_confirmed_boxes
#print axioms Verif.Props.C50_pause_iff_empty
#print axioms Verif.Props.C50_finished_iff
#print axioms Verif.Props.C114_phase_shift_maximum_iff
#print axioms Verif.Props.C114_phase_shift_unique
#print axioms Verif.Props.C71_matching_wavefront
#print axioms Verif.Props.C114_beamforming_unique
#print axioms Verif.Props.C143_attributes
#print axioms Verif.Props.C143_limits
#print axioms Verif.Props.C143_boxes
#print axioms Verif.Props.C143_strongest
#print axioms Verif.Props.C143_statistics
#print axioms Verif.Props.C105_traces_at_receivers
#print axioms Verif.Props.C106_evenly_spaced_partial
#print axioms Verif.Props.C106_uneven_spacing_counterexample
#print axioms Verif.Props.C106_single_sensor_fails
#print axioms Verif.Props.C105_refused
#print axioms Verif.Props.C107_picks
#print axioms Verif.Props.C107_picks_returned
#print axioms Verif.Props.C76_source_inside_refused
#print axioms Verif.Props.C76_steps
#print axioms Verif.Props.C76_noise_independent
#print axioms Verif.Props.C101_snr_no_effect
#print axioms Verif.Props.C79_first_file
#print axioms Verif.Props.C79_other_files_irrelevant
#print axioms Verif.Props.C80_dispatch_partial
#print axioms Verif.Props.C80_builtin_partial
#print axioms Verif.Props.C80_xcorr_fails
#print axioms Verif.Props.C80_xcorr_run
#print axioms Verif.Props.C100_one_name_partial
#print axioms Verif.Props.C100_frequency_domain_fails
#print axioms Verif.Props.C102_late_trim_fails
#print axioms Verif.Props.C30_xcorrelate_samples_partial
#print axioms Verif.Props.C30_zero_lag_counterexample
#print axioms Verif.Props.C30_short_source_counterexample
#print axioms Verif.Props.C94_source_signal_is_mean
#print axioms Verif.Props.C94_source_signal_order_irrelevant
#print axioms Verif.Props.C94_unequal_lengths_refused_partial
#print axioms Verif.Props.C94_exactly_partial
#print axioms Verif.Props.C94_single_sample_counterexample
#print axioms Verif.Props.C95_source_scalar_rule_partial
#print axioms Verif.Props.C95_source_of_the_array
#print axioms Verif.Props.C95_segy_zero_scalar_counterexample
#print axioms Verif.Props.C94_from_files
#print axioms Verif.Props.C94_file_order
#print axioms Verif.Props.C151_steps
#print axioms Verif.Props.C151_run_returns
#print axioms Verif.Props.C151_source_files
#print axioms Verif.Props.C03_zero_pad_reaches_step
#print axioms Verif.Props.C03_zero_pad_exact
#print axioms Verif.Props.C03_zero_pad_succeeds_iff
#print axioms Verif.Props.C04_refused_zero_pad_changes_df_counterexample
#print axioms Verif.Props.C04_refused_zero_pad_keeps_record_partial
#print axioms Verif.Props.C04_nonpositive_step_refused
#print axioms Verif.Props.C05_new_record
#print axioms Verif.Props.C05_zero_pad_idempotent
#print axioms Verif.Props.C05_zero_pad_last_request_wins
