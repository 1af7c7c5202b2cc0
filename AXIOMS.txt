Pgkyl.C01_write_load_roundtrip: propext, Classical.choice, Quot.sound
Pgkyl.C02_field_file_read_exactly: propext, Classical.choice, Quot.sound
Pgkyl.C02_float32_bounds_counterexample: propext
Pgkyl.C03_partial_load_is_slice: propext, Classical.choice, Quot.sound
Pgkyl.C04_partial_load_grid: propext, Classical.choice, Quot.sound
Pgkyl.C05_multi_range_assembled: propext, Classical.choice, Quot.sound
Pgkyl.C06_partial_multi_range_is_slice: propext, Classical.choice, Quot.sound
Pgkyl.C07_dynvector_concatenated: propext, Classical.choice, Quot.sound
Pgkyl.C07_other_type_rejected: propext, Classical.choice, Quot.sound
Pgkyl.C07_single_precision_fails: propext, Classical.choice, Quot.sound
Pgkyl.C08_metadata_available: propext, Classical.choice, Quot.sound
Pgkyl.C08_metadata_available_multi: propext, Classical.choice, Quot.sound
Pgkyl.C09_coordinate_selects_containing_cell: propext, Quot.sound
Pgkyl.C09_coordinate_selects_first_node: propext, Quot.sound
Pgkyl.C09_cell_unique: propext, Quot.sound
Pgkyl.C10_index_string: propext, Classical.choice, Quot.sound
Pgkyl.C10_slice_string: propext, Classical.choice, Quot.sound
Pgkyl.C10_open_stop: propext, Classical.choice, Quot.sound
Pgkyl.C10_open_start: propext, Classical.choice, Quot.sound
Pgkyl.C10_open_both: propext, Classical.choice, Quot.sound
Pgkyl.C10_list_string: propext, Classical.choice, Quot.sound
Pgkyl.C10_coordinate_string: propext, Quot.sound
Pgkyl.C10_malformed_rejected: propext, Quot.sound
Pgkyl.C10_coordinate_slice: propext, Quot.sound
Pgkyl.C10_open_stop_without_grid_rejected: propext, Classical.choice, Quot.sound
Pgkyl.C100_div_curl: propext, Classical.choice, Quot.sound
Pgkyl.C100_div_curl_line: propext, Classical.choice, Quot.sound
Pgkyl.C100_curl_grad: propext, Classical.choice, Quot.sound
Pgkyl.C100_div_curl_command: propext, Classical.choice, Quot.sound
Pgkyl.C100_curl_grad_command: propext, Classical.choice, Quot.sound
Pgkyl.C101_scale_text_partial: propext, Classical.choice, Quot.sound
Pgkyl.C101_scale_number: propext, Classical.choice, Quot.sound
Pgkyl.C101_scale_twice_fails: propext, Classical.choice, Quot.sound
Pgkyl.C101_scale_command_partial: propext, Classical.choice, Quot.sound
Pgkyl.C101_scale_number_command: propext, Classical.choice, Quot.sound
Pgkyl.C102_coordinates: propext, Classical.choice, Quot.sound
Pgkyl.C102_own_scalings_partial: propext, Classical.choice, Quot.sound
Pgkyl.C102_other_file: propext, Classical.choice, Quot.sound
Pgkyl.C102_scale_axis: propext, Classical.choice, Quot.sound
Pgkyl.C102_bounds: propext, Quot.sound
Pgkyl.C102_relative_fails: propext, Classical.choice, Quot.sound
Pgkyl.C102_source_changed_fails: propext, Classical.choice, Quot.sound
Pgkyl.C103_reader_partial: propext, Classical.choice, Quot.sound
Pgkyl.C103_unreadable: propext, Classical.choice, Quot.sound
Pgkyl.C103_sound: propext, Classical.choice, Quot.sound
Pgkyl.C103_fails: propext, Quot.sound
Pgkyl.C103_flash_fails: propext, Classical.choice, Quot.sound
Pgkyl.C104_frame_partial: propext, Classical.choice, Quot.sound
Pgkyl.C104_scalar_partial: propext, Classical.choice, Quot.sound
Pgkyl.C104_named_fails: propext, Classical.choice, Quot.sound
Pgkyl.C104_selection_fails: propext, Classical.choice, Quot.sound
Pgkyl.C105_diagnostic_partial: propext, Classical.choice, Quot.sound
Pgkyl.C105_fails: propext, Classical.choice, Quot.sound
Pgkyl.C106_grid: propext, Classical.choice, Quot.sound
Pgkyl.C106_order_partial: propext, Classical.choice, Quot.sound
Pgkyl.C106_inner: propext, Classical.choice, Quot.sound
Pgkyl.C106_empty: propext, Classical.choice, Quot.sound
Pgkyl.C106_fails: propext, Classical.choice, Quot.sound
Pgkyl.C107_style_partial: propext, Classical.choice, Quot.sound
Pgkyl.C107_blank_fails: propext, Classical.choice, Quot.sound
Pgkyl.C107_comment_fails: propext, Classical.choice, Quot.sound
Pgkyl.C108_stems: propext, Classical.choice, Quot.sound
Pgkyl.C108_order: propext, Classical.choice, Quot.sound
Pgkyl.C109_info: propext, Classical.choice, Quot.sound
Pgkyl.C109_number: propext, Classical.choice, Quot.sound
Pgkyl.C109_tag: propext
Pgkyl.C11_select_partial: propext, Classical.choice, Quot.sound
Pgkyl.C11_nodes_of_cells: propext, Quot.sound
Pgkyl.C11_select_mapped_partial: propext, Classical.choice, Quot.sound
Pgkyl.C11_mapped_coordinate_fails: propext, Classical.choice, Quot.sound
Pgkyl.C110_growth_partial: propext, Classical.choice, Quot.sound
Pgkyl.C110_exact_partial: propext, Classical.choice, Quot.sound
Pgkyl.C110_series_direction_fails: propext, Classical.choice, Quot.sound
Pgkyl.C110_lines_fails: propext, Classical.choice, Quot.sound
Pgkyl.C111_power_partial: propext, Classical.choice, Quot.sound
Pgkyl.C111_in_place_partial: propext, Classical.choice, Quot.sound
Pgkyl.C111_isotropic_partial: propext, Classical.choice, Quot.sound
Pgkyl.C111_isotropic_in_place_partial: propext, Classical.choice, Quot.sound
Pgkyl.C111_amplitudes_partial: propext, Classical.choice, Quot.sound
Pgkyl.C111_amplitudes_in_place: propext, Classical.choice, Quot.sound
Pgkyl.C111_source_fails: propext, Classical.choice, Quot.sound
Pgkyl.C111_two_directions_fails: propext, Classical.choice, Quot.sound
Pgkyl.C111_iso_alone_fails: propext, Classical.choice, Quot.sound
Pgkyl.Gk.C112_distribution: propext, Classical.choice, Quot.sound
Pgkyl.Gk.C112_mapped: propext, Classical.choice, Quot.sound
Pgkyl.Gk.C112_command_partial: propext, Classical.choice, Quot.sound
Pgkyl.Gk.C112_command_mapped_partial: propext, Classical.choice, Quot.sound
Pgkyl.Gk.C112_velocity: propext, Classical.choice, Quot.sound
Pgkyl.Gk.C112_velocity_mapped: propext, Classical.choice, Quot.sound
Pgkyl.Gk.C112_command_velocity_partial: propext, Classical.choice, Quot.sound
Pgkyl.Gk.C112_command_velocity_mapped_partial: propext, Classical.choice, Quot.sound
Pgkyl.Gk.C112_labels_fails: propext, Classical.choice, Quot.sound
Pgkyl.Adios.C113_history_partial: propext, Classical.choice, Quot.sound
Pgkyl.Adios.C113_flat_first_fails: propext, Classical.choice, Quot.sound
Pgkyl.C114_info_partial: propext, Classical.choice, Quot.sound
Pgkyl.C114_command: propext, Classical.choice, Quot.sound
Pgkyl.C114_grid_type_fails: propext, Classical.choice, Quot.sound
Pgkyl.C115_line: propext, Classical.choice, Quot.sound
Pgkyl.C115_plane_partial: propext, Classical.choice, Quot.sound
Pgkyl.C115_lineouts: propext, Classical.choice, Quot.sound
Pgkyl.C115_given: propext, Classical.choice, Quot.sound
Pgkyl.C115_colour_bar: propext, Classical.choice, Quot.sound
Pgkyl.C115_vertical_fails: propext, Classical.choice, Quot.sound
Pgkyl.C116_arrows_partial: propext, Classical.choice, Quot.sound
Pgkyl.C116_arrows_fails: propext, Classical.choice, Quot.sound
Pgkyl.C116_streamlines: propext, Classical.choice, Quot.sound
Pgkyl.C117_lines: propext, Classical.choice, Quot.sound
Pgkyl.C117_shades_partial: propext, Classical.choice, Quot.sound
Pgkyl.C117_shades_fails: propext, Classical.choice, Quot.sound
Pgkyl.C118_diverging: propext, Classical.choice, Quot.sound
Pgkyl.C118_diverging_log: propext, Classical.choice, Quot.sound
Pgkyl.C118_limits: propext, Quot.sound
Pgkyl.C118_diverging_fails: propext, Classical.choice, Quot.sound
Pgkyl.C119_frames_partial: propext, Classical.choice, Quot.sound
Pgkyl.C119_save_partial: propext, Classical.choice, Quot.sound
Pgkyl.C119_saveas: propext, Classical.choice, Quot.sound
Pgkyl.C119_save_one: propext, Classical.choice, Quot.sound
Pgkyl.C119_tags_fails: propext, Classical.choice, Quot.sound
Pgkyl.C119_dataset_figures_fails: propext, Classical.choice, Quot.sound
Pgkyl.C119_derived_fails: propext, Classical.choice, Quot.sound
Pgkyl.C12_select_keeps_source: propext, Quot.sound
Pgkyl.C12_select_overwrite: propext, Classical.choice, Quot.sound
Pgkyl.C120_rz: propext, Classical.choice, Quot.sound
Pgkyl.C120_nodes: propext, Classical.choice, Quot.sound
Pgkyl.C120_file: propext, Classical.choice, Quot.sound
Pgkyl.C120_flux_swapped: propext, Classical.choice, Quot.sound
Pgkyl.C120_flux_grid: propext, Classical.choice, Quot.sound
Pgkyl.C120_flux_fails: propext, Classical.choice, Quot.sound
Pgkyl.C121_partial: propext, Classical.choice, Quot.sound
Pgkyl.C121_curl: propext, Classical.choice, Quot.sound
Pgkyl.C121_shear_fails: propext, Classical.choice, Quot.sound
Pgkyl.C121_same_fails: propext
Pgkyl.C122_input: propext, Classical.choice, Quot.sound
Pgkyl.C122_none: propext, Classical.choice, Quot.sound
Pgkyl.C122_cut: propext, Classical.choice, Quot.sound
Pgkyl.C122_extract: propext, Classical.choice, Quot.sound
Pgkyl.C122_values: propext, Classical.choice, Quot.sound
Pgkyl.C122_grid: propext, Classical.choice, Quot.sound
Pgkyl.C123_spaced: propext, Classical.choice, Quot.sound
Pgkyl.C123_listed: propext, Quot.sound
Pgkyl.C123_number: propext, Quot.sound
Pgkyl.C123_bar: propext, Quot.sound
Pgkyl.C123_blocks: propext, Classical.choice, Quot.sound
Pgkyl.C123_given: propext, Classical.choice, Quot.sound
Pgkyl.ContourEx.C123_integer_fails: propext, Classical.choice, Quot.sound
Pgkyl.C124_mapped_partial: propext, Classical.choice, Quot.sound
Pgkyl.C124_velocity_partial: propext, Classical.choice, Quot.sound
Pgkyl.C124_restricted_fails: propext, Classical.choice, Quot.sound
Pgkyl.Cli.C125_load: propext, Classical.choice, Quot.sound
Pgkyl.Cli.C125_load_error: propext, Classical.choice, Quot.sound
Pgkyl.Cli.C125_line: propext, Classical.choice, Quot.sound
Pgkyl.Cli.C125_line_rejected: propext, Classical.choice, Quot.sound
Pgkyl.Cli.C126_uniform: propext, Classical.choice, Quot.sound
Pgkyl.Cli.C126_mapped: propext, Classical.choice, Quot.sound
Pgkyl.Cli.C126_velocity_fails: propext, Classical.choice, Quot.sound
Pgkyl.Cli.C126_points_fails: propext, Quot.sound
Pgkyl.C127_load: propext, Classical.choice, Quot.sound
Pgkyl.C127_interpolate: propext, Classical.choice, Quot.sound
Pgkyl.C127_part_of_whole: propext, Classical.choice, Quot.sound
Pgkyl.C127_command: propext, Classical.choice, Quot.sound
Pgkyl.Adios.C128_frame_partial: propext, Classical.choice, Quot.sound
Pgkyl.Adios.C128_part_fails: propext, Classical.choice, Quot.sound
Pgkyl.Adios.C128_unknown_variable: propext, Classical.choice, Quot.sound
Pgkyl.Adios.C128_mapped: propext, Classical.choice, Quot.sound
Pgkyl.Adios.C128_ghost_fails: propext, Classical.choice, Quot.sound
Pgkyl.Adios.C128_interpolate: propext, Classical.choice, Quot.sound
Pgkyl.Adios.C128_history: propext, Classical.choice, Quot.sound
Pgkyl.C129_field: propext, Classical.choice, Quot.sound
Pgkyl.C129_multi: propext, Classical.choice, Quot.sound
Pgkyl.C129_save: propext, Classical.choice, Quot.sound
Pgkyl.C129_trace: propext, Classical.choice, Quot.sound
Pgkyl.C129_part_partial: propext, Classical.choice, Quot.sound
Pgkyl.C129_part_fails: propext, Classical.choice, Quot.sound
Pgkyl.C13_select_compose: propext, Classical.choice, Quot.sound
Pgkyl.C13_axes_independent: propext, Classical.choice, Quot.sound
Pgkyl.C130_select: propext, Classical.choice, Quot.sound
Pgkyl.C130_select_interpolate: propext, Classical.choice, Quot.sound
Pgkyl.C131_integral_partial: propext, Classical.choice, Quot.sound
Pgkyl.C131_quadratic_fails: propext, Classical.choice, Quot.sound
Pgkyl.C132_kernels_partial: propext, Classical.choice, Quot.sound
Pgkyl.C132_operator_fails: propext, Quot.sound
Pgkyl.C132_products_fails: propext, Classical.choice, Quot.sound
Pgkyl.C132_empty_fails: propext, Quot.sound
Pgkyl.C132_interpolate_fails: propext, Quot.sound
Pgkyl.C133_cut_is_select_partial: propext, Classical.choice, Quot.sound
Pgkyl.C133_open_fails: propext, Classical.choice, Quot.sound
Pgkyl.C133_negative_fails: propext, Classical.choice, Quot.sound
Pgkyl.C134_grid_and_metadata_partial: propext, Classical.choice, Quot.sound
Pgkyl.C134_disagreement_fails: propext, Classical.choice, Quot.sound
Pgkyl.C135_interpolate: propext, Classical.choice, Quot.sound
Pgkyl.C135_differentiate: propext, Classical.choice, Quot.sound
Pgkyl.C135_integrate: propext, Classical.choice, Quot.sound
Pgkyl.C135_nonlinear_fails: propext, Classical.choice, Quot.sound
Pgkyl.C136_select: propext, Classical.choice, Quot.sound
Pgkyl.C137_adjacent: propext, Classical.choice, Quot.sound
Pgkyl.C137_nodal_fails: propext, Classical.choice, Quot.sound
Pgkyl.C138_select: propext, Classical.choice, Quot.sound
Pgkyl.C138_time: propext, Classical.choice, Quot.sound
Pgkyl.C138_number: propext, Classical.choice, Quot.sound
Pgkyl.C139_commute: propext, Classical.choice, Quot.sound
Pgkyl.C139_same_tag_fails: propext, Classical.choice, Quot.sound
Pgkyl.C14_component_selection: propext, Classical.choice, Quot.sound
Pgkyl.C140_reopened: propext, Classical.choice, Quot.sound
Pgkyl.C140_mesh: propext, Classical.choice, Quot.sound
Pgkyl.C140_interpolate: propext, Classical.choice, Quot.sound
Pgkyl.C140_other_grids_fail: propext, Classical.choice, Quot.sound
Pgkyl.Spectral.C141_energy: propext, Classical.choice, Quot.sound
Pgkyl.Spectral.C141_symmetric: propext, Classical.choice, Quot.sound
Pgkyl.Spectral.C141_mean: propext, Classical.choice, Quot.sound
Pgkyl.Spectral.C141_positive_partial: propext, Classical.choice, Quot.sound
Pgkyl.Spectral.C141_odd_fails: propext, Classical.choice, Quot.sound
Pgkyl.C142_select_differentiate: propext, Classical.choice, Quot.sound
Pgkyl.C143_select_integrate: propext, Classical.choice, Quot.sound
Pgkyl.C144_routes_partial: propext, Classical.choice, Quot.sound
Pgkyl.C144_coordinates_fail: propext, Classical.choice, Quot.sound
Pgkyl.C145_integrate: propext, Classical.choice, Quot.sound
Pgkyl.C146_dot: propext, Classical.choice, Quot.sound
Pgkyl.C146_max: propext, Classical.choice, Quot.sound
Pgkyl.C146_min: propext, Classical.choice, Quot.sound
Pgkyl.C146_mean: propext, Classical.choice, Quot.sound
Pgkyl.C147_phase_space: propext, Classical.choice, Quot.sound
Pgkyl.C147_components: propext, Classical.choice, Quot.sound
Pgkyl.C147_sum_fails: propext, Classical.choice, Quot.sound
Pgkyl.C147_vector_fails: propext, Classical.choice, Quot.sound
Pgkyl.C148_summary: propext, Classical.choice, Quot.sound
Pgkyl.C148_summary_first_partial: propext, Classical.choice, Quot.sound
Pgkyl.C148_power_fails: propext, Classical.choice, Quot.sound
Pgkyl.C148_length_partial: propext, Classical.choice, Quot.sound
Pgkyl.C148_length_alone_fails: propext, Classical.choice, Quot.sound
Pgkyl.C149_average: propext, Classical.choice, Quot.sound
Pgkyl.C149_mean: propext, Classical.choice, Quot.sound
Pgkyl.C15_get_dataset: propext, Classical.choice, Quot.sound
Pgkyl.C15_get_dataset_from_end: propext, Classical.choice, Quot.sound
Pgkyl.C15_distinct: propext, Classical.choice, Quot.sound
Pgkyl.C15_count: propext, Classical.choice, Quot.sound
Pgkyl.C15_count_tag: propext, Classical.choice, Quot.sound
Pgkyl.C15_tags_in_order: propext, Quot.sound
Pgkyl.C150_positions_partial: propext, Quot.sound
Pgkyl.C150_line_partial: propext, Classical.choice, Quot.sound
Pgkyl.C150_mesh_partial: propext, Classical.choice, Quot.sound
Pgkyl.C150_line_fails: propext, Classical.choice, Quot.sound
Pgkyl.C150_contour_fails: propext, Classical.choice, Quot.sound
Pgkyl.C150_collapsed_fails: propext, Classical.choice, Quot.sound
Pgkyl.C151_captions: propext, Classical.choice, Quot.sound
Pgkyl.C151_squeezed: propext, Classical.choice, Quot.sound
Pgkyl.C151_again: propext, Classical.choice, Quot.sound
Pgkyl.C151_drawn: propext, Classical.choice, Quot.sound
Pgkyl.C151_labels: propext, Classical.choice, Quot.sound
Pgkyl.C151_limits_partial: propext, Classical.choice, Quot.sound
Pgkyl.C151_limits_fails: propext, Classical.choice, Quot.sound
Pgkyl.C152_independent_partial: propext, Classical.choice, Quot.sound
Pgkyl.C152_other_families: propext, Classical.choice, Quot.sound
Pgkyl.C152_text_fails: propext, Quot.sound
Pgkyl.C152_fft_fails: propext, Classical.choice, Quot.sound
Pgkyl.C153_line: propext, Classical.choice, Quot.sound
Pgkyl.C153_mesh: propext, Classical.choice, Quot.sound
Pgkyl.C153_line_through: propext, Classical.choice, Quot.sound
Pgkyl.C153_mesh_through: propext, Classical.choice, Quot.sound
Pgkyl.C153_file: propext, Classical.choice, Quot.sound
Pgkyl.C154_extremes: propext, Classical.choice, Quot.sound
Pgkyl.C154_undistorted: propext, Classical.choice, Quot.sound
Pgkyl.C154_corrections: propext, Quot.sound
Pgkyl.C154_inside_partial: propext, Classical.choice, Quot.sound
Pgkyl.C154_inside_fails: propext, Classical.choice, Quot.sound
Pgkyl.C154_lines: propext, Classical.choice, Quot.sound
Pgkyl.C154_line: propext, Quot.sound
Pgkyl.C154_colours: propext, Classical.choice, Quot.sound
Pgkyl.C154_flux: propext, Classical.choice, Quot.sound
Pgkyl.C154_flux_contours: propext, Classical.choice, Quot.sound
Pgkyl.C154_levels: propext, Quot.sound
Pgkyl.C154_levels_fails: propext, Quot.sound
Pgkyl.C154_limits: propext, Quot.sound
Pgkyl.C155_title_partial: propext, Classical.choice, Quot.sound
Pgkyl.C155_title_squeezed_partial: propext, Classical.choice, Quot.sound
Pgkyl.C155_notitle: propext, Classical.choice, Quot.sound
Pgkyl.C155_drawn: propext, Classical.choice, Quot.sound
Pgkyl.C155_drawable: propext, Classical.choice, Quot.sound
Pgkyl.C155_bars: propext, Classical.choice, Quot.sound
Pgkyl.C155_first_frame_fails: propext, Classical.choice, Quot.sound
Pgkyl.C155_ignored_fails: propext, Classical.choice, Quot.sound
Pgkyl.C155_empty_fails: propext, Classical.choice, Quot.sound
Pgkyl.C156_pictures_partial: propext, Classical.choice, Quot.sound
Pgkyl.C156_stroke: propext, Quot.sound
Pgkyl.C156_one_tag: propext
Pgkyl.C156_more_frames_fails: propext, Classical.choice, Quot.sound
Pgkyl.C156_nothing_fails: propext
Pgkyl.C156_lengths_fails: propext, Classical.choice, Quot.sound
Pgkyl.C156_inactive_fails: propext, Classical.choice, Quot.sound
Pgkyl.C157_command: propext, Classical.choice, Quot.sound
Pgkyl.C157_line: propext, Classical.choice, Quot.sound
Pgkyl.C157_real_line: propext, Classical.choice, Quot.sound
Pgkyl.C157_status: propext, Classical.choice, Quot.sound
Pgkyl.C157_load: propext, Classical.choice, Quot.sound
Pgkyl.C158_euler: propext, Classical.choice, Quot.sound
Pgkyl.C158_mhd: propext, Classical.choice, Quot.sound
Pgkyl.C158_ten_partial: propext, Classical.choice, Quot.sound
Pgkyl.C158_magsq: propext, Classical.choice, Quot.sound
Pgkyl.C158_interpolate: propext, Classical.choice, Quot.sound
Pgkyl.C158_differentiate: propext, Classical.choice, Quot.sound
Pgkyl.C158_integrate: propext, Classical.choice, Quot.sound
Pgkyl.C158_tensor_fails: propext, Classical.choice, Quot.sound
Pgkyl.C159_values: propext, Classical.choice, Quot.sound
Pgkyl.C159_same: propext, Classical.choice, Quot.sound
Pgkyl.C159_output: propext, Classical.choice, Quot.sound
Pgkyl.C159_rejects: propext, Classical.choice, Quot.sound
Pgkyl.C159_misfit: propext
Pgkyl.C159_pressures: propext, Classical.choice, Quot.sound
Pgkyl.C159_tenMoment_partial: propext, Quot.sound
Pgkyl.C159_tenMoment_fails: propext, Classical.choice, Quot.sound
Pgkyl.C159_magB_partial: propext, Classical.choice, Quot.sound
Pgkyl.C159_magB_fails: propext, Classical.choice, Quot.sound
Pgkyl.C159_current: propext, Quot.sound
Pgkyl.C159_current_qbym_fails: propext
Pgkyl.C16_iterate_all: propext, Classical.choice, Quot.sound
Pgkyl.C16_iterate_slice: propext, Classical.choice, Quot.sound
Pgkyl.C16_iterate_list: propext, Classical.choice, Quot.sound
Pgkyl.C16_rejects: propext, Classical.choice, Quot.sound
Pgkyl.C16_each_once: propext, Classical.choice, Quot.sound
Pgkyl.C160_push_agrees: none
Pgkyl.C160_select_agrees: propext, Quot.sound
Pgkyl.C160_integrate_agrees: propext, Quot.sound
Pgkyl.C160_diagnostic_agrees: propext, Classical.choice, Quot.sound
Pgkyl.C160_push_fails: propext
Pgkyl.C160_push_scalar_fails: none
Pgkyl.C160_select_partial: propext, Classical.choice, Quot.sound
Pgkyl.C160_select_fails: propext, Classical.choice, Quot.sound
Pgkyl.C160_select_coordinates: propext, Classical.choice, Quot.sound
Pgkyl.C160_select_last_fails: propext, Classical.choice, Quot.sound
Pgkyl.C160_integrate: propext, Classical.choice, Quot.sound
Pgkyl.C160_diagnostic: propext, Classical.choice, Quot.sound
Pgkyl.C160_diagnostic_fails: propext, Classical.choice, Quot.sound
Pgkyl.C161_table: propext, Classical.choice, Quot.sound
Pgkyl.C161_enough: propext, Classical.choice, Quot.sound
Pgkyl.C161_shorter: propext, Classical.choice, Quot.sound
Pgkyl.C161_other: propext, Classical.choice, Quot.sound
Pgkyl.C161_rotations_fails: propext, Classical.choice, Quot.sound
Pgkyl.C162_velocity: propext, Classical.choice, Quot.sound
Pgkyl.C162_parrotate: propext, Classical.choice, Quot.sound
Pgkyl.C162_agyro: propext, Classical.choice, Quot.sound
Pgkyl.C162_relchange: propext, Classical.choice, Quot.sound
Pgkyl.C163_equation: propext, Classical.choice, Quot.sound
Pgkyl.C163_length: propext, Classical.choice, Quot.sound
Pgkyl.C163_linear: propext, Classical.choice, Quot.sound
Pgkyl.C163_causal: propext, Classical.choice, Quot.sound
Pgkyl.C163_delay: propext, Classical.choice, Quot.sound
Pgkyl.C163_units: propext, Classical.choice, Quot.sound
Pgkyl.C163_default_fails: propext, Quot.sound
Pgkyl.C164_chosen_partial: propext, Classical.choice, Quot.sound
Pgkyl.C164_no_choice: propext, Classical.choice, Quot.sound
Pgkyl.C164_closed_fails: propext, Classical.choice, Quot.sound
Pgkyl.C165_velocity: propext, Classical.choice, Quot.sound
Pgkyl.C165_magsq: propext, Classical.choice, Quot.sound
Pgkyl.C165_inactive_fails: propext, Classical.choice, Quot.sound
Pgkyl.C165_components_fails: propext, Classical.choice, Quot.sound
Pgkyl.C166_pkpm_fails: propext, Classical.choice, Quot.sound
Pgkyl.C166_vars_partial: propext, Classical.choice, Quot.sound
Pgkyl.C166_mask_fails: propext
Pgkyl.C167_magsq: propext, Classical.choice, Quot.sound
Pgkyl.C167_euler: propext, Classical.choice, Quot.sound
Pgkyl.C167_mhd: propext, Classical.choice, Quot.sound
Pgkyl.C167_ten_partial: propext, Classical.choice, Quot.sound
Pgkyl.C167_tensor_fails: propext, Classical.choice, Quot.sound
Pgkyl.C168_options: propext, Classical.choice, Quot.sound
Pgkyl.C168_only: propext, Classical.choice, Quot.sound
Pgkyl.C168_rest: propext, Classical.choice, Quot.sound
Pgkyl.C168_rest_table: propext, Classical.choice, Quot.sound
Pgkyl.C168_one_reading: propext, Classical.choice, Quot.sound
Pgkyl.C168_one_line: propext, Classical.choice, Quot.sound
Pgkyl.C168_two_readings_fails: propext, Classical.choice, Quot.sound
Pgkyl.C168_exact: propext, Classical.choice, Quot.sound
Pgkyl.C168_refused: propext, Classical.choice, Quot.sound
Pgkyl.C168_exact_table: propext, Classical.choice, Quot.sound
Pgkyl.C168_line_exact_partial: propext, Classical.choice, Quot.sound
Pgkyl.C168_unknown: propext, Classical.choice, Quot.sound
Pgkyl.C168_chain: propext, Classical.choice, Quot.sound
Pgkyl.C168_table: propext, Classical.choice, Quot.sound
Pgkyl.C168_pgkyl_partial: propext, Classical.choice, Quot.sound
Pgkyl.C168_fails_twice: propext, Classical.choice, Quot.sound
Pgkyl.C168_fails_files: propext, Classical.choice, Quot.sound
Pgkyl.C168_fails_optional: propext, Classical.choice, Quot.sound
Pgkyl.C168_fails_minus: propext, Classical.choice, Quot.sound
Pgkyl.C169_limits: propext, Classical.choice, Quot.sound
Pgkyl.C169_names: propext, Classical.choice, Quot.sound
Pgkyl.C169_colours_partial: propext, Classical.choice, Quot.sound
Pgkyl.C169_animate_partial: propext, Classical.choice, Quot.sound
Pgkyl.C169_fails_pair: propext, Quot.sound
Pgkyl.C17_deactivate_all_partial: propext, Classical.choice, Quot.sound
Pgkyl.C17_activate_all_counterexample: propext, Classical.choice, Quot.sound
Pgkyl.C17_activate_all_deactivates: propext
Pgkyl.C170_files_partial: propext, Classical.choice, Quot.sound
Pgkyl.C170_accepted_partial: propext, Classical.choice, Quot.sound
Pgkyl.C170_compgrid_fails: propext, Classical.choice, Quot.sound
Pgkyl.C170_load_fails: propext, Classical.choice, Quot.sound
Pgkyl.C171_order: propext, Classical.choice, Quot.sound
Pgkyl.C171_writing: propext, Classical.choice, Quot.sound
Pgkyl.C171_last: propext, Classical.choice, Quot.sound
Pgkyl.C171_select: propext, Classical.choice, Quot.sound
Pgkyl.C171_select_values: propext, Classical.choice, Quot.sound
Pgkyl.C171_select_refused: propext, Classical.choice, Quot.sound
Pgkyl.C18_activate: propext, Classical.choice, Quot.sound
Pgkyl.C18_deactivate_partial: propext, Classical.choice, Quot.sound
Pgkyl.C18_deactivate_counterexample: propext, Classical.choice, Quot.sound
Pgkyl.C18_deactivate_focused_deactivates_all: propext, Classical.choice, Quot.sound
Pgkyl.C19_one_result_per_dataset_partial: propext, Quot.sound
Pgkyl.C19_in_place: propext, Classical.choice, Quot.sound
Pgkyl.C19_output_tag_visited_later_counterexample: propext, Classical.choice, Quot.sound
Pgkyl.C20_counters_describe_values: propext, Quot.sound
Pgkyl.C20_bounds_are_extrema: propext, Classical.choice, Quot.sound
Pgkyl.C21_metadata_not_shared: propext, Classical.choice, Quot.sound
Pgkyl.C21_starts_equal: propext, Classical.choice, Quot.sound
Pgkyl.C21_own_key: propext, Classical.choice, Quot.sound
Pgkyl.C22_text_rows: propext, Classical.choice, Quot.sound
Pgkyl.C22_each_cell_once: propext, Classical.choice, Quot.sound
Pgkyl.C23_txt_changes_only_grid_partial: propext, Classical.choice, Quot.sound
Pgkyl.C23_txt_counterexample: propext, Classical.choice, Quot.sound
Pgkyl.C23_second_txt_fails: propext, Classical.choice, Quot.sound
Pgkyl.C24_given_name_partial: propext, Classical.choice, Quot.sound
Pgkyl.C24_bare_extension_counterexample: propext, Classical.choice, Quot.sound
Pgkyl.C24_default_name: propext, Classical.choice, Quot.sound
Pgkyl.C25_one_tag_distinct_files_partial: propext, Classical.choice, Quot.sound
Pgkyl.C25_two_tags_counterexample: propext, Classical.choice, Quot.sound
Pgkyl.C26_expression_value: propext, Classical.choice, Quot.sound
Pgkyl.C26_unknown_token_rejected: propext, Classical.choice, Quot.sound
Pgkyl.C26_missing_operand_rejected: propext, Classical.choice, Quot.sound
Pgkyl.C27_dataset_by_dataset: propext, Classical.choice, Quot.sound
Pgkyl.C28_agreed_metadata: propext, Classical.choice, Quot.sound
Pgkyl.C28_order_independent: propext, Classical.choice, Quot.sound
Pgkyl.C29_tag_only_adds: propext, Classical.choice, Quot.sound
Pgkyl.C29_several_add: propext, Classical.choice, Quot.sound
Pgkyl.C29_in_place_partial: propext, Classical.choice, Quot.sound
Pgkyl.C29_two_tags_counterexample: propext, Classical.choice, Quot.sound
Pgkyl.C29_inactive_counterexample: propext, Classical.choice, Quot.sound
Pgkyl.C30_ev_weighted_sum: propext, Classical.choice, Quot.sound
Pgkyl.C30_ev_constant: propext, Classical.choice, Quot.sound
Pgkyl.C30_ev_linear: propext, Classical.choice, Quot.sound
Pgkyl.C30_ev_axis_order: propext, Classical.choice, Quot.sound
Pgkyl.C30_api_weighted_sum: propext, Classical.choice, Quot.sound
Pgkyl.C30_api_constant: propext, Classical.choice, Quot.sound
Pgkyl.C30_api_linear: propext, Classical.choice, Quot.sound
Pgkyl.C30_api_axis_order: propext, Classical.choice, Quot.sound
Pgkyl.C30_ev_command: propext, Classical.choice, Quot.sound
Pgkyl.C30_all_fails: propext, Classical.choice, Quot.sound
Pgkyl.C31_average_of_constant_partial: propext, Classical.choice, Quot.sound
Pgkyl.C31_average_of_constant_cells: propext, Classical.choice, Quot.sound
Pgkyl.IntegEx.C31_nodal_counterexample: propext, Classical.choice, Quot.sound
Pgkyl.C31_ev_command_partial: propext, Classical.choice, Quot.sound
Pgkyl.C32_collect_partial: propext, Classical.choice, Quot.sound
Pgkyl.C32_collect_period_partial: propext, Classical.choice, Quot.sound
Pgkyl.C32_collect_sum_partial: propext, Classical.choice, Quot.sound
Pgkyl.C32_zero_time_fails: propext, Classical.choice, Quot.sound
Pgkyl.C32_missing_time_fails: propext, Classical.choice, Quot.sound
Pgkyl.C32_collect_twice_fails: propext, Classical.choice, Quot.sound
Pgkyl.C33_chunks: propext, Classical.choice, Quot.sound
Pgkyl.C33_times_partial: propext, Classical.choice, Quot.sound
Pgkyl.C34_command: propext, Classical.choice, Quot.sound
Pgkyl.C34_ambiguous: propext, Classical.choice, Quot.sound
Pgkyl.C34_file: propext, Classical.choice, Quot.sound
Pgkyl.C34_nothing: propext, Classical.choice, Quot.sound
Pgkyl.C34_exhaustive: propext, Classical.choice, Quot.sound
Pgkyl.C35_cuts: propext, Classical.choice, Quot.sound
Pgkyl.C35_varname: propext, Classical.choice, Quot.sound
Pgkyl.C35_varname_list: propext, Classical.choice, Quot.sound
Pgkyl.C35_c2p_partial: propext, Classical.choice, Quot.sound
Pgkyl.C35_c2p_vel_fails: propext, Classical.choice, Quot.sound
Pgkyl.C36_interpolate: propext, Classical.choice, Quot.sound
Pgkyl.C37_mapped_nodes: propext, Classical.choice, Quot.sound
Pgkyl.C38_serendipity: propext, Quot.sound
Pgkyl.C38_maximal: propext, Quot.sound
Pgkyl.C38_tensor_partial: propext, Classical.choice, Quot.sound
Pgkyl.C38_tensor_fails: propext
Pgkyl.C38_hybrid: propext, Quot.sound
Pgkyl.C38_functions: propext, Quot.sound
Pgkyl.C39_differentiate_partial: propext, Classical.choice, Quot.sound
Pgkyl.C39_first_component_fails: propext, Classical.choice, Quot.sound
Pgkyl.C40_five_moment: propext, Classical.choice, Quot.sound
Pgkyl.C40_energy: propext, Classical.choice, Quot.sound
Pgkyl.C40_mach: propext, Classical.choice, Quot.sound
Pgkyl.C41_ten_moment_pressure: propext, Classical.choice, Quot.sound
Pgkyl.C41_tensor_components: propext, Classical.choice, Quot.sound
Pgkyl.C41_pij_partial: propext, Classical.choice, Quot.sound
Pgkyl.C41_pij_fails: propext, Classical.choice, Quot.sound
Pgkyl.C41_mhd: propext, Classical.choice, Quot.sound
Pgkyl.C41_mhd_mach: propext, Classical.choice, Quot.sound
Pgkyl.C42_trace: propext, Classical.choice, Quot.sound
Pgkyl.C42_gyrotropic: propext, Classical.choice, Quot.sound
Pgkyl.C42_agyrotropy: propext, Classical.choice, Quot.sound
Pgkyl.C42_rescaling: propext, Classical.choice, Quot.sound
Pgkyl.C42_ten_moment_partial: propext, Classical.choice, Quot.sound
Pgkyl.C43_projection_partial: propext, Classical.choice, Quot.sound
Pgkyl.C43_default_partial: propext, Classical.choice, Quot.sound
Pgkyl.C43_idempotent_partial: propext, Classical.choice, Quot.sound
Pgkyl.C43_linear_partial: propext, Classical.choice, Quot.sound
Pgkyl.C43_rescaling_partial: propext, Classical.choice, Quot.sound
Pgkyl.C43_perprotate_fails: propext, Classical.choice, Quot.sound
Pgkyl.C44_magnitude: propext, Classical.choice, Quot.sound
Pgkyl.C44_positive: propext, Classical.choice, Quot.sound
Pgkyl.C44_energetics_partial: propext, Classical.choice, Quot.sound
Pgkyl.C44_energetics_parts_partial: propext, Classical.choice, Quot.sound
Pgkyl.C44_energetics_fails: propext, Classical.choice, Quot.sound
Pgkyl.C45_relative_change: propext, Classical.choice, Quot.sound
Pgkyl.C45_relative_to_component: propext, Classical.choice, Quot.sound
Pgkyl.C46_blocks: propext, Classical.choice, Quot.sound
Pgkyl.C46_one_block: propext, Classical.choice, Quot.sound
Pgkyl.C46_particle_balance_partial: propext, Classical.choice, Quot.sound
Pgkyl.C46_particle_rel_error_partial: propext, Classical.choice, Quot.sound
Pgkyl.C46_energy_balance_partial: propext, Classical.choice, Quot.sound
Pgkyl.C46_energy_rel_error_partial: propext, Classical.choice, Quot.sound
Pgkyl.C46_balance_counts_blocks: propext, Classical.choice, Quot.sound
Pgkyl.C46_listed_blocks_fails: propext, Classical.choice, Quot.sound
Pgkyl.C46_named_files_fails: propext, Classical.choice, Quot.sound
Pgkyl.C47_nodes: propext, Classical.choice, Quot.sound
Pgkyl.C47_equally_spaced: propext, Classical.choice, Quot.sound
Pgkyl.C47_increasing: propext, Classical.choice, Quot.sound
Pgkyl.C48_labels: propext, Classical.choice, Quot.sound
Pgkyl.C48_labels_uniform: propext, Classical.choice, Quot.sound
Pgkyl.C48_distinct_partial: propext, Classical.choice, Quot.sound
Pgkyl.C48_prefix_fails: propext, Quot.sound
Pgkyl.C48_stored: propext, Classical.choice, Quot.sound
Pgkyl.C48_name_parts: propext, Quot.sound
Pgkyl.C49_single: propext, Classical.choice, Quot.sound
Pgkyl.C49_list: propext, Classical.choice, Quot.sound
Pgkyl.C49_slice: propext, Classical.choice, Quot.sound
Pgkyl.C49_no_files: propext, Classical.choice, Quot.sound
Pgkyl.C50_layout: propext, Classical.choice, Quot.sound
Pgkyl.C50_rows: propext, Quot.sound
Pgkyl.C50_cols: propext, Quot.sound
Pgkyl.C50_subplots: propext, Classical.choice, Quot.sound
Pgkyl.C50_own_figure: propext, Classical.choice, Quot.sound
Pgkyl.C50_squeeze: propext, Quot.sound
Pgkyl.C50_colorbar_panels_fails: propext
Pgkyl.C51_numeric_order_partial: propext, Classical.choice, Quot.sound
Pgkyl.C51_single: propext, Classical.choice, Quot.sound
Pgkyl.C51_mixed_fails: propext, Classical.choice, Quot.sound
Pgkyl.C52_load_partial: propext, Classical.choice, Quot.sound
Pgkyl.C52_open_stop_fails: propext, Classical.choice, Quot.sound
Pgkyl.C52_mapped_selection_fails: propext, Classical.choice, Quot.sound
Pgkyl.C52_mapped_whole: propext, Classical.choice, Quot.sound
Pgkyl.C53_negative_stop_value: propext, Classical.choice, Quot.sound
Pgkyl.C53_select_negative_stop: propext, Classical.choice, Quot.sound
Pgkyl.C53_negative_stop_not_python: propext, Classical.choice, Quot.sound
Pgkyl.C54_open_stop_partial: propext, Classical.choice, Quot.sound
Pgkyl.C54_open_stop_mapped_fails: propext, Classical.choice, Quot.sound
Pgkyl.C54_open_stop_mapped_counterexample: propext, Classical.choice, Quot.sound
Pgkyl.C55_written_layout_partial: propext, Classical.choice, Quot.sound
Pgkyl.C55_size_entry_counterexample: propext, Classical.choice, Quot.sound
Pgkyl.C56_numbers_only_rejected: propext, Classical.choice, Quot.sound
Pgkyl.C56_number_to_dataset_rejected: propext, Classical.choice, Quot.sound
Pgkyl.C57_f_words_are_data: propext, Classical.choice, Quot.sound
Pgkyl.C58_api_successive_partial: propext, Classical.choice, Quot.sound
Pgkyl.C58_ev_second_integration_fails: propext, Classical.choice, Quot.sound
Pgkyl.C58_command_fails: propext, Classical.choice, Quot.sound
Pgkyl.C59_files_in_order: propext, Classical.choice, Quot.sound
Pgkyl.C59_explicit_load_fails: propext, Classical.choice, Quot.sound
Pgkyl.C60_differentiate_exact: propext, Classical.choice, Quot.sound
Pgkyl.C61_nodal_interpolate_partial: propext, Classical.choice, Quot.sound
Pgkyl.C61_nodal_default_fails: propext, Quot.sound
Pgkyl.C62_nodal_differentiate_exact_partial: propext, Classical.choice, Quot.sound
Pgkyl.C62_nodal_gradient_fails: propext, Quot.sound
Pgkyl.C63_one_point_fails: propext, Quot.sound
Pgkyl.C63_order_zero_fails: propext, Quot.sound
Pgkyl.C64_nodal_constant: propext, Classical.choice, Quot.sound
Pgkyl.C65_orthonormal: propext, Classical.choice, Quot.sound
Pgkyl.C66_c2p_grid: propext, Classical.choice, Quot.sound
Pgkyl.C66_c2p_continuous: propext, Classical.choice, Quot.sound
Pgkyl.C66_c2p_vel: propext, Classical.choice, Quot.sound
Pgkyl.C67_line: propext, Classical.choice, Quot.sound
Pgkyl.C67_contour: propext, Classical.choice, Quot.sound
Pgkyl.C67_mesh: propext, Classical.choice, Quot.sound
Pgkyl.C67_mesh_nodal: propext, Classical.choice, Quot.sound
Pgkyl.C67_three_dims_rejected: propext, Quot.sound
Pgkyl.C67_mapped: propext, Classical.choice, Quot.sound
Pgkyl.C68_global_range_partial: propext, Quot.sound
Pgkyl.C68_user_limits: propext, Quot.sound
Pgkyl.C68_when: propext, Classical.choice, Quot.sound
Pgkyl.C68_cutoff: propext, Classical.choice, Quot.sound
Pgkyl.C68_shift_fails: propext, Classical.choice, Quot.sound
Pgkyl.C69_points: propext, Quot.sound
Pgkyl.C69_order: propext, Quot.sound
Pgkyl.C69_basis: propext
Pgkyl.C69_unknown_basis_rejected: propext
Pgkyl.C69_components: propext, Classical.choice, Quot.sound
Pgkyl.Spectral.C70_spectrum_partial: propext, Classical.choice, Quot.sound
Pgkyl.Spectral.C70_frequencies: propext, Classical.choice, Quot.sound
Pgkyl.Spectral.C70_psd: propext, Classical.choice, Quot.sound
Pgkyl.Spectral.C70_nodal_fails: propext, Classical.choice, Quot.sound
Pgkyl.Spectral.C70_psd_two_dims_fails: propext, Classical.choice, Quot.sound
Pgkyl.Spectral.C70_source_grid_fails: propext, Classical.choice, Quot.sound
Pgkyl.Spectral.C71_isotropic_partial: propext, Classical.choice, Quot.sound
Pgkyl.Spectral.C71_first_bin_fails: propext, Classical.choice, Quot.sound
Pgkyl.Spectral.C72_filter: propext, Classical.choice, Quot.sound
Pgkyl.Spectral.C72_filter_identity: propext, Classical.choice, Quot.sound
Pgkyl.Spectral.C72_filter_real: propext, Classical.choice, Quot.sound
Pgkyl.Params.C73_frequencies: propext, Classical.choice, Quot.sound
Pgkyl.Params.C73_thermal_partial: propext, Classical.choice, Quot.sound
Pgkyl.Params.C73_thermal_fails: propext, Classical.choice, Quot.sound
Pgkyl.Params.C73_missing_fails: propext, Classical.choice, Quot.sound
Pgkyl.Kinetic.C74_laguerre: propext, Classical.choice, Quot.sound
Pgkyl.Kinetic.C75_frame_partial: propext, Classical.choice, Quot.sound
Pgkyl.Kinetic.C75_uniform: propext, Classical.choice, Quot.sound
Pgkyl.Kinetic.C75_dims_fails: propext, Classical.choice, Quot.sound
Pgkyl.Kinetic.C76_current_partial: propext, Classical.choice, Quot.sound
Pgkyl.Kinetic.C76_charge_fails: propext, Classical.choice, Quot.sound
Pgkyl.Kinetic.C76_qbym_fails: propext, Classical.choice, Quot.sound
Pgkyl.Kinetic.C76_sum_fails: propext, Classical.choice, Quot.sound
Pgkyl.Kinetic.C77_rows_partial: propext, Classical.choice, Quot.sound
Pgkyl.Kinetic.C77_first_row_fails: propext, Classical.choice, Quot.sound
Pgkyl.Kinetic.C78_in_place_partial: propext, Classical.choice, Quot.sound
Pgkyl.Kinetic.C78_tag_fails: propext
Pgkyl.Fit.C79_best_fit: propext, Classical.choice, Quot.sound
Pgkyl.Fit.C79_mean: propext, Classical.choice, Quot.sound
Pgkyl.Fit.C79_exact_partial: propext, Classical.choice, Quot.sound
Pgkyl.Fit.C79_short_fails: propext, Classical.choice, Quot.sound
Pgkyl.Fit.C79_last_point_fails: propext, Classical.choice, Quot.sound
Pgkyl.Fit.C80_values_partial: propext, Classical.choice, Quot.sound
Pgkyl.Fit.C80_alias_fails: propext, Classical.choice, Quot.sound
Pgkyl.Fit.C80_root_fails: propext, Classical.choice, Quot.sound
Pgkyl.Fit.C80_two_dims_fails: propext, Classical.choice, Quot.sound
Pgkyl.Fit.C80_offset_fails: propext, Classical.choice, Quot.sound
Pgkyl.Anim.C81_frames_partial: propext, Classical.choice, Quot.sound
Pgkyl.Anim.C81_same_digit_fails: propext, Classical.choice, Quot.sound
Pgkyl.Anim.C81_single_frame_fails: propext, Classical.choice, Quot.sound
Pgkyl.Anim.C81_single_file_fails: propext, Classical.choice, Quot.sound
Pgkyl.Anim.C81_tags_fails: propext, Classical.choice, Quot.sound
Pgkyl.Anim.C82_pictures: propext, Classical.choice, Quot.sound
Pgkyl.Anim.C82_distinct_files: propext, Classical.choice, Quot.sound
Pgkyl.Anim.C83_limits_partial: propext, Classical.choice, Quot.sound
Pgkyl.Anim.C83_cutoff: propext, Classical.choice, Quot.sound
Pgkyl.C83_quantiles: propext, Classical.choice, Quot.sound
Pgkyl.Anim.C83_grouptags_fails: propext, Classical.choice, Quot.sound
Pgkyl.Anim.C84_films_partial: propext, Classical.choice, Quot.sound
Pgkyl.Anim.C84_saveframes_fails: propext, Classical.choice, Quot.sound
Pgkyl.Anim.C84_screen_fails: propext, Classical.choice, Quot.sound
Pgkyl.Anim.C85_blocks_partial: propext, Classical.choice, Quot.sound
Pgkyl.Anim.C85_float_partial: propext, Classical.choice, Quot.sound
Pgkyl.Anim.C85_each_once: propext, Classical.choice, Quot.sound
Pgkyl.Anim.C85_use_fails: propext, Classical.choice, Quot.sound
Pgkyl.V2c.C86_columns: propext, Classical.choice, Quot.sound
Pgkyl.V2c.C86_mismatch: propext
Pgkyl.V2c.C86_store_partial: propext, Classical.choice, Quot.sound
Pgkyl.V2c.C86_tag: propext, Classical.choice, Quot.sound
Pgkyl.V2c.C86_store_fails: propext, Classical.choice, Quot.sound
Pgkyl.V2c.C87_range_partial: propext, Classical.choice, Quot.sound
Pgkyl.V2c.C87_single_partial: propext, Classical.choice, Quot.sound
Pgkyl.V2c.C87_list_fails: propext
Pgkyl.V2c.C87_clip_fails: propext, Classical.choice, Quot.sound
Pgkyl.V2c.C88_point: propext, Quot.sound
Pgkyl.V2c.C88_stroke_partial: propext, Quot.sound
Pgkyl.V2c.C88_stroke_fails: propext
Pgkyl.V2c.C88_stuck_fails: propext, Quot.sound
Pgkyl.Multi.C89_one_line_partial: propext, Classical.choice, Quot.sound
Pgkyl.Multi.C89_frames_fails: propext, Classical.choice, Quot.sound
Pgkyl.Multi.C89_small_fails: propext, Classical.choice, Quot.sound
Pgkyl.Multi.C89_shifted_fails: propext, Classical.choice, Quot.sound
Pgkyl.Multi.C89_integer_fails: propext, Classical.choice, Quot.sound
Pgkyl.C90_euler_tag: propext, Classical.choice, Quot.sound
Pgkyl.C90_euler_in_place: propext, Classical.choice, Quot.sound
Pgkyl.C90_mhd_tag: propext, Classical.choice, Quot.sound
Pgkyl.C90_mhd_in_place: propext, Classical.choice, Quot.sound
Pgkyl.C90_ten_tag_partial: propext, Classical.choice, Quot.sound
Pgkyl.C90_ten_in_place_partial: propext, Classical.choice, Quot.sound
Pgkyl.C90_tensor_fails: propext, Classical.choice, Quot.sound
Pgkyl.C90_magsq: propext, Classical.choice, Quot.sound
Pgkyl.C91_grid_tag: propext, Classical.choice, Quot.sound
Pgkyl.C91_grid_in_place: propext, Classical.choice, Quot.sound
Pgkyl.C92_velocity: propext, Classical.choice, Quot.sound
Pgkyl.C92_unpaired_fails: propext, Classical.choice, Quot.sound
Pgkyl.C92_bparrotate: propext, Classical.choice, Quot.sound
Pgkyl.C92_rotate_fails: propext, Classical.choice, Quot.sound
Pgkyl.C92_bperprotate_fails: propext, Classical.choice, Quot.sound
Pgkyl.C92_agyro: propext, Classical.choice, Quot.sound
Pgkyl.C92_mom_agyro_partial: propext, Classical.choice, Quot.sound
Pgkyl.C92_mom_agyro_fails: propext, Classical.choice, Quot.sound
Pgkyl.C92_energetics_partial: propext, Classical.choice, Quot.sound
Pgkyl.C92_rotate_nothing: propext, Classical.choice, Quot.sound
Pgkyl.C93_in_place_partial: propext, Classical.choice, Quot.sound
Pgkyl.C93_tag_fails: propext, Classical.choice, Quot.sound
Pgkyl.C93_reference_fails: propext, Classical.choice, Quot.sound
Pgkyl.C94_interpolate_partial: propext, Classical.choice, Quot.sound
Pgkyl.C94_interpolate_in_place: propext, Classical.choice, Quot.sound
Pgkyl.C94_nodal_fails: propext, Classical.choice, Quot.sound
Pgkyl.C94_unknown_rejected: propext, Classical.choice, Quot.sound
Pgkyl.C95_differentiate_partial: propext, Classical.choice, Quot.sound
Pgkyl.C95_differentiate_in_place_partial: propext, Classical.choice, Quot.sound
Pgkyl.C95_other_fields_fails: propext, Classical.choice, Quot.sound
Pgkyl.C96_integrate_partial: propext, Classical.choice, Quot.sound
Pgkyl.C96_integrate_in_place: propext, Classical.choice, Quot.sound
Pgkyl.C96_axis_range_fails: propext, Classical.choice, Quot.sound
Pgkyl.C97_select: propext, Classical.choice, Quot.sound
Pgkyl.C97_select_in_place: propext, Classical.choice, Quot.sound
Pgkyl.C98_grad: propext, Classical.choice, Quot.sound
Pgkyl.C98_grad2: propext, Classical.choice, Quot.sound
Pgkyl.C98_exact_for_quadratics: propext, Classical.choice, Quot.sound
Pgkyl.C98_nodal_fails: propext, Classical.choice, Quot.sound
Pgkyl.C98_short_axis_fails: propext, Classical.choice, Quot.sound
Pgkyl.C98_grad_command: propext, Classical.choice, Quot.sound
Pgkyl.C98_grad2_command: propext, Classical.choice, Quot.sound
Pgkyl.C99_div: propext, Classical.choice, Quot.sound
Pgkyl.C99_curl_line_partial: propext, Classical.choice, Quot.sound
Pgkyl.C99_curl_plane_two_partial: propext, Classical.choice, Quot.sound
Pgkyl.C99_curl_plane_partial: propext, Classical.choice, Quot.sound
Pgkyl.C99_curl_volume_fails: propext, Quot.sound
Pgkyl.C99_div_command: propext, Classical.choice, Quot.sound
Pgkyl.C99_curl_command_partial: propext, Classical.choice, Quot.sound
Pgkyl.C99_curl_two_command_partial: propext, Classical.choice, Quot.sound
Pgkyl.C99_curl_line_command_partial: propext, Classical.choice, Quot.sound
