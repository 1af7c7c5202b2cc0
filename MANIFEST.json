{
 "claims": [
  {
   "property": "C01",
   "status": "proved",
   "theorems": [
    "Pgkyl.C01_write_load_roundtrip"
   ],
   "note": "any encoding with dec(enc z)=z in 8 bytes; at least one cell per axis and one component"
  },
  {
   "property": "C02",
   "status": "proved",
   "theorems": [
    "Pgkyl.C02_field_file_read_exactly",
    "Pgkyl.C02_float32_bounds_counterexample"
   ],
   "note": "bounds as wide as the reals of the file; for real type 1 the documented 64-bit bounds are misread (witness)"
  },
  {
   "property": "C03",
   "status": "proved",
   "theorems": [
    "Pgkyl.C03_partial_load_is_slice"
   ],
   "note": "at most six axes (z0..z5)"
  },
  {
   "property": "C04",
   "status": "proved",
   "theorems": [
    "Pgkyl.C04_partial_load_grid"
   ],
   "note": "exact arithmetic in a field of characteristic zero"
  },
  {
   "property": "C05",
   "status": "proved",
   "theorems": [
    "Pgkyl.C05_multi_range_assembled"
   ],
   "note": ""
  },
  {
   "property": "C06",
   "status": "proved",
   "theorems": [
    "Pgkyl.C06_partial_multi_range_is_slice"
   ],
   "note": "at most six axes (z0..z5)"
  },
  {
   "property": "C07",
   "status": "proved",
   "theorems": [
    "Pgkyl.C07_dynvector_concatenated",
    "Pgkyl.C07_other_type_rejected",
    "Pgkyl.C07_single_precision_fails"
   ],
   "note": "double precision (in single precision the times are misread, C07_single_precision_fails); at least one row in total (the code raises otherwise)"
  },
  {
   "property": "C08",
   "status": "proved",
   "theorems": [
    "Pgkyl.C08_metadata_available",
    "Pgkyl.C08_metadata_available_multi"
   ],
   "note": "metadata keys with the names of structural entries (cells, num_comps, lower, upper, grid_type) are overwritten; msgpack decoding is a parameter"
  },
  {
   "property": "C09",
   "status": "proved",
   "theorems": [
    "Pgkyl.C09_coordinate_selects_containing_cell",
    "Pgkyl.C09_coordinate_selects_first_node",
    "Pgkyl.C09_cell_unique"
   ],
   "note": "strictly increasing axes; NaN excluded"
  },
  {
   "property": "C10",
   "status": "proved",
   "theorems": [
    "Pgkyl.C10_index_string",
    "Pgkyl.C10_slice_string",
    "Pgkyl.C10_open_stop",
    "Pgkyl.C10_open_start",
    "Pgkyl.C10_open_both",
    "Pgkyl.C10_list_string",
    "Pgkyl.C10_coordinate_string",
    "Pgkyl.C10_malformed_rejected",
    "Pgkyl.C10_coordinate_slice",
    "Pgkyl.C10_open_stop_without_grid_rejected"
   ],
   "note": "ASCII digits; float() is a parameter"
  },
  {
   "property": "C100",
   "status": "proved",
   "theorems": [
    "Pgkyl.C100_div_curl",
    "Pgkyl.C100_div_curl_line",
    "Pgkyl.C100_curl_grad",
    "Pgkyl.C100_div_curl_command",
    "Pgkyl.C100_curl_grad_command"
   ],
   "note": "curl is defined on one and two axes only"
  },
  {
   "property": "C101",
   "status": "partial",
   "theorems": [
    "Pgkyl.C101_scale_text_partial",
    "Pgkyl.C101_scale_number",
    "Pgkyl.C101_scale_twice_fails",
    "Pgkyl.C101_scale_command_partial",
    "Pgkyl.C101_scale_number_command"
   ],
   "note": "a list naming a component twice scales it twice"
  },
  {
   "property": "C102",
   "status": "partial",
   "theorems": [
    "Pgkyl.C102_coordinates",
    "Pgkyl.C102_own_scalings_partial",
    "Pgkyl.C102_other_file",
    "Pgkyl.C102_scale_axis",
    "Pgkyl.C102_bounds",
    "Pgkyl.C102_relative_fails",
    "Pgkyl.C102_source_changed_fails"
   ],
   "note": "false of the code: the coordinate array is multiplied in place and shared by the source and everything derived from it; C102_coordinates says what happens instead"
  },
  {
   "property": "C103",
   "status": "partial",
   "theorems": [
    "Pgkyl.C103_reader_partial",
    "Pgkyl.C103_unreadable",
    "Pgkyl.C103_sound",
    "Pgkyl.C103_fails",
    "Pgkyl.C103_flash_fails"
   ],
   "note": "Partial: when the ADIOS library raises an exception other than ModuleNotFoundError or TypeError the search stops with it (C103_fails), and a file recognised by the FLASH reader cannot be loaded because that reader has no preload and load (C103_flash_fails)."
  },
  {
   "property": "C104",
   "status": "partial",
   "theorems": [
    "Pgkyl.C104_frame_partial",
    "Pgkyl.C104_scalar_partial",
    "Pgkyl.C104_named_fails",
    "Pgkyl.C104_selection_fails"
   ],
   "note": "Proved for frames with a component axis.  Without one, naming the reader changes the reported numbers of cells and components (C104_named_fails).  Selections given on opening are ignored (C104_selection_fails)."
  },
  {
   "property": "C105",
   "status": "partial",
   "theorems": [
    "Pgkyl.C105_diagnostic_partial",
    "Pgkyl.C105_fails"
   ],
   "note": "The code breaks the property for every file: the times are replaced by n+1 equally spaced nodes (C105_fails).  Values and bounds are right."
  },
  {
   "property": "C106",
   "status": "partial",
   "theorems": [
    "Pgkyl.C106_grid",
    "Pgkyl.C106_order_partial",
    "Pgkyl.C106_inner",
    "Pgkyl.C106_empty",
    "Pgkyl.C106_fails"
   ],
   "note": "Each cell is written one row and one column too far.  Right for all cells when each block comes after its neighbours at the lower sides (C106_order_partial), right for inner cells in any order (C106_inner), wrong otherwise (C106_fails).  Exact arithmetic."
  },
  {
   "property": "C107",
   "status": "partial",
   "theorems": [
    "Pgkyl.C107_style_partial",
    "Pgkyl.C107_blank_fails",
    "Pgkyl.C107_comment_fails"
   ],
   "note": "Missing: files with blank lines or comments: they are not skipped (proved). The eval of a colour cycle is a parameter."
  },
  {
   "property": "C108",
   "status": "proved",
   "theorems": [
    "Pgkyl.C108_stems",
    "Pgkyl.C108_order"
   ],
   "note": "The directory listing is a parameter; every name it returns ends with the extension."
  },
  {
   "property": "C109",
   "status": "proved",
   "theorems": [
    "Pgkyl.C109_info",
    "Pgkyl.C109_number",
    "Pgkyl.C109_tag"
   ],
   "note": "The detailed text of GData.info (without --compact) and the colours are not modelled. C109_tag: for stores built by adding and cleaning."
  },
  {
   "property": "C11",
   "status": "partial",
   "theorems": [
    "Pgkyl.C11_select_partial",
    "Pgkyl.C11_nodes_of_cells",
    "Pgkyl.C11_select_mapped_partial",
    "Pgkyl.C11_mapped_coordinate_fails"
   ],
   "note": "Rectilinear grids: at most six axes, non-empty in-range selections.  Mapped grids: index selections; a coordinate is refused there (C11_mapped_coordinate_fails)."
  },
  {
   "property": "C110",
   "status": "partial",
   "theorems": [
    "Pgkyl.C110_growth_partial",
    "Pgkyl.C110_exact_partial",
    "Pgkyl.C110_series_direction_fails",
    "Pgkyl.C110_lines_fails"
   ],
   "note": "Proved for series without --dir.  The code breaks the rest: with --dir 0 or 1 every series is refused, and for two-dimensional data --dir gives the rate of the first line only."
  },
  {
   "property": "C111",
   "status": "partial",
   "theorems": [
    "Pgkyl.C111_power_partial",
    "Pgkyl.C111_in_place_partial",
    "Pgkyl.C111_isotropic_partial",
    "Pgkyl.C111_isotropic_in_place_partial",
    "Pgkyl.C111_amplitudes_partial",
    "Pgkyl.C111_amplitudes_in_place",
    "Pgkyl.C111_source_fails",
    "Pgkyl.C111_two_directions_fails",
    "Pgkyl.C111_iso_alone_fails"
   ],
   "note": "proved for data with one grid point per value, with and without a tag; two parts of the claim are refuted: the source of a tagged call loses the collapsed directions of its grid and keeps those of its values, and with two directions the spectrum gets three grid entries. With --iso proved for two or three directions of at least four points, beyond the first bin (see C71 for the first). Without --psd the complex amplitudes of all modes are proved at the level of a store of complex numbers; with --iso but without --psd and without a tag nothing is computed for data with several directions (C111_iso_alone_fails)"
  },
  {
   "property": "C112",
   "status": "partial",
   "theorems": [
    "Pgkyl.Gk.C112_distribution",
    "Pgkyl.Gk.C112_mapped",
    "Pgkyl.Gk.C112_command_partial",
    "Pgkyl.Gk.C112_command_mapped_partial",
    "Pgkyl.Gk.C112_velocity",
    "Pgkyl.Gk.C112_velocity_mapped",
    "Pgkyl.Gk.C112_command_velocity_partial",
    "Pgkyl.Gk.C112_command_velocity_mapped_partial",
    "Pgkyl.Gk.C112_labels_fails"
   ],
   "note": "Only the labels are missing. The labels of several frames are all the same (C112_labels_fails): the datasets carry no file name for set_unique_labels to use."
  },
  {
   "property": "C113",
   "status": "partial",
   "theorems": [
    "Pgkyl.Adios.C113_history_partial",
    "Pgkyl.Adios.C113_flat_first_fails"
   ],
   "note": "Holds when the first piece is stored with rows and columns; later pieces may be flat or bare numbers. Missing and false: a first piece with one column stored flat has its times taken for components, and fails to load with further pieces."
  },
  {
   "property": "C114",
   "status": "partial",
   "theorems": [
    "Pgkyl.C114_info_partial",
    "Pgkyl.C114_command",
    "Pgkyl.C114_grid_type_fails"
   ],
   "note": "Proved for datasets with the usual metadata (cells, bounds, number of components, type of the grid; a basis with its modal entry; a geometry number in the table). False without a type of the grid: info raises KeyError (C114_grid_type_fails), e.g. for results made from an ADIOS history. Formatting of numbers is a parameter."
  },
  {
   "property": "C115",
   "status": "partial",
   "theorems": [
    "Pgkyl.C115_line",
    "Pgkyl.C115_plane_partial",
    "Pgkyl.C115_lineouts",
    "Pgkyl.C115_given",
    "Pgkyl.C115_colour_bar",
    "Pgkyl.C115_vertical_fails"
   ],
   "note": "The label of the vertical axis tests the shift and scale of the horizontal one: with only a vertical shift or scale the plain name is shown (C115_vertical_fails), so the plane case needs equal conditions."
  },
  {
   "property": "C116",
   "status": "partial",
   "theorems": [
    "Pgkyl.C116_arrows_partial",
    "Pgkyl.C116_arrows_fails",
    "Pgkyl.C116_streamlines"
   ],
   "note": "quiver's stride is zero when both directions have fewer than 15 nodes, and slicing with it raises ValueError (C116_arrows_fails)."
  },
  {
   "property": "C117",
   "status": "partial",
   "theorems": [
    "Pgkyl.C117_lines",
    "Pgkyl.C117_shades_partial",
    "Pgkyl.C117_shades_fails"
   ],
   "note": "The colour of a line is its index over the number of lines less one, the colour bar is linear in the coordinate: they agree only on equidistant grids (C117_shades_fails)."
  },
  {
   "property": "C118",
   "status": "partial",
   "theorems": [
    "Pgkyl.C118_diverging",
    "Pgkyl.C118_diverging_log",
    "Pgkyl.C118_limits",
    "Pgkyl.C118_diverging_fails"
   ],
   "note": "With diverging colours the limits given by the user are ignored and the panels of a plot have different scales (C118_diverging_fails)."
  },
  {
   "property": "C119",
   "status": "partial",
   "theorems": [
    "Pgkyl.C119_frames_partial",
    "Pgkyl.C119_save_partial",
    "Pgkyl.C119_saveas",
    "Pgkyl.C119_save_one",
    "Pgkyl.C119_tags_fails",
    "Pgkyl.C119_dataset_figures_fails",
    "Pgkyl.C119_derived_fails"
   ],
   "note": "Frames are numbered within a tag, so two tags overwrite each other's files (C119_tags_fails); --save with a figure per dataset writes one more picture under an empty name (C119_save_partial shows it); with --figure dataset --save only the last figure is saved (C119_dataset_figures_fails); a dataset without a file raises KeyError with --save (C119_derived_fails)."
  },
  {
   "property": "C12",
   "status": "proved",
   "theorems": [
    "Pgkyl.C12_select_keeps_source",
    "Pgkyl.C12_select_overwrite"
   ],
   "note": ""
  },
  {
   "property": "C120",
   "status": "partial",
   "theorems": [
    "Pgkyl.C120_rz",
    "Pgkyl.C120_nodes",
    "Pgkyl.C120_file",
    "Pgkyl.C120_flux_swapped",
    "Pgkyl.C120_flux_grid",
    "Pgkyl.C120_flux_fails"
   ],
   "note": "The flux dataset is put on the stack with its two axes swapped relative to its grid (C120_flux_swapped, C120_flux_fails). The figure is the subject of C154."
  },
  {
   "property": "C121",
   "status": "partial",
   "theorems": [
    "Pgkyl.C121_partial",
    "Pgkyl.C121_curl",
    "Pgkyl.C121_shear_fails",
    "Pgkyl.C121_same_fails"
   ],
   "note": "The code returns the same list twice because the second array is an alias of the first (C121_same_fails); what it holds is the sum of the squares of the diagonal derivatives only, over all but the last cells (C121_partial), which is zero for a shear flow (C121_shear_fails)."
  },
  {
   "property": "C122",
   "status": "proved",
   "theorems": [
    "Pgkyl.C122_input",
    "Pgkyl.C122_none",
    "Pgkyl.C122_cut",
    "Pgkyl.C122_extract",
    "Pgkyl.C122_values",
    "Pgkyl.C122_grid"
   ],
   "note": "What the ADIOS library returns for the attribute and how NumPy prints an array are parameters; binascii's decoder is modelled character by character, UTF-8 is Lean's."
  },
  {
   "property": "C123",
   "status": "partial",
   "theorems": [
    "Pgkyl.C123_spaced",
    "Pgkyl.C123_listed",
    "Pgkyl.C123_number",
    "Pgkyl.C123_bar",
    "Pgkyl.C123_blocks",
    "Pgkyl.C123_given",
    "Pgkyl.ContourEx.C123_integer_fails"
   ],
   "note": "Contrary to the help of animate an integer is taken for the only level (C123_integer_fails). Whether Matplotlib accepts the levels (they have to increase) is not modelled."
  },
  {
   "property": "C124",
   "status": "partial",
   "theorems": [
    "Pgkyl.C124_mapped_partial",
    "Pgkyl.C124_velocity_partial",
    "Pgkyl.C124_restricted_fails"
   ],
   "note": "Proved when the mapped directions are loaded in full. For a restriction of the cells in a mapped direction the claim is false: the mapping is still loaded for all cells, so that the grid does not fit the values."
  },
  {
   "property": "C125",
   "status": "proved",
   "theorems": [
    "Pgkyl.Cli.C125_load",
    "Pgkyl.Cli.C125_load_error",
    "Pgkyl.Cli.C125_line",
    "Pgkyl.Cli.C125_line_rejected"
   ],
   "note": "The constructor of a dataset is a parameter here; C01-C03, C93, C94, C124 describe it. An explicit word `load` in a line is excluded (C59_explicit_load_fails)."
  },
  {
   "property": "C126",
   "status": "partial",
   "theorems": [
    "Pgkyl.Cli.C126_uniform",
    "Pgkyl.Cli.C126_mapped",
    "Pgkyl.Cli.C126_velocity_fails",
    "Pgkyl.Cli.C126_points_fails"
   ],
   "note": "False for mapped velocity grids: `load --fv --c2p-vel` always ends with an error message (the variable grid is never set). interpolateGrid called with two or more points per cell gives a grid with one cell too few per input cell."
  },
  {
   "property": "C127",
   "status": "proved",
   "theorems": [
    "Pgkyl.C127_load",
    "Pgkyl.C127_interpolate",
    "Pgkyl.C127_part_of_whole",
    "Pgkyl.C127_command"
   ],
   "note": "The composition of C02-C07 (reader), C36 (interpolation), C94 (command) and C125 (load), with the file and the meaning of its words as the only premises. Uniform grids; for mapped grids see C124."
  },
  {
   "property": "C128",
   "status": "partial",
   "theorems": [
    "Pgkyl.Adios.C128_frame_partial",
    "Pgkyl.Adios.C128_part_fails",
    "Pgkyl.Adios.C128_unknown_variable",
    "Pgkyl.Adios.C128_mapped",
    "Pgkyl.Adios.C128_ghost_fails",
    "Pgkyl.Adios.C128_interpolate",
    "Pgkyl.Adios.C128_history"
   ],
   "note": "The full statement is false: the recorded extents are those of the whole file after any selection (C128_part_fails) and ghost cells shift the mesh the wrong way (C128_ghost_fails). C128_frame_partial proves the rest for frames without ghost cells, C128_mapped for a mapping file without selection of cells; the attributes are texts, and histories follow C113 (first piece with its column axis)."
  },
  {
   "property": "C129",
   "status": "partial",
   "theorems": [
    "Pgkyl.C129_field",
    "Pgkyl.C129_multi",
    "Pgkyl.C129_save",
    "Pgkyl.C129_trace",
    "Pgkyl.C129_part_partial",
    "Pgkyl.C129_part_fails"
   ],
   "note": "Complete loads, saves and traces are proved for every cut point. Partial loads are proved for one component; C129_part_fails shows a three-component partial load of a cut file that succeeds with values that are not in the file (NumPy broadcasts the single value that is left)."
  },
  {
   "property": "C13",
   "status": "proved",
   "theorems": [
    "Pgkyl.C13_select_compose",
    "Pgkyl.C13_axes_independent"
   ],
   "note": "rectilinear grids"
  },
  {
   "property": "C130",
   "status": "proved",
   "theorems": [
    "Pgkyl.C130_select",
    "Pgkyl.C130_select_interpolate"
   ],
   "note": "Exact arithmetic over a linearly ordered field. Both orders of the two operations are executed in the model (select in place then interpolate; interpolate, push, select) and the returned grids and value arrays are equal."
  },
  {
   "property": "C131",
   "status": "partial",
   "theorems": [
    "Pgkyl.C131_integral_partial",
    "Pgkyl.C131_quadratic_fails"
   ],
   "note": "True for orders 0 and 1 of the serendipity, maximal-order and tensor bases in every dimension and for every number of points. False for order 2: the interpolated values are midpoint values, and in one dimension the result is off by dx/(3 n^2) times the sum of the quadratic coefficients (times the factor of x^2), proved exactly."
  },
  {
   "property": "C132",
   "status": "partial",
   "theorems": [
    "Pgkyl.C132_kernels_partial",
    "Pgkyl.C132_operator_fails",
    "Pgkyl.C132_products_fails",
    "Pgkyl.C132_empty_fails",
    "Pgkyl.C132_interpolate_fails"
   ],
   "note": "Proved for 13 of the 24 kernels. False for the others: those of order 2-4 in one and five dimensions and order 2 in six are written with ^ for ** and always raise a TypeError; those of order 4 in three and four dimensions multiply coefficients by each other; those of order 3 and 4 in six dimensions are empty. modalDG.interpolate always ends in an AttributeError (data.pushGrid does not exist)."
  },
  {
   "property": "C133",
   "status": "partial",
   "theorems": [
    "Pgkyl.C133_cut_is_select_partial",
    "Pgkyl.C133_open_fails",
    "Pgkyl.C133_negative_fails"
   ],
   "note": "Proved for all texts with non-negative ends. False of the code for negative ends ':-k' (select keeps min(n+2-k, n) cells, the load n-k) and for component ranges without an end, where select raises TypeError. Exact arithmetic."
  },
  {
   "property": "C134",
   "status": "partial",
   "theorems": [
    "Pgkyl.C134_grid_and_metadata_partial",
    "Pgkyl.C134_disagreement_fails"
   ],
   "note": "The dropping of entries on which datasets disagree holds operator by operator (C28) but fails for nested expressions: C134_disagreement_fails gives the counterexample."
  },
  {
   "property": "C135",
   "status": "proved",
   "theorems": [
    "Pgkyl.C135_interpolate",
    "Pgkyl.C135_differentiate",
    "Pgkyl.C135_integrate",
    "Pgkyl.C135_nonlinear_fails"
   ],
   "note": "Proved for every linear expression; for nonlinear expressions the two orders differ (C135_nonlinear_fails gives both orders for `a 1 +` and `a b *`). Exact arithmetic; the datasets of the store share mesh and expansion."
  },
  {
   "property": "C136",
   "status": "proved",
   "theorems": [
    "Pgkyl.C136_select"
   ],
   "note": "Every elementwise expression of whole datasets (no [comp] suffix, integer exponents as in C29); every text selection of C11/C97."
  },
  {
   "property": "C137",
   "status": "proved",
   "theorems": [
    "Pgkyl.C137_adjacent",
    "Pgkyl.C137_nodal_fails"
   ],
   "note": "For cell data along the split axis. C137_nodal_fails evaluates a nodal dataset whose halves do not add up. Exact arithmetic."
  },
  {
   "property": "C138",
   "status": "proved",
   "theorems": [
    "Pgkyl.C138_select",
    "Pgkyl.C138_time",
    "Pgkyl.C138_number"
   ],
   "note": "Without --sumdata, --period and --chunk; frames with distinct, non-zero times (a zero time is replaced by the frame number, see C32); the times are read from metadata that select does not change."
  },
  {
   "property": "C139",
   "status": "proved",
   "theorems": [
    "Pgkyl.C139_commute",
    "Pgkyl.C139_same_tag_fails"
   ],
   "note": "The list of commands is Spec/TagCommute.lean. C139_same_tag_fails shows that the condition on the tags is needed."
  },
  {
   "property": "C14",
   "status": "proved",
   "theorems": [
    "Pgkyl.C14_component_selection"
   ],
   "note": "rectilinear grids"
  },
  {
   "property": "C140",
   "status": "proved",
   "theorems": [
    "Pgkyl.C140_reopened",
    "Pgkyl.C140_mesh",
    "Pgkyl.C140_interpolate",
    "Pgkyl.C140_other_grids_fail"
   ],
   "note": "Numbers are in an ordered field; enc and dec need to keep only the numbers that occur. C140_other_grids_fail is the part of the statement about non-uniform grids: their coordinates are lost."
  },
  {
   "property": "C141",
   "status": "partial",
   "theorems": [
    "Pgkyl.Spectral.C141_energy",
    "Pgkyl.Spectral.C141_symmetric",
    "Pgkyl.Spectral.C141_mean",
    "Pgkyl.Spectral.C141_positive_partial",
    "Pgkyl.Spectral.C141_odd_fails"
   ],
   "note": "The last part is false for odd numbers of points: there the highest positive frequency is missing from the output of psd (C141_odd_fails); for even numbers it is proved. The discrete Fourier transform of the library is its defining sum, in exact arithmetic."
  },
  {
   "property": "C142",
   "status": "proved",
   "theorems": [
    "Pgkyl.C142_select_differentiate"
   ],
   "note": "The portions are whole cells (Portion.OK in Spec); a selection by coordinates denotes the same cells before and after. Exact arithmetic."
  },
  {
   "property": "C143",
   "status": "proved",
   "theorems": [
    "Pgkyl.C143_select_integrate"
   ],
   "note": "Along the integrated axes nothing is selected (for selections along the integrated axis see C137). Exact arithmetic."
  },
  {
   "property": "C144",
   "status": "partial",
   "theorems": [
    "Pgkyl.C144_routes_partial",
    "Pgkyl.C144_coordinates_fail"
   ],
   "note": "The numbers and the coordinates of the other axes agree. The coordinate of an integrated axis does not: ev puts 0, integrate the mean of the coordinates (C144_coordinates_fail)."
  },
  {
   "property": "C145",
   "status": "proved",
   "theorems": [
    "Pgkyl.C145_integrate"
   ],
   "note": "Without --sumdata, --period and --chunk; frames with distinct, non-zero times (see C32, C138); the times are read from metadata that integrate does not change."
  },
  {
   "property": "C146",
   "status": "proved",
   "theorems": [
    "Pgkyl.C146_dot",
    "Pgkyl.C146_max",
    "Pgkyl.C146_min",
    "Pgkyl.C146_mean"
   ],
   "note": "the operator is the last word of the chain; datasets on rectilinear grids; NaN excluded; the operands of dot have the same shape"
  },
  {
   "property": "C147",
   "status": "proved",
   "theorems": [
    "Pgkyl.C147_phase_space",
    "Pgkyl.C147_components",
    "Pgkyl.C147_sum_fails",
    "Pgkyl.C147_vector_fails"
   ],
   "note": "Sums and differences of phase-space and configuration-space data, and products with a field of several components, are outside the claim: they are errors or misread the field (C147_sum_fails, C147_vector_fails)."
  },
  {
   "property": "C148",
   "status": "partial",
   "theorems": [
    "Pgkyl.C148_summary",
    "Pgkyl.C148_summary_first_partial",
    "Pgkyl.C148_power_fails",
    "Pgkyl.C148_length_partial",
    "Pgkyl.C148_length_alone_fails"
   ],
   "note": "A power of such a number is refused because the grid of the base is empty (C148_power_fails). The length is right on cell grids and on nodal grids whose first and last spacing agree; used alone as a result it cannot be stored (C148_length_alone_fails)."
  },
  {
   "property": "C149",
   "status": "proved",
   "theorems": [
    "Pgkyl.C149_average",
    "Pgkyl.C149_mean"
   ],
   "note": "single axis for the quotient; equal cells for the mean; exact arithmetic"
  },
  {
   "property": "C15",
   "status": "proved",
   "theorems": [
    "Pgkyl.C15_get_dataset",
    "Pgkyl.C15_get_dataset_from_end",
    "Pgkyl.C15_distinct",
    "Pgkyl.C15_count",
    "Pgkyl.C15_count_tag",
    "Pgkyl.C15_tags_in_order"
   ],
   "note": ""
  },
  {
   "property": "C150",
   "status": "partial",
   "theorems": [
    "Pgkyl.C150_positions_partial",
    "Pgkyl.C150_line_partial",
    "Pgkyl.C150_mesh_partial",
    "Pgkyl.C150_line_fails",
    "Pgkyl.C150_contour_fails",
    "Pgkyl.C150_collapsed_fails"
   ],
   "note": "A grid with one entry per value is drawn exactly as the dataset (all kinds of plots), and a colour plot with the nodes of the cells too. The code takes the number of entries of the grid for the number of cells, so with nodes (what interpolate returns) a line or a contour gets one position too many along each direction and directions of one cell are not removed (C150_line_fails, C150_contour_fails, C150_collapsed_fails, for all such pairs). Grids of multi-dimensional arrays are not modelled for pairs."
  },
  {
   "property": "C151",
   "status": "partial",
   "theorems": [
    "Pgkyl.C151_captions",
    "Pgkyl.C151_squeezed",
    "Pgkyl.C151_again",
    "Pgkyl.C151_drawn",
    "Pgkyl.C151_labels",
    "Pgkyl.C151_limits_partial",
    "Pgkyl.C151_limits_fails"
   ],
   "note": "all parts proved for every call; only the limits along y are lost in the last panel when a later dataset with fewer components is drawn into the same figure (C151_limits_fails): plt.autoscale acts on the current axes, not on the panel drawn. Limits of a colour bar that is drawn into by mistake (C50_colorbar_panels_fails) are not modelled"
  },
  {
   "property": "C152",
   "status": "partial",
   "theorems": [
    "Pgkyl.C152_independent_partial",
    "Pgkyl.C152_other_families",
    "Pgkyl.C152_text_fails",
    "Pgkyl.C152_fft_fails"
   ],
   "note": "proved for sessions without text files and with fft applied to data without collapsed directions only, and for all other commands on other families of datasets. euler, mhd, tenmoment, magsq, velocity, current, energetics and relchange hand on the list of coordinate arrays itself; writing a text file replaces its entries by cell centres and fft removes the collapsed directions from it, so all datasets that share the list change (C152_text_fails, C152_fft_fails). Arrays changed in place are C102"
  },
  {
   "property": "C153",
   "status": "proved",
   "theorems": [
    "Pgkyl.C153_line",
    "Pgkyl.C153_mesh",
    "Pgkyl.C153_line_through",
    "Pgkyl.C153_mesh_through",
    "Pgkyl.C153_file"
   ],
   "note": "The composition of C127 (file to expansion), C94/C36 (interpolation), C11/C12 (selection) and C67 (positions of plotted values). Uniform grids; contours and coloured cells, not what matplotlib makes of them."
  },
  {
   "property": "C154",
   "status": "partial",
   "theorems": [
    "Pgkyl.C154_extremes",
    "Pgkyl.C154_undistorted",
    "Pgkyl.C154_corrections",
    "Pgkyl.C154_inside_partial",
    "Pgkyl.C154_inside_fails",
    "Pgkyl.C154_lines",
    "Pgkyl.C154_line",
    "Pgkyl.C154_colours",
    "Pgkyl.C154_flux",
    "Pgkyl.C154_flux_contours",
    "Pgkyl.C154_levels",
    "Pgkyl.C154_levels_fails",
    "Pgkyl.C154_limits"
   ],
   "note": "The axes leave the figure to the left when the extent in R is at least 1.37 times the one in Z (C154_inside_fails), and lie inside it up to 1.36 times (C154_inside_partial). A range of levels start:end:number always ends in a NameError (C154_levels_fails). Exact arithmetic; extremes for positions up to 10^9, the value the code starts from. Fonts, labels and the wall are not modelled."
  },
  {
   "property": "C155",
   "status": "partial",
   "theorems": [
    "Pgkyl.C155_title_partial",
    "Pgkyl.C155_title_squeezed_partial",
    "Pgkyl.C155_notitle",
    "Pgkyl.C155_drawn",
    "Pgkyl.C155_drawable",
    "Pgkyl.C155_bars",
    "Pgkyl.C155_first_frame_fails",
    "Pgkyl.C155_ignored_fails",
    "Pgkyl.C155_empty_fails"
   ],
   "note": "False of the code as stated in three places, each proved: frame 0 and time 0 are left out of titles (a falsy number), --title, --nsubplotrow and --nsubplotcol have no influence on any picture, and a frame without datasets ends with an UnboundLocalError. Everything else is proved for all frames. How a time is printed (:.4e) is a parameter."
  },
  {
   "property": "C156",
   "status": "partial",
   "theorems": [
    "Pgkyl.C156_pictures_partial",
    "Pgkyl.C156_stroke",
    "Pgkyl.C156_one_tag",
    "Pgkyl.C156_more_frames_fails",
    "Pgkyl.C156_nothing_fails",
    "Pgkyl.C156_lengths_fails",
    "Pgkyl.C156_inactive_fails"
   ],
   "note": "Proved for trajectories at least as long as the first dataset of the tag. False of the code, each proved: a shorter trajectory ends the command (IndexError), a first dataset that is switched off still decides on the number of pictures, more pictures than positions with velocities ask for rows that do not exist, and without active datasets the first of no tags is asked for. Strokes with --numframes are false, see C88."
  },
  {
   "property": "C157",
   "status": "proved",
   "theorems": [
    "Pgkyl.C157_command",
    "Pgkyl.C157_line",
    "Pgkyl.C157_real_line",
    "Pgkyl.C157_status",
    "Pgkyl.C157_load"
   ],
   "note": "The list of the commands and of what each may change is Spec/Kept.lean. Not in it: fft and write (C23, C111, C152: writing text and fft change the list of coordinates, which datasets can share), and the operations of ev that change arrays in place (C102). relchange and collect: no empty name in the list of tags"
  },
  {
   "property": "C158",
   "status": "partial",
   "theorems": [
    "Pgkyl.C158_euler",
    "Pgkyl.C158_mhd",
    "Pgkyl.C158_ten_partial",
    "Pgkyl.C158_magsq",
    "Pgkyl.C158_interpolate",
    "Pgkyl.C158_differentiate",
    "Pgkyl.C158_integrate",
    "Pgkyl.C158_tensor_fails"
   ],
   "note": "all quantities of euler, mhd and magsq, interpolate, differentiate and integrate: proved. The pressure tensor of tenmoment: proved when neither the data nor the part has an axis of length 1 behind a longer one; otherwise false, the order matters (C158_tensor_fails: selecting one cell of a later axis first raises an error, computing first does not), see C41"
  },
  {
   "property": "C159",
   "status": "partial",
   "theorems": [
    "Pgkyl.C159_values",
    "Pgkyl.C159_same",
    "Pgkyl.C159_output",
    "Pgkyl.C159_rejects",
    "Pgkyl.C159_misfit",
    "Pgkyl.C159_pressures",
    "Pgkyl.C159_tenMoment_partial",
    "Pgkyl.C159_tenMoment_fails",
    "Pgkyl.C159_magB_partial",
    "Pgkyl.C159_magB_fails",
    "Pgkyl.C159_current",
    "Pgkyl.C159_current_qbym_fails"
   ],
   "note": "proved for all functions of one argument, for get_p_par, get_p_perp and get_agyro. The functions get_gkyl_10m_p_par, get_gkyl_10m_p_perp and get_gkyl_10m_agyro: proved for datasets and pairs (C159_tenMoment_partial), and the same for get_magB; they reject arrays, because the empty tuple input_parser returns as the grid of an array is not accepted by input_parser as the grid of a pair (C159_tenMoment_fails)"
  },
  {
   "property": "C16",
   "status": "proved",
   "theorems": [
    "Pgkyl.C16_iterate_all",
    "Pgkyl.C16_iterate_slice",
    "Pgkyl.C16_iterate_list",
    "Pgkyl.C16_rejects",
    "Pgkyl.C16_each_once"
   ],
   "note": "tags without commas (the separator of tag lists)"
  },
  {
   "property": "C160",
   "status": "partial",
   "theorems": [
    "Pgkyl.C160_push_agrees",
    "Pgkyl.C160_select_agrees",
    "Pgkyl.C160_integrate_agrees",
    "Pgkyl.C160_diagnostic_agrees",
    "Pgkyl.C160_push_fails",
    "Pgkyl.C160_push_scalar_fails",
    "Pgkyl.C160_select_partial",
    "Pgkyl.C160_select_fails",
    "Pgkyl.C160_select_coordinates",
    "Pgkyl.C160_select_last_fails",
    "Pgkyl.C160_integrate",
    "Pgkyl.C160_diagnostic",
    "Pgkyl.C160_diagnostic_fails"
   ],
   "note": "False of push, and through it of a select whose range has no node and of a diagnostic of a bare array: the _fails theorems say for every such call what is left behind. The guarded theorems hold for every other call. The *_agrees theorems tie the outcomes to the models of the other properties."
  },
  {
   "property": "C161",
   "status": "partial",
   "theorems": [
    "Pgkyl.C161_table",
    "Pgkyl.C161_enough",
    "Pgkyl.C161_shorter",
    "Pgkyl.C161_other",
    "Pgkyl.C161_rotations_fails"
   ],
   "note": "Every command that is registered has its words; the rotations (parrotate, perprotate, bparrotate, bperprotate) are defined and imported but never added to the group, so that no word runs them (C161_rotations_fails)."
  },
  {
   "property": "C162",
   "status": "proved",
   "theorems": [
    "Pgkyl.C162_velocity",
    "Pgkyl.C162_parrotate",
    "Pgkyl.C162_agyro",
    "Pgkyl.C162_relchange"
   ],
   "note": ""
  },
  {
   "property": "C163",
   "status": "partial",
   "theorems": [
    "Pgkyl.C163_equation",
    "Pgkyl.C163_length",
    "Pgkyl.C163_linear",
    "Pgkyl.C163_causal",
    "Pgkyl.C163_delay",
    "Pgkyl.C163_units",
    "Pgkyl.C163_default_fails"
   ],
   "note": "proved for every cut-off; without one, which is the default, the call raises an error for all data (C163_default_fails)"
  },
  {
   "property": "C164",
   "status": "partial",
   "theorems": [
    "Pgkyl.C164_chosen_partial",
    "Pgkyl.C164_no_choice",
    "Pgkyl.C164_closed_fails"
   ],
   "note": "proved for calls with a cut-off, a click on the axes or outside of them, and for a window closed without a click when there was no click before; false for a window closed without a click after an earlier click, whose frequency is used again (C164_closed_fails)"
  },
  {
   "property": "C165",
   "status": "partial",
   "theorems": [
    "Pgkyl.C165_velocity",
    "Pgkyl.C165_magsq",
    "Pgkyl.C165_inactive_fails",
    "Pgkyl.C165_components_fails"
   ],
   "note": "Proved under the stated guards.  False without them: with a tag named, ev also takes datasets that are switched off, velocity does not; magsq takes the first three components only, dot all."
  },
  {
   "property": "C166",
   "status": "partial",
   "theorems": [
    "Pgkyl.C166_pkpm_fails",
    "Pgkyl.C166_vars_partial",
    "Pgkyl.C166_mask_fails"
   ],
   "note": "False: pkpm formats a tuple with :s before it opens any file, mask calls the dictionary ctx.obj; both end with a TypeError for every input.  Proved in full: the name of the second file of pkpm."
  },
  {
   "property": "C167",
   "status": "partial",
   "theorems": [
    "Pgkyl.C167_magsq",
    "Pgkyl.C167_euler",
    "Pgkyl.C167_mhd",
    "Pgkyl.C167_ten_partial",
    "Pgkyl.C167_tensor_fails"
   ],
   "note": "True for euler, mhd and magsq; for the pressure tensor only if no axis of length 1 follows a longer one: C167_tensor_fails shows that the tensor of two or more collected frames with an axis of length 1 raises an error."
  },
  {
   "property": "C168",
   "status": "partial",
   "theorems": [
    "Pgkyl.C168_options",
    "Pgkyl.C168_only",
    "Pgkyl.C168_rest",
    "Pgkyl.C168_rest_table",
    "Pgkyl.C168_one_reading",
    "Pgkyl.C168_one_line",
    "Pgkyl.C168_two_readings_fails",
    "Pgkyl.C168_exact",
    "Pgkyl.C168_refused",
    "Pgkyl.C168_exact_table",
    "Pgkyl.C168_line_exact_partial",
    "Pgkyl.C168_unknown",
    "Pgkyl.C168_chain",
    "Pgkyl.C168_table",
    "Pgkyl.C168_pgkyl_partial",
    "Pgkyl.C168_fails_twice",
    "Pgkyl.C168_fails_files",
    "Pgkyl.C168_fails_optional",
    "Pgkyl.C168_fails_minus"
   ],
   "note": "Click's parser (version 8) is modelled from knowledge of the library; types, choices, defaults, prompts and the help option's action are not. C168_pgkyl_partial is the full statement for all commands except animate and mask, for which it is false. C168_line_exact_partial gives both directions (accepted exactly if written by the grammar) for 35 of the 40 commands; missing are these two and the three with options whose value may be left out."
  },
  {
   "property": "C169",
   "status": "partial",
   "theorems": [
    "Pgkyl.C169_limits",
    "Pgkyl.C169_names",
    "Pgkyl.C169_colours_partial",
    "Pgkyl.C169_animate_partial",
    "Pgkyl.C169_fails_pair"
   ],
   "note": "Reading of decimal numbers is a parameter. C169_colours_partial is without diverging colours (see C118_diverging_fails), C169_animate_partial without grouped tags (see C83_grouptags_fails)."
  },
  {
   "property": "C17",
   "status": "partial",
   "theorems": [
    "Pgkyl.C17_deactivate_all_partial",
    "Pgkyl.C17_activate_all_counterexample",
    "Pgkyl.C17_activate_all_deactivates"
   ],
   "note": "deactivate_all proved; activate_all is false of the code (it deactivates), the exact behaviour is proved"
  },
  {
   "property": "C170",
   "status": "partial",
   "theorems": [
    "Pgkyl.C170_files_partial",
    "Pgkyl.C170_accepted_partial",
    "Pgkyl.C170_compgrid_fails",
    "Pgkyl.C170_load_fails"
   ],
   "note": "C170_files_partial covers lines of all commands except animate, mask and an explicit load; the velocity mapping only if it is not given twice."
  },
  {
   "property": "C171",
   "status": "proved",
   "theorems": [
    "Pgkyl.C171_order",
    "Pgkyl.C171_writing",
    "Pgkyl.C171_last",
    "Pgkyl.C171_select",
    "Pgkyl.C171_select_values",
    "Pgkyl.C171_select_refused"
   ],
   "note": "Click's parser is modelled from knowledge of the library (Model/Options). The branch of select for --multiblock is a parameter that sees the values of the options."
  },
  {
   "property": "C18",
   "status": "partial",
   "theorems": [
    "Pgkyl.C18_activate",
    "Pgkyl.C18_deactivate_partial",
    "Pgkyl.C18_deactivate_counterexample",
    "Pgkyl.C18_deactivate_focused_deactivates_all"
   ],
   "note": "activate proved; deactivate fails when datasets it should leave active are inactive (witness)"
  },
  {
   "property": "C19",
   "status": "partial",
   "theorems": [
    "Pgkyl.C19_one_result_per_dataset_partial",
    "Pgkyl.C19_in_place",
    "Pgkyl.C19_output_tag_visited_later_counterexample"
   ],
   "note": "true unless the output tag is visited later in the same loop (witness)"
  },
  {
   "property": "C20",
   "status": "proved",
   "theorems": [
    "Pgkyl.C20_counters_describe_values",
    "Pgkyl.C20_bounds_are_extrema"
   ],
   "note": ""
  },
  {
   "property": "C21",
   "status": "proved",
   "theorems": [
    "Pgkyl.C21_metadata_not_shared",
    "Pgkyl.C21_starts_equal",
    "Pgkyl.C21_own_key"
   ],
   "note": "heap model with object references"
  },
  {
   "property": "C22",
   "status": "proved",
   "theorems": [
    "Pgkyl.C22_text_rows",
    "Pgkyl.C22_each_cell_once"
   ],
   "note": "exact arithmetic; number formatting not modelled; rectilinear grids"
  },
  {
   "property": "C23",
   "status": "partial",
   "theorems": [
    "Pgkyl.C23_txt_changes_only_grid_partial",
    "Pgkyl.C23_txt_counterexample",
    "Pgkyl.C23_second_txt_fails"
   ],
   "note": "false of the code for text output: the grid list is overwritten (witness); values, metadata and unshared grids are kept"
  },
  {
   "property": "C24",
   "status": "partial",
   "theorems": [
    "Pgkyl.C24_given_name_partial",
    "Pgkyl.C24_bare_extension_counterexample",
    "Pgkyl.C24_default_name"
   ],
   "note": "true unless the name given is exactly the extension (witness)"
  },
  {
   "property": "C25",
   "status": "partial",
   "theorems": [
    "Pgkyl.C25_one_tag_distinct_files_partial",
    "Pgkyl.C25_two_tags_counterexample"
   ],
   "note": "true for one tag; the index restarts in each tag so two tags collide (witness)"
  },
  {
   "property": "C26",
   "status": "proved",
   "theorems": [
    "Pgkyl.C26_expression_value",
    "Pgkyl.C26_unknown_token_rejected",
    "Pgkyl.C26_missing_operand_rejected"
   ],
   "note": "elementwise operators; exact commutativity of +, min, max assumed (the code swaps these operands); eval() tokens are a parameter"
  },
  {
   "property": "C27",
   "status": "proved",
   "theorems": [
    "Pgkyl.C27_dataset_by_dataset",
    "Pgkyl.C26_expression_value"
   ],
   "note": "all 23 modelled operators"
  },
  {
   "property": "C28",
   "status": "proved",
   "theorems": [
    "Pgkyl.C28_agreed_metadata",
    "Pgkyl.C28_order_independent"
   ],
   "note": ""
  },
  {
   "property": "C29",
   "status": "partial",
   "theorems": [
    "Pgkyl.C29_tag_only_adds",
    "Pgkyl.C29_several_add",
    "Pgkyl.C29_in_place_partial",
    "Pgkyl.C29_two_tags_counterexample",
    "Pgkyl.C29_inactive_counterexample"
   ],
   "note": "adding proved for every chain without scale_zi_axis (see C102); replacing in place is false of the code when the datasets read have several tags or some are inactive (witnesses)"
  },
  {
   "property": "C30",
   "status": "proved",
   "theorems": [
    "Pgkyl.C30_ev_weighted_sum",
    "Pgkyl.C30_ev_constant",
    "Pgkyl.C30_ev_linear",
    "Pgkyl.C30_ev_axis_order",
    "Pgkyl.C30_api_weighted_sum",
    "Pgkyl.C30_api_constant",
    "Pgkyl.C30_api_linear",
    "Pgkyl.C30_api_axis_order",
    "Pgkyl.C30_ev_command",
    "Pgkyl.C30_all_fails"
   ],
   "note": "exact arithmetic; 1-D coordinate arrays; non-negative axis numbers; C30_ev_command states it of the command, for any expression; the word all, which int and avg accept, cannot be typed as an operand (C30_all_fails)"
  },
  {
   "property": "C31",
   "status": "partial",
   "theorems": [
    "Pgkyl.C31_average_of_constant_partial",
    "Pgkyl.C31_average_of_constant_cells",
    "Pgkyl.IntegEx.C31_nodal_counterexample",
    "Pgkyl.C31_ev_command_partial"
   ],
   "note": "proved on cell-centred grids and on nodal grids whose first and last spacing agree; false on other nodal grids (witness: 5/4)"
  },
  {
   "property": "C32",
   "status": "partial",
   "theorems": [
    "Pgkyl.C32_collect_partial",
    "Pgkyl.C32_collect_period_partial",
    "Pgkyl.C32_collect_sum_partial",
    "Pgkyl.C32_zero_time_fails",
    "Pgkyl.C32_missing_time_fails",
    "Pgkyl.C32_collect_twice_fails"
   ],
   "note": "proved for frames with non-zero time; a frame whose time is 0 is collected at its frame number or position instead (C32_zero_time_fails)"
  },
  {
   "property": "C33",
   "status": "proved",
   "theorems": [
    "Pgkyl.C33_chunks",
    "Pgkyl.C33_times_partial"
   ],
   "note": ""
  },
  {
   "property": "C34",
   "status": "proved",
   "theorems": [
    "Pgkyl.C34_command",
    "Pgkyl.C34_ambiguous",
    "Pgkyl.C34_file",
    "Pgkyl.C34_nothing",
    "Pgkyl.C34_exhaustive"
   ],
   "note": ""
  },
  {
   "property": "C35",
   "status": "partial",
   "theorems": [
    "Pgkyl.C35_cuts",
    "Pgkyl.C35_varname",
    "Pgkyl.C35_varname_list",
    "Pgkyl.C35_c2p_partial",
    "Pgkyl.C35_c2p_vel_fails"
   ],
   "note": "when c2p-vel is given both locally and globally the local one is stored as c2p and no velocity mapping is used"
  },
  {
   "property": "C36",
   "status": "proved",
   "theorems": [
    "Pgkyl.C36_interpolate"
   ],
   "note": "exact arithmetic; all bases and orders with tables; at least two points per cell (C63)"
  },
  {
   "property": "C37",
   "status": "proved",
   "theorems": [
    "Pgkyl.C36_interpolate",
    "Pgkyl.C37_mapped_nodes"
   ],
   "note": "uniform grids; mapped 1-D axes"
  },
  {
   "property": "C38",
   "status": "partial",
   "theorems": [
    "Pgkyl.C38_serendipity",
    "Pgkyl.C38_maximal",
    "Pgkyl.C38_tensor_partial",
    "Pgkyl.C38_tensor_fails",
    "Pgkyl.C38_hybrid",
    "Pgkyl.C38_functions"
   ],
   "note": "the tensor table has wrong entries (C38_tensor_fails)"
  },
  {
   "property": "C39",
   "status": "partial",
   "theorems": [
    "Pgkyl.C39_differentiate_partial",
    "Pgkyl.C39_first_component_fails"
   ],
   "note": "true of components after the first; the first component is only half the derivative (C39_first_component_fails)"
  },
  {
   "property": "C40",
   "status": "proved",
   "theorems": [
    "Pgkyl.C40_five_moment",
    "Pgkyl.C40_energy",
    "Pgkyl.C40_mach"
   ],
   "note": "exact arithmetic over any field of characteristic 0; sqrt arbitrary"
  },
  {
   "property": "C41",
   "status": "partial",
   "theorems": [
    "Pgkyl.C41_ten_moment_pressure",
    "Pgkyl.C41_tensor_components",
    "Pgkyl.C41_pij_partial",
    "Pgkyl.C41_pij_fails",
    "Pgkyl.C41_mhd",
    "Pgkyl.C41_mhd_mach"
   ],
   "note": "get_pij raises ValueError whenever an axis of length 1 follows a longer one (C41_pij_fails); everything else proved for all shapes"
  },
  {
   "property": "C42",
   "status": "proved",
   "theorems": [
    "Pgkyl.C42_trace",
    "Pgkyl.C42_gyrotropic",
    "Pgkyl.C42_agyrotropy",
    "Pgkyl.C42_rescaling",
    "Pgkyl.C42_ten_moment_partial"
   ],
   "note": "the get_gkyl_10m_* wrappers inherit the shape restriction of get_pij"
  },
  {
   "property": "C43",
   "status": "partial",
   "theorems": [
    "Pgkyl.C43_projection_partial",
    "Pgkyl.C43_default_partial",
    "Pgkyl.C43_idempotent_partial",
    "Pgkyl.C43_linear_partial",
    "Pgkyl.C43_rescaling_partial",
    "Pgkyl.C43_perprotate_fails"
   ],
   "note": "parrotate proved; perprotate subtracts a (grid, values) pair and always fails (C43_perprotate_fails)"
  },
  {
   "property": "C44",
   "status": "partial",
   "theorems": [
    "Pgkyl.C44_magnitude",
    "Pgkyl.C44_positive",
    "Pgkyl.C44_energetics_partial",
    "Pgkyl.C44_energetics_parts_partial",
    "Pgkyl.C44_energetics_fails"
   ],
   "note": "energetics fails for six-component fields and for shapes where an axis of length 1 follows a longer one"
  },
  {
   "property": "C45",
   "status": "proved",
   "theorems": [
    "Pgkyl.C45_relative_change",
    "Pgkyl.C45_relative_to_component"
   ],
   "note": "exact arithmetic over any field"
  },
  {
   "property": "C46",
   "status": "partial",
   "theorems": [
    "Pgkyl.C46_blocks",
    "Pgkyl.C46_one_block",
    "Pgkyl.C46_particle_balance_partial",
    "Pgkyl.C46_particle_rel_error_partial",
    "Pgkyl.C46_energy_balance_partial",
    "Pgkyl.C46_energy_rel_error_partial",
    "Pgkyl.C46_balance_counts_blocks",
    "Pgkyl.C46_listed_blocks_fails",
    "Pgkyl.C46_named_files_fails"
   ],
   "note": "Naming any file of a species by its option ends every balance in an error, as the options are declared as repeatable and their values are tuples (C46_named_files_fails). The block list is read as documented, but the balances then use blocks 0..k-1 whatever the k listed ones: proved for lists that are a permutation of 0..k-1 with default file names, and the full claim refuted"
  },
  {
   "property": "C47",
   "status": "proved",
   "theorems": [
    "Pgkyl.C47_nodes",
    "Pgkyl.C47_equally_spaced",
    "Pgkyl.C47_increasing"
   ],
   "note": "exact arithmetic"
  },
  {
   "property": "C48",
   "status": "partial",
   "theorems": [
    "Pgkyl.C48_labels",
    "Pgkyl.C48_labels_uniform",
    "Pgkyl.C48_distinct_partial",
    "Pgkyl.C48_prefix_fails",
    "Pgkyl.C48_stored",
    "Pgkyl.C48_name_parts"
   ],
   "note": "names with equally many parts proved; a name that extends another one gets the same, empty label (C48_prefix_fails)"
  },
  {
   "property": "C49",
   "status": "proved",
   "theorems": [
    "Pgkyl.C49_single",
    "Pgkyl.C49_list",
    "Pgkyl.C49_slice",
    "Pgkyl.C49_no_files"
   ],
   "note": "an open end with no file at all is an IndexError"
  },
  {
   "property": "C50",
   "status": "proved",
   "theorems": [
    "Pgkyl.C50_layout",
    "Pgkyl.C50_rows",
    "Pgkyl.C50_cols",
    "Pgkyl.C50_subplots",
    "Pgkyl.C50_own_figure",
    "Pgkyl.C50_squeeze",
    "Pgkyl.C50_colorbar_panels_fails"
   ],
   "note": "also: the panels used by --subplots; colour bars are counted as panels when plotting repeatedly into one figure"
  },
  {
   "property": "C51",
   "status": "partial",
   "theorems": [
    "Pgkyl.C51_numeric_order_partial",
    "Pgkyl.C51_single",
    "Pgkyl.C51_mixed_fails"
   ],
   "note": "files with equally many name parts; a set with different numbers of parts is left unsorted (C51_mixed_fails)"
  },
  {
   "property": "C52",
   "status": "partial",
   "theorems": [
    "Pgkyl.C52_load_partial",
    "Pgkyl.C52_open_stop_fails",
    "Pgkyl.C52_mapped_selection_fails",
    "Pgkyl.C52_mapped_whole"
   ],
   "note": "proved for every selection except 'a:', which the code turns into a read beyond the end (refuted), and for uniform grids without ghost cells; with a mapping file every axis selection is a TypeError (proved)"
  },
  {
   "property": "C53",
   "status": "partial",
   "theorems": [
    "Pgkyl.C53_negative_stop_value",
    "Pgkyl.C53_select_negative_stop",
    "Pgkyl.C53_negative_stop_not_python"
   ],
   "note": "the property is false of the code: ':-1' keeps the last cell; the exact behaviour is proved"
  },
  {
   "property": "C54",
   "status": "partial",
   "theorems": [
    "Pgkyl.C54_open_stop_partial",
    "Pgkyl.C10_open_stop",
    "Pgkyl.C54_open_stop_mapped_fails",
    "Pgkyl.C54_open_stop_mapped_counterexample"
   ],
   "note": "True on rectilinear grids.  On mapped grids false for every axis with more cells than there are nodes along the first axis."
  },
  {
   "property": "C55",
   "status": "partial",
   "theorems": [
    "Pgkyl.C55_written_layout_partial",
    "Pgkyl.C55_size_entry_counterexample"
   ],
   "note": "true for one component; with several components the size entry counts components too (witness)"
  },
  {
   "property": "C56",
   "status": "partial",
   "theorems": [
    "Pgkyl.C56_numbers_only_rejected",
    "Pgkyl.C56_number_to_dataset_rejected",
    "Pgkyl.C26_expression_value"
   ],
   "note": "false of the code: negation proved; the true part is C26"
  },
  {
   "property": "C57",
   "status": "partial",
   "theorems": [
    "Pgkyl.C57_f_words_are_data",
    "Pgkyl.C26_unknown_token_rejected"
   ],
   "note": "true for words not starting with f; every word starting with f is read as f"
  },
  {
   "property": "C58",
   "status": "partial",
   "theorems": [
    "Pgkyl.C58_api_successive_partial",
    "Pgkyl.C58_ev_second_integration_fails",
    "Pgkyl.C58_command_fails"
   ],
   "note": "true of the function integrate; in ev a second int always fails (proved)"
  },
  {
   "property": "C59",
   "status": "proved",
   "theorems": [
    "Pgkyl.C59_files_in_order",
    "Pgkyl.C59_explicit_load_fails"
   ],
   "note": "an explicit load word is outside the statement; C59_explicit_load_fails shows what it does"
  },
  {
   "property": "C60",
   "status": "proved",
   "theorems": [
    "Pgkyl.C60_differentiate_exact"
   ],
   "note": "exact arithmetic; uniform grids; directions given explicitly"
  },
  {
   "property": "C61",
   "status": "partial",
   "theorems": [
    "Pgkyl.C61_nodal_interpolate_partial",
    "Pgkyl.C61_nodal_default_fails"
   ],
   "note": "with num_interp given; the documented default always raises"
  },
  {
   "property": "C62",
   "status": "partial",
   "theorems": [
    "Pgkyl.C62_nodal_differentiate_exact_partial",
    "Pgkyl.C62_nodal_gradient_fails"
   ],
   "note": "with a direction given; without one it always raises"
  },
  {
   "property": "C63",
   "status": "partial",
   "theorems": [
    "Pgkyl.C36_interpolate",
    "Pgkyl.C63_one_point_fails",
    "Pgkyl.C63_order_zero_fails"
   ],
   "note": "false of the code: one point per cell and order 0 fail"
  },
  {
   "property": "C64",
   "status": "proved",
   "theorems": [
    "Pgkyl.C64_nodal_constant"
   ],
   "note": "exact arithmetic"
  },
  {
   "property": "C65",
   "status": "proved",
   "theorems": [
    "Pgkyl.C65_orthonormal"
   ],
   "note": "to 1e-14, the accuracy of the decimal coefficients"
  },
  {
   "property": "C66",
   "status": "proved",
   "theorems": [
    "Pgkyl.C66_c2p_grid",
    "Pgkyl.C66_c2p_continuous",
    "Pgkyl.C66_c2p_vel"
   ],
   "note": "exact arithmetic; both kinds of mapped grids"
  },
  {
   "property": "C67",
   "status": "proved",
   "theorems": [
    "Pgkyl.C67_line",
    "Pgkyl.C67_contour",
    "Pgkyl.C67_mesh",
    "Pgkyl.C67_mesh_nodal",
    "Pgkyl.C67_three_dims_rejected",
    "Pgkyl.C67_mapped"
   ],
   "note": "exact arithmetic; GData input with one-dimensional axis arrays, and the positions on two-dimensional mapped grids"
  },
  {
   "property": "C68",
   "status": "partial",
   "theorems": [
    "Pgkyl.C68_global_range_partial",
    "Pgkyl.C68_user_limits",
    "Pgkyl.C68_when",
    "Pgkyl.C68_cutoff",
    "Pgkyl.C68_shift_fails"
   ],
   "note": "for zshift = 0; the range ignores zshift (refuted). --cutoffglobalrange gives the quantiles of the extreme values of the datasets (C68_cutoff)"
  },
  {
   "property": "C69",
   "status": "proved",
   "theorems": [
    "Pgkyl.C69_points",
    "Pgkyl.C69_order",
    "Pgkyl.C69_basis",
    "Pgkyl.C69_unknown_basis_rejected",
    "Pgkyl.C69_components"
   ],
   "note": "modal data; a stored order 0 counts as missing"
  },
  {
   "property": "C70",
   "status": "partial",
   "theorems": [
    "Pgkyl.Spectral.C70_spectrum_partial",
    "Pgkyl.Spectral.C70_frequencies",
    "Pgkyl.Spectral.C70_psd",
    "Pgkyl.Spectral.C70_nodal_fails",
    "Pgkyl.Spectral.C70_psd_two_dims_fails",
    "Pgkyl.Spectral.C70_source_grid_fails"
   ],
   "note": "proved for data with one grid point per value; with the usual grid of cell edges the frequencies are those of a grid with one point more (refuted); a two-dimensional power spectrum gets a third grid entry 0 (refuted); collapsed directions are removed from the input's own grid (refuted)"
  },
  {
   "property": "C71",
   "status": "partial",
   "theorems": [
    "Pgkyl.Spectral.C71_isotropic_partial",
    "Pgkyl.Spectral.C71_first_bin_fails"
   ],
   "note": "proved for every bin but the first, at least four points per direction; in the first bin the modes below half the bin width are added but not counted (refuted)"
  },
  {
   "property": "C72",
   "status": "proved",
   "theorems": [
    "Pgkyl.Spectral.C72_filter",
    "Pgkyl.Spectral.C72_filter_identity",
    "Pgkyl.Spectral.C72_filter_real"
   ],
   "note": "exact arithmetic, cut-off given"
  },
  {
   "property": "C73",
   "status": "partial",
   "theorems": [
    "Pgkyl.Params.C73_frequencies",
    "Pgkyl.Params.C73_thermal_partial",
    "Pgkyl.Params.C73_thermal_fails",
    "Pgkyl.Params.C73_missing_fails"
   ],
   "note": "frequencies, Alfven speed and inertial length proved for all masses; thermal quantities only for mass 1: the code divides by the mass twice (refuted for any other mass); a dataset without the metadata key is a KeyError instead of using the caller's value (refuted)"
  },
  {
   "property": "C74",
   "status": "proved",
   "theorems": [
    "Pgkyl.Kinetic.C74_laguerre"
   ],
   "note": "exact arithmetic, one space and one parallel velocity dimension"
  },
  {
   "property": "C75",
   "status": "partial",
   "theorems": [
    "Pgkyl.Kinetic.C75_frame_partial",
    "Pgkyl.Kinetic.C75_uniform",
    "Pgkyl.Kinetic.C75_dims_fails"
   ],
   "note": "proved for one space dimension; two and three end in an IndexError (refuted)"
  },
  {
   "property": "C76",
   "status": "partial",
   "theorems": [
    "Pgkyl.Kinetic.C76_current_partial",
    "Pgkyl.Kinetic.C76_charge_fails",
    "Pgkyl.Kinetic.C76_qbym_fails",
    "Pgkyl.Kinetic.C76_sum_fails"
   ],
   "note": "the factor is always -1 (refuted for other charges); --qbym always fails; nothing is summed (refuted)"
  },
  {
   "property": "C77",
   "status": "partial",
   "theorems": [
    "Pgkyl.Kinetic.C77_rows_partial",
    "Pgkyl.Kinetic.C77_first_row_fails"
   ],
   "note": "rows are orthogonal and the last two of unit length for vectors without a zero component; the first has squared length 3 (refuted)"
  },
  {
   "property": "C78",
   "status": "partial",
   "theorems": [
    "Pgkyl.Kinetic.C78_in_place_partial",
    "Pgkyl.Kinetic.C78_tag_fails"
   ],
   "note": "proved without a tag; with a tag the result is lost (refuted)"
  },
  {
   "property": "C79",
   "status": "partial",
   "theorems": [
    "Pgkyl.Fit.C79_best_fit",
    "Pgkyl.Fit.C79_mean",
    "Pgkyl.Fit.C79_exact_partial",
    "Pgkyl.Fit.C79_short_fails",
    "Pgkyl.Fit.C79_last_point_fails"
   ],
   "note": "curve_fit is a parameter; series of fewer than 20 points are rejected without min_N, and the last point is never used (refuted)"
  },
  {
   "property": "C80",
   "status": "partial",
   "theorems": [
    "Pgkyl.Fit.C80_values_partial",
    "Pgkyl.Fit.C80_alias_fails",
    "Pgkyl.Fit.C80_root_fails",
    "Pgkyl.Fit.C80_two_dims_fails",
    "Pgkyl.Fit.C80_offset_fails"
   ],
   "note": "what the returned array holds is proved for series from frame 0 in three dimensions; the energy is overwritten by its rate, has no factor 1/2, the root name is ignored, two-dimensional data and series from frame 2 on fail (refuted)"
  },
  {
   "property": "C81",
   "status": "partial",
   "theorems": [
    "Pgkyl.Anim.C81_frames_partial",
    "Pgkyl.Anim.C81_same_digit_fails",
    "Pgkyl.Anim.C81_single_frame_fails",
    "Pgkyl.Anim.C81_single_file_fails",
    "Pgkyl.Anim.C81_tags_fails"
   ],
   "note": "proved for one tag, all active, and frame numbers that do not all start with the same digit; otherwise wrong numbers or an error (refuted)"
  },
  {
   "property": "C82",
   "status": "proved",
   "theorems": [
    "Pgkyl.Anim.C82_pictures",
    "Pgkyl.Anim.C82_distinct_files"
   ],
   "note": ""
  },
  {
   "property": "C83",
   "status": "partial",
   "theorems": [
    "Pgkyl.Anim.C83_limits_partial",
    "Pgkyl.Anim.C83_cutoff",
    "Pgkyl.C83_quantiles",
    "Pgkyl.Anim.C83_grouptags_fails"
   ],
   "note": "proved without --grouptags; with it the limits of the user are replaced (refuted)"
  },
  {
   "property": "C84",
   "status": "partial",
   "theorems": [
    "Pgkyl.Anim.C84_films_partial",
    "Pgkyl.Anim.C84_saveframes_fails",
    "Pgkyl.Anim.C84_screen_fails"
   ],
   "note": "proved for films under the default names; single frames of different tags overwrite each other, and on the screen all figures have the limits of the last tag (refuted)"
  },
  {
   "property": "C85",
   "status": "partial",
   "theorems": [
    "Pgkyl.Anim.C85_blocks_partial",
    "Pgkyl.Anim.C85_float_partial",
    "Pgkyl.Anim.C85_each_once",
    "Pgkyl.Anim.C85_use_fails"
   ],
   "note": "proved under the conditions of C81, with fixed limits and with --float; with --use a frame without a dataset of the tag ends in an error (refuted)"
  },
  {
   "property": "C86",
   "status": "partial",
   "theorems": [
    "Pgkyl.V2c.C86_columns",
    "Pgkyl.V2c.C86_mismatch",
    "Pgkyl.V2c.C86_store_partial",
    "Pgkyl.V2c.C86_tag",
    "Pgkyl.V2c.C86_store_fails"
   ],
   "note": "Proved for result tags that are not among the later tags of the visit. The code fails otherwise: the new datasets are then visited, switched off and converted again (C86_store_fails)."
  },
  {
   "property": "C87",
   "status": "partial",
   "theorems": [
    "Pgkyl.V2c.C87_range_partial",
    "Pgkyl.V2c.C87_single_partial",
    "Pgkyl.V2c.C87_list_fails",
    "Pgkyl.V2c.C87_clip_fails"
   ],
   "note": "Ranges with positive step and single numbers are proved. Comma lists always end in an AttributeError (np.int), and bounds beyond the last column are not clipped but lead to an IndexError."
  },
  {
   "property": "C88",
   "status": "partial",
   "theorems": [
    "Pgkyl.V2c.C88_point",
    "Pgkyl.V2c.C88_stroke_partial",
    "Pgkyl.V2c.C88_stroke_fails",
    "Pgkyl.V2c.C88_stuck_fails"
   ],
   "note": "The marked positions are proved for all frame counts; the stroke is right without --numframes only: otherwise the velocity comes from row i instead of the marked row. With more frames than positions all frames show the first position."
  },
  {
   "property": "C89",
   "status": "partial",
   "theorems": [
    "Pgkyl.Multi.C89_one_line_partial",
    "Pgkyl.Multi.C89_frames_fails",
    "Pgkyl.Multi.C89_small_fails",
    "Pgkyl.Multi.C89_shifted_fails",
    "Pgkyl.Multi.C89_integer_fails"
   ],
   "note": "Proved for one frame, blocks that share their lower edge along the row, corners that differ by more than the tolerance of np.isclose, and a coordinate that does not look like an index. Otherwise the code fails: with --multiframe later blocks come from the last frame; on grids below 1e-8, and where the next block has another lower edge, the line ends early; an integer is a coordinate for finding the block but an index within it."
  },
  {
   "property": "C90",
   "status": "partial",
   "theorems": [
    "Pgkyl.C90_euler_tag",
    "Pgkyl.C90_euler_in_place",
    "Pgkyl.C90_mhd_tag",
    "Pgkyl.C90_mhd_in_place",
    "Pgkyl.C90_ten_tag_partial",
    "Pgkyl.C90_ten_in_place_partial",
    "Pgkyl.C90_tensor_fails",
    "Pgkyl.C90_magsq"
   ],
   "note": "Proved in full for euler, mhd and magsq. For tenmoment the pressure tensor needs data without an axis of length 1 behind a longer one; otherwise get_p_ij raises an error (C90_tensor_fails)."
  },
  {
   "property": "C91",
   "status": "proved",
   "theorems": [
    "Pgkyl.C91_grid_tag",
    "Pgkyl.C91_grid_in_place"
   ],
   "note": ""
  },
  {
   "property": "C92",
   "status": "partial",
   "theorems": [
    "Pgkyl.C92_velocity",
    "Pgkyl.C92_unpaired_fails",
    "Pgkyl.C92_bparrotate",
    "Pgkyl.C92_rotate_fails",
    "Pgkyl.C92_bperprotate_fails",
    "Pgkyl.C92_agyro",
    "Pgkyl.C92_mom_agyro_partial",
    "Pgkyl.C92_mom_agyro_fails",
    "Pgkyl.C92_energetics_partial",
    "Pgkyl.C92_rotate_nothing"
   ],
   "note": "velocity, bparrotate and agyro are proved. parrotate and perprotate always fail (arguments of push swapped), bperprotate fails on rectilinear grids, mom_agyro does not offer the measure of Swisdak under a name that works, energetics needs seven field components. Datasets without a partner are dropped and switched off."
  },
  {
   "property": "C93",
   "status": "partial",
   "theorems": [
    "Pgkyl.C93_in_place_partial",
    "Pgkyl.C93_tag_fails",
    "Pgkyl.C93_reference_fails"
   ],
   "note": "Right in place when no active dataset follows the reference. With a tag (the default) the command always raises an error; in place, datasets after the reference are compared with zero, since the reference has been replaced by then."
  },
  {
   "property": "C94",
   "status": "partial",
   "theorems": [
    "Pgkyl.C94_interpolate_partial",
    "Pgkyl.C94_interpolate_in_place",
    "Pgkyl.C94_nodal_fails",
    "Pgkyl.C94_unknown_rejected"
   ],
   "note": "Proved for modal data. The nodal option (-b ns) is rejected for every dataset whose metadata do not say explicitly that the data are not modal (C94_nodal_fails)."
  },
  {
   "property": "C95",
   "status": "partial",
   "theorems": [
    "Pgkyl.C95_differentiate_partial",
    "Pgkyl.C95_differentiate_in_place_partial",
    "Pgkyl.C95_other_fields_fails"
   ],
   "note": "Only the first field is differentiated; the other fields are dropped (C95_other_fields_fails)."
  },
  {
   "property": "C96",
   "status": "partial",
   "theorems": [
    "Pgkyl.C96_integrate_partial",
    "Pgkyl.C96_integrate_in_place",
    "Pgkyl.C96_axis_range_fails"
   ],
   "note": "Proved for lists of axes. A range of axes a:b, which the code parses, always ends in an error (C96_axis_range_fails)."
  },
  {
   "property": "C97",
   "status": "proved",
   "theorems": [
    "Pgkyl.C97_select",
    "Pgkyl.C97_select_in_place"
   ],
   "note": "Rectilinear grids, without --multiblock (see C89 for that)."
  },
  {
   "property": "C98",
   "status": "proved",
   "theorems": [
    "Pgkyl.C98_grad",
    "Pgkyl.C98_grad2",
    "Pgkyl.C98_exact_for_quadratics",
    "Pgkyl.C98_nodal_fails",
    "Pgkyl.C98_short_axis_fails",
    "Pgkyl.C98_grad_command",
    "Pgkyl.C98_grad2_command"
   ],
   "note": "np.gradient (edge_order 2) modelled from its documentation; the rejected inputs are C98_nodal_fails and C98_short_axis_fails"
  },
  {
   "property": "C99",
   "status": "partial",
   "theorems": [
    "Pgkyl.C99_div",
    "Pgkyl.C99_curl_line_partial",
    "Pgkyl.C99_curl_plane_two_partial",
    "Pgkyl.C99_curl_plane_partial",
    "Pgkyl.C99_curl_volume_fails",
    "Pgkyl.C99_div_command",
    "Pgkyl.C99_curl_command_partial",
    "Pgkyl.C99_curl_two_command_partial",
    "Pgkyl.C99_curl_line_command_partial"
   ],
   "note": "on three axes curl always ends with an UnboundLocalError (C99_curl_volume_fails)"
  }
 ]
}