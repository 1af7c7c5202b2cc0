{"id": "C01", "title": "Saving to .gkyl and loading back is lossless", "statement": "If a dataset is saved with GData.write(extension='gkyl') and the resulting file is opened with GData(file), the loaded dataset has the same number of dimensions, the same cells, the same component count, bit-identical lower/upper bounds and bit-identical values in the same order.", "quantifier": "every dataset: any number of dimensions, any cell counts, any component count >= 1, any 64-bit float patterns (including NaN/inf/-0) in values and bounds, sizes below 2^63", "why_tests_cant": "the claim ranges over all shapes and all bit patterns; a test fixes one file", "anchors": ["src/postgkyl/data/gdata.py:GData.write", "src/postgkyl/data/gkyl_reader.py:GkylReader.preload,load,_read_header,_read_t1t3_v1_domain,_read_t1_v1_data"]}
{"id": "C02", "title": "A well-formed single-range (type 1) file is read exactly", "statement": "Loading a file laid out as the documented version-1 field format (magic, version, type 1, meta block of any length and content, real type, dimensions, bounds, element size, size, data) yields exactly the cells, component count and data stored in it; the documented 8-byte bounds are honoured for real type 2.", "quantifier": "every file content conforming to the documented layout", "why_tests_cant": "all meta sizes, dimension counts, data contents; offsets are computed by running arithmetic that a sample can hit by luck", "anchors": ["src/postgkyl/data/gkyl_reader.py:format comment lines 9-78,GkylReader.preload,load"]}
{"id": "C03", "title": "Partial load equals slicing the full load (single-range files)", "statement": "Opening a field file with z0..z5/comp restrictions returns exactly the sub-array that the same index ranges select from the fully loaded array: integer 'i' keeps index i, 'a:b' keeps a..b-1, open ends mean the array end, and a negative stop counts from the end as in Python.", "quantifier": "every field file, every in-range combination of restrictions on every axis and on the components", "why_tests_cant": "the reader walks the file by recursive offset arithmetic over an arbitrary number of axes; only a proof covers all dimension counts and all offset combinations", "anchors": ["src/postgkyl/data/gkyl_reader.py:GkylReader._read_t1t3_v1_domain,_get_block,_get_data"]}
{"id": "C04", "title": "Partial load reports the bounds of the loaded piece", "statement": "After a partial load the reported cells, bounds and grid are those of the selected cells: the grid nodes of the partially loaded dataset are exactly the corresponding nodes of the fully loaded grid.", "quantifier": "every field file with non-empty axes and every in-range restriction, in exact arithmetic", "why_tests_cant": "arithmetic identity over all bounds/offsets", "anchors": ["src/postgkyl/data/gkyl_reader.py:GkylReader._read_t1t3_v1_domain,load"]}
{"id": "C05", "title": "Multi-range (type 3) files are assembled correctly", "statement": "Loading a file written by several ranks gives, at every cell, the data stored for that cell by the last range in the file that covers it (so for ranges that tile the domain: the unique one), and zero for cells no range covers.", "quantifier": "every number, order and shape of ranges inside the domain, every dimension count", "why_tests_cant": "quantifies over all decompositions of the domain", "anchors": ["src/postgkyl/data/gkyl_reader.py:GkylReader._read_t3_v1_data,_get_data"]}
{"id": "C06", "title": "Partial load of a multi-range file equals slicing the full load", "statement": "Opening a multi-range file with axis/component restrictions returns exactly the slice of the fully assembled array, whichever ranges intersect the requested window.", "quantifier": "every decomposition and every in-range restriction", "why_tests_cant": "the number of ways a window can straddle ranges is unbounded", "anchors": ["src/postgkyl/data/gkyl_reader.py:GkylReader._get_data,_get_block,_read_t3_v1_data"]}
{"id": "C07", "title": "Dynvector chunks are concatenated in order without loss", "statement": "Loading a time-trace (type 2) file that was appended to in any number of chunks yields the concatenation of the chunks' time stamps and rows, in file order; a chunk of another type is rejected.", "quantifier": "every list of chunks (any lengths, any component count) of double-precision data", "why_tests_cant": "restart histories are unbounded", "anchors": ["src/postgkyl/data/gkyl_reader.py:GkylReader._read_t2_v1"]}
{"id": "C08", "title": "File metadata reaches the dataset under stable names", "statement": "After loading a file, every metadata key of the file is available with its value, where the two spellings polyOrder/poly_order and basisType/basis_type are both available as poly_order and basis_type, and is_modal is set exactly when a basis type was given.", "quantifier": "every metadata dictionary and every prior context", "why_tests_cant": "all dictionaries, all key orders", "anchors": ["src/postgkyl/data/gkyl_reader.py:GkylReader._read_header"]}
{"id": "C09", "title": "Selecting by coordinate picks the cell containing it", "statement": "Selecting with a float coordinate on a cell-centred axis returns the cell whose nodes bracket the coordinate (lower node < c <= upper node), the first cell for coordinates at or below the lower bound and the last cell for coordinates above the upper bound; on a nodal axis it returns the first node not below the coordinate.", "quantifier": "every strictly increasing grid (uniform or not) with at least two nodes and every coordinate", "why_tests_cant": "binary search over all sorted arrays and all keys", "anchors": ["src/postgkyl/data/idx_parser.py:_find_nearest_index,_find_cell_index"]}
{"id": "C10", "title": "Index strings mean what the documentation says", "statement": "'i' selects index i, 'a:b' selects a..b-1, an empty start/stop means the array end, and any string with a coordinate (non-digit) part is looked up by value; malformed strings are rejected rather than silently misread.", "quantifier": "every string and every grid", "why_tests_cant": "all strings", "anchors": ["src/postgkyl/data/idx_parser.py:idx_parser,_string_to_index"]}
{"id": "C11", "title": "select keeps grid and values consistent", "statement": "For every accepted in-range selection, the returned values are the requested sub-array, each returned cell keeps the two grid nodes that bounded it in the source (one node for nodal data), and a coordinate axis that was cell-centred stays cell-centred (nodes = cells + 1).", "quantifier": "every dataset (any dimension count), every subset of axes selected by integer or slice", "why_tests_cant": "all shapes and ranges", "anchors": ["src/postgkyl/data/select.py:select"]}
{"id": "C12", "title": "select without overwrite has no side effect", "statement": "select(overwrite=False) leaves the source dataset's grid, values and metadata unchanged; with overwrite=True the dataset afterwards holds exactly the returned grid and values and its metadata describes them.", "quantifier": "every dataset and selection", "why_tests_cant": "absence of side effects for all inputs", "anchors": ["src/postgkyl/data/select.py:select", "src/postgkyl/data/gdata.py:GData.push"]}
{"id": "C13", "title": "Selections on different axes are independent and compose", "statement": "Selecting on axis a and then on axis b gives the same dataset as selecting both at once or in the other order; selecting slice [a:b] and then [c:d] equals selecting [a+c:a+d].", "quantifier": "all datasets, all in-range integer/slice selections", "why_tests_cant": "all combinations", "anchors": ["src/postgkyl/data/select.py:select"]}
{"id": "C14", "title": "Component selection keeps exactly the requested components in order", "statement": "comp=i keeps component i, comp='a:b' keeps a..b-1, comp='i,j,..' keeps the listed components in the listed order; the grid is untouched and a component axis is always present in the result.", "quantifier": "every dataset and component specification", "why_tests_cant": "all shapes and lists", "anchors": ["src/postgkyl/data/select.py:select"]}
{"id": "C15", "title": "The dataset store is an insertion-ordered multimap", "statement": "After any sequence of adds and cleans, get_dataset(i, tag) is the i-th dataset added under that tag since the last clean, get_num_datasets counts them, and tags are listed in order of first use.", "quantifier": "every history of operations", "why_tests_cant": "histories are unbounded", "anchors": ["src/postgkyl/commands/data_space.py:DataSpace.add,get_dataset,get_num_datasets,clean,tag_iterator"]}
{"id": "C16", "title": "Iterating visits exactly the requested datasets once, in order", "statement": "iterator(tag, only_active, select) yields exactly the (active, selected) datasets of the requested tags, tags in the requested order (or first-use order), datasets in insertion order, each once; the enumeration index is the dataset's position in its tag.", "quantifier": "every store content, activation pattern, tag list and selection", "why_tests_cant": "all states", "anchors": ["src/postgkyl/commands/data_space.py:DataSpace.iterator"]}
{"id": "C17", "title": "activate_all / deactivate_all do what they say", "statement": "deactivate_all makes every dataset (of the tag) inactive and leaves the rest alone; activate_all makes every dataset (of the tag) active.", "quantifier": "every store state", "why_tests_cant": "all states", "anchors": ["src/postgkyl/commands/data_space.py:DataSpace.activate_all,deactivate_all"]}
{"id": "C18", "title": "activate/deactivate commands set exactly the requested status", "statement": "After 'activate -t T -i I' exactly the selected datasets are active (with --focused: others keep their status); after 'deactivate -t T -i I' the selected datasets are inactive, and the others are active unless --focused, in which case they keep their status.", "quantifier": "every store state and selection", "why_tests_cant": "all states", "anchors": ["src/postgkyl/commands/status.py:activate,deactivate"]}
{"id": "C19", "title": "Commands with an output tag process each input dataset exactly once", "statement": "A command that loops over the active datasets and adds one result per dataset under --tag produces exactly one result per originally active input dataset, in order, whatever the tag name.", "quantifier": "every store content and every output tag", "why_tests_cant": "depends on interaction of iteration and insertion for all stores", "anchors": ["src/postgkyl/commands/data_space.py:DataSpace.iterator,add", "src/postgkyl/commands/euler.py:euler", "src/postgkyl/commands/mhd.py:mhd"]}
{"id": "C20", "title": "Dataset metadata always describes the data", "statement": "After any sequence of push/set_values/set_grid calls ending in push (and with set_values alone for cells/components), num_cells, num_comps, num_dims and bounds equal the shape of the current values and the extrema of the current grid.", "quantifier": "every history of operations from a new dataset with any initial metadata", "why_tests_cant": "unbounded histories", "anchors": ["src/postgkyl/data/gdata.py:GData.push,set_values,set_grid,get_num_cells,get_num_comps,get_num_dims,get_bounds"]}
{"id": "C21", "title": "Datasets derived from one another do not share metadata", "statement": "A dataset created with ctx=other.ctx starts with the same metadata, and no later operation on either changes the metadata reported by the other; an assignment to a key changes what the dataset reports for this key only.", "quantifier": "every interleaving of operations on the two datasets", "why_tests_cant": "interleavings are unbounded", "anchors": ["src/postgkyl/data/gdata.py:GData.__init__,push"]}
{"id": "C22", "title": "Text output lists every cell exactly once, in C order, with its own coordinates", "statement": "write(extension='txt') produces one line per cell, in row-major order; the line for a cell holds that cell's centre coordinates and all its components, and every cell appears exactly once.", "quantifier": "every dimension count and shape", "why_tests_cant": "row/multi-index bijection for all shapes", "anchors": ["src/postgkyl/data/gdata.py:GData.write"]}
{"id": "C23", "title": "Writing a dataset does not change it", "statement": "After write() in any format the dataset's grid, values and metadata are as before, so writing twice produces identical files.", "quantifier": "every dataset and format", "why_tests_cant": "absence of side effects", "anchors": ["src/postgkyl/data/gdata.py:GData.write"]}
{"id": "C24", "title": "Output file naming", "statement": "write(out_name) creates a file whose name ends with '.<extension>', adding the extension only when it is not already there; without out_name the name is derived from the input file and never equals it.", "quantifier": "every file name and extension", "why_tests_cant": "all strings", "anchors": ["src/postgkyl/data/gdata.py:GData.write"]}
{"id": "C25", "title": "The write command never overwrites one result with another", "statement": "When the write command saves several active datasets each goes to its own file.", "quantifier": "every store content", "why_tests_cant": "all stores/tags", "anchors": ["src/postgkyl/commands/write.py:write"]}
{"id": "C26", "title": "ev evaluates reverse Polish expressions correctly", "statement": "ev applied to the postfix form of an arithmetic expression yields the value of that expression, with operands in the written order ('a b -' is a-b, 'a b /' is a/b, 'a b pow' is a^b), for expressions that name at least one dataset and in which the base of a power names one if the exponent does; unknown tokens and missing operands are rejected; surplus operands leave the last one as the result.", "quantifier": "every expression tree", "why_tests_cant": "all expressions", "anchors": ["src/postgkyl/commands/ev.py:ev,_data,_command", "src/postgkyl/commands/ev_cmd.py:cmds"]}
{"id": "C27", "title": "ev applies operators dataset by dataset", "statement": "When operands hold several datasets the operator is applied to the k-th of each; a shorter operand is extended by repeating its last dataset (so a single dataset or constant combines with all), and the result has as many datasets as the longest operand.", "quantifier": "every operator and all operand dataset counts >= 1", "why_tests_cant": "all list lengths", "anchors": ["src/postgkyl/commands/ev.py:_command"]}
{"id": "C28", "title": "ev keeps exactly the metadata on which all operands agree", "statement": "A metadata key is present in the result iff some operand has it and all operands that have it agree on its value; the value is the agreed one. The outcome does not depend on operand order.", "quantifier": "every list of operand metadata dictionaries", "why_tests_cant": "all dictionaries", "anchors": ["src/postgkyl/commands/ev.py:_command,_compare"]}
{"id": "C29", "title": "ev stores its result without touching unrelated datasets", "statement": "With --tag, or when several datasets are involved, ev adds new datasets and leaves the values of all existing ones unchanged; with a single dataset in the chain and no tag it replaces exactly the datasets that were read.", "quantifier": "every store and chain", "why_tests_cant": "all stores", "anchors": ["src/postgkyl/commands/ev.py:ev"]}
{"id": "C30", "title": "Integration is the weighted sum over cells", "statement": "integrate over a set of axes returns, for each remaining index and component, the sum over the integrated cells of value times the product of cell widths; it is linear in the values and independent of the order in which the axes are named; integrating a constant c gives c times the covered length/area/volume.", "quantifier": "every shape, every (non-uniform) grid, every set of axes", "why_tests_cant": "all shapes, axis sets", "anchors": ["src/postgkyl/tools/calculus.py:integrate", "src/postgkyl/commands/ev_cmd.py:integrate"]}
{"id": "C31", "title": "Averaging a constant gives the constant", "statement": "The 'avg' operation of ev over any axis of a constant field returns the constant.", "quantifier": "every grid (cell-centred or nodal, uniform or not)", "why_tests_cant": "all grids", "anchors": ["src/postgkyl/commands/ev_cmd.py:integrate,average,length"]}
{"id": "C32", "title": "collect orders frames by time and keeps time and data together", "statement": "The collected dataset's first coordinate is the sorted list of the input time stamps and the k-th slice of its values is the values of an input dataset with that time stamp; no frame is lost or duplicated.", "quantifier": "every set of active datasets with times", "why_tests_cant": "all permutations", "anchors": ["src/postgkyl/commands/collect.py:collect"]}
{"id": "C33", "title": "collect --chunk partitions the datasets", "statement": "With --chunk n the active datasets are split, in order, into consecutive groups of n (the last possibly shorter), one output dataset per group.", "quantifier": "every number of datasets and every n >= 1", "why_tests_cant": "all n", "anchors": ["src/postgkyl/commands/collect.py:collect"]}
{"id": "C34", "title": "Command names resolve unambiguously", "statement": "A word on the command line that is exactly a command runs that command; otherwise, if it abbreviates exactly one command it runs that one; if it abbreviates several it is rejected; otherwise, if it matches files they are loaded; otherwise it is rejected.", "quantifier": "every command table, word and file system", "why_tests_cant": "all words", "anchors": ["src/postgkyl/pgkyl.py:PgkylCommandGroup.get_command"]}
{"id": "C35", "title": "Options given to a load override the global ones", "statement": "For each of z0..z5, component, varname, c2p and c2p-vel: the value used for a loaded file is the local option if given, else the global one, else the default.", "quantifier": "every combination of option values", "why_tests_cant": "all values", "anchors": ["src/postgkyl/commands/load.py:load,_pick_cut"]}
{"id": "C36", "title": "Interpolation fills every output point exactly once with the right cell's expansion", "statement": "interpolate returns an array with num_interp points per cell and axis in which the point i of cell c is the basis expansion of cell c's coefficients evaluated at local point i; no output entry is left unset.", "quantifier": "every dimension count, cell counts, basis, order and coefficients, every number of interpolation points from two on (a single point is the subject of C63)", "why_tests_cant": "index arithmetic for all shapes", "anchors": ["src/postgkyl/data/dg.py:_interpOnMesh,GInterpModal.interpolate"]}
{"id": "C37", "title": "Interpolated values sit at the centres of the output cells", "statement": "The k-th interpolated value along an axis is the expansion evaluated at the physical midpoint of the k-th cell of the returned grid, on uniform input grids; for mapped 1D grids the returned nodes subdivide each input cell into equal parts.", "quantifier": "every uniform grid, every number of points, every cell", "why_tests_cant": "all indices", "anchors": ["src/postgkyl/data/dg.py:_makeMesh,_make1Dgrids", "src/postgkyl/data/computeInterpolationMatrices.py:createInterpMatrix"]}
{"id": "C38", "title": "The basis size tables are right", "statement": "The number of coefficients assumed for each dimension, order and basis family is the dimension of that polynomial space (tensor (p+1)^d, maximal order C(d+p,p), serendipity superlinear-degree count).", "quantifier": "all supported dimensions and orders (finite table)", "why_tests_cant": "stated for all entries against independent formulas, not sampled", "anchors": ["src/postgkyl/data/dg.py:num_nodesSerendipity,num_nodesMaximal,num_nodesTensor,_getnum_nodes"]}
{"id": "C39", "title": "differentiate scales every direction by 2/dx", "statement": "differentiate(direction=None) returns, in component i, the same values as differentiate(direction=i).", "quantifier": "every dataset", "why_tests_cant": "all data", "anchors": ["src/postgkyl/data/dg.py:GInterpModal.differentiate"]}
{"id": "C40", "title": "Five-moment primitive variables invert the conserved ones", "statement": "For a five-moment state built from density, velocity and pressure, get_density, get_vi, get_p return them; kinetic energy plus p/(gamma-1) is the total energy; the Mach number times the sound speed is the flow speed.", "quantifier": "every state with non-zero density, every gamma != 1", "why_tests_cant": "all reals", "anchors": ["src/postgkyl/tools/prim_vars.py"]}
{"id": "C41", "title": "Ten-moment and MHD primitive variables invert the conserved ones", "statement": "For a ten-moment state built from density, velocity and pressure tensor, get_pij returns the tensor and get_p a third of its trace, for data of every shape; for an MHD state built from (rho, v, p, B), get_mhd_p returns p.", "quantifier": "every state with non-zero density; every array shape", "why_tests_cant": "all reals, all shapes", "anchors": ["src/postgkyl/tools/prim_vars.py"]}
{"id": "C42", "title": "Parallel and perpendicular pressures", "statement": "p_par + 2 p_perp equals the trace of the pressure tensor; for a gyrotropic tensor they return its parallel and perpendicular parts and both agyrotropy measures vanish; p_par does not depend on the magnitude or sign of B.", "quantifier": "every symmetric tensor and non-zero field", "why_tests_cant": "all reals", "anchors": ["src/postgkyl/tools/pressure_diagnostics.py"]}
{"id": "C43", "title": "Rotation to field-parallel/perpendicular parts is an orthogonal decomposition", "statement": "parrotate returns the projection of u on v: it is parallel to v, idempotent, linear in u and invariant under rescaling of v; perprotate returns u minus it, orthogonal to v.", "quantifier": "all vectors u and non-zero v", "why_tests_cant": "all reals", "anchors": ["src/postgkyl/tools/parrotate.py:parrotate", "src/postgkyl/tools/perprotate.py:perprotate"]}
{"id": "C44", "title": "Squared magnitude and energy sums", "statement": "mag_sq is the sum of squares of the selected components (non-negative, zero only for the zero vector); the total returned by energetics is the sum of the parts it returns.", "quantifier": "all fields, all component ranges", "why_tests_cant": "all reals and ranges", "anchors": ["src/postgkyl/tools/mag_sq.py:mag_sq", "src/postgkyl/tools/energetics.py:energetics"]}
{"id": "C45", "title": "Relative change", "statement": "rel_change(a,b) is (b-a)/a pointwise: zero iff equal, and b is recovered as a*(1+r).", "quantifier": "all fields with non-zero reference", "why_tests_cant": "all reals", "anchors": ["src/postgkyl/tools/rel_change.py:rel_change"]}
{"id": "C46", "title": "Multiblock selections address the blocks the user listed", "statement": "For -m with a comma list or a slice the blocks used are exactly those listed; balances sum over exactly those blocks, species and boundaries.", "quantifier": "every block list", "why_tests_cant": "all lists", "anchors": ["src/postgkyl/utils/gk_utils.py:get_block_indices,parse_slice_string", "src/postgkyl/commands/gk_particle_balance.py", "src/postgkyl/commands/gk_energy_balance.py"]}
{"id": "C47", "title": "Cell centres are the midpoints of the reconstructed nodes", "statement": "The nodal grid built from mapped cell centres has one more point than cells; the first and last centres are midpoints of their cells and, for equally spaced centres, every centre is and the spacing is preserved.", "quantifier": "every array of at least two centres", "why_tests_cant": "all lengths", "anchors": ["src/postgkyl/commands/gk_distf.py:_convert_cell_centered_to_nodal"]}
{"id": "C48", "title": "Automatic labels", "statement": "set_unique_labels gives each dataset the '_'-joined name parts that are not common to all files; in particular files with equally many parts and different names get different labels.", "quantifier": "every list of file names", "why_tests_cant": "all names", "anchors": ["src/postgkyl/commands/data_space.py:DataSpace.set_unique_labels"]}
{"id": "C49", "title": "gk_distf loads exactly the requested frames", "statement": "--frame 'n' loads n, 'a,b,c' loads those in that order, 'a:b:s' loads exactly the available frames a, a+s, ... below b in increasing order, open ends meaning all available.", "quantifier": "every set of available files and every frame specification", "why_tests_cant": "all sets", "anchors": ["src/postgkyl/commands/gk_distf.py:gk_distf"]}
{"id": "C50", "title": "Subplot grids have room for every panel", "statement": "The automatically chosen rows x columns is at least the number of panels and never has an empty row.", "quantifier": "every number of panels", "why_tests_cant": "all n", "anchors": ["src/postgkyl/output/plot.py:plot"]}
{"id": "C51", "title": "Natural ordering of diagnostics pieces", "statement": "Files/variables with numeric suffixes are processed in numerical order of the suffix.", "quantifier": "every set of names", "why_tests_cant": "all names", "anchors": ["src/postgkyl/commands/load.py:_crush", "src/postgkyl/data/gkyl_adios_reader.py"]}
{"id": "C52", "title": "ADIOS partial load offsets", "statement": "For ADIOS files the requested restriction is turned into the offset/count of exactly that index range and the reported bounds are those of the range.", "quantifier": "every shape and in-range restriction", "why_tests_cant": "all shapes", "anchors": ["src/postgkyl/data/gkyl_adios_reader.py:GkylAdiosReader._create_offset_count,_load_frame"]}
{"id": "C53", "title": "Negative stops count from the end", "statement": "In select, 'a:-k' keeps the cells up to the k-th from the end, as in Python and as in the partial load of .gkyl files (':-1' drops the last cell).", "quantifier": "every axis and every k", "why_tests_cant": "all lengths and k", "anchors": ["src/postgkyl/data/idx_parser.py:idx_parser", "src/postgkyl/data/select.py:select"]}
{"id": "C54", "title": "Open-ended selections reach the end of their own axis", "statement": "In select, 'a:' on axis d keeps every cell from a to the end of axis d, also when the grid is mapped (multi-dimensional coordinate arrays).", "quantifier": "every grid and axis", "why_tests_cant": "all shapes", "anchors": ["src/postgkyl/data/idx_parser.py:idx_parser", "src/postgkyl/data/select.py:select"]}
{"id": "C55", "title": "Saved .gkyl files follow the documented layout", "statement": "The bytes GData.write(extension='gkyl') produces are exactly the documented version-1 field layout of the dataset (so other readers of the format accept them).", "quantifier": "every dataset with values, bounds and sizes below 2^63", "why_tests_cant": "all datasets; the .gkyl reader of this package itself does not notice a wrong size entry", "anchors": ["src/postgkyl/data/gdata.py:GData.write", "src/postgkyl/data/gkyl_reader.py:format comment"]}
{"id": "C56", "title": "ev accepts every arithmetic expression with --tag", "statement": "With --tag, ev stores the value of any arithmetic expression, also of one of numbers alone or of a number raised to the power of a dataset.", "quantifier": "every expression", "why_tests_cant": "all expressions", "anchors": ["src/postgkyl/commands/ev.py:ev", "src/postgkyl/commands/ev_cmd.py:power"]}
{"id": "C57", "title": "ev rejects misspelt words", "statement": "A word in the chain that is neither a tag, nor f with optional brackets or metadata key, nor a number, nor an operator is rejected.", "quantifier": "every chain and store", "why_tests_cant": "all words", "anchors": ["src/postgkyl/commands/ev.py:_data"]}
{"id": "C58", "title": "Integrating axis by axis equals integrating at once", "statement": "Integrating a dataset in place over some axes and then over others gives the same grid and values as integrating over all of them in one call.", "quantifier": "every dataset, every two disjoint sets of axes, in the Python function and in ev chains", "why_tests_cant": "all shapes and splits of the axes", "anchors": ["src/postgkyl/tools/calculus.py:integrate", "src/postgkyl/commands/ev_cmd.py:integrate"]}
{"id": "C59", "title": "Every file word is loaded once, in order", "statement": "On a command line made of file words and commands other than load, exactly the file words are loaded, each once, in the order in which they are written, wherever they stand among the commands.", "quantifier": "every command table, file system and sequence of words", "why_tests_cant": "all sequences of words", "anchors": ["src/postgkyl/pgkyl.py:PgkylCommandGroup.get_command", "src/postgkyl/commands/load.py:load"]}
{"id": "C60", "title": "differentiate returns the exact derivative of the interpolated function", "statement": "differentiate(direction=i) returns, at every output point, the derivative along axis i, in physical coordinates, of the very piecewise polynomial that interpolate evaluates.", "quantifier": "every uniform grid, cell counts, coefficients and number of points; every basis, order and direction with a derivative table", "why_tests_cant": "all coefficients and all grids; a derivative is a limit", "anchors": ["src/postgkyl/data/dg.py:GInterpModal.differentiate", "src/postgkyl/data/computeDerivativeMatrices.py:createDerivativeMatrix"]}
{"id": "C61", "title": "Nodal interpolation evaluates the nodal expansion", "statement": "GInterpNodal.interpolate returns, at every output point, the expansion of the cell's nodal values in the nodal basis evaluated there; num_interp may be left to its documented default.", "quantifier": "every grid, number of cells and points, nodal values", "why_tests_cant": "index arithmetic for all shapes", "anchors": ["src/postgkyl/data/dg.py:GInterpNodal.interpolate"]}
{"id": "C62", "title": "Nodal differentiation returns the exact derivative", "statement": "GInterpNodal.differentiate returns the derivative of the function that interpolate evaluates, along the direction asked for or along every direction when none is given.", "quantifier": "every dataset", "why_tests_cant": "all coefficients and grids", "anchors": ["src/postgkyl/data/dg.py:GInterpNodal.differentiate"]}
{"id": "C63", "title": "Any positive number of interpolation points and order 0 work", "statement": "interpolate works for every documented order from 0 on and for every positive number of interpolation points per cell, including a single one.", "quantifier": "every dataset", "why_tests_cant": "all data", "anchors": ["src/postgkyl/data/dg.py:GInterpModal.interpolate,_getnum_nodes", "src/postgkyl/data/computeInterpolationMatrices.py:createInterpMatrix"]}
{"id": "C64", "title": "Nodal interpolation reproduces constants", "statement": "A nodal dataset whose values are all c interpolates to c at every output point.", "quantifier": "every nodal basis, order, dimension, number of points and grid, every constant", "why_tests_cant": "holds only if the basis functions sum to one identically, at all points", "anchors": ["src/postgkyl/data/computeInterpolationMatrices.py:createInterpMatrix", "src/postgkyl/data/dg.py:GInterpNodal.interpolate"]}
{"id": "C65", "title": "The modal bases are orthonormal", "statement": "The modal basis functions used by interpolate are orthonormal over the reference cell to the accuracy of their decimal coefficients.", "quantifier": "every pair of functions of every modal basis, dimension and order", "why_tests_cant": "an integral over the whole cell", "anchors": ["src/postgkyl/data/computeInterpolationMatrices.py:createInterpMatrix"]}
{"id": "C66", "title": "Mapped grids given as expansions are interpolated to the nodes of the output cells", "statement": "When the grid is given by expansion coefficients of the mapped coordinates (c2p), interpolate returns for every axis an array with num_interp cells per input cell, whose node i is the value of that coordinate's expansion in a cell containing the node; where neighbouring expansions agree it is the value of the mapping at that node.", "quantifier": "every dimension, cell counts, number of points and mapping coefficients", "why_tests_cant": "index arithmetic for all shapes; shared nodes are written several times", "anchors": ["src/postgkyl/data/dg.py:GInterpModal.interpolate,_interpOnMesh,_get_basis_p"]}
{"id": "C67", "title": "Plots show every value at its own position", "statement": "After collapsed directions are removed, a line plot has one point per value at the centre of its cell (or its node), a contour or colour plot hands over the transposed value matrix with positions or nodes of both directions in the right order; shift and scale apply as (x + shift) * scale; more than two non-trivial directions are rejected.", "quantifier": "every dataset whose values live in cells or on nodes, every component, shift and scale", "why_tests_cant": "all shapes and values", "anchors": ["src/postgkyl/output/plot.py:plot", "src/postgkyl/output/plot.py:_get_nodal_grid"]}
{"id": "C68", "title": "A common colour range covers everything plotted", "statement": "With --globalrange the colour range used for every plot contains every plotted value of every active dataset and is the smallest such range; limits given by the user are kept.", "quantifier": "every non-empty list of datasets, scale and shift", "why_tests_cant": "all values", "anchors": ["src/postgkyl/commands/plot.py:plot"]}
{"id": "C69", "title": "Interpolation uses the requested order, basis, points and components", "statement": "Order and basis are those given, otherwise those stored with the data; the number of points per cell is the one given, otherwise the order plus one; an unknown basis name is rejected; the components are those asked for, in order.", "quantifier": "every dataset and every combination of options", "why_tests_cant": "all combinations", "anchors": ["src/postgkyl/data/dg.py:GInterpModal"]}
{"id": "C70", "title": "A Fourier transform lists every amplitude at its own frequency", "statement": "The frequencies and amplitudes returned by fft reproduce the data: at every grid point the value times the number of points is the sum over all modes of the amplitude times the plane wave whose frequencies stand at the same position of the returned grid; every frequency lies in the band the grid resolves; with psd the first half of the frequencies is returned with the squared magnitudes; the input dataset is left alone.", "quantifier": "one to three directions with any number of points, any collapsed directions, every component and all real values", "why_tests_cant": "a statement about all data and all sizes, in exact complex arithmetic", "anchors": ["src/postgkyl/tools/fft.py:fft", "src/postgkyl/commands/fft.py:fft"]}
{"id": "C71", "title": "The isotropic spectrum is the mean over shells of wave numbers", "statement": "fft with psd and iso returns, for every bin, the mean of the power spectrum over the modes whose wave number lies within half a bin width of the bin's wave number.", "quantifier": "two- and three-dimensional data of any size and values, every bin with at least one mode", "why_tests_cant": "all spectra and all bins", "anchors": ["src/postgkyl/tools/init_polar.py:init_polar", "src/postgkyl/tools/polar_isotropic.py:polar_isotropic", "src/postgkyl/tools/fft.py:fft"]}
{"id": "C72", "title": "The FFT filter removes exactly the frequencies above the cut-off", "statement": "fft_filtering writes the data as a sum of plane waves with the frequencies resolved by the sampling and returns the sum of those whose frequency does not exceed the cut-off; the result is real, and a cut-off of at least half the sampling rate returns the data unchanged.", "quantifier": "all data, sampling intervals and cut-offs", "why_tests_cant": "a statement about all signals", "anchors": ["src/postgkyl/tools/filters.py:fft_filtering"]}
{"id": "C73", "title": "Plasma parameters follow the textbook formulas", "statement": "Alfven speed, cyclotron and plasma frequency, inertial length, thermal speed, Debye length, Larmor radius and beta computed from fluid and field data are, in every cell, the textbook functions of the species' number density, temperature, mass and charge and of the magnetic field; metadata override the caller's values, and missing metadata fall back to them.", "quantifier": "all fluid and field data with positive density, all masses, charges and constants, both thermal speed conventions", "why_tests_cant": "all inputs", "anchors": ["src/postgkyl/tools/params.py"]}
{"id": "C74", "title": "The Laguerre composition has the given perpendicular moments", "statement": "laguerrecompose turns the two coefficients of a cell into a function of the perpendicular velocity whose perpendicular density and energy integrals are those coefficients, sampled at the centres of the perpendicular cells.", "quantifier": "all grids, coefficients and positive temperatures, one space and one parallel velocity dimension", "why_tests_cant": "an integral over an unbounded domain for every input", "anchors": ["src/postgkyl/tools/laguerre_compose.py:laguerre_compose"]}
{"id": "C75", "title": "A frame transformation shifts the velocity grid by the local bulk velocity", "statement": "transformframe leaves the values and the space coordinates alone and adds to each velocity coordinate the bulk velocity at the space node (the mean of the adjacent cells, the cell value at the ends).", "quantifier": "all grids, numbers of velocity dimensions, bulk velocities, one to three space dimensions", "why_tests_cant": "all inputs and all shapes", "anchors": ["src/postgkyl/tools/transform_frame.py:transform_frame"]}
{"id": "C76", "title": "The current is charge times flow summed over species", "statement": "current multiplies the flow of each species with its charge (or its charge to mass ratio) and sums over the species.", "quantifier": "all datasets, charges, numbers of species", "why_tests_cant": "all inputs", "anchors": ["src/postgkyl/tools/accumulate_current.py:accumulate_current", "src/postgkyl/commands/current.py:current"]}
{"id": "C77", "title": "The rotation matrix is orthonormal with the vector as first row", "statement": "rotation_matrix returns mutually orthogonal unit rows, the first being the direction of the vector.", "quantifier": "all vectors", "why_tests_cant": "all real vectors", "anchors": ["src/postgkyl/tools/rotation_matrix.py:rotation_matrix"]}
{"id": "C78", "title": "laguerrecompose and transformframe store their result under the requested tag", "statement": "Without a tag the first dataset of each pair receives the result; with a tag the result becomes a new dataset with that tag; no other dataset changes.", "quantifier": "all datasets and tags", "why_tests_cant": "all states of the dataset collection", "anchors": ["src/postgkyl/commands/laguerre_compose.py:laguerrecompose", "src/postgkyl/commands/transform_frame.py:transformframe"]}
{"id": "C79", "title": "The growth rate is that of the best exponential fit", "statement": "fit_growth fits the first N points for every N from the minimum to all points and returns the fit with the largest coefficient of determination, the number of its points and that coefficient; for noiseless exponential data it returns the exact amplitude and rate.", "quantifier": "all data series, minimal numbers of points, initial guesses and fitting routines that recover exponentials", "why_tests_cant": "all series, all outcomes of the optimiser", "anchors": ["src/postgkyl/tools/growth.py:fit_growth"]}
{"id": "C80", "title": "Kinetic energy and its dissipation rate are computed from a series of frames", "statement": "calc_ke_dke returns the total kinetic energy of every frame of the series with the given root name, and the rate at which it decreases between successive frames.", "quantifier": "all series of two- and three-dimensional frames, first and last frame numbers, volumes and times", "why_tests_cant": "all series lengths and data", "anchors": ["src/postgkyl/tools/calc_ke_dke.py:calc_ke_dke"]}
{"id": "C81", "title": "Multi-block data get the frame number in their file name", "statement": "Before a multi-block animation every active dataset is given the frame number that stands in the name of its file, and the distinct frame numbers are listed in ascending order.", "quantifier": "all stores, all file names of the multi-block form, all frame numbers", "why_tests_cant": "tests use a handful of single-digit frames; the claim is about all numbers of digits and all stores", "anchors": ["src/postgkyl/utils/set_frame.py:set_frame"]}
{"id": "C82", "title": "An animation shows every dataset once, in order", "statement": "Without grouping, the k-th picture of an animation shows exactly the k-th active dataset chosen by --use, all with the same limits; --saveframes writes one file per picture and none over another, --saveas and --save write one film.", "quantifier": "all stores, all choices of datasets, all option combinations without --grouptags and --multiblock", "why_tests_cant": "needs all numbers of datasets, all patterns of active datasets and all tags", "anchors": ["src/postgkyl/commands/animate.py:animate", "src/postgkyl/commands/animate.py:_update"]}
{"id": "C83", "title": "Fixed limits of an animation hold for all frames", "statement": "Unless limits are to float, the value limits are the same in all pictures: a limit given by the user, else the smallest or largest scaled value of all datasets; with --cutoffglobalrange the limits are nested in the cut-off and 1 gives the full range.", "quantifier": "all lists of datasets, all values, scales and cut-offs in (0,1]", "why_tests_cant": "needs all values and all numbers of datasets", "anchors": ["src/postgkyl/commands/animate.py:globalrange", "src/postgkyl/commands/animate.py:animate"]}
{"id": "C84", "title": "Animations grouped by tag are separate and complete", "statement": "With --grouptags every tag with an active dataset gets its own film or figure or files, as many pictures as the smallest group has, with limits of its own datasets.", "quantifier": "all stores, all numbers of tags and datasets, all ways of saving or showing", "why_tests_cant": "needs all numbers of tags and of datasets per tag", "anchors": ["src/postgkyl/commands/animate.py:animate"]}
{"id": "C85", "title": "A multi-block picture shows all blocks of one frame", "statement": "With --multiblock there is one picture per frame number, in ascending order, showing exactly the datasets of that frame; every dataset is in exactly one picture.", "quantifier": "all stores, all frame numbers and numbers of blocks", "why_tests_cant": "needs all orders of files and numbers of blocks", "anchors": ["src/postgkyl/commands/animate.py:animate", "src/postgkyl/utils/set_frame.py:set_frame"]}
{"id": "C86", "title": "Columns become coordinates", "statement": "For a table of values, val2coord makes one dataset per chosen y column: its grid is the matching x column (the k-th for the k-th, or the only one) and its values are the y column, both with the first entry repeated at the end for --periodic; differing numbers of x and y columns are refused. The source datasets are switched off and otherwise unchanged; the new ones are listed under the given tag, else the only active tag, else 'val2coord', and nothing else in the store changes.", "quantifier": "all tables, column choices, stores and tags", "why_tests_cant": "The result depends on every combination of column ranges, tags and datasets in the store, while the store is being changed by the loop that reads it", "anchors": ["src/postgkyl/commands/val2coord.py:val2coord", "src/postgkyl/commands/data_space.py:DataSpace.iterator"]}
{"id": "C87", "title": "Column ranges", "statement": "A column range 'lo:hi' or 'lo:hi:step' in val2coord chooses exactly the columns from lo up to but without hi in steps, in order; negative bounds count from the end, missing ones mean the first column and all columns; a single number chooses that column; a comma list chooses the listed columns.", "quantifier": "all bounds, steps and numbers of columns", "why_tests_cant": "There are infinitely many bounds and widths, with signs and omissions in all combinations", "anchors": ["src/postgkyl/commands/val2coord.py:_get_range"]}
{"id": "C88", "title": "Trajectory frames", "statement": "Each frame of a trajectory animation marks a stored position, frame i the position i*(positions/frames) where frames is the number asked for or one per position; the velocity stroke starts there and is the velocity of that position times the time to the next marked position.", "quantifier": "all trajectories, frame numbers and frame counts", "why_tests_cant": "Frame counts and lengths that do not divide each other cannot be enumerated; the marked point is only visible in a rendered movie", "anchors": ["src/postgkyl/commands/trajectory.py:_update", "src/postgkyl/commands/trajectory.py:trajectory"]}
{"id": "C89", "title": "A line through several blocks is one dataset", "statement": "select --multiblock with a coordinate across (--z0 or --z1) on two-dimensional blocks adds one dataset: its nodes are those of all blocks of the row that starts at the lower end of the domain in the block containing the coordinate, without repetition, and its values are those of the cells containing the coordinate, block after block; every block that was visited is switched off. With --multiframe this holds for each frame by itself.", "quantifier": "every layout of blocks, every coordinate, every number of blocks in the row, every component selection", "why_tests_cant": "The result depends on which block is found to follow which one, over all layouts and sizes; tests see a few layouts.", "anchors": ["src/postgkyl/commands/select.py:select", "src/postgkyl/data/gdata.py:GData.set_neighbors", "src/postgkyl/utils/set_frame.py:set_frame"]}
{"id": "C90", "title": "Fluid commands store the named quantity", "statement": "The commands euler, mhd, tenmoment and magsq compute, for every active dataset of the chosen tags, the quantity named by the variable option (density, velocity components, pressure, kinetic energy, temperature, sound speed, Mach number, magnetic field and pressure, pressure tensor, squared magnitude) from the conserved variables. With a tag each result becomes one new active dataset behind all others, in order; without one it replaces its source. Grid and other metadata are those of the source; no other dataset changes.", "quantifier": "all reachable stores, tag selections, result tags and labels, all meshes and all gases with a density that vanishes nowhere", "why_tests_cant": "The formulas must hold in every cell of every mesh and the bookkeeping for every store; tests run a few datasets of fixed shape.", "anchors": ["src/postgkyl/commands/euler.py:euler", "src/postgkyl/commands/mhd.py:mhd", "src/postgkyl/commands/tenmoment.py:tenmoment", "src/postgkyl/commands/magsq.py:magsq", "src/postgkyl/tools/prim_vars.py"]}
{"id": "C91", "title": "grid lists the node coordinates", "statement": "The grid command turns every active dataset of the chosen tags into one that holds, for each node of its grid, the coordinates of this node: on uniform grids entry i_c of the coordinate array of axis c, on mapped grids entry i of coordinate array c. The new grid numbers the nodes.", "quantifier": "all reachable stores and tag selections, all uniform grids in any dimension and all mapped grids with two or more axes", "why_tests_cant": "The index arithmetic has to be right for every dimension, shape and node.", "anchors": ["src/postgkyl/commands/grid.py:grid"]}
{"id": "C92", "title": "Commands combining tags work pair by pair", "statement": "velocity, bparrotate, bperprotate, parrotate, perprotate, agyro, mom_agyro and energetics combine the active datasets of their input tags one by one in order, and add one result per pair or triple: the flow velocity, the vector projected on (or orthogonal to) the magnetic field, the agyrotropy, the energies. velocity, the rotations and energetics switch all datasets of the input tags off afterwards.", "quantifier": "all reachable stores, input tags, result tags, meshes and field values", "why_tests_cant": "Order, number and content of the results have to be right for every number of datasets and every mesh.", "anchors": ["src/postgkyl/commands/velocity.py:velocity", "src/postgkyl/commands/bparrotate.py:bparrotate", "src/postgkyl/commands/bperprotate.py:bperprotate", "src/postgkyl/commands/parrotate.py:parrotate", "src/postgkyl/commands/perprotate.py:perprotate", "src/postgkyl/commands/agyro.py:agyro", "src/postgkyl/commands/agyro.py:mom_agyro", "src/postgkyl/commands/energetics.py:energetics"]}
{"id": "C93", "title": "relchange compares with the reference", "statement": "relchange replaces (or adds, with a tag) every active dataset of a tag by its change relative to the dataset with the given number: (b - a)/a, component by component or divided by the chosen component.", "quantifier": "all reachable stores, reference numbers, meshes and values", "why_tests_cant": "The reference itself is among the datasets that are replaced, so the outcome depends on its position; a test with one position cannot tell.", "anchors": ["src/postgkyl/commands/relchange.py:relchange", "src/postgkyl/tools/rel_change.py:rel_change"]}
{"id": "C94", "title": "interpolate evaluates every field of every dataset", "statement": "The interpolate command replaces every active dataset of the chosen tags (or adds one per dataset, with a tag) by the values of all its DG fields at the midpoints of the refined cells, on the refined mesh. Order, basis and number of points come from the options or, dataset by dataset, from the metadata; data without this information are rejected.", "quantifier": "all reachable stores, tag selections, supported bases, orders, dimensions, meshes, numbers of fields and coefficients", "why_tests_cant": "Options and metadata combine dataset by dataset; tests use one file with one combination.", "anchors": ["src/postgkyl/commands/interpolate.py:interpolate", "src/postgkyl/data/dg.py:GInterpModal.interpolate"]}
{"id": "C95", "title": "differentiate gives the derivative of the data", "statement": "The differentiate command replaces (or adds, with a tag) every active dataset of the chosen tags by the exact derivative, along the chosen axis, of its DG fields at the midpoints of the refined cells.", "quantifier": "all reachable stores, tag selections, supported bases, meshes, axes and coefficients", "why_tests_cant": "Only the first field is looked at by a test with one field.", "anchors": ["src/postgkyl/commands/differentiate.py:differentiate", "src/postgkyl/data/dg.py:GInterpModal.differentiate"]}
{"id": "C96", "title": "integrate command sums over the named axes", "statement": "integrate a,b,... replaces (or adds, with a tag) every active dataset of the chosen tags by its integral over the named axes: the sum of the values times the cell widths along these axes, which are left with one coordinate.", "quantifier": "all reachable stores, tag selections, lists of distinct axes, grids with cell or node values, values", "why_tests_cant": "Axis lists, grid conventions and tag selections combine freely.", "anchors": ["src/postgkyl/commands/integrate.py:integrate", "src/postgkyl/tools/calculus.py:integrate"]}
{"id": "C97", "title": "select command cuts out what its options name", "statement": "select --z0 ... --z5 --comp replaces (or adds, with a tag) every active dataset of the chosen tags by the cells and components its options name, with the nodes of these cells. An option is a cell number, a range, a coordinate (the cell it lies in), or a range between coordinates.", "quantifier": "all reachable stores, tag selections, increasing grids with cell or node values, options for any axes in any of the accepted forms, components", "why_tests_cant": "The mixture of cell numbers and coordinates in one option has many boundary cases.", "anchors": ["src/postgkyl/commands/select.py:select", "src/postgkyl/data/select.py:select", "src/postgkyl/data/idx_parser.py:idx_parser"]}
{"id": "C98", "title": "ev: grad gives the partial derivatives", "statement": "For cell data with at least three cells along every axis, `ev \"f grad\"` returns on the same grid, for every axis and component, the slope at the cell centre of the parabola through the values of the cell and its neighbours (at the ends: of the three outermost cells), for uniform and non-uniform grids alike; polynomials of degree two are differentiated exactly. `grad2` does the same for the axes named by a number, a range or a list. Data on the nodes, and axes with fewer than three cells, are rejected with an error.", "quantifier": "every number of axes, cells and components, every increasing grid, every field (exact arithmetic)", "why_tests_cant": "tests sample a few fields on uniform grids; the end formulas and the order of the result's components depend on the numbers of axes and components", "anchors": ["src/postgkyl/commands/ev_cmd.py:grad", "src/postgkyl/commands/ev_cmd.py:grad2"]}
{"id": "C99", "title": "ev: div and curl combine the right derivatives", "statement": "`ev \"f div\"` is the sum over the axes of the derivative of component d along axis d; `ev \"f curl\"` is the curl of the vector of the first three components with derivatives along absent axes zero (the scalar curl for two components on two axes).", "quantifier": "every number of cells, every increasing grid, every field; one, two and three axes", "why_tests_cant": "signs and component numbers are wrong only for particular components; one sample cannot show all of them", "anchors": ["src/postgkyl/commands/ev_cmd.py:divergence", "src/postgkyl/commands/ev_cmd.py:curl"]}
{"id": "C100", "title": "ev: div of curl and curl of grad vanish", "statement": "Wherever both are defined, `f curl div` and `f grad curl` are exactly zero, on non-uniform grids as well.", "quantifier": "every field and every increasing grid with one or two axes (exact arithmetic)", "why_tests_cant": "an identity over all fields; it rests on difference quotients along different axes commuting", "anchors": ["src/postgkyl/commands/ev_cmd.py:divergence", "src/postgkyl/commands/ev_cmd.py:curl", "src/postgkyl/commands/ev_cmd.py:grad"]}
{"id": "C101", "title": "ev: scale_comp scales exactly the named components", "statement": "`f c x scale_comp` multiplies the components named by c (a number, a range or a list) by x, leaves all the others and the grid as they were, and does not change the operand.", "quantifier": "every array, every way to name components, every factor", "why_tests_cant": "the components not named must be unchanged for every shape and every naming", "anchors": ["src/postgkyl/commands/ev_cmd.py:scale_comp"]}
{"id": "C102", "title": "ev: scale_zi_axis scales the coordinates of its result only", "statement": "After any sequence of loading files, deriving datasets and scaling axes, the coordinates of a dataset are those of its file multiplied by the factors applied in the expressions it came from; a scaling changes no other dataset.", "quantifier": "every session: any number of files, derived datasets and scalings, in any order", "why_tests_cant": "whether arrays are shared depends on the whole history of a session", "anchors": ["src/postgkyl/commands/ev_cmd.py:scale_zi_axis", "src/postgkyl/data/select.py:select", "src/postgkyl/commands/ev.py:ev"]}
{"id": "C103", "title": "A file is opened by the first reader that recognises it", "statement": "Opening a file uses the first reader, in the order gkyl, adios, h5, flash, that recognises it; naming a reader leaves only that one; an unknown name has no effect; a file no reader recognises is refused.", "quantifier": "every file, every result of the external libraries, every reader name", "why_tests_cant": "the choice depends on combinations of file contents, installed libraries and names that a test suite only samples", "anchors": ["src/postgkyl/data/gdata.py:GData.__init__", "src/postgkyl/data/gkyl_reader.py:GkylReader.is_compatible", "src/postgkyl/data/gkyl_adios_reader.py:GkylAdiosReader.is_compatible", "src/postgkyl/data/gkyl_h5_reader.py:GkylH5Reader.is_compatible", "src/postgkyl/data/flash_h5_reader.py:FlashH5Reader.is_compatible"]}
{"id": "C104", "title": "Frames in the legacy HDF5 format are read as stored", "statement": "Opening a legacy Gkeyll HDF5 frame gives the stored values, uniform nodes between the stored bounds, the stored numbers of cells and components and the stored time, whether the reader was named or found automatically, and whatever metadata was given.", "quantifier": "every frame of any dimension, size and number of components, every initial metadata", "why_tests_cant": "legacy files are not in the test data, and the metadata take two different paths depending on the initial metadata", "anchors": ["src/postgkyl/data/gkyl_h5_reader.py:GkylH5Reader.load", "src/postgkyl/data/gkyl_h5_reader.py:GkylH5Reader._read_frame", "src/postgkyl/data/gdata.py:GData.get_bounds"]}
{"id": "C105", "title": "Diagnostics in the legacy HDF5 format keep their times", "statement": "Opening a legacy HDF5 diagnostic gives the stored values on the stored times.", "quantifier": "every sequence of times and values", "why_tests_cant": "the reader reads the times and then builds the grid from the bounds; only a statement over all sequences shows that the times never survive", "anchors": ["src/postgkyl/data/gkyl_h5_reader.py:GkylH5Reader._read_diagnostic", "src/postgkyl/data/gkyl_h5_reader.py:GkylH5Reader.load"]}
{"id": "C106", "title": "FLASH blocks are assembled on the finest lattice", "statement": "Reading a FLASH file gives a uniform grid with the cell width of the finest blocks, and each cell has the value of the cell of the leaf block it lies in, for blocks of different refinement in any order.", "quantifier": "every number, size, refinement, position and order of blocks on a lattice", "why_tests_cant": "overlapping writes make the result depend on the order of the blocks; tests use one order", "anchors": ["src/postgkyl/data/flash_h5_reader.py:FlashH5Reader._read_frame", "src/postgkyl/data/flash_h5_reader.py:FlashH5Reader.get_data"]}
{"id": "C107", "title": "Style settings: the last one counts, file before options", "statement": "After pgkyl style --file f --set 'k: v' ... every plotting parameter has the value of its last setting, the lines of the file counting before the options, with the blanks around names and values removed and colons allowed inside a value; parameters that are not set keep their value. (Fails for files with blank lines or comments, which become parameters with an empty or commented name.)", "quantifier": "every style file, every list of options, every parameter and every previous setting", "why_tests_cant": "a test fixes one style file; the claim is about every text, every number of settings and repeated settings of the same parameter", "anchors": ["src/postgkyl/commands/style.py:style", "src/postgkyl/utils/load_style.py:load_style"]}
{"id": "C108", "title": "listoutputs prints every stem once, in order", "statement": "For each extension asked for, pgkyl listoutputs prints a header if there is a file and then the name of every group of files once, in alphabetical order: the file name without the extension, without _restart and without the frame number; the output does not depend on the order in which the directory is listed.", "quantifier": "every directory content, every list of extensions", "why_tests_cant": "file names and the order of a directory listing vary; a test has one directory", "anchors": ["src/postgkyl/commands/listoutputs.py:listoutputs"]}
{"id": "C109", "title": "info lists the visited datasets with numbers that select them", "statement": "pgkyl info prints one line for every dataset that iteration visits (active ones, or all with -a), in the same order, with its label, tag and number; the tag is the one under which the dataset is listed and giving this tag and number to a command selects just this dataset, also when other datasets are switched off.", "quantifier": "every reachable store, every request of tags, every dataset", "why_tests_cant": "depends on every history of loading, activation and deactivation", "anchors": ["src/postgkyl/commands/info.py:info", "src/postgkyl/commands/data_space.py:DataSpace.iterator"]}
{"id": "C110", "title": "growth adds the fitted curve and the rate of every series", "statement": "`growth` works on every active dataset of the chosen tags in turn.  With --dataset it adds a dataset with the tag growth that holds the best fitting exponential in the middle of each time interval; with --tag it adds one with the growth rate; for multi-dimensional data --dir gives one rate per line along that direction.  The rate of noiseless exponential data is exact, and the sources stay as they were.", "quantifier": "every store, every choice of tags and options, every series and every fitting routine", "why_tests_cant": "the results depend on the whole store, on the order of the datasets, on which tags are still to be visited, and on every series", "anchors": ["src/postgkyl/commands/growth.py:growth", "src/postgkyl/tools/growth.py:fit_growth"]}
{"id": "C111", "title": "The fft command adds the power spectra of its data and leaves the rest alone", "statement": "fft --psd --tag T adds, for every active dataset of the chosen tags in turn, one active dataset under T with the squared magnitudes of the amplitudes of the plane waves that make up its values, at the first half of the frequencies; without a tag the spectra take the place of the data. Without --psd the result holds the complex amplitudes of all modes instead, at all frequencies the spacing resolves. With --psd --iso the dataset made holds the mean power of the modes in each shell of wave numbers. All other datasets, and the sources of a tagged call, stay as they were", "quantifier": "all reachable stores, requested tags, result tags and datasets on equally spaced points with one to three directions of more than two points, real values", "why_tests_cant": "the transform, the collapsed directions and the loop that adds to the store it walks over are all open-ended", "anchors": ["src/postgkyl/commands/fft.py:fft", "src/postgkyl/tools/fft.py:fft"]}
{"id": "C112", "title": "Loading a gyrokinetic distribution function divides out the Jacobians", "statement": "For the saved data J_v J_x f of a frame, the Jacobian J_v of velocity space (one number per cell) and the inverse of J_x on configuration space, load_gk_distf returns one dataset, with the given tag and the metadata of the data, on the mesh of the data with every cell split, holding at the midpoint of each refined cell the value of the data divided by J_v and multiplied by 1/J_x at the same position. With mc2nu or mapc2p the configuration space axes get nodes between the mapped positions, the velocity axes stay, and mc2nu goes first. With use_c2p_vel the velocity axes list the velocities that the mapping of the species has at the nodes of the refined cells. The command gk_distf adds one such dataset per frame, in the order asked for, under the tag, with labels that tell the frames apart.", "quantifier": "every number of configuration and velocity directions, every mesh, every number of points per cell, every data and Jacobians, every simulation, species, block and frame name and every override, every list of frames, every store", "why_tests_cant": "The product combines two expansions on meshes of different dimension with arrays broadcast against each other; a test checks one frame of one simulation, and a swapped axis or a wrong refinement of one of the factors shows up only for other meshes.", "anchors": ["src/postgkyl/commands/gk_distf.py:load_gk_distf", "src/postgkyl/commands/gk_distf.py:_apply_mc2nu_grid", "src/postgkyl/commands/gk_distf.py:_extract_values_along_dimension", "src/postgkyl/commands/gk_distf.py:gk_distf"]}
{"id": "C113", "title": "A history written in pieces is loaded whole and in order", "statement": "When a file of diagnostics holds a history in several pieces (variables TimeMesh, TimeMesh1, TimeMesh2, ..., TimeMesh10 and the Data variables with the same numbers), loading it gives one grid with all the times and one array with all the rows of values, piece after piece in the order of their numbers, and the number of components is the number of columns, whether or not a piece was stored with an axis for its columns.", "quantifier": "every number of pieces, every numbering, every order in which the library lists the variables, every number of times per piece and of columns", "why_tests_cant": "Tests load one or two pieces; that the tenth piece does not come between the first and the second, whatever the listing, is a statement about all sets of names.", "anchors": ["src/postgkyl/data/gkyl_adios_reader.py:GkylAdiosReader._load_diagnostic", "src/postgkyl/data/gkyl_adios_reader.py:GkylAdiosReader.load"]}
{"id": "C114", "title": "info describes the dataset: every dimension, the true extremes, all metadata", "statement": "For every dataset with a grid and values, info prints, each on its own line, the time and frame if known, the numbers of components and dimensions, the type of the grid, the cells and bounds of every dimension, the largest and the smallest of the values that are not NaN together with the first cell (and the component) where they stand, what is known of the basis, the build and the geometry, and every other entry of the metadata exactly once; the command prints this for every visited dataset after its label, tag and number.", "quantifier": "every dataset with any numbers of dimensions, cells and components, any values with any of them NaN, any metadata, any store and request", "why_tests_cant": "That the printed position is where the extreme value stands, in any number of dimensions and with NaN anywhere, is a claim about all arrays; tests look at a few.", "anchors": ["src/postgkyl/data/gdata.py:GData.info", "src/postgkyl/data/gdata.py:GData.__dict_has_key_from_group__", "src/postgkyl/commands/info.py:info", "src/postgkyl/utils/gkeyll_enums.py:gkyl_geometry_id"]}
{"id": "C115", "title": "Axis labels of a plot name the coordinate that is shown, with shift and scale", "statement": "For every dataset drawn by plot, the label of each axis names the coordinate of the dataset that is drawn along it (directions with a single node are skipped), with the shift and the scale applied to it, unless the user gives a label, which is then used; the colour-bar label is the given one with the scale of the values.", "quantifier": "every number of dimensions, every pattern of single-node directions, every shift, scale and user label", "why_tests_cant": "The labels depend on which directions are left, on two shifts and two scales and on the user's labels; tests check a few combinations.", "anchors": ["src/postgkyl/output/plot.py:plot"]}
{"id": "C116", "title": "Arrows and streamlines show the vector at the node", "statement": "For every two-dimensional dataset, quiver draws at every node of a regular sub-grid the vector formed by two successive components at that node, and streamlines are drawn of the vector field of two successive components with its magnitude as colour.", "quantifier": "every size of the grid in both directions and every value of the components", "why_tests_cant": "The stride is computed from the size; small and unequal sizes are the cases that break, and there are infinitely many.", "anchors": ["src/postgkyl/output/plot.py:plot"]}
{"id": "C117", "title": "Line-outs show every line of the data and the colour bar tells its coordinate", "statement": "Plotting line-outs of a two-dimensional dataset along a direction draws one line per node of the other direction, with the values of that line, and the colour of each line is the one which the colour bar gives to its coordinate.", "quantifier": "every number of nodes, both directions, every grid", "why_tests_cant": "The colour is computed from the index and the colour bar from the bounds; agreement must hold for every grid.", "anchors": ["src/postgkyl/output/plot.py:plot"]}
{"id": "C118", "title": "Colour limits: diverging plots are symmetric, and given limits are used", "statement": "With diverging colours the colour scale of each panel is symmetric about zero and covers all values; without it the given limits are the limits of the colour scale, for linear and logarithmic scales.", "quantifier": "every array of values, every combination of the limits and the scale options", "why_tests_cant": "The limits follow from all the values and several options, carried from one component to the next; tests look at single pictures.", "anchors": ["src/postgkyl/output/plot.py:plot"]}
{"id": "C119", "title": "Saved pictures and legend labels of the plot command", "statement": "For every collection of datasets and options, the plot command draws each active dataset once with the label given by --legend for it (or its own label if there are several), with --saveframes P it saves the picture of dataset i in P_i.png, with --save under the name of its file, and when all are drawn in one figure it saves that picture once, under the name given with --saveas or the joined file names; no picture is overwritten or lost.", "quantifier": "every collection of datasets and tags, every --use, every legend text and file name", "why_tests_cant": "Names and figures depend on the whole collection of datasets, their order and tags; overwritten files only appear for certain combinations.", "anchors": ["src/postgkyl/commands/plot.py:plot"]}
{"id": "C120", "title": "gk_nodes adds the nodes of every block in R and Z", "statement": "gk_nodes reads, for the blocks asked for and in that order, the nodes file of the block and adds to the stack the positions of its nodes and, unless the grid is one-dimensional, the lines through them in both directions, with the metadata of the file. R and Z are sqrt(x^2+y^2) and z in a geometry mapped by the user, and the first two numbers of a node otherwise; of three-dimensional grids the first plane of the second direction is taken. A flux given with --psi_file is added on its own grid.", "quantifier": "Every sequence of blocks, numbers of nodes in one, two or three dimensions, node positions, geometry, path and name.", "why_tests_cant": "Every number of blocks and nodes and every geometry has to be covered; a test looks at one simulation.", "anchors": ["src/postgkyl/commands/gk_nodes.py:gk_nodes", "src/postgkyl/commands/gk_nodes.py:nodes_to_RZ", "src/postgkyl/commands/gk_nodes.py:is_geo_mapc2p"]}
{"id": "C121", "title": "calc_enstrophy integrates the squared vorticity", "statement": "calc_enstrophy returns for every frame the general enstrophy, the integral of the density times the sum of the squares of all derivatives of the velocity, and the incompressible one, that of the squared vorticity.", "quantifier": "Every sequence of frames, grid sizes from three cells in each direction, and data.", "why_tests_cant": "A flow with only diagonal derivatives gives right results; the claim is about every flow.", "anchors": ["src/postgkyl/tools/calc_enstrophy.py:calc_enstrophy"]}
{"id": "C122", "title": "extractinput and pr print what the datasets hold", "statement": "extractinput prints, for every dataset asked for and in order, exactly the text of the input file whose base64 form the file of the dataset embeds, a notice when the attribute is empty, and an error when the attribute is cut off. pr prints the values of every dataset asked for without the axes of one entry, or with --grid the arrays of its grid, in order.", "quantifier": "Every text (every Unicode character), every placing of line ends in the attribute, every stack and tag selection.", "why_tests_cant": "Texts of every length modulo three and every character have to survive the decoding.", "anchors": ["src/postgkyl/commands/extractinput.py:extractinput", "src/postgkyl/commands/pr.py:pr", "src/postgkyl/data/gdata.py:GData.get_input_file"]}
{"id": "C123", "title": "Contour levels are those asked for", "statement": "--clevels start:end:n draws n equally spaced contours from start to end, both included; --clevels a,b,... draws exactly the contours listed, skipping empty places; --cnlevels n goes first; without either ten intervals are chosen. The colour bar is left out exactly when one level was named. The contours of several blocks are at the same ten levels over their common range. An integer for --clevels of animate is a number of levels.", "quantifier": "Every start, end, number and list of levels.", "why_tests_cant": "The claim is about every text of the option.", "anchors": ["src/postgkyl/output/plot.py:plot", "src/postgkyl/commands/plot.py:plot", "src/postgkyl/commands/animate.py:animate"]}
{"id": "C124", "title": "Loading with a mapped grid", "statement": "Loading a .gkyl field with the name of a file that maps computational to physical coordinates gives the same dataset as without it, with one change: the grid. With mapc2p_name the grid has one array per coordinate, which holds for each cell the expansion coefficients of that coordinate in the mapping file. With mapc2p_vel_name the axes of configuration space stay and every axis of velocity space is replaced by the coefficients of its coordinate along its own line of cells. The entries for the grid type and the numbers of dimensions say so, no other metadata change. The grid is that of the loaded cells.", "quantifier": "all single and multi-range field files, all mapping files of either kind with any number of coefficients, all restrictions of components and cells, all metadata", "why_tests_cant": "The claim is about every number of dimensions, cells and coefficients and every cell; tests look at a few files.", "anchors": ["src/postgkyl/data/gkyl_reader.py:GkylReader.load", "src/postgkyl/data/gdata.py:GData"]}
{"id": "C125", "title": "A command line is its commands run from left to right on one store", "statement": "`load` takes the next file string of the command line and adds one dataset per variable name and file, first variable first and files in order, listed under its tag, then refreshes the labels of the active datasets; nothing else in the store changes. If one of the files cannot be loaded, the command fails. A whole command line runs its words from left to right on the same store: a file word loads these files at that place, a command or its abbreviation runs on what the words before it left. If any word means nothing, nothing runs at all.", "quantifier": "every reachable store, all strings, option values and variable names, all file systems and every behaviour of the other commands, lines of any length", "why_tests_cant": "The interleaving of loading and other commands is unbounded; tests run a handful of lines with one or two files.", "anchors": ["src/postgkyl/commands/load.py:load", "src/postgkyl/pgkyl.py:PgkylCommandGroup.get_command", "src/postgkyl/commands/data_space.py:DataSpace.set_unique_labels"]}
{"id": "C126", "title": "load --fv gives the nodes of the cells", "statement": "`load --fv` leaves data on a uniform grid as they are (only the recorded bounds are refreshed), and replaces the grid of data with a coordinate mapping by the positions of the cell nodes: one array per coordinate with one node more than cells per direction, each node the value of the mapping at that node. The values and metadata stay.", "quantifier": "all datasets of one to six dimensions, all meshes, all mappings with the coefficients of a supported basis, all cells and nodes", "why_tests_cant": "Depends on every coefficient, cell and node; the repository has no test of --fv.", "anchors": ["src/postgkyl/commands/load.py:load", "src/postgkyl/data/dg.py:GInterpModal.interpolateGrid"]}
{"id": "C127", "title": "From a file to interpolated values", "statement": "Loading any part (per axis an index or a range; any components) of a .gkyl file that stores the coefficients of a modal expansion and whose metadata tell order and basis, in one range or many, and then interpolating without any option, gives on the refined mesh of the loaded cells the values, at the midpoints of the refined cells, of the expansion with the coefficients the file lists for the cell. The refined cells of a part carry the same numbers as the corresponding refined cells of the whole. `pgkyl FILES interpolate` leaves one such dataset per file, in the order of the files.", "quantifier": "every file layout, dimension 1 to 6, cell and component restrictions, order, supported basis, list of files", "why_tests_cant": "the chain runs over all file contents, partitions into ranges and restrictions; an offset in one link would show only for the parts it shifts", "anchors": ["src/postgkyl/data/gkyl_reader.py:GkylReader.load", "src/postgkyl/data/gdata.py:GData.__init__", "src/postgkyl/data/dg.py:GInterpModal.interpolate", "src/postgkyl/commands/interpolate.py:interpolate", "src/postgkyl/commands/load.py:load"]}
{"id": "C128", "title": "What a dataset made from an ADIOS file holds", "statement": "Loading a frame from an ADIOS file (in a script, or with the name of the variable typed at the prompt until there is such a variable) makes a dataset that holds exactly the selected cells and components of the variable, on the nodes that bound these cells, with the order, basis, charge, mass, changeset and build date from the attributes and the time and frame from the variables; it says it has that many cells, components and these bounds. Interpolating it without options gives the values of the stored expansion in the loaded cells. A file with the pieces of a history is one dataset with all times and all rows. The code violates part of this: after a selection the dataset still says it has all cells and the bounds of the whole domain; a frame stored with ghost cells is put on a mesh that begins inside the domain.", "quantifier": "all numbers of dimensions, cells and components, all values, attributes and variables, all closed selections of cells and components, all answers at the prompt, all pieces of histories", "why_tests_cant": "The selection, metadata and mesh interact for every combination of options and file contents; samples miss that the recorded extents only go wrong after a selection.", "anchors": ["src/postgkyl/data/gkyl_adios_reader.py:GkylAdiosReader.load", "src/postgkyl/data/gkyl_adios_reader.py:GkylAdiosReader._preload_frame", "src/postgkyl/data/gkyl_adios_reader.py:GkylAdiosReader._load_frame", "src/postgkyl/data/gkyl_adios_reader.py:GkylAdiosReader._load_diagnostic", "src/postgkyl/data/gdata.py:GData"]}
{"id": "C129", "title": "A .gkyl file that was cut short is never taken for a complete one", "statement": "Loading (without restrictions) the first k bytes of a single-range or multi-range .gkyl file raises an error for every k smaller than the file's length, in particular for whatever an interrupted save leaves behind. A time trace cut short is refused, or is loaded as exactly the pieces that are complete in it. A partial load that succeeds on a file cut short gives what it gives on the whole file. The last part fails: when exactly one of several requested components of the last cell is left, its value is copied to all of them.", "quantifier": "every well-formed file of the three types with any metadata, extents, components, ranges and pieces; every cut point k; every dataset being saved; every restriction of axes and components", "why_tests_cant": "the failure depends on the byte at which a write or copy stopped; tests try a few files and no cut points", "anchors": ["src/postgkyl/data/gkyl_reader.py:GkylReader._read_header,GkylReader._read_t1t3_v1_domain,GkylReader._get_block,GkylReader._get_data,GkylReader._read_t3_v1_data,GkylReader._read_t2_v1", "src/postgkyl/data/gdata.py:GData.write"]}
{"id": "C130", "title": "Selecting cells and interpolating commute", "statement": "For DG expansion data on a uniform increasing mesh, selecting whole cells (all components, any accepted form of argument) and then interpolating gives exactly the same grid and the same values as interpolating the whole dataset and then selecting the refined cells that the selected cells were split into; the selected dataset is itself the expansion on the selected cells, with the same order, basis and points.", "quantifier": "every supported basis, order, dimension (1 to 6), number of points per cell, coefficients, mesh, and every non-empty range of cells along each axis given by number, range, open range or coordinate", "why_tests_cant": "A unit test fixes one mesh, basis and range; the agreement must hold for all of them, including the parallel-velocity axis of the hybrid bases, which is split differently from the others.", "anchors": ["src/postgkyl/data/select.py:select", "src/postgkyl/data/dg.py:GInterpModal", "src/postgkyl/commands/interpolate.py:interpolate"]}
{"id": "C131", "title": "Integrating interpolated data gives the integral of the expansion", "statement": "Interpolating DG data and integrating the result over all axes gives, for every field, the integral of the stored expansion over the mesh.", "quantifier": "every uniform mesh, dimension, basis, order, number of points per cell and coefficients", "why_tests_cant": "The result is a sum over all refined cells; whether it equals the integral depends on the order and basis for all coefficients at once, and a test with linear data would not reveal that it is wrong for quadratic data.", "anchors": ["src/postgkyl/tools/calculus.py:integrate", "src/postgkyl/data/dg.py:GInterpModal", "src/postgkyl/data/computeInterpolationMatrices.py:createInterpMatrix"]}
{"id": "C132", "title": "Point-evaluation kernels evaluate the modal expansion", "statement": "The kernels expand_1d ... expand_6d of postgkyl.modalDG (the entry p-1 for order p = 1..4), called with the expansion coefficients of a cell and a point of the reference cell, return the value at the point of the expansion in the modal serendipity basis which GInterpModal uses (up to 1e-13 times the sum of the absolute coefficients), and modalDG.interpolate puts these values into the dataset.", "quantifier": "all dimensions 1-6, all orders 1-4, all coefficients, all points of the reference cell; for interpolate all datasets and node lists", "why_tests_cant": "A kernel has up to 267 terms with long decimal literals; a wrong term shows only for coefficients and points at which it does not vanish, and no test calls the kernels.", "anchors": ["src/postgkyl/modalDG/kernels/expand1d.py:expand_1d", "src/postgkyl/modalDG/kernels/expand3d.py:_expand_3d4p", "src/postgkyl/modalDG/kernels/expand6d.py:expand_6d", "src/postgkyl/modalDG/interpolate.py:interpolate"]}
{"id": "C133", "title": "Restricting a .gkyl load and selecting afterwards give the same dataset", "statement": "Giving index restrictions (z0..z5, comp) when a .gkyl file is loaded makes the same dataset - nodes, values, cell counts, component count, bounds and metadata - as loading the whole file and passing the same texts to select with overwrite; without overwrite select returns the grid and values which the restricted load holds.", "quantifier": "every field file with one or several stored ranges, every precision, one to six axes, any restrictions of the forms 'i', 'a:b', 'a:', ':b', ':' or none on each axis and 'i', 'a:b', ':b' or none on the components", "why_tests_cant": "the two ways share no code: one computes byte offsets and bounds from the header, the other cuts arrays; a test compares a few files and texts", "anchors": ["src/postgkyl/data/gkyl_reader.py:GkylReader", "src/postgkyl/data/select.py:select", "src/postgkyl/data/gdata.py:GData"]}
{"id": "C134", "title": "Grid and metadata of an ev expression", "statement": "However deep the expression, each dataset that ev --tag makes lies on the grid of the datasets it was computed from when these share one grid. A metadata entry (basis, polynomial order, time, ...) that some of these datasets have, and on which all that have it agree, is kept with that value. No metadata entry is invented: each entry of the result is that of one of the datasets used. An entry on which the datasets disagree should not survive; in nested expressions it can (a b + c + with three different times carries the time of c).", "quantifier": "all expressions over datasets and numbers, all stores, all metadata dictionaries", "why_tests_cant": "The result depends on every operand of an arbitrarily deep expression; tests look at single operators.", "anchors": ["src/postgkyl/commands/ev.py:_command", "src/postgkyl/commands/ev.py:ev", "src/postgkyl/commands/ev_cmd.py:_get_grid", "src/postgkyl/data/gdata.py:GData.push"]}
{"id": "C135", "title": "interpolate, differentiate and integrate commute with linear ev expressions", "statement": "If an ev expression is linear in the datasets (whole datasets combined with +, - and multiplication or division by a number), then interpolating, differentiating or integrating every dataset and then evaluating the expression gives the same grids and values as evaluating it on the stored data and then applying the command to the results. For expressions which are not linear (adding a number, multiplying two datasets) the two orders differ for interpolate.", "quantifier": "every reachable store whose datasets share mesh and expansion, every linear expression, every supported basis, order and number of interpolation points; every set of integrated axes; every direction of differentiation", "why_tests_cant": "the equality ranges over all expressions, meshes, dimensions and coefficient values and links commands of which each is tested only on a sample file", "anchors": ["src/postgkyl/commands/ev.py:ev", "src/postgkyl/commands/interpolate.py:interpolate", "src/postgkyl/commands/differentiate.py:differentiate", "src/postgkyl/commands/integrate.py:integrate", "src/postgkyl/tools/calculus.py:integrate", "src/postgkyl/data/dg.py:GInterpModal"]}
{"id": "C136", "title": "select commutes with elementwise ev expressions", "statement": "For every ev expression of elementwise operations on whole datasets, selecting a part of every dataset (by index, coordinate, slice or component list) and then evaluating gives the same grids and values as evaluating first and selecting that part of the results.", "quantifier": "every reachable store of rectilinear datasets of one mesh, every elementwise expression, every selection that every dataset supports", "why_tests_cant": "all selections times all expressions; tests fix one of each", "anchors": ["src/postgkyl/commands/ev.py:ev", "src/postgkyl/commands/select.py:select", "src/postgkyl/data/select.py:select", "src/postgkyl/commands/ev_cmd.py:_get_grid"]}
{"id": "C137", "title": "Integrals over adjacent parts add up", "statement": "If select cuts a dataset into two adjacent ranges of cells along an axis (by cell numbers or coordinates, with any further selection on the other axes and any components), the integrals of the two parts over any set of axes containing that axis add up to the integral of the union. For values at nodes this does not hold: every part counts its last spacing twice.", "quantifier": "every dataset, mesh (uniform or not), dimension, split position, further selection and set of integrated axes", "why_tests_cant": "ranges over all splits, meshes and sets of axes and links two functions", "anchors": ["src/postgkyl/data/select.py:select", "src/postgkyl/tools/calculus.py:integrate", "src/postgkyl/commands/select.py:select", "src/postgkyl/commands/integrate.py:integrate"]}
{"id": "C138", "title": "Selecting from collected frames", "statement": "Selecting cells and components of every frame and then collecting gives the same dataset (grid and values) as collecting first and selecting afterwards, with the axes of the frames shifted by one behind the time axis. After collect, select --z0 t gives back the frame of time t (the first one not before t if no frame has this time) and select --z0 n the frame with n earlier frames, on its own grid.", "quantifier": "all stores, frames with distinct non-zero times on common axes (at most five) in any order, all selections by number, range or coordinate and all components", "why_tests_cant": "all numbers and orders of frames, shapes and selections", "anchors": ["src/postgkyl/commands/collect.py:collect", "src/postgkyl/commands/select.py:select", "src/postgkyl/data/select.py:select"]}
{"id": "C139", "title": "Commands on different tags can be given in either order", "statement": "Two commands that replace the datasets they are applied to (select, integrate, interpolate, differentiate, magsq, grid, euler, mhd, tenmoment without --tag), given with --use for two sets of tags that have no tag in common, can be exchanged in a chain: either both orders fail, or both succeed and leave exactly the same data (all datasets, values, grids, metadata, tags, order and activity). For commands on the same tag this is false.", "quantifier": "all stores reachable by any history, all pairs of these commands with all their options, all --use values (comma lists, unknown tags, no tag) that are disjoint", "why_tests_cant": "a test runs a few chains; the claim is about every pair of commands on every store, including failing ones", "anchors": ["src/postgkyl/commands/select.py:select", "src/postgkyl/commands/integrate.py:integrate", "src/postgkyl/commands/interpolate.py:interpolate", "src/postgkyl/commands/differentiate.py:differentiate", "src/postgkyl/commands/magsq.py:magsq", "src/postgkyl/commands/grid.py:grid", "src/postgkyl/commands/euler.py:euler", "src/postgkyl/commands/mhd.py:mhd", "src/postgkyl/commands/tenmoment.py:tenmoment", "src/postgkyl/commands/data_space.py:DataSpace.iterator"]}
{"id": "C140", "title": "Results of commands survive saving and reopening", "statement": "Whatever a command stores in a dataset, written as .gkyl and opened again, has the same values and bounds; the coordinates come back as equidistant nodes between the smallest and the largest coordinate of each axis. For data on a uniform mesh (in particular the result of interpolate) that is the same mesh and the same field: interpolate, write, load gives at every refined cell the value of the expansion at its midpoint. For any grid with a non-uniform axis (mapped grids, collapsed axes) the reopened grid differs from the saved one.", "quantifier": "all datasets, cell counts, dimensions, component counts, bases and orders whose numbers are representable and whose sizes fit the format; all stores for the command", "why_tests_cant": "needs every mesh, every field and the whole chain command-writer-reader; a test compares single files", "anchors": ["src/postgkyl/data/gdata.py:GData.write", "src/postgkyl/data/gdata.py:GData.push", "src/postgkyl/data/gkyl_reader.py:GkylReader.load", "src/postgkyl/commands/interpolate.py:interpolate", "src/postgkyl/commands/write.py:write"]}
{"id": "C141", "title": "A spectrum keeps the energy of the data, and half of it determines the rest", "statement": "The squared magnitudes of all amplitudes that fft returns add up to the number of points times the sum of the squares of the data; the amplitude of the opposite wave vector is the complex conjugate, so that half of the spectrum of real data determines all of it; the amplitude of wave number zero is the sum of the data; and the power spectrum (psd) is given at exactly the frequencies that are not negative.", "quantifier": "all data on equally spaced points with one to three directions of more than two points, with any collapsed directions and any number of components, real values", "why_tests_cant": "Identities between sums over all modes and all points, in any number of directions and for any numbers of points, even or odd; a test compares a few numbers.", "anchors": ["src/postgkyl/tools/fft.py:fft"]}
{"id": "C142", "title": "Selecting cells and differentiating can be done in either order", "statement": "Selecting whole cells of DG data and then differentiating (along one direction or along all) gives the same grid and the same values as differentiating everything and then selecting the refined cells that the selected cells are split into.", "quantifier": "all DG data with any expansion, basis, order and number of points that fit, all uniform grids with at most six axes, all selections of whole cells by number, range or coordinate", "why_tests_cant": "every expansion, grid and selection; a test compares single files", "anchors": ["src/postgkyl/data/select.py:select", "src/postgkyl/data/dg.py:GInterpModal.differentiate", "src/postgkyl/commands/differentiate.py:differentiate", "src/postgkyl/commands/select.py:select"]}
{"id": "C143", "title": "Selecting along some axes and integrating over others can be done in either order", "statement": "Selecting along some axes, and components, and then integrating over other axes gives the same grid and the same values as integrating first and selecting with the same arguments afterwards.", "quantifier": "all datasets with any number of axes and components, cell or nodal, all selections by number, range or coordinate, all sets of other axes in any order and by any way of naming them", "why_tests_cant": "every shape, selection and set of axes; the sums have any number of terms", "anchors": ["src/postgkyl/data/select.py:select", "src/postgkyl/tools/calculus.py:integrate"]}
{"id": "C144", "title": "The int operation of ev and the command integrate agree", "statement": "On every grid whose axes have at least two coordinates, ev with int and the function integrate give the same numbers, in whatever way and order the axes are named, and the same grid.", "quantifier": "all datasets, shapes, sets of axes and ways of naming them", "why_tests_cant": "two implementations compared for every input", "anchors": ["src/postgkyl/commands/ev_cmd.py:integrate", "src/postgkyl/tools/calculus.py:integrate"]}
{"id": "C145", "title": "Integrating collected frames", "statement": "Integrating every frame over some axes and collecting the results gives the same dataset (grid and values) as collecting the frames first and integrating afterwards over the same axes, which then come after that of the times.", "quantifier": "all stores, frames with distinct non-zero times on common axes in any order, cell or nodal, all sets of axes", "why_tests_cant": "all numbers and orders of frames, shapes and sets of axes", "anchors": ["src/postgkyl/commands/collect.py:collect", "src/postgkyl/commands/integrate.py:integrate", "src/postgkyl/tools/calculus.py:integrate"]}
{"id": "C146", "title": "ev: dot product, extremes and mean", "statement": "In the calculator, A B dot gives in every cell the sum over components of the products of A and B, on their common grid; A max, A min and A mean give for each dataset a single number on no axes: a value of A that none exceeds (none is below), respectively the sum of all values over their number. Exactly one result per dataset of the longer operand is added under the tag asked for, and nothing else changes.", "quantifier": "every store, all expressions built from any datasets, components and constants, all shapes (without empty axes for max, min and mean), any number of datasets per operand", "why_tests_cant": "the operators are tested on one array at most; that they hold for all expressions, shapes and dataset counts, and change nothing else, needs a proof", "anchors": ["src/postgkyl/commands/ev.py:ev", "src/postgkyl/commands/ev_cmd.py:dot", "src/postgkyl/commands/ev_cmd.py:maximum", "src/postgkyl/commands/ev_cmd.py:minimum", "src/postgkyl/commands/ev_cmd.py:mean"]}
{"id": "C147", "title": "ev: arithmetic between data of different extents", "statement": "In the calculator, the product or quotient of data on phase space with a one-component field on configuration space, in either order, uses at every point the value of the field in the configuration-space cell of that point, and is on the phase-space grid; any elementwise operation between data with several components and a one-component field on the same cells, in either order, uses the field for every component.", "quantifier": "every store, all expressions, all numbers of cells, velocity axes and components, both orders, all operations concerned", "why_tests_cant": "alignment of axes depends on all extents, and coincidences of extents hide mistakes", "anchors": ["src/postgkyl/commands/ev.py:ev", "src/postgkyl/commands/ev_cmd.py:mult", "src/postgkyl/commands/ev_cmd.py:divide", "src/postgkyl/commands/ev_cmd.py:_get_grid"]}
{"id": "C148", "title": "ev: arithmetic with numbers computed from data", "statement": "In the calculator, the largest, smallest or mean value of an expression, or the length of one of its axes, can be used as an operand of every elementwise operation with another expression, in either order: the operation is applied to each entry and that number, dataset by dataset, and the result is on the grid of the other expression.", "quantifier": "every store, all expressions, all shapes without empty axes, any number of datasets per operand (the last stands in for missing ones), all elementwise operations and both orders", "why_tests_cant": "shapes, grids and numbers of datasets of the two operands are independent", "anchors": ["src/postgkyl/commands/ev_cmd.py:maximum, minimum, mean, length, _get_grid, mult, divide, power", "src/postgkyl/commands/ev.py:_command, ev"]}
{"id": "C149", "title": "ev: averages, integrals, lengths and means agree", "statement": "In the calculator, dividing the integral over an axis by the length of the axis gives the same datasets (grid and values) as the average over that axis; on a grid of equal cells the average over all axes is, for each component, the sum of its values over the number of cells.", "quantifier": "every store, all expressions on grids of cells or of nodal coordinates, all axes, any number of datasets", "why_tests_cant": "three operators with their own treatment of grids have to agree for all extents and spacings", "anchors": ["src/postgkyl/commands/ev_cmd.py:integrate, average, length, mean, divide", "src/postgkyl/commands/ev.py:_command, ev"]}
{"id": "C150", "title": "A grid and values given as a pair are plotted like a dataset", "statement": "Plotting a pair (grid, values) draws the same as plotting a dataset with this grid and these values: every value at its own position, whether the grid lists the positions of the values or the nodes of their cells, with directions of one cell left out.", "quantifier": "every pair of a grid and values, every number of cells, shift, scale and component", "why_tests_cant": "all shapes and both kinds of grid", "anchors": ["src/postgkyl/output/plot.py:plot", "src/postgkyl/utils/input_parser.py:input_parser"]}
{"id": "C151", "title": "Captions, labels and limits of the panels of a plot", "statement": "Plotting a dataset into a new figure gives the figure the title and axis labels asked for, and panel k the k-th entry of the lists of panel titles and labels (none beyond the end of a list); exactly the panels of the layout that are not needed are switched off; with squeeze the one panel has the title and the labels. Each component is drawn once, in its panel, under a label that differs from those of the other components. Datasets drawn later into the same figure leave its captions and what was drawn before as they are. The limits given for the axes hold in every panel that was drawn into", "quantifier": "all numbers of components, layouts, lists of captions, labels, limits and sequences of datasets drawn into one figure", "why_tests_cant": "lists shorter or longer than the layout, layouts with spare panels, and figures that are reused combine freely", "anchors": ["src/postgkyl/output/plot.py:plot"]}
{"id": "C152", "title": "Datasets do not depend on one another", "statement": "However many datasets are made from each other in a session, a command changes the grid and values of the datasets it replaces and of no others; writing a dataset to a file or making a new one from it changes nothing", "quantifier": "every session: any number of loaded and derived datasets, commands with and without a tag, in any order", "why_tests_cant": "whether two datasets share a list depends on the whole history of the session", "anchors": ["src/postgkyl/data/gdata.py:GData.push", "src/postgkyl/data/gdata.py:GData.write", "src/postgkyl/tools/fft.py:fft", "src/postgkyl/tools/prim_vars.py:get_density", "src/postgkyl/tools/mag_sq.py:mag_sq", "src/postgkyl/commands/euler.py:euler"]}
{"id": "C153", "title": "The picture of an expansion shows its values at the positions shown", "statement": "For every file holding the coefficients of an expansion, the line drawn by load, interpolate and plot goes through one point per refined cell, whose abscissa is the midpoint of that cell and whose ordinate is the value of the expansion there (with the shifts and scales asked for); for two-dimensional data every refined cell is coloured by the value at its midpoint, and contours get the midpoints and these values. After a selection from the interpolated data that leaves one or two directions, the same holds along these directions, at the place asked for along the others.", "quantifier": "all field files, parts loaded, orders and bases, numbers of fields and points, dimensions, selections by numbers, ranges or coordinates, shifts and scales", "why_tests_cant": "Positions and values travel through four stages (reader, interpolation, selection, squeezing for the plot); a picture that is off by half a cell, or that shows the neighbouring slice, looks right for every smooth test field.", "anchors": ["src/postgkyl/output/plot.py:plot", "src/postgkyl/output/plot.py:_get_nodal_grid", "src/postgkyl/data/dg.py:GInterpModal.interpolate", "src/postgkyl/data/select.py:select", "src/postgkyl/data/gdata.py:GData.push"]}
{"id": "C154", "title": "What the figure of gk_nodes shows", "statement": "The figure of gk_nodes is laid out from the extreme positions of the nodes of all blocks drawn: its axes have the proportions of the drawing, so that lengths in R and Z are drawn alike, and lie inside the figure. Each node is on one line along each direction of the grid of its block, or on the single line of a one-dimensional grid; blocks take the colours listed in turn, or all the first one. A flux given with --psi_file is coloured by the value of its expansion at the midpoint of each cell of the interpolated mesh, and contours go through the same values at these midpoints with the levels listed, given as a range, or the number asked for. --xlim and --ylim set the limits.", "quantifier": "Every number of blocks, grid size in one to three directions, positions, list of colours, expansion of order 2 in the tensor basis on a two-dimensional mesh, list of levels and pair of limits.", "why_tests_cant": "Sizes, numbers of blocks, extents and expansions are unbounded; tests look at one picture.", "anchors": ["src/postgkyl/commands/gk_nodes.py:gk_nodes", "src/postgkyl/utils/gk_utils.py:read_interp_gfile"]}
{"id": "C155", "title": "What a picture of an animation shows", "statement": "Every picture of an animation made of the datasets of one frame is drawn (if none of them has more components than the first), is titled with the frame and the time of its first dataset, has the axis labels asked for, shows in panel k component k of every dataset in the order of the datasets, and has one colour bar for each component of the first dataset only (or none). A title given with --title and the numbers of rows and columns given on the command line are respected.", "quantifier": "every frame with any number of datasets of any number of components; every combination of squeeze, streamlines or quivers, colour bars, labels and limits", "why_tests_cant": "the datasets of a frame are drawn one after the other into one cleared figure, so that what is seen depends on all of them", "anchors": ["src/postgkyl/commands/animate.py:_update", "src/postgkyl/output/plot.py:plot"]}
{"id": "C156", "title": "Pictures of trajectories", "statement": "The command trajectory makes one picture for each position of the trajectories, or as many as asked for; picture i shows every active dataset of the tag in its own colour with position i*(positions/pictures) marked; every point inside the limits given is drawn where it belongs and no point outside is seen; the title has the time of the marked position; velocity strokes end where the particle would be at the next position. More than one tag is refused.", "quantifier": "every session; trajectories of any number and length with or without velocities; any limits and any number of pictures", "why_tests_cant": "what is visible depends on all points, limits and datasets at once, and pictures are made one by one from the same session", "anchors": ["src/postgkyl/commands/trajectory.py:_update", "src/postgkyl/commands/trajectory.py:trajectory"]}
{"id": "C157", "title": "What a command line leaves as it is", "statement": "Whatever command line is run, no dataset is lost: the tags keep their order, every dataset is found under the tag and the number it had, and keeps its tag. A dataset is exactly as before (values, grid, metadata, labels, activity) if it is not active or its tag is not named by --use (for the commands with that option), or if the command has an output tag; velocity, the rotations, energetics, collect, val2coord and select --multiblock change only active datasets of the tags they read; agyro, mom_agyro, growth and ev with --tag change no dataset at all. activate and deactivate change activities and nothing else; load changes only labels of active datasets.", "quantifier": "all stores the program can reach, all command lines of any length made of these commands with any options", "why_tests_cant": "a command could forget the activity or the tag of one dataset in a store of a particular shape, and the damage would show only later in the line", "anchors": ["src/postgkyl/commands/data_space.py:DataSpace.iterator", "src/postgkyl/commands/status.py:activate", "src/postgkyl/commands/load.py:load", "src/postgkyl/commands/ev.py:ev", "src/postgkyl/commands/collect.py:collect"]}
{"id": "C158", "title": "Selecting cells and computing can be given in either order on a command line", "statement": "Selecting cells of a dataset and then computing a quantity of a fluid (euler, mhd, tenmoment), the square of a vector (magsq), an interpolation, a derivative or an integral over axes of which nothing is selected, leaves the same datasets in the store as the two commands in the other order: the same grids, values, metadata, tags and order, for every dataset the commands visit; datasets they do not visit are left as they are. For interpolate and differentiate the second selection is given in cells of the finer grid.", "quantifier": "every reachable store, every choice of tags, every selection by cell numbers, ranges or coordinates, every named quantity, every state of the fluid with non-zero density, every number of dimensions and cells", "why_tests_cant": "the statement relates two command lines for every store, shape, selection and value", "anchors": ["src/postgkyl/commands/select.py:select", "src/postgkyl/commands/euler.py:euler", "src/postgkyl/commands/mhd.py:mhd", "src/postgkyl/commands/tenmoment.py:tenmoment", "src/postgkyl/commands/magsq.py:magsq", "src/postgkyl/commands/interpolate.py:interpolate", "src/postgkyl/commands/differentiate.py:differentiate", "src/postgkyl/commands/integrate.py:integrate", "src/postgkyl/tools/prim_vars.py:get_pij"]}
{"id": "C159", "title": "Diagnostics accept datasets, arrays and pairs alike", "statement": "The diagnostics of fluid data and fields (density, velocities, stresses, pressure, kinetic energy, temperature, sound speed, Mach number, magnetic field, magnetic pressure, their MHD versions, the squared magnitude, the strength of the magnetic field, parallel and perpendicular pressure, agyrotropy, the current) give the same values and the same errors whether they are called with a dataset, with an array of values, or with a pair of a grid and values; they return the grid they were given (of the field, for the pressures), and a dataset given for the output receives that grid and the result. A pair whose grid does not fit the values is a ValueError; anything else is rejected with an error.", "quantifier": "every diagnostic, every option, every argument of any kind, every grid, every array of values", "why_tests_cant": "the statement ranges over all kinds of arguments, all shapes and values and all diagnostics, which call one another with the argument they were given", "anchors": ["src/postgkyl/utils/input_parser.py:input_parser", "src/postgkyl/tools/prim_vars.py", "src/postgkyl/tools/mag_sq.py:mag_sq", "src/postgkyl/tools/pressure_diagnostics.py"]}
{"id": "C160", "title": "A call that raises leaves the dataset as it was", "statement": "select with overwrite=True, integrate with overwrite=True and the diagnostics of prim_vars and mag_sq with an output dataset do all of their work or, if an exception leaves the call, leave the dataset they were to store into exactly as it was (values, grid, metadata). For select this holds whenever every axis of what is asked for has a node left, in particular for coordinates on cell data, whatever components are asked for; for integrate and the diagnostics it holds for every data with a node on each axis. It is false of push, which stores the values and the grid before it looks for the bounds: select of an empty range (for instance the index -1) with overwrite raises ValueError with the values already replaced and the old bounds kept, and a diagnostic of a bare array with an output dataset raises IndexError with that dataset overwritten.", "quantifier": "every dataset, every argument of the calls, every point at which an exception can arise", "why_tests_cant": "A test tries a few failing calls; which of the states between the writes an exception can expose depends on every way the computation can fail.", "anchors": ["src/postgkyl/data/gdata.py:GData.push", "src/postgkyl/data/gdata.py:GData.set_grid", "src/postgkyl/data/gdata.py:GData.set_values", "src/postgkyl/data/select.py:select", "src/postgkyl/tools/calculus.py:integrate", "src/postgkyl/tools/prim_vars.py", "src/postgkyl/tools/mag_sq.py:mag_sq"]}
{"id": "C161", "title": "The words that run the commands of the package", "statement": "On the command line each of the forty registered commands is run by its name and by every beginning of it that has at least a certain number of letters (a table; for instance two for plot, five for integrate and interpolate), whatever files exist; every shorter beginning is refused even if it is the name of a file; every other word is a file pattern or refused. The four rotation commands the package defines are not registered: their names run no command.", "quantifier": "every word, every file system", "why_tests_cant": "The words are unboundedly many and the answer must not depend on the files that happen to exist.", "anchors": ["src/postgkyl/pgkyl.py:PgkylCommandGroup.get_command", "src/postgkyl/pgkyl.py:cli.add_command", "src/postgkyl/commands/parrotate.py:parrotate", "src/postgkyl/commands/perprotate.py:perprotate", "src/postgkyl/commands/bparrotate.py:bparrotate", "src/postgkyl/commands/bperprotate.py:bperprotate"]}
{"id": "C162", "title": "Diagnostics of two datasets of parts", "statement": "The velocity of a density and a momentum, the projection of a vector on a field, both measures of agyrotropy of a pressure tensor with respect to a field, and the change of a dataset relative to another can be computed before or after selecting cells: for the same part of both datasets they give exactly the grid and the values of that part of the result for the whole datasets.", "quantifier": "all pairs of datasets on one grid of up to six axes, all numbers of components, all texts that select asks for cells with, all positions of the components that are projected on, both measures, each component or none to divide by, and all datasets the result is stored in", "why_tests_cant": "whether two operations commute has to be settled for all data and all selections; a test compares a few", "anchors": ["src/postgkyl/data/select.py:select", "src/postgkyl/commands/velocity.py:velocity", "src/postgkyl/tools/parrotate.py:parrotate", "src/postgkyl/tools/pressure_diagnostics.py:get_agyro", "src/postgkyl/tools/rel_change.py:rel_change"]}
{"id": "C163", "title": "The Butterworth filter is a linear, causal filter", "statement": "butter_filtering, for a one-dimensional array, gives the one signal that answers the data by the difference equation of the coefficients scipy.signal.butter gives for order six and the cut-off in units of half the sampling rate. It is linear, keeps the number of samples, never lets later samples change earlier results, treats a signal that starts later in the same way, and does not depend on the unit of time.", "quantifier": "all one-dimensional data, spacings and cut-offs, all coefficients of the filter, all units and all delays", "why_tests_cant": "the filter feeds its results back, so the claims are inductions over the length of the signal; a test filters a few short ones", "anchors": ["src/postgkyl/tools/filters.py:butter_filtering", "src/postgkyl/tools/filters.py:_butter_lowpass", "src/postgkyl/tools/filters.py:_butter_lowpass_filter"]}
{"id": "C164", "title": "The cut-off of the FFT filter is the one chosen for these data", "statement": "In every session, a call of fft_filtering filters its data at the cut-off it is given or, without one, at the frequency the user clicks on in the window shown for this call; without a choice it is an error.", "quantifier": "all sequences of calls in one session, with all data, spacings and cut-offs and everything the user may do with the windows", "why_tests_cant": "the click is kept in a global name, so what a call does may depend on the whole history of the session", "anchors": ["src/postgkyl/tools/filters.py:fft_filtering", "src/postgkyl/tools/filters.py:_click_coords"]}
{"id": "C165", "title": "velocity and magsq agree with the same formula written for ev", "statement": "When all datasets of the tags are active, there are as many densities as momenta and all are on one grid, `velocity -d n -m p -t T` adds, dataset by dataset, the same values on the same grid as `ev -t T 'p n /'`, also in cells with density zero; after velocity the inputs are switched off, after ev they are still active.  For vectors of three components `magsq -u v -t T` adds the same as `ev -t T 'v v dot'`.", "quantifier": "all reachable stores, all numbers of datasets, cells and components of the momentum, all values, all tag names that are not operators or numbers, all result tags", "why_tests_cant": "The two sides go through different code (the fluid tools and the stack machine of ev); a test compares them on one file", "anchors": ["src/postgkyl/commands/velocity.py:velocity", "src/postgkyl/commands/magsq.py:magsq", "src/postgkyl/commands/ev.py:ev", "src/postgkyl/commands/ev_cmd.py:divide"]}
{"id": "C166", "title": "mask and pkpm can succeed", "statement": "For suitable data and files the registered commands `mask` and `pkpm` do their work and add or change datasets.", "quantifier": "all options, files, stores", "why_tests_cant": "That a command never succeeds cannot be shown by trying it on some inputs", "anchors": ["src/postgkyl/commands/mask.py:mask", "src/postgkyl/commands/gkyl_pkpm.py:pkpm"]}
{"id": "C167", "title": "Fluid quantities of collected frames", "statement": "Frames of a simulation on the same grid can be collected into one dataset over time before or after a fluid quantity (`euler`, `mhd`, `tenmoment`, `magsq`) is computed of them in place: the same dataset results, grid and values, whatever order the frames were loaded in.", "quantifier": "all stores reachable by any history, all frames (any number, order of loading, grid, component count) with distinct non-zero times, all gases, all quantities by name, all labels", "why_tests_cant": "the frames are stacked along a new first axis, sorted by time, and the quantity is computed by slicing and broadcasting whole arrays; only a proof over all array shapes shows that the two commute", "anchors": ["src/postgkyl/commands/collect.py:collect", "src/postgkyl/commands/euler.py:euler", "src/postgkyl/commands/mhd.py:mhd", "src/postgkyl/commands/tenmoment.py:tenmoment", "src/postgkyl/commands/magsq.py:magsq", "src/postgkyl/tools/prim_vars.py:get_pij"]}
{"id": "C168", "title": "Options on the command line reach the command they are written for", "statement": "For every command whose option names are distinct, any sequence of options written in the documented ways (name and value, --name=value, attached or combined short names, flags and their negations) gives the command exactly those values in the order of writing and leaves the words behind them to the next command; so a whole chained command line calls every command once, in order, with its own options, arguments and files. A command is never given an option it does not declare or a value that is not on the line, and words that cannot be read in these ways, such as an unknown name or a value for a flag, stop the line. Violated by mask (-u is declared twice and means the upper bound, never the tag), animate (-s means scatter, never squeeze), gk-distf (--c2p-vel, --mc2nu and --mapc2p FILE are flags and the file becomes the next command), -m of gk-nodes and of the balances (takes the next command as its value, and refuses -1) and ev (an expression that begins with a minus sign and a digit is refused).", "quantifier": "all 40 registered commands and all command lines", "why_tests_cant": "The option tables are spread over 40 files and the parser is sequential; a clash of two names is silent, and tests try single options, not all lines and combinations.", "anchors": ["src/postgkyl/pgkyl.py:cli", "src/postgkyl/commands/mask.py:mask", "src/postgkyl/commands/animate.py:animate", "src/postgkyl/commands/gk_distf.py:gk_distf", "src/postgkyl/commands/gk_nodes.py:gk_nodes", "src/postgkyl/commands/ev.py:ev", "src/postgkyl/commands/plot.py:plot"]}
{"id": "C169", "title": "Limits on the command line are the limits of every picture", "statement": "For every line of options of plot, the limits of the axes x, y and z are the ones asked for: the pair of the last --xlim a,b (which counts more than --xmin and --xmax), otherwise the last single limits, otherwise none; and a pair for z is the colour range of every component of every dataset, with or without a common range, blocks or cut-off, on both scales. animate fills in only missing limits. Violated by texts that are no pair: further numbers are dropped silently and a single number is an IndexError.", "quantifier": "all lines of options, numbers, datasets, components and range options", "why_tests_cant": "A test fixes one line; that no other option on the line, and no data, changes the limits ranges over all of them.", "anchors": ["src/postgkyl/commands/plot.py:plot", "src/postgkyl/commands/animate.py:animate", "src/postgkyl/output/plot.py:plot"]}
{"id": "C170", "title": "Every file on the command line is loaded once, with its own options", "statement": "On every command line of files and commands, each file is loaded once, in the order of the line, with the tag, label, reader, cuts, component, variable and mappings written behind it, or, for the options that pgkyl itself has too, those written before the first file, whatever commands stand before, between and behind. Violated by --compgrid behind a file, which is accepted and changes nothing, by the mapping of velocities when it is given twice (see C35), and by the word load, which takes the next file of the line or raises an IndexError.", "quantifier": "all command lines, files, options and file systems", "why_tests_cant": "The pairing of files and options goes through a list that is filled while the line is read and emptied while it runs; tests try one or two files.", "anchors": ["src/postgkyl/commands/load.py:load", "src/postgkyl/commands/load.py:_pick_cut", "src/postgkyl/pgkyl.py:PgkylCommandGroup.get_command", "src/postgkyl/pgkyl.py:cli"]}
{"id": "C171", "title": "The order and the way of writing of options do not matter", "statement": "For every command whose option names are distinct: two neighbouring options for different things may change places, an option may be written in any of its ways (long or short name, with =, attached, as a word of its own), and of an option given twice the first may be left out (unless the command collects its values), without changing what the command is given, the words left for the next command, or the error; for select the datasets after the command are the same, and are those cut by the last value of every option; words that cannot be read as its options stop it with an error.", "quantifier": "every command with distinct option names, all options before and all words behind, every store of datasets", "why_tests_cant": "orders and combinations of options are unbounded", "anchors": ["src/postgkyl/commands/select.py:select", "src/postgkyl/pgkyl.py:cli"]}
