# Design of the postgkyl model

## Approach
Each modelled function is a total Lean definition that mirrors the Python branch by branch and cites `file:lines` of /repo
(paths relative to `/repo/src/postgkyl`). Exceptions are values (`Except Err α`), NumPy arrays are a shape plus a flat
C-order list (`NArr`), files are lists of bytes, Python objects that are shared live on an explicit heap (`Space`, `World`).
Strings that the code takes apart are lists of characters.

- `Verif/Model`: the model, one definition per function or loop.
- `Verif/Spec`: small specifications that do not use the model's helpers (what a dataset holds, what a store looks like
  before and after, formulas, layouts).
- `Verif/Lemmas`: helper lemmas. `Verif/Props`: the theorems `Cxx_...` and, beside them, examples that meet their hypotheses.

Where the code contradicts the English property, the part that holds is proved with the suffix `_partial`, and the
contradiction is proved, in general or for a concrete witness, with the suffix `_fails`.

## Plan per property

Each line: what is modelled and how the property is proved; in brackets the file in `Verif/Props` with the theorems and the status in MANIFEST.json. "partial" nearly always means that the code itself breaks part of the property; the note in MANIFEST.json says which, and a theorem with the suffix `_fails` proves it.

- C01 Saving to .gkyl and loading back is lossless: writer (`gdata.py` gkyl branch) and reader (`gkyl_reader.py`) over byte lists; `read (write d) = d`, by lemmas on little-endian words and prefix reads. [Gkyl; proved]
- C02 A well-formed single-range (type 1) file is read exactly: reader on files laid out as the format comment says, with an arbitrary meta block; decoding theorem over all layouts. [Gkyl; proved]
- C03 Partial load equals slicing the full load (single-range files): recursive block reader `_get_block` against a direct sub-array specification; induction on the number of axes. [Gkyl; proved]
- C04 Partial load reports the bounds of the loaded piece: bounds arithmetic over an ordered field; the nodes of a partial grid are nodes of the full grid. [Gkyl; proved]
- C05 Multi-range (type 3) files are assembled correctly: fold of range writes over a zero array; "last covering range wins" by induction over ranges. [Gkyl; proved]
- C06 Partial load of a multi-range file equals slicing the full load: the same fold with window clipping; equality with slicing of the full fold. [Gkyl; proved]
- C07 Dynvector chunks are concatenated in order without loss: chunk loop; concatenation by induction on chunks. `C07_single_precision_fails`: time stamps in single precision. [Gkyl; proved]
- C08 File metadata reaches the dataset under stable names: fold over the metadata association list. [Gkyl; proved]
- C09 Selecting by coordinate picks the cell containing it: binary search of NumPy modelled literally; invariant of the loop; bracketing theorem. [Idx; proved]
- C10 Index strings mean what the documentation says: `idx_parser` on character lists; exact meaning per syntactic class. [Idx; proved]
- C11 select keeps grid and values consistent: `select` on arrays; values and grid stay paired. [MappedSelect, Select; partial]
- C12 select without overwrite has no side effect: `select` leaves its argument unchanged (explicit heap). [Select; proved]
- C13 Selections on different axes are independent and compose: selections along different axes commute. [Select; proved]
- C14 Component selection keeps exactly the requested components in order: component selection. [Select; proved]
- C15 The dataset store is an insertion-ordered multimap: store as association list of tags plus heap of datasets; refinement to a multimap over all histories of commands. [DataSpace; proved]
- C16 Iterating visits exactly the requested datasets once, in order: iterator as filter; commands as loops over an evolving store, reduced to loops over the initial list by an invariant. [DataSpace; proved]
- C17 activate_all / deactivate_all do what they say: activation commands, by the loop lemmas of C16. [DataSpace; partial]
- C18 activate/deactivate commands set exactly the requested status: the two commands as loops over the store; exact set of changed statuses. [DataSpace; partial]
- C19 Commands with an output tag process each input dataset exactly once: tag and in-place variants of a command, generic in the computation. [DataSpace; partial]
- C20 Dataset metadata always describes the data: `GData` as a state machine; invariant over all histories of push, set and read. [Hist; proved]
- C21 Datasets derived from one another do not share metadata: aliasing through an explicit heap of dictionaries. [Hist; proved]
- C22 Text output lists every cell exactly once, in C order, with its own coordinates: txt writer: index arithmetic over all shapes. [Write; proved]
- C23 Writing a dataset does not change it: the writer as a function of the dataset; heap unchanged. [Write; partial]
- C24 Output file naming: file name logic on characters. [Write; partial]
- C25 The write command never overwrites one result with another: names chosen by the write command. [Write; partial]
- C26 ev evaluates reverse Polish expressions correctly: `ev` stack machine; postfix correctness by induction on expression trees. [Ev; proved]
- C27 ev applies operators dataset by dataset: operators over the lists of datasets on the stack; lengths and order. [Ev; proved]
- C28 ev keeps exactly the metadata on which all operands agree: context merge. [Ev; proved]
- C29 ev stores its result without touching unrelated datasets: placement of results in the store. [Ev; partial]
- C30 Integration is the weighted sum over cells: `integrate` as iterated dot products. Command level (EvCommand): the words of a chain push one operand with a known meaning (`Pushes`, Lemmas/EvPush) and operators compose, so the result for the operator becomes one for `ev`. [EvCommand, Integrate; proved]
- C31 Averaging a constant gives the constant: weights sum to the extent; finite sums. Command level as for C30. [EvCommand, Integrate; partial]
- C32 collect orders frames by time and keeps time and data together: argsort as a stable permutation applied to times and values alike. [Collect; partial]
- C33 collect --chunk partitions the datasets: chunk loop; partition by induction. [Collect; proved]
- C34 Command names resolve unambiguously: command resolution by prefix. [Cli; proved]
- C35 Options given to a load override the global ones: option precedence. [Cli; partial]
- C36 Interpolation fills every output point exactly once with the right cell's expansion: index bijection between cells times points and output cells, mixed radix by induction on the dimension. [Dg; proved]
- C37 Interpolated values sit at the centres of the output cells: interpolated values at the points of the output cells; polynomials of the basis evaluated symbolically. [Dg; proved]
- C38 The basis size tables are right: table of basis sizes against independent formulas (finite domain, kernel computation). [Dg; partial]
- C39 differentiate scales every direction by 2/dx: scale factors of derivatives. [Dg; partial]
- C40 Five-moment primitive variables invert the conserved ones: algebra of the five moments, pointwise over fields. [Tools; proved]
- C41 Ten-moment and MHD primitive variables invert the conserved ones: ten moments and MHD, pointwise; squeeze modelled, hence the restriction on shapes. [Tools; partial]
- C42 Parallel and perpendicular pressures: pressure along and across the field, agyrotropy; `ring` and `field_simp` per cell. [Tools; proved]
- C43 Rotation to field-parallel/perpendicular parts is an orthogonal decomposition: projection algebra. [Tools; partial]
- C44 Squared magnitude and energy sums: magnitudes and energies. [Tools; partial]
- C45 Relative change: relative change. [Tools; proved]
- C46 Multiblock selections address the blocks the user listed: parser of block selections on characters. [Gk; partial]
- C47 Cell centres are the midpoints of the reconstructed nodes: induction on the number of cells. [GkDistf; proved]
- C48 Automatic labels: shortest distinguishing name parts. [Cli; partial]
- C49 gk_distf loads exactly the requested frames: frame arithmetic. [GkDistf; proved]
- C50 Subplot grids have room for every panel: ceiling arithmetic of rows and columns. [Plot; proved]
- C51 Natural ordering of diagnostics pieces: natural sort key on digit runs. [Cli; partial]
- C52 ADIOS partial load offsets: offsets and counts of partial ADIOS reads. [Adios; partial]
- C53 Negative stops count from the end: slices with negative stops against a specification of "counting from the end". [Idx, Select; partial]
- C54 Open-ended selections reach the end of their own axis: open-ended slices per axis. [MappedSelect, Select; partial]
- C55 Saved .gkyl files follow the documented layout: bytes of written files against the layout of C02. [Gkyl; partial]
- C56 ev accepts every arithmetic expression with --tag: `ev` with a tag, for every expression tree. [Ev; partial]
- C57 ev rejects misspelt words: words that are neither operator nor number nor dataset. [Ev; partial]
- C58 Integrating axis by axis equals integrating at once: axis by axis against all at once, by induction on axes. `C58_command_fails` (Props/EvNumber.lean): a second int or avg in a chain of ev always ends the command with an error. [EvNumber, Integrate; partial]
- C59 Every file word is loaded once, in order: command line as a list of words; every file word loaded once, in order. [Cli; proved]
- C60 differentiate returns the exact derivative of the interpolated function: derivative matrices against symbolic derivatives of the basis polynomials (kernel computation over tables, then algebra). [Dg; proved]
- C61 Nodal interpolation evaluates the nodal expansion: nodal matrices against interpolation polynomials. [DgNodal; partial]
- C62 Nodal differentiation returns the exact derivative: the same for derivatives. [DgNodal; partial]
- C63 Any positive number of interpolation points and order 0 work: matrices built for any number of points. [DgNodal; partial]
- C64 Nodal interpolation reproduces constants: partition of unity from the tables. [DgBasis; proved]
- C65 The modal bases are orthonormal: integrals of products of basis polynomials, exact rationals with square roots as formal symbols. [DgBasis; proved]
- C66 Mapped grids given as expansions are interpolated to the nodes of the output cells: mapped grids: node coordinates from expansions. [DgC2p; proved]
- C67 Plots show every value at its own position: cell values and their drawn positions for lines and images. [PlotData; proved]
- C68 A common colour range covers everything plotted: extrema over panels; with --cutoffglobalrange the percentiles of the sorted extrema (Model/Contour.lean) against the definition of a quantile. [Contour, PlotData; partial]
- C69 Interpolation uses the requested order, basis, points and components: options to settings, all branches. [DgSettings; proved]
- C70 A Fourier transform lists every amplitude at its own frequency: discrete transform as a sum; frequencies and amplitudes. [Spectral; partial]
- C71 The isotropic spectrum is the mean over shells of wave numbers: shells as integer intervals; mean over members. [SpectralIso; partial]
- C72 The FFT filter removes exactly the frequencies above the cut-off: transform, mask, inverse transform; orthogonality of roots of unity. [Filter; proved]
- C73 Plasma parameters follow the textbook formulas: formulas over the reals. [Params; partial]
- C74 The Laguerre composition has the given perpendicular moments: Laguerre moments by exact integrals of exponentials times polynomials. [Kinetic; proved]
- C75 A frame transformation shifts the velocity grid by the local bulk velocity: shift of velocity nodes per configuration cell. [Kinetic; partial]
- C76 The current is charge times flow summed over species: sums over species. [Kinetic; partial]
- C77 The rotation matrix is orthonormal with the vector as first row: orthonormality over the reals. [Kinetic; partial]
- C78 laguerrecompose and transformframe store their result under the requested tag: store changes as in C19. [Kinetic; partial]
- C79 The growth rate is that of the best exponential fit: least squares: the fit as an optimum; loop over fit lengths; best residual by induction. [Fit; partial]
- C80 Kinetic energy and its dissipation rate are computed from a series of frames: differences over a series of frames. [Fit; partial]
- C81 Multi-block data get the frame number in their file name: file names of blocks and frames on characters. [SetFrame; partial]
- C82 An animation shows every dataset once, in order: frames of an animation against the iterator. [Animate; proved]
- C83 Fixed limits of an animation hold for all frames: limits as extrema over all frames. [Animate, Contour; partial]
- C84 Animations grouped by tag are separate and complete: groups by tag. [Animate; partial]
- C85 A multi-block picture shows all blocks of one frame: blocks of one frame. [Animate; partial]
- C86 Columns become coordinates: columns as coordinates; index arithmetic of the component axis. [Val2coord; partial]
- C87 Column ranges: ranges of columns as arithmetic progressions. [Val2coord; partial]
- C88 Trajectory frames: marked positions of a trajectory per frame. [Val2coord; partial]
- C89 A line through several blocks is one dataset: search for blocks along a row; concatenation of their lines. [Multiblock; partial]
- C90 Fluid commands store the named quantity: commands as loops (C19) with the pointwise results of C40, C41, C44. [Commands; partial]
- C91 grid lists the node coordinates: node coordinates through `meshgrid`, induction over axes. [Commands; proved]
- C92 Commands combining tags work pair by pair: loops over pairs and triples with C42-C44; switching off as in C17. [PairCommands; partial]
- C93 relchange compares with the reference: loop that re-reads the reference from the store. [PairCommands; partial]
- C94 interpolate evaluates every field of every dataset: loop of C18 over the evaluation of C24-C27; order, basis and points resolved from options and metadata. [DgCommands; partial]
- C95 differentiate gives the derivative of the data: the same with the derivative of C28. [DgCommands; partial]
- C96 integrate command sums over the named axes: loop of C18 over C30; the text of the axes parsed as numbers. [SelectCommands; partial]
- C97 select command cuts out what its options name: loop of C18 over C11; every text reduced to an argument of the function with the same cells. [SelectCommands; proved]
- C98 ev: grad gives the partial derivatives: the difference quotients of `np.gradient` are slopes of interpolating parabolas (field arithmetic, uniqueness of the parabola), loop invariant over the axes. Command level as for C30. [EvCommand, EvDiff; proved]
- C99 ev: div and curl combine the right derivatives: the same for one component; the assignments composed. Command level as for C30. [EvCommand, EvDiff; partial]
- C100 ev: div of curl and curl of grad vanish: difference quotients are three-term linear combinations, so those along different axes commute. Command level as for C30, with two operators. [EvCommand, EvDiff; proved]
- C101 ev: scale_comp scales exactly the named components: loop invariant: the factor to the power of the number of occurrences. Command level as for C30. [EvCommand, EvDiff; partial]
- C102 ev: scale_zi_axis scales the coordinates of its result only: heap model with addresses of coordinate arrays; invariant over sessions relating addresses to origins. [EvDiff, Sharing; partial]
- C103 A file is opened by the first reader that recognises it: Model of the reader loop in `Verif/Model/H5.lean`; the external libraries are inputs. Induction on the list of readers. [H5; partial]
- C104 Frames in the legacy HDF5 format are read as stored: Model of the legacy HDF5 reader; both metadata paths are followed; extrema of the nodes by induction on the axes. [H5; partial]
- C105 Diagnostics in the legacy HDF5 format keep their times: The same model; the number of nodes differs from the number of times for every file. [H5; partial]
- C106 FLASH blocks are assembled on the finest lattice: Model of the block assembly over an ordered field with floor; last-writer lemma for the two nested loops, positions as integers obtained from the lattice. [H5; partial]
- C107 Style settings: the last one counts, file before options: Text model of load_style and style (Model/Text): the file's lines are split, each line cut at the first colon and stripped; the dictionary after a sequence of assignments is computed by induction (foldl_set). Blank lines and comments are settings too: proved as _fails. [Text; partial]
- C108 listoutputs prints every stem once, in order: Text model of listoutputs: stems by stripping the extension, _restart and the frame number (stem_iff shows the code's regular expression does just this); uniqueness by induction, order by the sort lemmas. [Text; proved]
- C109 info lists the visited datasets with numbers that select them: The loop of info is the iteration of C16 (iterate_ok); the number is shown to select the dataset with C16_iterate_list. [Text; proved]
- C110 growth adds the fitted curve and the rate of every series: The command is a loop over the store that may add several datasets per step; a general lemma about such loops (Space.iterate_adds) gives the final store, and fit_growth enters through C79. [Growth; partial]
- C111 The fft command adds the power spectra of its data and leaves the rest alone: The command is a loop that changes each visited dataset and may add others; a general lemma about such loops (Space.iterate_changes) gives the final store, the transform enters through C70 and the binning of --iso through C71 (Props/FftIso.lean). Without --psd the store holds complex numbers (Props/FftAmplitudes.lean). [FftAmplitudes, FftCommand, FftIso; partial]
- C112 Loading a gyrokinetic distribution function divides out the Jacobians: `load_gk_distf` and the command `gk_distf` (Model/GkDistf.lean): the quotient, the two interpolations (by C36), the product broadcast over velocity space, the mapped axes (by C47), the file names, the loop over the frames and the labels. Loading a file is a parameter. Mapped velocity grids (Props/LoadDistfVel.lean): the grid by C66, the values as before. The labels of several frames coincide: `C112_labels_fails`. [LoadDistf, LoadDistfVel; partial]
- C113 A history written in pieces is loaded whole and in order: Variable names are lists of characters, the library is a list of names and a read function; the natural sort key is modelled part by part. Key lemmas: the key of a name with a number, strict order of the keys along the pieces, uniqueness of the sorted list among permutations; then induction over the pieces. [AdiosDiag; partial]
- C114 info describes the dataset: every dimension, the true extremes, all metadata: GData.info is modelled text part by text part, with the formatting of numbers, positions and metadata values as parameters; nanargmax/nanargmin by an explicit scan with its invariant (best so far, first position), unravel_index inverted against the C order; the text is shown to be the lines of a specification joined by line ends. [Info; partial]
- C115 Axis labels of a plot name the coordinate that is shown, with shift and scale: The label part of `plot` (Model/PlotKinds.lean): the default names with the single-node directions deleted, then shift and scale text. Case analysis over the options and induction over the directions. The vertical label tests the options of the horizontal one: `C115_vertical_fails`. [PlotLabels; partial]
- C116 Arrows and streamlines show the vector at the node: quiver and streamline arguments of `plot`: the stride, strided slices of grid and values, the magnitude over an ordered field. Read through `NArr.get?` at every index. `C116_arrows_fails`: a zero stride. [PlotKinds; partial]
- C117 Line-outs show every line of the data and the colour bar tells its coordinate: The line-out loop of `plot`: induction over the remaining lines; the shade `index/(n-1)` against the linear colour bar over the bounds, equal exactly on equidistant grids; `C117_shades_fails`. [PlotKinds; partial]
- C118 Colour limits: diverging plots are symmetric, and given limits are used: The colour norm of `plot`: maximum of the absolute values over the component, the state carried from component to component, `extend` markings; `C118_diverging_fails`. [PlotKinds; partial]
- C119 Saved pictures and legend labels of the plot command: The plot command (Model/PlotCmd.lean): figures are a list from numbers to drawings, files a list from names to what was drawn in the figure when it was saved, in the order of writing with overwriting. The loop is `iterate` (C16); induction over the visited datasets with the state of figures, name and files. Matplotlib is represented by this interface; drawing options are left out (C109, C115–C118). [PlotCmd; partial]
- C120 gk_nodes adds the nodes of every block in R and Z: gk_nodes (Model/GkNodes.lean): nodes_to_RZ on arrays read through `NArr.get?` at every index for one, two and three dimensions; the line segments and their transposition; the loop over blocks by induction with the added datasets in order (`Forall₂`). Reading a file is a parameter. The flux dataset: `C120_flux_swapped` for every size, `C120_flux_fails` on one. Drawing is not modelled; `--clevels a:b:n` always raises NameError. [GkNodes; partial]
- C121 calc_enstrophy integrates the squared vorticity: calc_enstrophy (Model/Enstrophy.lean): np.gradient with a spacing is the parabola slope of C72; the loops over cells are sums over all indices. The alias `incom_enstrophy = enstrophy` is modelled by one list. `C121_partial` states what is returned, `C121_shear_fails` and `C121_same_fails` that it is not what is claimed. [Enstrophy; partial]
- C122 extractinput and pr print what the datasets hold: extractinput and pr (Model/Echo.lean): binascii.a2b_base64 as a state machine; line ends are skipped (induction over the text), and decoding after the RFC 4648 encoder of Spec/Echo.lean gives the bytes (functional induction over groups of three bytes, 64-entry digit table by kernel evaluation). UTF-8 is Lean's own String. The loops as in C114. [Echo; proved]
- C123 Contour levels are those asked for: contour levels (Model/Contour.lean): the text is split at colons or commas as in the code, `np.linspace` read entry by entry, the levels of several blocks composed with the reading. Reading a decimal number is a parameter. `C123_integer_fails`: the help of animate. [Contour; partial]
- C124 Loading with a mapped grid: mapped loading (Model/MappedLoad.lean): the grid construction of GkylReader.load for c2p and c2p_vel on top of the reader of C02-C07; what a file yields does not depend on the context it is read into (induction over the reader), so the mapping file may be described by loading it on its own. `C124_restricted_fails`: restricted cells. [MappedLoad; partial]
- C125 A command line is its commands run from left to right on one store: `load` as a fold of constructor + add over variables × files, then the labels (C48); the line as lookup of all words followed by the run, proved equal to a fold over the words by induction with the invariant that the counter of loaded strings points at the next file word. [LoadCmd; proved]
- C126 load --fv gives the nodes of the cells: `interpolateGrid` with one point per cell; uniform grids by uniqueness of the mesh, mapped grids by the same matrix argument as C66; two negative results. [LoadFv; partial]
- C127 From a file to interpolated values: the composition of the reader theorems (open_t1/open_t3), C36/C94 and C125 with StoresWords (the words a file lists per cell and component) as the only premise about the file; the part-of-whole claim by induction over the axes (positions within a cell do not depend on where the window starts). Reachable is closed under arbitrary in-place changes of single datasets, so labels set by load do not leave it. [FileInterp; proved]
- C128 What a dataset made from an ADIOS file holds: The ADIOS reader is modelled from the file (attributes and variables as tables) to the dataset (Model/AdiosData): metadata copied key by key, prompt as a list of answers, uniform or mapped grid, what the context gets to know. Proved by composing C52 (selection), C113 (histories) and the interpolation lemmas of C66; two violations proved for every file. [AdiosData; partial]
- C129 A .gkyl file that was cut short is never taken for a complete one: monotonicity of every read in the file (a read that succeeds on the first k bytes succeeds with the same result on the whole file and ends before k), so a complete load can only end at the end of the file; time traces by induction over the complete pieces; broadcasting of single values in `_get_block` is part of the model and gives the counterexample. [GkylCut; partial]
- C130 Selecting cells and interpolating commute: Props/SelectInterp.lean: the selected dataset is shown to store the shifted expansion (C11/C12), then both interpolations are computed by C94 lemmas; the local coordinates of a refined midpoint do not depend on where the part starts, and the nodes of a refined window are the window of the refined nodes. [SelectInterp; proved]
- C131 Integrating interpolated data gives the integral of the expansion: Props/InterpIntegral.lean: the weighted sum of C30 over the refined cells is regrouped cell by cell; for functions at most linear in each variable the mean over the points of a cell is the mean over the cube (table check by the kernel for orders 0 and 1), and for x^2 it is smaller by 1/(3 n^2), which gives the exact error for quadratic data. [InterpIntegral; partial]
- C132 Point-evaluation kernels evaluate the modal expansion: Props/Kernels.lean: the syntax trees of all kernels are transcribed (Model/Kernels.lean); a normaliser to sums of coefficient times monomial is proved correct, and the kernel of Lean checks that the difference to the tables of computeInterpolationMatrices.py is small; the kernels with `^`, with products of coefficients and with empty bodies are shown to be wrong. [Kernels; partial]
- C133 Restricting a .gkyl load and selecting afterwards give the same dataset: Props/CutLoad.lean: the reader side comes from the decoding theorem of C127 (`open_words`), the select side from C11; the bounds which `push` computes from the minima and maxima of the cut nodes are shown to be the bounds which the reader computes from the header. The two `_fails` theorems cover every negative end on the first axis and every open component range. [CutLoad; partial]
- C134 Grid and metadata of an ev expression: Props/EvKeep.lean: second induction over expressions, next to run_expr, carrying grid, properness and origin of metadata of every stacked dataset; C28 gives the merge at each operator. Negation for nested disagreement by evaluation. [EvKeep; partial]
- C135 interpolate, differentiate and integrate commute with linear ev expressions: Props/EvLinear.lean: C29 gives the values of an expression as a pointwise function of the leaves; a linear expression turns a linear operator on fields (the DG value, its derivative, the weighted cell sum) of the leaves into the operator of the result (Lemmas/EvCommute.lean, `ev_commutes`); C134 keeps grid and expansion metadata so the command applies after ev. The failure for nonlinear expressions by evaluation. [EvLinear; proved]
- C136 select commutes with elementwise ev expressions: Props/EvLinear.lean: the same commutation theorem with the operator "read the selected position", which commutes with every elementwise function. [EvLinear; proved]
- C137 Integrals over adjacent parts add up: Props/Adjacent.lean: C97 (what select cuts out) and C30 (integrate is a weighted cell sum) reduce the claim to splitting a sum over multi-indices along one axis (induction over the axes, Lemmas/Adjacent.lean). Negation for nodal values by evaluation. [Adjacent; proved]
- C138 Selecting from collected frames: Props/CollectSelect.lean: the store after `collect` holds one active dataset whose first axis is the ascending times (C32 with the reported cells); its selection is described by C97 with one more axis, and both orders give arrays with the same entries since distinct times fix the order. [CollectSelect; proved]
- C139 Commands on different tags can be given in either order: Props/TagCommute.lean: every listed command is a fold of single replacements over the visited datasets; replacements of different datasets commute as partial functions, and the folds of disjoint lists commute by induction; a missing tag fails in both orders. [TagCommute; proved]
- C140 Results of commands survive saving and reopening: Props/SaveLoad.lean: the bytes written are those of a documented file (C01, C55), opening gives linspace between the bounds; the bounds stored by push are the extreme nodes; on a uniform mesh linspace between them lists the nodes. Composed with C94 for interpolate. [SaveLoad; proved]
- C141 A spectrum keeps the energy of the data, and half of it determines the rest: Props/SpectralEnergy.lean: Parseval's identity from the inverse transform of C70; the symmetry by pairing the phases of opposite wave vectors; the kept frequencies by splitting the list of frequencies at its middle. [SpectralEnergy; partial]
- C142 Selecting cells and differentiating can be done in either order: Props/SelectDiff.lean: the selection of whole cells is again DG data on the sub-mesh (select_part, shared with C130); the derivative at a refined cell depends only on its cell and place in it; the refined selection is an index shift. [SelectDiff; proved]
- C143 Selecting along some axes and integrating over others can be done in either order: Props/SelectIntegrate.lean: both orders as weighted sums (C30) over the selected index set (C11); the sum over an axis that is not selected commutes with re-indexing the others. [SelectIntegrate; proved]
- C144 The int operation of ev and the command integrate agree: Props/IntegrateRoutes.lean: both routes are the weighted sum of C30, and the sum does not depend on the order of the axes; the coordinates of the integrated axes are computed on both sides and differ. [IntegrateRoutes; partial]
- C145 Integrating collected frames: Props/CollectIntegrate.lean: the collected array is the stack of the frames sorted by time (C138's lemma); a weighted sum over later axes is taken separately for each position on the first axis; sorted times are unique. [CollectIntegrate; proved]
- C146 ev: dot product, extremes and mean: Props/EvOps.lean: a chain `operands op` (Lemmas/EvOps.lean, `ev_operator`): the operands run as in C26 and C134, the operator is applied dataset by dataset, and the results are pushed; then one computation for each operator. [EvOps; proved]
- C147 ev: arithmetic between data of different extents: Props/EvOps.lean: `ev_operator` of C146 with the broadcasting of the transposed arrays: shapes that agree from the front. `C147_sum_fails`, `C147_vector_fails`: what + and - and fields of several components do. [EvOps; proved]
- C148 ev: arithmetic with numbers computed from data: Props/EvNumber.lean: the reduced operand is an array with one entry on an empty grid; broadcasting it against any shape is the identity on the other operand (Lemmas/EvNumber.lean); chains by `pushes_pair`. Refuted: powers of such numbers, and a length as the only result (both cannot be stored). [EvNumber; partial]
- C149 ev: averages, integrals, lengths and means agree: Props/EvNumber.lean: both chains are evaluated with the lemmas of C30, C31 and C148 and the resulting arrays compared entry by entry; equal weights factor out of the sum over cells. [EvNumber; proved]
- C150 A grid and values given as a pair are plotted like a dataset: Model/Plot.lean `preparePair` shares `prepareDims` with datasets; the pair is compared with the dataset of the same axes (Spec/Plot.lean) for every kind of grid, and the failing kinds are stated for all such pairs. [PlotPair; partial]
- C151 Captions, labels and limits of the panels of a plot: The figure is the list of its axes with captions, labels drawn and limits set by hand; one lemma gives the effect of one component on each axes, induction over the components and over the calls gives the figure (Model/PlotPanels.lean). [PlotPanels; partial]
- C152 Datasets do not depend on one another: The grid list is an object with an address; an invariant identifies addresses with families of datasets defined from the commands alone, induction over the session compares the store with the expected one (Model/SharedLists.lean). [SharedLists; partial]
- C153 The picture of an expansion shows its values at the positions shown: the results of C127, C36, C11 and C67 composed: a dataset that was pushed knows its extents, so what is drawn of it is determined by mesh and field; explicit formula for the points in one dimension. [Picture; proved]
- C154 What the figure of gk_nodes shows: Model/GkFigure.lean: running extremes over the blocks, size and boxes of the figure, line collections of the segments, colour cycle, interpolated flux, parsing of levels and limits. Extremes by an invariant over the list of blocks; proportions by field arithmetic; the flux by C36 and the transpose of C120; levels by C123. [GkFigure; partial]
- C155 What a picture of an animation shows: Model/AnimFrame.lean: the title and the calls of `plot` of one picture, on the figures of Model/PlotPanels.lean. By induction over the datasets of the frame with the results of C151; colour bars are counted. [AnimFrame; partial]
- C156 Pictures of trajectories: Model/Trajectory.lean: hiding of points, lines, marks and strokes of one dataset, the loop over the active datasets of the tag, number of pictures. Induction over the datasets; the iteration is folded over a fixed list (Lemmas/Store). [Trajectory; partial]
- C157 What a command line leaves as it is: invariant of every loop over the store (lists only grow by new objects; objects change only where the list of Spec/Kept.lean allows it), proved command by command, then by induction on the command line [Kept; proved]
- C158 Selecting cells and computing can be given in either order on a command line: The per-dataset statements (C41 for the fluid, C130, C142, C143, C11) are lifted to the store with one lemma (`Cmd.pushCmd_swap`): two pairs of commands that store the same result for each visited dataset leave the same store. For the fluid the part of a gas is a gas (`Gas.cut`), and the commands act on each cell. The pressure tensor is refuted by a part with an axis of length 1 behind a longer one. [SelectDgCommands, SelectFluid; partial]
- C159 Diagnostics accept datasets, arrays and pairs alike: `input_parser` and the functions of prim_vars.py, mag_sq.py and pressure_diagnostics.py are modelled once more, with their arguments and the calls among them, where each call parses the argument again; each function is proved to be the function on values (Model/Tools.lean) followed by the storing of the result. The empty tuple standing for the grid of an array refutes the ten-moment functions. [Inputs, InputsMag; partial]
- C160 A call that raises leaves the dataset as it was: The state at the moment of the exception is modelled beside the value of the call (Model/Failing): push stores the values, then the grid, then may raise, then stores the bounds; select, integrate and the diagnostics compute and then push. The theorems: if computing raises nothing is stored; the push cannot raise because the number of axes is kept (proved for all eighteen diagnostics and for any list of axes of integrate) and every axis has a node. The cases in which it does raise are stated for all arguments (`_fails`). [Failing; partial]
- C161 The words that run the commands of the package: The list of the registered commands is a constant of the model; the table of the numbers of letters is checked against it by evaluation in the kernel (finite), and every word is a beginning of one of the names or of none, which turns the table into a statement about all words and all file systems (from the model of get_command of C34). [Registered; partial]
- C162 Diagnostics of two datasets of parts: velocity, parrotate, get_agyro and rel_change compute cell by cell (the same function of the numbers of a cell, proved for the models of C42-C45), select takes cells (C05): both orders give arrays with the same shape and entries, which are equal; the grids are those of select [SelectPairs; proved]
- C163 The Butterworth filter is a linear, causal filter: The recursion of scipy.signal.lfilter is modelled for any coefficients (scipy.signal.butter is not modelled); the difference equation is stated with sums over all coefficients of signals that are zero before the first sample, and proved, with uniqueness, by induction over the signal; linearity, causality, delay and units are inductions over the recursion [Butter; partial]
- C164 The cut-off of the FFT filter is the one chosen for these data: The global name is a state that every call receives and leaves; a session is a list of calls; the state before a call is determined by the latest click, by induction over the calls before [Butter; partial]
- C165 velocity and magsq agree with the same formula written for ev: for both sides the result is expressed by the entries of the input arrays (C92/C90 lemmas, C146/C147), and the arrays are then equal by extensionality; witnesses for switched-off datasets and for four components [EvAgree; partial]
- C166 mask and pkpm can succeed: the steps of both commands with the libraries as parameters; evaluation up to the first error [NeverRun; partial]
- C167 Fluid quantities of collected frames: The commutation lemma `collect_swap` is proved for any function of the values that treats cells separately: `collect_frames` (the stacked array entry by entry) on both sides, and the times determine the order; the fluid quantities are instances through the gas that puts the gases of the frames in a row. [CollectFluid; partial]
- C168 Options on the command line reach the command they are written for: The option tables of all 40 commands are generated from the sources (Model/OptionTable); Click's parser is modelled as a total recursion on the words (Model/Options, termination by the size of the words left). Spec: an inductive grammar of what a user may write (Spec/Options: `Written`, `Line`, `Chained`). Proved by induction over the grammar that the parser returns exactly what is written; by induction on the words that nothing else comes out; the facts about the finite table by `decide +kernel`. The violations are proved for all following words. The grammar has one reading only (C168_one_reading, C168_one_line), except for `mask` (C168_two_readings_fails). Props/OptionsExact: the converse, by strong induction on the size of the words left: what Click accepts is a line of the grammar (C168_exact, C168_line_exact_partial), for 35 of the 40 commands. [Options, OptionsExact; partial]
- C169 Limits on the command line are the limits of every picture: Model/Limits: the `--xlim` lines of plot and animate on top of the option model of C168. Spec: `Asked` says, from the options as written, which limits the user wants. Proved for every grammatical line by composing C168, the limits, the range of commands/plot.py and the colour loop of output/plot.py. [Limits; partial]
- C170 Every file on the command line is loaded once, with its own options: Model/LineLoads: the options of `pgkyl` and of each `load` as the option model of C168 reads them, handed to the model of load.py (C35). Spec: `FilesOn` (the files of a line with what is written behind each) and `LoadedAs` (own option first, then that of pgkyl). Proved by induction over the line and over the list of calls. Props/LineLoadsExact: the same for every line that is accepted, by the converse of C168 (C170_accepted_partial). [LineLoads, LineLoadsExact; partial]
- C171 The order and the way of writing of options do not matter: Props/Order: the parser on words put together from written options (`Pieces`, `Written`) gives the lists put together (induction over the grammar, C168); lists that differ in the order of different keys, or in a value that is given again later, have the same last value for every key. `select` from the words to the store is Model/SelectLine; the branch of `--multiblock` is a parameter. [Order; proved]

## Trusted base
- The kernel of Lean 4.33.0. All theorems depend on the axioms `propext`, `Classical.choice` and `Quot.sound` at most; the
  list per theorem is in AXIOMS.txt. No axiom is added, there is no `sorry`, `native_decide` or `bv_decide`.
  `decide +kernel` is used for finite tables (basis sizes, matrix entries against polynomials) and for concrete witnesses.
- The translation from Python to Lean by hand. Every definition cites the lines it models; simplifications are named there.
- Arithmetic: floating point numbers are elements of an arbitrary field, ordered field or the real numbers, so algebraic
  identities hold in exact arithmetic. Division by zero is 0 in Lean and inf or nan in NumPy; theorems exclude zero
  divisors by hypothesis, except where a `_fails` theorem exhibits them. Stored floats in files are opaque words, so the
  file round trips are bit exact. Square roots are parameters, or the real root where laws are needed.
- Semantics of libraries, written into the model where used: Python slicing, negative indices, `int`, `split`, `dict` order,
  `sorted`; NumPy broadcasting, basic slicing, `squeeze`, `searchsorted`, `argsort`, `reshape`, `fromfile`, `tofile`,
  `linspace`, `gradient`, `meshgrid`; Click's order of commands and option defaults.
- Taken as parameters or hypotheses: `scipy.fft` (the discrete Fourier transform, written out as a sum),
  `scipy.optimize.curve_fit` (a function with the stated optimality), the file system (a function from names to contents,
  a list of names for `glob`), the ADIOS2 library (variables as arrays).

## Not modelled
Drawing by matplotlib (what is drawn, and in which frame, is modelled; colours, fonts and layout are not), msgpack and
base64 decoding, the HDF5 and ADIOS2 libraries below their read calls, Click's parsing of option words, logging, version
reporting.

Two registered commands end in a TypeError on every input before doing anything, so there is nothing to prove about
their results (C166): `mask` calls the dictionary `ctx.obj` (mask.py:19), `pkpm` formats a tuple with `:s`
(gkyl_pkpm.py:22). `commands/temp.py` and the `old` directories are not reachable from the package.

### Source files and the model files that cite them

| /repo/src/postgkyl | Verif/Model |
|---|---|
| commands/agyro.py | Commands, OptionTable |
| commands/animate.py | AnimFrame, Animate, Limits, OptionTable |
| commands/bparrotate.py | Commands, Registered |
| commands/bperprotate.py | Commands, Registered |
| commands/collect.py | Collect, OptionTable |
| commands/current.py | Kinetic, OptionTable |
| commands/data_space.py | Cli, DataSpace |
| commands/differentiate.py | DgCommands, OptionTable |
| commands/energetics.py | Commands, OptionTable |
| commands/euler.py | Commands, OptionTable |
| commands/ev.py | Ev, EvCmd, OptionTable, SharedLists, Sharing |
| commands/ev_cmd.py | Ev, EvCmd, EvDiff, Integrate, Sharing |
| commands/extractinput.py | Echo, OptionTable |
| commands/fft.py | FftCommand, OptionTable, SharedLists |
| commands/gk_distf.py | Gk, GkDistf, OptionTable |
| commands/gk_energy_balance.py | Gk, OptionTable |
| commands/gk_nodes.py | GkFigure, GkNodes, OptionTable |
| commands/gk_particle_balance.py | Gk, OptionTable |
| commands/gkyl_pkpm.py | NeverRun, OptionTable |
| commands/grid.py | Commands, OptionTable |
| commands/growth.py | Growth, OptionTable |
| commands/info.py | Info, OptionTable, Text |
| commands/integrate.py | Commands, DataSpace, DgCommands, OptionTable |
| commands/interpolate.py | DgCommands, OptionTable |
| commands/laguerre_compose.py | Kinetic, OptionTable |
| commands/listoutputs.py | OptionTable, Text |
| commands/load.py | Cli, LineLoads, LoadCmd, OptionTable |
| commands/magsq.py | Commands, OptionTable |
| commands/mask.py | NeverRun, OptionTable |
| commands/mhd.py | Commands, OptionTable |
| commands/parrotate.py | Commands, Registered |
| commands/perprotate.py | Commands |
| commands/plot.py | Contour, OptionTable, Plot, PlotCmd |
| commands/pr.py | Echo, OptionTable |
| commands/relchange.py | Commands, OptionTable |
| commands/select.py | DgCommands, OptionTable |
| commands/status.py | DataSpace, OptionTable |
| commands/style.py | OptionTable, Text |
| commands/tenmoment.py | Commands, OptionTable |
| commands/trajectory.py | OptionTable, Trajectory, Val2coord |
| commands/transform_frame.py | Kinetic, OptionTable |
| commands/val2coord.py | OptionTable, Val2coord |
| commands/velocity.py | Commands, OptionTable |
| commands/write.py | OptionTable, Write |
| data/computeDerivativeMatrices.py | DerivTables, Dg, Poly |
| data/computeInterpolationMatrices.py | Dg, InterpTables, Poly |
| data/dg.py | Dg, DgCommands, LoadCmd |
| data/flash_h5_reader.py | H5 |
| data/gdata.py | AdiosData, DataSpace, DgCommands, Echo, Failing, GData, GDataFile, H5, Info, Inputs, MappedLoad, Multiblock, SharedLists, Sharing, World, Write |
| data/gkyl_adios_reader.py | Adios, AdiosData, AdiosDiag, DgCommands, H5 |
| data/gkyl_h5_reader.py | H5 |
| data/gkyl_reader.py | DgCommands, GDataFile, GkylReader, H5, MappedLoad |
| data/idx_parser.py | IdxParser |
| data/select.py | DataSpace, Failing, Multiblock, Select, SelectLine, SharedLists, Sharing |
| modalDG/interpolate.py | Kernels |
| modalDG/kernels/expand1d.py | Kernels |
| modalDG/kernels/expand2d.py | Kernels |
| modalDG/kernels/expand3d.py | Kernels |
| modalDG/kernels/expand4d.py | Kernels |
| modalDG/kernels/expand5d.py | Kernels |
| modalDG/kernels/expand6d.py | Kernel, Kernels |
| output/plot.py | AnimFrame, Contour, Limits, Picture, Plot, PlotCmd, PlotKinds, PlotPanels |
| pgkyl.py | Cli, LineLoads, LoadCmd, OptionTable, Options, PlotCmd, Registered |
| tools/accumulate_current.py | InputsMag, Kinetic |
| tools/calc_enstrophy.py | Enstrophy |
| tools/calc_ke_dke.py | Fit |
| tools/calculus.py | Failing, Integrate, SharedLists |
| tools/energetics.py | Tools |
| tools/fft.py | Commands, FftCommand, SharedLists, Spectral |
| tools/filters.py | Butter, Spectral |
| tools/growth.py | Fit, Growth |
| tools/init_polar.py | Spectral |
| tools/laguerre_compose.py | Kinetic |
| tools/mag_sq.py | Inputs, Tools |
| tools/params.py | InputsMag, Params |
| tools/parrotate.py | Tools |
| tools/perprotate.py | Commands, Registered, Tools |
| tools/polar_isotropic.py | Spectral |
| tools/pressure_diagnostics.py | Inputs, Tools |
| tools/prim_vars.py | Inputs, SharedLists, Tools |
| tools/rel_change.py | Commands, Tools |
| tools/rotation_matrix.py | Kinetic |
| tools/transform_frame.py | Kinetic |
| utils/gk_utils.py | Gk, GkFigure, GkNodes |
| utils/gkeyll_enums.py | GkNodes, Info |
| utils/input_parser.py | Inputs, Params, Plot |
| utils/load_style.py | Text |
| utils/set_frame.py | Animate |

Not modelled at all: __init__.py, commands/__init__.py, commands/old/cglpressure.py, commands/old/recovery.py, commands/temp.py, data/__init__.py, data/old/recovData.py, modalDG/__init__.py, modalDG/kernels/__init__.py, output/__init__.py, tools/__init__.py, utils/__init__.py, utils/verb_print.py.
