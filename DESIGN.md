# Design of the formal model of statdyn-analysis

The model is a shallow embedding in Lean 4: each Python function becomes a total Lean
function with the same branches, Python exceptions become values of `Except PyErr`,
mutable objects become records that are passed through and returned.  Each area of the
code has its own directory under `lean/Verif`:

* `Model.lean`  – the transcription of the code (every definition cites file and lines),
* `Spec.lean`   – the independent vocabulary in which the properties are stated,
* `Lemmas.lean` – helper lemmas (sometimes several files),
* `Props.lean`  – the property theorems, each followed by an `example` showing a concrete
  non-trivial case that meets its hypotheses.

## Trusted base

* The Lean kernel, and the axioms `propext`, `Classical.choice`, `Quot.sound` (the only ones
  any theorem depends on; the gate checks it, `#print axioms` was used while working).
* That the definitions in `Model.lean` transcribe the Python text.  The transcription is by
  hand.  Nothing in `/repo` was executed.
* The behaviour of the libraries the code calls, as listed in "Assumed libraries" below.
* Numbers: Python `int` is Lean `Int`/`Nat` (exact in both).  Floating point numbers are
  *ideal*: elements of a linear order, an ordered field, or `ℝ`, as each property needs.
  Rounding is inside the model in the area Rounding only (C115, C116, C118 to C121, C123, C124, C129 to C134, C141: rounding to nearest even of a binary
  format with a smallest exponent).  Overflow and signed zero are outside the model.  NaN is inside the model wherever
  the code branches on it (`Option`, with `none` for NaN and all comparisons false).

### Assumed libraries

| library | what the model assumes |
|---|---|
| `queue.PriorityQueue` | `get` removes a smallest element, `empty` tests emptiness |
| python `dict` | insertion ordered map; `setdefault`, `get`, `del` (KeyError) |
| generators | run only when `next` is called; a finished one raises StopIteration |
| `gsd` | indexing a frame either returns a snapshot or raises; negative indices count from the end; IndexError outside the range |
| pandas `to_hdf` | `append=False` replaces the table of that key only; `append=True` adds rows; an empty table-format frame stores nothing (both known behaviours on what happens to an old table are covered by a parameter) |
| freud `Box.wrap` | maps to fractional coordinates of the (tilted) cell, takes them into [-1/2, 1/2), maps back.  The proofs use only: result is congruent modulo the lattice, lies in the cell, fixes the open central cell |
| rowan | quaternion product, conjugate-inverse, rotation `q v q*`, Euler angles in the zyx convention (angle about z first) |
| `np.argsort` | some permutation that sorts (no assumption on ties) |
| `np.argmax`, `np.nanargmax` | first maximum |
| `scipy.optimize.curve_fit` | for `diffusion_constant`: any minimiser of the squared error; for `exponential_relaxation`: arbitrary result or exception (C51), any minimiser with zero covariance for an exact fit (C104) |
| `scipy.optimize.newton` | modelled for C104 (scalar, with `fprime`), arbitrary elsewhere |
| bokeh | assigning a changed value to a widget runs its callbacks synchronously; assigning an equal value does nothing; exceptions of a callback come out of the assignment and the value stays; a linear colour mapper cuts the range into equal parts, one for each colour, and the highest value has the last colour; a categorical one takes the colour at the position of the factor, and a grey beyond the palette |
| pandas tables | a frame of no rows has no columns; `concat` of nothing raises ValueError; `groupby` drops rows whose key is NaN; before 1.0 `agg` drops the columns on which an aggregate raises ValueError or TypeError |
| pandas `resample("1ms")` of time differences | bins of a millisecond from the first time to the last (pandas 0.25); the mean of an empty bin is NaN |
| `scipy.stats.hmean` | harmonic mean of positive numbers, ValueError when a number is not positive |
| numpy arrays | broadcasting; `np.repeat` / `np.tile`; boolean masks; negative indices count from the end; `astype(int)` truncates towards zero; `-=` changes the array in place; `dtype == float` holds for float64 only; a Python scalar added to an array keeps the array's integer type |
| rowan (more) | `from_euler`, `to_euler` as formulas, `log`, `intrinsic_distance`; unit quaternions are validated before use |
| numpy 0/0 | importing the package sets `np.seterr(divide="raise", invalid="raise")` (relaxations.py:31), so a mean of no values and 0/0 are a FloatingPointError (C62, C85, C124) |
| numpy uint64 | the step of a frame of a gsd file is a `numpy.uint64`; a difference of two that is below zero is a FloatingPointError under `np.seterr(over="raise")`, which relaxations.py:31 sets on import (C117; elsewhere steps are integers) |
| numpy float32 | a sum or difference of float32 numbers is the nearest float32, ties to even; converting a string to float32 goes through float64; `np.linalg.norm` rounds squares, sums and root; sums are rounded after every addition, in any order; a Python float is converted to float32 before it is compared with an array of float32; the accuracy of `np.cos` is a hypothesis of C131 |
| rowan on float32 | computes in float64, here exactly; entries of the rotation matrix are clipped to [-1, 1], norms may be off by a tolerance (1e-5 + 1e-8 in rowan) and gimbal lock is a cosine up to a tolerance (1e-3); C118 holds for all tolerances at least 3.6e-7 and below 1 |
| freud `Box.wrap` in float32 | a parameter of C116: its error (C116_error_partial), or exact for multiples of 2^-16 in a cell of length 8 (C116_refuted) |
| freud `RDF` | a parameter: bin centres, values, volume, or an exception |
| freud `Voronoi` | a parameter giving a number for every molecule.  Assumed for C113: the number of its Voronoi neighbours (cells with an edge in common) among the molecules and some of their images, including all images up to `buff` from a molecule |
| freud `NearestNeighbors` | a parameter giving, for every particle, the list of neighbours padded with an index that is not a particle |
| `pathlib` | `name` is the part after the last slash, `stem` drops the last suffix |
| `str.format` `.2f` | rounds to the nearest hundredth (ties either way) |
| `contextlib.contextmanager` | an exception in the with-block is raised at the `yield` |
| CPython `==` | the reflected method of the right operand is tried first when its class is a proper subclass |
| `hpluv_to_rgb` | arbitrary function (a parameter) |
| click | converts values as declared; eager and callback options run in the order of the command line; `-v` is counted |
| Python calls | keywords not in the signature raise TypeError; so do missing ones |
| `logging.basicConfig` | does nothing when the root logger has handlers |
| `yaml.parse` | yields events, which have no attribute `get` |
| `joblib.load` | returns some model or raises (a parameter) |

## Properties: what is modelled and how it is proved

| id | model | proof |
|---|---|---|
| C01–C04 | `exp_sequence` as the list of values yielded in the first n passes of its `while True` loop; `generate_steps` as `takewhile` over it | induction on passes; stability of the prefix once it exceeds total; divergence for num_linear <= 0 by showing every pass is silent |
| C05–C10 | `GenerateStepSeries` as a state machine (dict, queue, generators) | one invariant over all reachable states: every generator is split into done / pending / rest |
| C11, C12, C16 | `_gsd_exponential_trajectory` over a list of readable/corrupt frames and the step list with get_index | induction over frames; C12 is false in general: witness, plus `_partial` theorem for frames ⊆ steps or steps ⊆ frames |
| C13, C14, C16 | `_gsd_linear_trajectory` | fold invariant; C14 false for the linear reader (keyframe_max+1): witness and exact bound |
| C15 | `_get_num_steps` with python negative indexing | induction on the retry count |
| C17 | `open_trajectory` | list characterisation |
| C18–C20 | text level model of the lammpstrj parser on lists of lines | round trip by induction on frames and atoms; header failure by cases |
| C21–C24, C28 | `WriteCache` as state machine over a file (map key → rows) | invariant file ++ cache = appended; C23, C24 false: witness, exact conditions as `_partial` |
| C25–C27 | `process_file` loop, generic in the tracker (`Dynamics`/`Relaxations`), then instantiated | projection of the run on one keyframe; C27 false: witness with the real relaxations |
| C29, C30 | `TrackedMotion.add` with freud's wrap for a general triclinic cell over an ordered field with floor | telescoping sum and uniqueness of the lattice representative |
| C31 | quaternions over ℝ, product, inverse, Euler angles | trigonometry, induction over frames |
| C32–C38 | `Dynamics` quantities over ℝ, arrays as lists / functions on `Fin n` | algebra, Cauchy–Schwarz/Jensen; C37 false below 10 molecules (ZeroDivisionError): exact condition |
| C39, C40 | `molecule2particles`, `orientation2positions`, `compute_struct_relax` | index calculation; second half of C39 and C40 are false: witnesses; exact description of what is computed |
| C41–C46 | relaxations as state machines over a linear order with NaN | fold characterisations; C46 false: witness |
| C47–C51 | `relaxation.py` fits over ℝ/lists, solvers as parameters | case analysis, least squares uniqueness; C47's second half is false: witness |
| C52–C54 | tables as lists of rows; pandas groupby | list reasoning, HM–AM inequality; C53 and C54 are false: witnesses, exact description |
| C55, C56, C58 | names as character lists, `Path.stem`, `split` | string induction; formatting of two decimals as rounding of rationals |
| C57 | attribute dictionary and a small language of with-blocks | structural induction on programs; false for exceptions and new attributes: witnesses, `_partial` |
| C59–C61 | frames | case analysis |
| C62–C64 | quaternions over ℝ, neighbour tables | algebra; C64 false: witness and the actual value |
| C65, C66 | molecules over ℝ; equality with python's reflected-operand rule | algebra; C66 false: witnesses, `_partial` for the true half |
| C67, C68 | `frame2data`, colour index | index calculation |
| C69–C71 | viewer as a state machine with callbacks | invariants; C69 false: witness, `_partial` |
| C72 | click options → keyword arguments → signature of `process_file` | case analysis; false for --molecule and --output: witness, `_partial` |
| C73, C74 | the list object the linear reader yields is shared: yielded values are read after the run; `open_trajectory` on both formats | witnesses; `_partial` for the cases that agree |
| C75–C77 | arrays of a lammps frame with uninitialised entries (`none`), ids by Python indexing, box lines with tilt factors | induction over atom lines; false: witnesses |
| C78 | construction of `WriteCache` with the misspelt post-init hook | case analysis |
| C79 | Motion and Dynamics models composed over whole trajectories | C29 and C31 under the averages |
| C80 | the two root searches and the optimiser as parameters that may raise | case analysis |
| C81 | `get_filename_vars` on arbitrary lists of fields | induction over fields |
| C82 | `process_file` with an output file that already exists | from the invariant of C21 and the run of C26 |
| C83, C84 | neighbour search as a parameter specified by the nearest images | counting; box dimensions by cases |
| C85 | `run_analysis.order` as a loop over frames that may be corrupt | induction over frames |
| C86 | `translate_relaxation` | case analysis on all strings |
| C87 | the caller's arguments after the in-place operations of the constructor | algebra |
| C88 | quaternions over ℝ, Euler angles | trigonometry (`Complex.arg`) |
| C89 | the class level dictionary `order_functions` over a sequence of viewers | induction over models |
| C90 | state of the root logger over the options of a command line | induction over options |
| C91 | `process_file` with the concrete `Dynamics`, `Relaxations` and `WriteCache` models (`Pipeline`) | invariant of a keyframe over its frames, unwrapping lemma |
| C92 | as C91 | the motion held at the keyframe has zero sums |
| C93 | as C91, with the six default relaxations | induction over the history of a molecule |
| C94 | as C91 | escape of the exception of `mobile_overlap` |
| C95 | as C91, the boxes of the frames free | the rows are a function of the first box; witness in a growing cell |
| C96 | as C91 behind the model of the gsd reader | C11-C13 composed with C25, C26 |
| C97 | as C96 | prefix lemmas for both readers and the row list |
| C98 | `calculate_wave_number` over an arbitrary radial distribution function (`Wave`) | first-maximum invariant of argmax; expansions of sine and of the circular average for the witness |
| C99 | the search radius of `calculate_wave_number` | Cauchy-Schwarz for each face |
| C100 | `create_wave_vector`, `Dynamics.compute_isf` | reindexing of the directions |
| C101 | as C02, C06 | counting the points of the grid |
| C102 | as C91 | foldl over the frames with the tracker state as invariant; concrete run |
| C103 | StructRelaxations of relaxations.py:297-305 | C41 for the particles, then blocks of the status list; concrete run for the layout |
| C104 | exponential_relaxation with scipy's newton | Newton's map in the coordinate b(t - r): quadratic convergence, induction on the iterations |
| C105 | as C91, constructors side by side | simulation of the two trackers over the frames; concrete run |
| C106 | the text of a lammps file through `readLammps`, `lammpsFrame` and `processFile` | C18 and C20 for the reader, C60 for the frames, C91 for the run |
| C107 | as C106, with the cache before its last flush | closed form of the cache after any number of appends |
| C108 | attributes with the conversions of `infile`, `outfile` and `output` | cases of the setter against the constructor |
| C109 | the widgets and data source as a state, callbacks nested through assignments | invariant over sequences of choices |
| C110 | the records with the last of each time, in bins of 200000 steps | sums over lists as sums over the set of times |
| C111 | the records of `process_file` read back as the tables of `compute_relaxations` | C91 for the rows, C52-C54 for the summary |
| C112 | the same, with the index of the stored table | position of the n-th frame of a keyframe among all pairs |
| C113 | the plane with all images of the molecules, freud's counts from those within the buffer | a nearer point on the segment towards a far corner of the cell |
| C114 | the rows of angles handed to an arbitrary model | the logarithm of the quotient as an angle |
| C115, C116 | rounding to nearest even for any binary format, the lammps reader and `TrackedMotion` with float32 | rounding is nearest (`fl_nearest`), relative error, absorption of small summands; induction over the frames |
| C117 | the trackers with differences of `uint64` | a simulation: same trackers up to the first frame before its keyframe, then the exception; sortedness of what the readers yield |
| C118 | float32 orientations, rowan with its clip and tolerances | the quotient of two nearly unit complex numbers, the angle of a number near the unit circle, then the sum of n rounded steps as in C116 |
| C119, C120 | `z2quaternion`, `quaternion2z` with float32 | the rounded quaternion turned back by the true angle; sign of the imaginary part decides the branch at the cut; clipping turns by less than 1e-9; nearest number to π from its 20 digits |
| C121 | `mobile_overlap` with float64 | the literal 0.1 is a tenth of 1 + 2^-54; rounding is monotone and keeps whole numbers; relative error below one unit |
| C122 | `MolecularRelaxation`, `LastMolecularRelaxation` | from C41 and C42: a minimum with 2^32-1 |
| C123, C124 | `compute_msd`, `compute_mfd`, `compute_alpha`, `compute_alpha_rot`, `compute_gamma` with float32 | sums as trees of rounded additions in any order; errors counted as factors 1 - 2^-24; no underflow for visible motions; Cauchy-Schwarz bounds the ratio from below |
| C125, C126 | `create_legend`, `plot_circles` with bokeh's linear and categorical colour mappers | hue indices compared with floor and truncation; C125 false for every angle; position of a category among the sorted ones |
| C127 | viewer as in C69 to C71 | invariant over events that raise nothing; witness of three events |
| C128 | the chain of C112, with the columns `msd` and `msr` and `diffusion_constant` | the fit is exact on a line by C49; abscissae are positions of rows; witness with displacements growing as a square root |
| C129 to C131 | `np.linalg.norm`, means, comparison and cosines in float32 | relative errors of roots as counts of roundings (C123); absolute error of sums of both signs by induction on the order of additions |
| C132, C133 | the whole way from positions and orientations to averages in float32 | the error per molecule (C116, C118) carried through roots, squares, cosines and means; errors without conditions on small numbers |
| C134 | first and last passage times in float32 | the loop of frames in float32 runs the relaxations of C41/C42 on rounded lengths; comparisons agree away from the threshold |
| C135 | change of the unit of length in compute_all | scaling of wrap, sums, norms, ratios, distances and particles; equality of whole rows |
| C136 | change of units in relaxation.py | times: pyAt of a mapped list; diffusion: uniqueness of the least squares line; absolute range 2..50 refuted |
| C137 | title of the plot in the viewer | every handler keeps a property of what is drawn if reading a frame does; the page as made |
| C138 | times of the largest alpha and gamma through both commands | C34 at the tracked motion of C91; a lemma for any quantity through the two commands; C48 |
| C139 | independence of keyframes from each other | C111 and uniqueness of true times; positions are determined by frame numbers; the run of C128 with one more keyframe |
| C140 | stability of relaxation values | comparisons decided the same way; the difference of two fits is a fit of the difference, bounded through the normal equations |
| C141 | relaxation times from float32 values | C132, C133 and C140 |
| C142 | figures over sources, `plot_frame` with a list of sources | cases on the source given; the picture is a function of source and mapper |
| C143 | `lru_cache` on `create_wave_vector` with shared arrays | invariant of the cache kept by calls and harmless writes |
| C144 | the values do not depend on the axes | displacement, rotation and scattering sums transform by the reflections; counterexamples by evaluation |
| C145 | the values do not depend on the direction of time | sums of wrapped steps change sign when reversed; counterexamples by evaluation |
| C146 | com_struct, rot1, rot2 against tau_F, tau_T2, tau_T3, tau_T4 | from C91 and C93 for the same stored file; counterexample: molecules that come back |
| C147 | com_struct, scattering_function against msd; rot1, rot2 against msr | Chebyshev, 1 - x^2/2 <= cos x, and sums over roots of unity |
| C148 | what quaternion_rotation and quaternion_angle measure | half-angle identities for scalar parts; counterexamples by evaluation |
| C149 | rows of different keyframes are as sides of triangles | C91 for both keyframes, Minkowski's inequality |
| C150 | larger wave numbers: what stays, what does not grow | rows compared value by value; first and last passages at smaller thresholds |
| C151 | system made of two parts | sums over an appended index; convexity for the ratios; counterexample of two groups with different steps |
| C152 | repeated frames | induction over the repetitions through both loops of the reader; counterexamples by evaluation |
| C153 | counters of steps that do not start at 0 | `process_file` on trackers in another form (a homomorphism through all loops); readers: multiples of the interval, `Wants` is invariant |
| C154 | `steps_max` only cuts off | keyframes start at the same steps (strong induction over keyframes), so both lists of steps agree below the limit; simulation of the reader on lists that agree |
| C155 | `keyframe_max` only adds | the same induction for keyframes; invariant of the index list; counterexample by evaluation |
| C156 | linear and exponential reader | both equal one filter of the file; counterexamples by evaluation |
| C157 | white space in lammps files | the parser on a frame with arbitrary spacing; counterexample by evaluation |
| C158 | numbers in lammps files | `int` is characterised as a relation between text and number; every frame comes from a suffix of the file |
| C159 | reading with exponential steps ends | the generators are machines that are run for a number of turns; simulation of the reader on lists; the loop without linear steps by induction on the turns |
| C160 | tracking depends on values, not on arrays | a memory of arrays that are objects; the tracker holds references; simulation of the tracker on values as long as the held arrays are unchanged |
| C161 | the choices of the viewer increase | merge sort of texts; lexicographic order of decimals of the same length is the order of their values |
| C162 | few frames are lost | potential argument over the reader: frames in common, frames between, and whether the reader lags |
| C163 | other exceptions reach the caller | iter_trajectory ends with the exception; induction over the readers, the step at the limit is still to come |
| C164 | comp-dynamics from the command line to the tables | C72 for the options, C55 for the name, C96 for the frames of a keyframe, C91 for the rows |
| C165 | the two commands together | C164 for the run, C96 for the frames of a keyframe, C14 for the bound on keyframes, C111 for the tables |
| C166 | what molecule2particles does to its argument | cases of the test with its tolerance; bounds on products of the components |
| C167 | comp-dynamics on lammps files | C164 for the options, C106 for the run, the indexes handed out by the reader are always [0] |
| C168 | both commands on a lammps file | the run as one on pairs of keyframe 0 (C106), then C111: nobody turns, so no keyframe counts |
| C169 | where frames are lost | the reader with no step too many used up yields a frame on the series; after a frame off the series it is at most one step or one frame out |
| C170 | objects that refer to the same molecule | memory of molecules and parameters by place; induction over programs, with the invariant that no other parameters refer to a place |
| C171 | the error of averages over evenly spread directions | powers of the component along a direction below the number of directions have the same sum wherever the directions start (roots of unity); the tail of the exponential series; integral over the start |
| C172 | the effective level of a logger | the group always installs a handler, so the later basicConfig changes nothing; induction on the parts of the name below the nearest ancestor whose level is set |
| C173 | the scattering function in float64 from displacements in float32 | errors of angles, wave vectors, products of two terms (also fused), cosines and the mean added up; C116 for the displacements and C171 for the average over all directions; integers up to 2^53 are exact for the range and the start |
| C174 | equality against shape | equal parameters give equal arrays; distance and angle are recovered from the differences of the positions, cos is injective on half a turn |
| C175 | sequences of the two commands on one file | induction over the session; C28 for the repeated comp-dynamics; witness from C165 at two temperatures |
| C176 | `order` on a snapshot beside an ordering on its frame | C63 for both, C59/C60 for the slices; witness of two particles with C64's specification of the search |
| C177 | `repr` and `eval` of it | calls with keyword arguments as text; texts of numbers have no comma; the keywords each constructor takes |
| C178 | which frames are handed out | merged times with marks, a machine over the marks |
| C179 | playing a trajectory | ticks of the timer as events; the slider with value and end |
| C180 | columns of lammps frames | the dictionary of a frame with columns, box and timestep together |

## What is not modelled

Plotting output itself (bokeh/altair glyphs), logging, progress bars, the Voronoi and
nearest-neighbour searches themselves (freud; parameters with the assumptions above), trained models (a
parameter), hdf5 encoding,
the radial distribution function (freud; a parameter of the model of `calculate_wave_number`), floating
point rounding outside C115, C116, C118 to C121, C123, C124, C129 to C134, C141 and C173; white space and digits outside ASCII in text files.

## Disagreements between the code and the stated properties

For every property below the unchanged code violates the English statement.  The theorem whose
name ends in `_refuted` proves the negation with a concrete witness (some hold for every input
of a kind); the `_partial` theorems prove what does hold.

| id | where | what the code does | witness |
|---|---|---|---|
| C09 | `StepSize.py:GenerateStepSeries` | False in general: when gen_steps is off the decade grid of num_linear the multiples are skipped (witness). Proved when gen_steps is on the grid; exactly then for runs longer than gen_steps with more than one keyframe allowed (C09_exactly). | `StepSize.C09_keyframes_regular_refuted` |
| C12 | `read/_gsd.py:_gsd_exponential_trajectory` | False: a frame off the series followed by a missing step loses the next aligned frame (witness). Proved when either every frame is on the series or no step before the end is missing. C12_exactly: nothing is lost iff nothing is held over at a common time (C178). | `Gsd.C12_exponential_complete_refuted` |
| C14 | `read/_gsd.py:_gsd_linear_trajectory`, `read/_gsd.py:_gsd_exponential_trajectory` | Holds for the exponential reader; the linear reader uses keyframe_max+1 keyframes (witness). C14_exactly: the linear reader keeps to it iff at most keyframe_max yielded frames are at multiples of the interval. | `Gsd.C14_keyframe_limit_refuted` |
| C21 | `read/_read.py:WriteCache` | False when the first operation is a flush and a table to be replaced exists: stale rows stay (witness). Proved in all other cases. | `Cache.C21_lossless_refuted` |
| C22 | `read/_read.py:WriteCache` | Same exception as C21; the bound needs a positive multiplier. Right exactly when rows are added, none are replaced, the first operation is an append, or nothing has been written yet; otherwise the old rows stay in front (C22_exactly). | `Cache.C22_crash_prefix_refuted`, `Cache.C22_bound_refuted` |
| C23 | `read/_read.py:WriteCache.__len__` | False after an explicit flush (witness); proved for appends only; right exactly when no flush comes after an append (C23_exactly). | `Cache.C23_len_refuted` |
| C24 | `read/_read.py:process_file`, `read/_read.py:WriteCache` | False for more than 8192 rows: AssertionError without outfile (witness). Proved for 1..8192 rows. Right exactly for 1 to 8192 rows, AssertionError otherwise (C24_exactly). | `Process.C24_memory_equals_file_refuted` |
| C27 | `read/_read.py:process_file`, `dynamics/relaxations.py:Relaxations.set_mol_relax` | False: custom relaxations are reset at every frame (witness). Proved: what is reported is the last frame only; default relaxations do accumulate. C27_exactly: for a first passage by displacement the report is as stated iff no molecule is beyond the threshold in a frame other than the last. | `Process.C27_custom_accumulates_refuted` |
| C32 | `dynamics/dynamics.py:Dynamics`, `dynamics/_util.py:TrackedMotion` | Shifts proved; relabelling proved except for struct, for which it is false (witness). | `Dynamics.C32_relabel_struct_refuted` |
| C37 | `dynamics/dynamics.py:mobile_overlap` | False below ten molecules: ZeroDivisionError (for all such inputs). Proved for ten or more. A proportion exactly from ten molecules on (C37_exactly). | `Dynamics.C37_refuted`, `Dynamics.C37_compute_all_refuted` |
| C39 | `util.py:orientation2positions`, `dynamics/_util.py:molecule2particles` | First half proved. Second half false: displacement and rotation of different molecules are combined (witness). For any numbers of molecules and particles it is proved what is compared (C39_compared); every particle is moved with its own molecule exactly when molecules have one particle or all moved alike (C39_exactly). | `Dynamics.C39_struct_refuted` |
| C40 | `dynamics/dynamics.py:Dynamics.compute_struct_relax` | False: rotates about x (witness); proved exactly what is computed. The particles are taken where they went exactly when no molecule has turned, or they lie on the y axis of a molecule that made half a turn, or in its centre (C40_exactly). | `Dynamics.C40_struct_refuted` |
| C46 | `dynamics/relaxations.py:Relaxations.set_mol_relax` | False: the old relaxations are dropped before validation (witness). Proved: what is left is the result for the definitions before the failing one. The old ones survive exactly when they equal the unused relaxations of the definitions before the failing one (C46_exactly). | `Relax.C46_rejected_keeps_old_refuted` |
| C47 | `relaxation.py:threshold_relaxation` | First half proved for crossings after the first sample. False: a series that never crosses gives the same result as one that crosses at once (for all times). For increasing times the error is the gap to the time before iff some value is beyond the threshold but not the first; otherwise it is negative. | `RelaxTime.C47_never_refuted` |
| C53 | `relaxation.py:compute_relaxations`, `relaxation.py:series_relaxation_value` | False: the row index is used in place of the time (witness, and the time column has no influence on any table). Proved: exactly what is computed. Exactly, for a decay that falls below 1/e (C53_exactly): the table has the time from the column of times iff the time of the row where it does so first is the number of that row. | `Tables.C53_time_ignored_refuted`, `Tables.C53_refuted` |
| C54 | `relaxation.py:compute_relaxations`, `read/_read.py:process_file` | False: rows with NaN temperature or pressure are dropped by groupby, for every such file. Proved for known temperature and pressure. Every relaxed keyframe is summarised iff each has a temperature and a pressure. | `Tables.C54_refuted` |
| C55 | `params.py:SimulationParams.filename`, `util.py:Variables.from_filename` | False for space groups starting with P, T or ID, and without space group for molecules other than the trimer (witnesses); proved otherwise, including set_filename_vars. C55_ties: halfway between two numbers with two decimals the even one is written, and negative numbers have a sign. | `Names.C55_group_refuted`, `Names.C55_no_group_refuted` |
| C57 | `params.py:SimulationParams.temp_context` | False when the block or entering it raises (witnesses); proved for blocks left without exception, whatever they do. What an exception leaves behind is exactly what was there when it was raised (C57_exactly). | `Names.C57_exception_refuted`, `Names.C57_enter_refuted` |
| C58 | `util.py:parse_directory` | All proved but the last clause: a trimer file without temperature is accepted under the temperature 'rimer' (witness). | `Names.C58_missing_refuted` |
| C59 | `frame.py:HoomdFrame._get_num_bodies` | Proved for body numbers from -1 up, wide and unsigned 32 bit sums. False for floppy bodies (numbers below -1) and signed 32 bit overflow: negative counts (witnesses). C59_int32_exactly: with signed 32 bits right exactly when no body has the number 2147483647 and not all are below -1. | `Frame.C59_floppy_refuted`, `Frame.C59_int32_refuted` |
| C60 | `frame.py:HoomdFrame`, `frame.py:LammpsFrame` | Proved except for image, which has a row per particle, not per molecule (witness; proved exactly when it agrees). | `Frame.C60_image_refuted` |
| C64 | `order.py:relative_distances` | False: missing entries are 0, not -1 (witness). Proved: all other entries, and that missing ones are 0. As documented exactly when no neighbour is missing (C64_exactly). | `Order.C64_missing_refuted` |
| C65 | `molecules.py:Molecule`, `molecules.py:Trimer` | Proved, except that Dimer raises TypeError for every int distance. C65_exactly lists the arguments that make a dimer or a trimer. | `Molecule.C65_dimer_refuted` |
| C66 | `molecules.py:Molecule.__eq__`, `molecules.py:Trimer.__eq__` | False: not transitive through plain Molecule objects, AttributeError for Trimer/Dimer against them, and NaN parameters (witnesses). Symmetric always; without these cases it never raises and means same class and parameters. Equality, exceptions and the triples on which it is transitive are characterised exactly. | `Molecule.C66_reflexive_refuted`, `Molecule.C66_equivalence_refuted` |
| C67 | `figures/configuration.py:frame2data`, `util.py:orientation2positions` | Proved when the particle list names every position; with the default list the radii have another length (witness). | `Figures.C67_mismatch_refuted` |
| C68 | `figures/configuration.py:colour_orientation`, `figures/configuration.py:frame2data` | Proved, except that an ordering of another number type, such as float32, is ignored (witness). Numbers are shown exactly when of a type that is recognised, or when all molecules are ordered (C68_exactly). | `Figures.C68_order_function_refuted` |
| C69 | `figures/interactive_config.py:TrimerFigure` | False in every directory: the slider of a new viewer ends one beyond the last frame. Proved: never further, and not at all once the end has been set by a choice of file and the index is a frame. The frame at the slider is shown iff the slider is not just behind the last frame. | `Viewer.C69_refuted` |
| C70 | `figures/interactive_config.py:TrimerFigure.update_temperature_button`, `figures/interactive_config.py:TrimerFigure.update_crystal_button` | The selection always names a file. The open trajectory is that file if files can be opened; otherwise the old one stays (witness). After a choice the open trajectory is that of the file chosen iff it can be opened or was open before. | `Viewer.C70_open_refuted` |
| C72 | `main.py:sdanalysis`, `main.py:comp_dynamics` | False for --molecule and --output (TypeError for every use) and --mol-relaxations (AttributeError at the first frame); proved for all other options. The options reach process_file iff neither --molecule nor --output is given. | `Cli.C72_molecule_refuted`, `Cli.C72_output_refuted`, `Cli.C72_relaxations_refuted` |
| C73 | `read/_gsd.py:_gsd_linear_trajectory` | False: the yielded list object is shared and grows (witness). C73_exactly: kept pairs are right iff no frame after the first, among those looked at, begins a keyframe. | `Gsd.C73_kept_pairs_refuted` |
| C74 | `read/_read.py:open_trajectory` | False: frame_interval is ignored for lammpstrj (witness); proved for interval 1. Exactly for interval 1 or at most one frame (C74_exactly). | `Gsd.C74_lammps_interval_refuted` |
| C75 | `read/_lammps.py:parse_lammpstrj` | False for repeated ids: np.empty entries survive (witness). C75_exactly gives the exact condition on the lines of a section, C75_distinct that it excludes repeated ids and short lines. | `Lammps.C75_all_initialised_refuted` |
| C76 | `read/_lammps.py:parse_lammpstrj` | False: id 0 (and small negative ids) wrap around (witness). C76_exactly: a section of n atoms is read iff every id is in -(n-1) .. n and all words are numbers. | `Lammps.C76_ids_checked_refuted` |
| C77 | `read/_lammps.py:parse_lammpstrj` | False: tilt factors are ignored (witness); the lengths are right exactly for zero tilt, else too long by the extent of the tilts. | `Lammps.C77_triclinic_box_refuted` |
| C78 | `read/_read.py:WriteCache` | False: __attr_post_init__ is never called (witness). Proved: nothing is ever written and the first flush raises AssertionError. | `Cache.C78_group_none_refuted` |
| C80 | `relaxation.py:exponential_relaxation` | False: a FloatingPointError of the first root search escapes (witness); proved when that search raises none. Escapes exactly when the search at the fitted parameters raises it (C80_exactly). | `RelaxTime.C80_refuted` |
| C81 | `util.py:Variables.from_filename`, `util.py:set_filename_vars` | False: the molecule name is read as a field ('Trimer' gives temperature 'rimer'); proved for the kinds the molecule name does not look like. Right exactly for the kinds which the molecule name does not look like or of which there is a field (C81_exactly). | `Names.C81_refuted` |
| C82 | `read/_read.py:process_file`, `read/_read.py:WriteCache` | False when every frame raises a handled error: the old rows stay (witness); proved when some row is computed. Fresh exactly when the file had no rows or a row was computed (C82_exactly). | `Process.C82_stale_refuted` |
| C83 | `order.py:num_neighbours` | False beyond nine neighbours (witness); proved: the minimum of the number and nine. Right exactly up to nine neighbours (C83_exactly). | `Order.C83_num_neighbours_refuted` |
| C84 | `order.py:setup_neighbours`, `order.py:compute_neighbours` | False for three dimensional configurations (witness); proved for two dimensional ones. C84_exactly: for cells not tilted along z the distance used is right exactly when the difference along z is a whole number of cells; it is never too large, so no near molecule is missed for the radius. | `Order.C84_cell_refuted` |
| C85 | `run_analysis.py:order` | False: a corrupt frame ends the run (every trajectory with one), and so does a frame without particles (0/0 raises). Proved up to the first such frame. A line for every readable frame exactly when each has a particle and none follows a corrupt one (C85_exactly). | `Order.C85_corrupt_refuted` |
| C87 | `molecules.py:Molecule` | False: the array is shifted and the dictionary extended in place (witnesses); proved when centred and with an A entry. Exactly then (C87_exactly). | `Molecule.C87_arguments_refuted` |
| C89 | `figures/interactive_config.py:TrimerFigure.__init__`, `figures/interactive_config.py:TrimerFigure.get_order_function` | False for several viewers, which share one dictionary (witnesses); proved for the first. With several viewers, the last offers exactly the built-in ones and the models of all viewers so far, so it offers just its own iff every earlier model has a name among these. | `Viewer.C89_shared_refuted`, `Viewer.C89_replaced_refuted` |
| C90 | `main.py:_verbosity`, `main.py:_file_logger` | False for every command line with --log-file; proved without it, and exactly what happens with it. C90_exactly: the options are independent exactly without --log-file. | `Cli.C90_refuted` |
| C94 | `read/_read.py:process_file`, `dynamics/dynamics.py:mobile_overlap` | False: one to nine molecules always end in ZeroDivisionError from the mobile overlap; proved from ten on. Processed exactly from ten molecules on (C94_exactly). | `Pipeline.C94_any_size_refuted` |
| C95 | `dynamics/_util.py:TrackedMotion.add`, `read/_read.py:process_file` | False: the boxes of all frames but the first of a keyframe are ignored, so that a molecule crossing the boundary of a cell that has grown is reported with a wrong displacement; proved for a constant cell and for molecules that do not cross the boundary. Tracked right exactly when each stored step differs from the true one by a lattice vector of the first cell and no step exceeds half of it (C95_exactly). | `Pipeline.C95_changing_cell_refuted` |
| C97 | `read/_gsd.py:read_gsd_trajectory`, `read/_read.py:process_file` | False for exponential steps without steps_max (the last frame of the file is yielded whether it is on the series or not); proved with steps_max and for linear steps. Without steps_max each keyframe gets the same frames up to the last one of the shorter file (C97_last). C97_exactly: without steps_max, a keyframe gets the same frames first exactly when the longer file still gives it the last frame of the shorter one. | `Pipeline.C97_reads_on_refuted` |
| C98 | `dynamics/_util.py:calculate_wave_number`, `dynamics/_util.py:_static_structure_factor` | False for two dimensional boxes: the transform of three dimensions is used, and its maximum can be at the other end of the grid; proved for the structure factor of three dimensions. | `Wave.C98_planar_refuted` |
| C99 | `dynamics/_util.py:calculate_wave_number` | False for tilted cells: the radius is taken from the lengths of the cell vectors, not from the distances of the faces (freud also refuses such a radius); proved for tilts up to about 0.45, and the exact condition in two and three dimensions. | `Wave.C99_radius_refuted` |
| C102 | `read/_read.py:process_file`, `dynamics/_util.py:TrackedMotion.add` | False: a frame with an orientation that is not normalised is skipped after its displacement has been counted, and the next displacement is counted from the frame before it again; proved for frames with another number of molecules, and in general for the molecular relaxations. A frame with bad orientations leaves no trace iff it has the positions of the frame before, up to periodic images. | `Pipeline.C102_skip_harmless_refuted` |
| C103 | `dynamics/relaxations.py:StructRelaxations`, `dynamics/_util.py:molecule2particles` | False: the package lays particles out with all first particles of the molecules first, and the status averages consecutive ones, which belong to different molecules; proved for distances laid out molecule by molecule. A particle which never moved enters the average as 2**32 - 1. C103_exactly: right for all distances exactly for one molecule, or molecules of one particle. | `Relax.C103_layout_refuted` |
| C105 | `dynamics/dynamics.py:Dynamics.__init__`, `dynamics/relaxations.py:Relaxations.__init__` | False without a molecule: Dynamics then takes the system as two dimensional and Relaxations as three dimensional, and the argument is2D of Relaxations is overwritten; proved with a molecule, and for positions at one height. C105_exactly: without a molecule, in a cell whose third vector is along z, the displacements differ in their heights only, which Dynamics drops. | `Pipeline.C105_twins_refuted` |
| C107 | `read/_read.py:process_file`, `read/_read.py:WriteCache` | False: the cache is flushed only when full or after the last frame, so a RuntimeError of the reader leaves just the rows of full caches (nothing for up to 8192 rows) and no molecular relaxations. Proved: exactly which rows are kept. Exactly (C107_exactly), with a new output file: all rows are kept iff there are none; otherwise at least one and at most 8192 are lost. | `Pipeline.C107_damage_refuted` |
| C108 | `params.py:SimulationParams.infile`, `params.py:SimulationParams.outfile` | False for None on the file parameters: assigning None to outfile or output is ignored, to infile is a TypeError, while the constructor takes None for all three. Proved for every other parameter and value. C108_exactly lists the assignments that take effect. | `Names.C108_assign_refuted` |
| C109 | `figures/thermodynamics.py:update_file_list`, `figures/thermodynamics.py:update_file` | False: when the new directory has a file of the name chosen, nothing is read and the data of the old directory stay. Proved when no two directories share a file name. A directory without files, or whose file has too few columns, is also left half changed. C109_exactly: after a choice of directory the right data are shown exactly when it is the same directory, has no file of the name chosen, or its file of that name has the same values in all that is shown. | `Thermo.C109_shows_refuted` |
| C112 | `relaxation.py:compute_relaxations`, `relaxation.py:series_relaxation_value` | False: the series is indexed by the row numbers of the table, which start at 0 again with every flush of 8192 rows, so what is reported is the position in the file modulo 8192. Proved: it is the position of the right frame; and with one keyframe, a frame for every step and at most 8192 frames it is the time. C112_exactly: the time is right exactly when it is the position in the file modulo 8192. | `Pipeline.C112_refuted` |
| C113 | `order.py:create_neigh_ordering`, `order.py:compute_voronoi_neighs` | False for sparse systems: images further than 5 are left out, a molecule alone in a large cell has no neighbours. Proved when no empty disc has a radius of 2.5 or more. Assumed of freud: the neighbours are those among the molecules and at least all images within the buffer. | `Order.C113_neighbours_refuted` |
| C114 | `order.py:create_ml_ordering`, `order.py:relative_orientations` | False: the angle between two quaternions is not the angle between the orientations, it goes up to 2π and changes from a to 2π - a with the sign of one of them (witness). Proved: exactly what the model is given, and that rotating everything or changing all signs changes nothing. C114_exactly: the sign of one quaternion does not matter for two molecules exactly when they have the same orientation or are half a turn apart. | `Order.C114_signs_refuted` |
| C115 | `read/_lammps.py:parse_lammpstrj`, `frame.py:LammpsFrame` | Columns and box proved with explicit error bounds; ids proved up to 2^24 atoms. False beyond: the id column is float32 and atom 16777217 is listed as 16777216 (witness). Overflow of float32 is not modelled. C115_ids_exactly: the ids are kept exactly up to 2^24 atoms. | `Rounding.C115_ids_refuted` |
| C116 | `dynamics/_util.py:TrackedMotion.add`, `dynamics/_util.py:TrackedMotion.__init__` | False: delta_translation is float32 like the positions, and a displacement of 2^k does not change by steps below 2^(k-25), so no fraction below 1 bounds the error (witness for every such fraction). Proved: an error bound growing with the number of frames, and exact results on a grid. Assumed of freud's wrap: its error (C116_error_partial), or that it is exact on the grid. | `Rounding.C116_refuted` |
| C117 | `read/_read.py:process_file`, `dynamics/dynamics.py:Dynamics.compute_time_delta` | False with the linear reader: steps are numpy uint64, importing the package sets np.seterr(over=raise), so a frame before the first of its keyframe raises FloatingPointError, which process_file does not catch; what is left in the file is proved. Proved: files in order, and the exponential reader on any file, behave as the integer models of the other claims. C117_exactly: process_file returns exactly when no frame of a keyframe is before its first. | `Pipeline.C117_refuted` |
| C120 | `util.py:quaternion2z` | False: half a turn comes out as the float32 nearest to pi, 13176795/2^22, which is 8.7e-8 above pi. Proved: nothing is further out. Exactly the angles beyond the point half way between the two numbers of float32 around pi come out too large (C120_exactly). | `Rounding.C120_refuted` |
| C121 | `dynamics/dynamics.py:mobile_overlap` | False: 0.29 of 100 molecules is 28. Proved: always right for the default 0.1, for up to 2^52 molecules, so the overlap is the exact one rounded once; otherwise off by one at most (up to 2^51 molecules). Only fractions that are a whole number of molecules can be miscounted, by one too few (C121_exactly). | `Rounding.C121_refuted` |
| C122 | `dynamics/relaxations.py:MolecularRelaxation.add`, `dynamics/relaxations.py:LastMolecularRelaxation.get_status` | False: whoever first exceeds the threshold at step 2^32-1 or later is marked as never having done so (proved for every threshold), while the last-passage time is recorded, so tau_L exceeds tau_D. Proved for shorter runs. Right exactly for molecules with a frame before step 2^32-1 beyond the threshold, or with none at all (C122_exactly). | `Relax.C122_refuted`, `Relax.C122_columns_refuted` |
| C124 | `dynamics/dynamics.py:Dynamics.compute_alpha`, `dynamics/dynamics.py:Dynamics.compute_alpha_rot` | False: one of two molecules moved by 2^-37 gives a division of a number by zero, which raises again inside the handler (only invalid is ignored there). Proved: a number within the fraction (3N+19)/2^23 for motions not below 2^-20 (gamma: or a ratio below 2^-125), NaN at rest. | `Rounding.C124_refuted` |
| C125 | `figures/interactive_config.py:TrimerFigure.create_legend`, `figures/configuration.py:colour_orientation` | False for every angle: the palette starts at hue 0 at -pi in the legend, but at angle 0 in the plot, so the legend is half a turn off. Proved: it shows the colour of the molecules half a turn away (for positive angles to within one hue); the classification legend is right. The colour mappers of bokeh are assumed. From 0 to pi the legend is right up to half a turn iff the angle is a whole number of degrees. | `Figures.C125_refuted` |
| C126 | `figures/configuration.py:plot_circles`, `figures/configuration.py:plot_frame` | False: with two more categories than colours (ten by default) two categories have the colour for missing values (for every palette), and without factors the colour of a category depends on which others are present (witness). Proved up to the number of colours, and with given factors. The colour mappers of bokeh are assumed. Within one figure right exactly up to the number of colours (C126_exactly). | `Figures.C126_many_refuted`, `Figures.C126_figures_refuted` |
| C127 | `figures/interactive_config.py:TrimerFigure.update_current_trajectory`, `figures/interactive_config.py:TrimerFigure.update_frame` | False even when all files can be read: after an IndexError on changing to a shorter file its frames are shown under the name of the old file (witness). Proved as long as no event has raised an exception. After an exception another choice that raises none makes the page consistent again; moving the slider or choosing an algorithm does iff the chosen file is the open and the named one. | `Viewer.C127_refuted` |
| C128 | `relaxation.py:compute_relaxations`, `relaxation.py:diffusion_constant` | False: with frames three steps apart a constant of 1/6 is reported as 1/2, since the fit is to row numbers. Proved: exactly what is reported, and that it is the true constant times the number of steps between frames for a single keyframe. C128_exactly: for one keyframe with frames equally far apart the constant is right exactly when they are one step apart, or it is zero. | `Pipeline.C128_refuted` |
| C130 | `dynamics/dynamics.py:structural_relax`, `dynamics/dynamics.py:Dynamics.compute_displacement` | False for molecules at the distance: it is rounded to float32 before the comparison (witness 1/2 and 1/2 + 2^-40). Proved: the result is between the proportions for distances one part in 2^21 smaller and larger, and exact if no molecule is between. C130_exactly: right exactly when as many are counted wrongly as are left out. | `Rounding.C130_refuted` |
| C134 | `dynamics/relaxations.py:Relaxations.add`, `dynamics/relaxations.py:MolecularRelaxation.add` | Refuted: a displacement of 1/2 does not pass the threshold 1/2 - 2^-40, which is 1/2 in float32. Holds up to one part in 2^20 of the threshold and the error of the motion (C116, C118): exactly if no length is that near, and between the times of the two thresholds otherwise. | `Rounding.C134_refuted` |
| C136 | `relaxation.py:compute_relaxation_value`, `relaxation.py:diffusion_constant` | Times: proved. Lengths: refuted, the msd is fitted between 2 and 50 in whatever unit it comes, so that 3, 4, 5 has a diffusion constant and a tenth of it NaN; holds when the same samples are in that range in both units. C136_line: for values on a straight line the diffusion constant follows the unit of length even when other samples are fitted. | `RelaxTime.C136_length_refuted` |
| C137 | `figures/interactive_config.py:TrimerFigure.update_data`, `figures/interactive_config.py:TrimerFigure.initialise_doc` | Holds when classifying never fails, and until the first exception; the title is always that of the frame held. Refuted: the title is set before the data is computed, so a frame that cannot be classified leaves the previous one plotted under its timestep. Exactly (C137_exactly): the title belongs to the frame plotted iff that is the frame the viewer holds. | `Viewer.C137_refuted` |
| C138 | `dynamics/dynamics.py:Dynamics.compute_alpha`, `dynamics/dynamics.py:Dynamics.compute_gamma` | The values in the rows: proved. The time: the right frame is found, but its position among all processed pairs, modulo 8192, is reported; for a single keyframe the frame number. Refuted with frames three steps apart. C138_exactly: the time is right exactly when it is the position in the file modulo 8192. | `Pipeline.C138_refuted` |
| C139 | `read/_read.py:process_file`, `read/_read.py:WriteCache.flush` | Relaxation times of molecules: proved. The others: hold if the frames of the keyframe are processed at the same places in both runs. Refuted: a second keyframe that begins with frame 1 changes the diffusion constant reported for keyframe 0 from 1/2 to 1/4. | `Pipeline.C139_refuted` |
| C140 | `relaxation.py:compute_relaxation_value`, `relaxation.py:threshold_relaxation` | Proved with the stated distances from thresholds and other values. Refuted without: with a value at 1/e, or two equal maxima, errors however small move the time by any amount. C140_decay_exactly says exactly which decays keep their time under errors of up to a given size, when they first cross after their first value. C140_max_exactly says the same of the times of a maximum. C140_rise_exactly is the statement for struct_msd. C140_start_exactly is the statement for decays for which the first time is reported. | `RelaxTime.C140_refuted` |
| C142 | `figures/configuration.py:plot_frame`, `figures/configuration.py:plot_circles` | Older figures agree when colours are not categories or factors are given. Refuted otherwise: the older figure keeps the factors of its own first data and shows new categories in the colour for missing values. Without factors the older figure agrees exactly when the new categories, in order, are the first of its own (C142_exactly). | `Figures.C142_refuted` |
| C143 | `dynamics/_util.py:create_wave_vector` | Proved when no kept array is changed. Refuted: the array returned is the one in the cache, so a caller who changes it changes later results; and a float resolution is refused or accepted depending on earlier calls. Exactly (C143_exactly, C143_float_exactly): the result is right iff the array kept for the arguments, if any, still is; a float is refused iff nothing is kept for the same numbers. | `Wave.C143_write_refuted`, `Wave.C143_float_refuted` |
| C144 | `dynamics/dynamics.py:Dynamics.compute_all`, `dynamics/_util.py:TrackedMotion.add` | Proved for all values but struct, for steps that are not half a cell and turns that are not half a turn; exchanges need a number of wave vectors that is a multiple of 4. Each restriction has a counterexample (struct because the code turns particles about the wrong axis). | `Dynamics.C144_half_cell_refuted`, `Dynamics.C144_wave_vectors_refuted`, `Dynamics.C144_struct_refuted` |
| C145 | `dynamics/dynamics.py:Dynamics.compute_all`, `dynamics/_util.py:TrackedMotion.add` | Proved for all values but struct, for steps that are not half a cell and turns that are not half a turn; counterexamples for a step of half a cell and for struct. | `Dynamics.C145_half_cell_refuted`, `Dynamics.C145_struct_refuted` |
| C146 | `read/_read.py:process_file`, `dynamics/relaxations.py:Relaxations.add` | com_struct is at least the proportion with a later tau_F (up to molecules exactly at the distance), and equal when molecules do not come back; refuted by molecules that come back. The bounds for rot1 and rot2 hold without restriction. It holds in a frame iff no molecule within the distance was beyond it before. | `Pipeline.C146_refuted` |
| C148 | `util.py:quaternion_rotation`, `util.py:quaternion_angle` | quaternion_rotation gives half the angle (or pi minus half of it, for the opposite sign of one quaternion) and quaternion_angle goes up to two pi; what they do measure is proved for all unit quaternions. quaternion_rotation is right exactly without a rotation, or for a third of a turn between quaternions of opposite sign (C148_exactly). | `Angle.C148_rotation_refuted`, `Angle.C148_angle_refuted` |
| C151 | `read/_read.py:process_file`, `dynamics/dynamics.py:Dynamics.compute_all` | Exact weighted means for all averages. The non-Gaussian parameters are not less than the lesser one of the parts but may exceed both; the coupling may lie below both: concrete runs for both. C151_ratios_exactly gives the ratios of the whole from what is reported for the parts, and C151_alpha_exactly says that a parameter both parts share is that of the whole exactly when they have the same mean squared displacement. C151_gamma_exactly says when a coupling both parts share is that of the whole, and when the whole is above it. C151_alpha_rot_exactly is the statement for rotations. | `Pipeline.C151_alpha_refuted`, `Pipeline.C151_gamma_refuted` |
| C152 | `read/_gsd.py:_gsd_exponential_trajectory`, `read/_gsd.py:_gsd_linear_trajectory` | Holds with exponential steps when no step of the series before the end is missing. With missing steps a repeated frame makes the reader drop another one; with linear steps it starts a further keyframe. With linear steps it holds iff no frame up to steps_max is repeated. | `Pipeline.C152_missing_steps_refuted`, `Pipeline.C152_linear_refuted` |
| C153 | `read/_read.py:process_file`, `read/_gsd.py:_gsd_exponential_trajectory` | The trackers use differences of steps only. The readers count from step 0: with linear steps the statement holds for whole intervals; with exponential ones the keyframes are renumbered, and frames are lost when there are too few keyframes. With linear steps exactly (C153_exactly, C153_none_exactly): when some frame up to steps_max starts a keyframe, the later file is read with the same keyframes iff the number of steps added is a multiple of keyframe_interval; when none does, iff none does in the later file. | `Pipeline.C153_exponential_refuted`, `Pipeline.C153_linear_refuted` |
| C155 | `read/_gsd.py:_gsd_exponential_trajectory`, `read/_gsd.py:_gsd_linear_trajectory` | Holds with linear steps, and with exponential ones when every frame is on the smaller series or no step of the larger one is missing. Otherwise a frame can be lost to keyframe 0 for keyframe_max 1 that is read for 2. C155_exactly: a keyframe keeps its frames iff frames on its series are handed out at the same times for both (C178). | `Pipeline.C155_exponential_refuted` |
| C156 | `read/_gsd.py:_gsd_exponential_trajectory`, `read/_gsd.py:_gsd_linear_trajectory` | Holds for the keyframes below keyframe_max when every multiple of the interval has a frame. The linear reader has one keyframe more (keyframe_max itself), and numbers the keyframes by frames present, the exponential one by steps. Exactly (C156_exactly): both give keyframe k below keyframe_max the same frames iff no frame from step k * keyframe_interval to steps_max comes before the (k+1)-th frame at a multiple of the interval. | `Pipeline.C156_keyframes_refuted`, `Pipeline.C156_missing_refuted` |
| C157 | `read/_lammps.py:parse_lammpstrj` | Holds for the lines of the step, of the number of atoms and of the box. The lines of atoms are split at single spaces, so two spaces or a tab end the reading with ValueError. The lines of the atoms are read iff each, cut at single spaces, has a whole number in the place of id that is one of an atom, and numbers below the headings. | `Lammps.C157_spacing_refuted` |
| C159 | `read/_gsd.py:_gsd_exponential_trajectory`, `StepSize.py:GenerateStepSeries` | Ends for linear_steps at least 1, and is then the reader on lists. With linear_steps of 0 or less a file with a readable frame and a positive number of steps is never read: no frame, no return, no exception. C159_exactly says exactly when it ends; negative steps raise KeyError, an interval of 0 ZeroDivisionError. | `Gsd.C159_ends_refuted` |
| C160 | `dynamics/_util.py:TrackedMotion.__init__`, `dynamics/_util.py:TrackedMotion.add` | Holds when the arrays of the last frame are left alone until the next frame is added. The tracker keeps the arrays themselves: with one array reused for every frame no displacement is ever seen. delta_translation and delta_rotation hand out the same array each time, which the next frame changes. C160_exactly: for one frame added in the array of the last one, the displacements are right exactly when no molecule has moved but by whole cells. | `Motion.C160_values_refuted`, `Motion.C160_kept_refuted` |
| C161 | `figures/interactive_config.py:TrimerFigure.initialise_directory`, `figures/interactive_config.py:TrimerFigure.update_temperature_button` | All lists are in the order of texts, which is increasing for numbers with the same number of digits before the point; the temperature 10.0 is offered before 2.0. Exactly (C161_exactly): each list is in increasing order iff any two numbers of it are in the same order as numbers and as texts. | `Viewer.C161_order_refuted` |
| C163 | `read/_gsd.py:iter_trajectory`, `read/_gsd.py:_gsd_linear_trajectory` | Linear reader and open_trajectory in full; exponential reader when no frame off the series lies between the last two steps or no step is missing, else refuted. C163_exactly: met iff no frame is waiting for a step at the end of the merged times (C178). | `Gsd.C163_refuted` |
| C164 | `main.py:sdanalysis`, `main.py:comp_dynamics` | Without --molecule, --output and --mol-relaxations (those fail, C72), for space groups that do not look like another field; refuted for P2gg. | `Pipeline.C164_refuted` |
| C165 | `main.py:comp_dynamics`, `main.py:comp_relaxations` | With exponential steps and a limit, for the options and names of C164; refuted for parameters whose difference is lost in the name. Also with --linear-dynamics, and without a limit. | `Pipeline.C165_refuted` |
| C166 | `dynamics/_util.py:molecule2particles`, `util.py:rotate_vectors` | Exact condition for the array to be kept; refuted for arrays close to zero, which are written to. C166_refused gives the error for orientations that are no rotations. | `Dynamics.C166_refuted` |
| C167 | `main.py:comp_dynamics`, `read/_read.py:process_file` | Rows and names as stated; refuted for the options for keyframes, which are ignored for lammps files. | `Pipeline.C167_refuted` |
| C168 | `main.py:comp_dynamics`, `main.py:comp_relaxations` | Times of the molecules as stated; the table of relaxations is proved empty for every lammps trajectory, so the property is refuted for it. | `Pipeline.C168_refuted` |
| C170 | `params.py:SimulationParams`, `params.py:SimulationParams.temp_context` | Refuted for molecules changed in place; proved for assignments and for molecules that are not shared. | `Names.C170_refuted`, `Names.C170_context_refuted` |
| C174 | `molecules.py:Molecule.__eq__`, `molecules.py:Trimer.__eq__` | Equal molecules have the same shape, plain Molecule objects aside: those are equal whatever their shape (witness). Trimers of the same shape are equal for positive distances and angles from 0 to 360; angles of 120 and 840 give the same shape and are unequal (witness). moment_inertia_scale, which is not compared, is not modelled. C174_exactly lists the trimers of the same shape and the equal ones. | `Molecule.C174_equal_refuted`, `Molecule.C174_shape_refuted` |
| C175 | `main.py:comp_dynamics`, `main.py:comp_relaxations` | False: comp-dynamics leaves the table of relaxations of an earlier trajectory in the file, with a temperature that is in no other table (witness, both commands succeed). Proved: the table is always that of the tables at the last comp-relaxations that succeeded, so it is right when no comp-dynamics, or just the same one, was run since; comp-relaxations can be repeated and a failing one changes nothing. | `Pipeline.C175_refuted` |
| C176 | `run_analysis.py:order`, `order.py:create_orient_ordering` | False: order uses the arrays of all particles, HoomdFrame only those of the molecules; for one molecule of two particles order prints 0 and the ordering marks the molecule (witness, for every correct neighbour search). Proved: they agree, errors included, when every particle is a molecule; in general the printed number is a multiple of 1/N. C176_exactly: the two agree exactly when the particles above 0.9 are the same part of all particles as the marked molecules of all molecules. | `Order.C176_refuted` |
| C177 | `molecules.py:Trimer.__repr__`, `molecules.py:Molecule` | Proved for trimers of numbers: the repr read back is the same call, and the text determines the arguments. False for all other classes: reading it back is always an error (they take no dimensions or _radii), and dimers of all distances have the same repr. How Python writes and reads numbers is assumed. It holds exactly for trimers without NaN. The name in the text is the str of the molecule and names its class (C177_named). | `Molecule.C177_others_refuted`, `Molecule.C177_nan_refuted`, `Molecule.C177_dimer_refuted` |
| C179 | `figures/interactive_config.py:TrimerFigure._incr_index`, `figures/interactive_config.py:TrimerFigure._decr_index` | Proved once the slider ends at the last frame. False in every directory for a new viewer: playing ends with an IndexError, and the last frame is shown only if its number is a multiple of ten. Stepping on and back returns iff there was room for a whole increment, or the frame is the first. | `Viewer.C179_play_refuted` |
| C180 | `read/_lammps.py:parse_lammpstrj`, `frame.py:LammpsFrame` | The values: proved for all frames read. The dictionary: box and timestep are always those of the file, so columns of these names are lost (witness); all columns are there exactly when none has such a name. C180_frame: LammpsFrame sees the same as when columns, box and timestep are kept apart, as the other models do. | `Lammps.C180_refuted` |
