{"id": "C01", "title": "generate_steps is strictly increasing from start to total", "statement": "For num_linear >= 1, list(generate_steps(total, num_linear, start)) is strictly increasing, ends with total, begins with start when start < total (and is just [total] when start >= total), and every value lies between start and total when start <= total.", "quantifier": "all integers total, start and all num_linear >= 1", "why_tests_cant": "The property tests sample a few totals and one num_linear range; ordering and end points must hold for every total, start and num_linear, including totals that cut a decade at any point.", "anchors": ["src/sdanalysis/StepSize.py:generate_steps", "src/sdanalysis/StepSize.py:exp_sequence"]}
{"id": "C02", "title": "generate_steps yields exactly the decade grid", "statement": "A value x is produced by generate_steps(total, num_linear, start) iff x = total, or start <= x < total and x - start is on the decade grid: x - start = i*10**k with 0 <= i <= num_linear, where for k >= 1 the value is beyond the previous decade, i*10**k > num_linear*10**(k-1).", "quantifier": "all totals, starts, num_linear >= 1 and all candidate values x", "why_tests_cant": "Example tests list the grid for four parameter sets; the membership rule must hold at every decade for every num_linear.", "anchors": ["src/sdanalysis/StepSize.py:generate_steps", "src/sdanalysis/StepSize.py:exp_sequence"]}
{"id": "C03", "title": "exp_sequence start only shifts the sequence", "statement": "For every initial_step_size and base, the values produced by exp_sequence(start, ...) are those produced by exp_sequence(0, ...) with start added to each, at every point of the (infinite) sequence.", "quantifier": "all starts, num_linear, initial_step_size, base and every finite prefix of the infinite generator", "why_tests_cant": "exp_sequence is infinite: a test can only look at a finite prefix for some starts.", "anchors": ["src/sdanalysis/StepSize.py:exp_sequence"]}
{"id": "C04", "title": "generate_steps terminates iff num_linear >= 1 (or nothing to do)", "statement": "For num_linear >= 1 the generator reaches total after finitely many loop passes; for num_linear <= 0 and start < total it produces start and then loops for ever without producing another value.", "quantifier": "all totals, starts and num_linear", "why_tests_cant": "A test cannot observe non-termination, nor termination for all inputs.", "anchors": ["src/sdanalysis/StepSize.py:generate_steps", "src/sdanalysis/StepSize.py:exp_sequence"]}
{"id": "C05", "title": "GenerateStepSeries is a strictly increasing run from 0 to total without errors", "statement": "For total >= 0, num_linear >= 1 and gen_steps >= 1, iterating GenerateStepSeries to exhaustion never raises anything but the final StopIteration, and the values produced are strictly increasing, start at 0 and end at total.", "quantifier": "all total >= 0, num_linear >= 1, gen_steps >= 1, any max_gen, every number of next() calls", "why_tests_cant": "The priority queue, the dictionary deletions and the generators interact; tests run a handful of parameter sets.", "anchors": ["src/sdanalysis/StepSize.py:GenerateStepSeries"]}
{"id": "C06", "title": "GenerateStepSeries is the union of its keyframes' sequences", "statement": "The set of steps produced is exactly the union over all keyframes created of generate_steps(total, num_linear, start_of_that_keyframe): no step of any keyframe is missed and no other step is produced.", "quantifier": "all parameters as in C05, every step and every keyframe", "why_tests_cant": "Losing a step requires a particular coincidence of generators; a test sees only the coincidences of its parameters.", "anchors": ["src/sdanalysis/StepSize.py:GenerateStepSeries"]}
{"id": "C07", "title": "get_index names exactly the keyframes that want the current step", "statement": "After each next(), get_index() contains, each once, exactly the indices of the keyframes started so far whose own sequence generate_steps(total, num_linear, start) contains the step just returned.", "quantifier": "every state reached by any number of next() calls, all parameters", "why_tests_cant": "Index bookkeeping depends on the whole history of enqueues; tests only bound its length.", "anchors": ["src/sdanalysis/StepSize.py:GenerateStepSeries.get_index"]}
{"id": "C08", "title": "Keyframes start exactly at the produced multiples of gen_steps, at most max(1, max_gen)", "statement": "Keyframe 0 starts at step 0; afterwards a new keyframe starts at exactly those produced steps that are positive multiples of gen_steps, in order, until max_gen keyframes exist; there are never more than max(1, max_gen) keyframes.", "quantifier": "all parameters, whole runs", "why_tests_cant": "The limit and the creation points are history properties over the full run.", "anchors": ["src/sdanalysis/StepSize.py:GenerateStepSeries._add_generator", "src/sdanalysis/StepSize.py:GenerateStepSeries.__next__"]}
{"id": "C09", "title": "Keyframe k starts at step k*gen_steps", "statement": "For every k < max_gen with k*gen_steps <= total, keyframe k exists and starts at step k*gen_steps.", "quantifier": "all parameters and all k", "why_tests_cant": "Fails only for combinations where a multiple of gen_steps is off the decade grid, which the default parameters used in tests never hit.", "anchors": ["src/sdanalysis/StepSize.py:GenerateStepSeries"]}
{"id": "C10", "title": "A single-keyframe series equals generate_steps", "statement": "With max_gen <= 1 (or gen_steps > total) list(GenerateStepSeries(total, num_linear, ...)) equals list(generate_steps(total, num_linear, 0)).", "quantifier": "all total >= 0, num_linear >= 1, gen_steps >= 1", "why_tests_cant": "Tested for two totals only.", "anchors": ["src/sdanalysis/StepSize.py:GenerateStepSeries", "src/sdanalysis/StepSize.py:generate_steps"]}
{"id": "C11", "title": "Exponential reader only yields aligned frames, in order, with the right keyframes", "statement": "Every (indexes, frame) pair yielded by read_gsd_trajectory with linear_steps set has frame.timestep equal to a step of GenerateStepSeries, indexes equal to get_index() for that step, frame.timestep <= steps_max, and the yielded frames are a subsequence of the readable frames of the file.", "quantifier": "all trajectories (any timesteps, any corrupt frames) and all parameters", "why_tests_cant": "Misalignment between the file and the step series can occur at any point; a file fixture is one alignment.", "anchors": ["src/sdanalysis/read/_gsd.py:_gsd_exponential_trajectory"]}
{"id": "C12", "title": "Exponential reader yields every frame that is on the step series", "statement": "Every readable frame of a trajectory with increasing timesteps whose timestep is a step of the series is yielded.", "quantifier": "all trajectories with strictly increasing timesteps, all parameters", "why_tests_cant": "A loss needs a missing step next to a misaligned frame; the fixtures are generated by the same series so never misalign.", "anchors": ["src/sdanalysis/read/_gsd.py:_gsd_exponential_trajectory"]}
{"id": "C13", "title": "Linear reader yields every readable frame up to steps_max with keyframes 0..k-1", "statement": "With linear_steps=None each readable frame before the first one beyond steps_max is yielded in order, together with the list [0, 1, ..., k-1] where k is the number of frames so far whose timestep is a multiple of keyframe_interval, capped.", "quantifier": "all trajectories, steps_max, keyframe_interval >= 1 and keyframe_max", "why_tests_cant": "Depends on the whole prefix of the trajectory.", "anchors": ["src/sdanalysis/read/_gsd.py:_gsd_linear_trajectory"]}
{"id": "C14", "title": "At most keyframe_max keyframes are ever used", "statement": "For keyframe_max >= 1 no reader hands out more than keyframe_max distinct keyframe indices.", "quantifier": "all trajectories and parameters, both gsd readers", "why_tests_cant": "The limit of 500 keyframes is never reached in the tests.", "anchors": ["src/sdanalysis/read/_gsd.py:_gsd_linear_trajectory", "src/sdanalysis/read/_gsd.py:_gsd_exponential_trajectory", "src/sdanalysis/StepSize.py:GenerateStepSeries"]}
{"id": "C15", "title": "The length of an unfinished trajectory is that of its last readable frame", "statement": "When steps_max is not given, the number of steps used is the timestep of the last readable frame provided it is among the last ten frames; otherwise RuntimeError is raised if there are at least ten frames and IndexError if there are fewer.", "quantifier": "all trajectories and all placements of corrupt frames", "why_tests_cant": "Needs every pattern of corrupt trailing frames, including trajectories shorter than the retry limit.", "anchors": ["src/sdanalysis/read/_gsd.py:_get_num_steps"]}
{"id": "C16", "title": "Corrupt frames are invisible", "statement": "With steps_max given, adding or removing unreadable frames anywhere in a gsd file changes neither the frames nor the keyframe indexes that either reader yields.", "quantifier": "all trajectories and every placement and number of corrupt frames", "why_tests_cant": "No fixture contains a corrupt frame.", "anchors": ["src/sdanalysis/read/_gsd.py:iter_trajectory", "src/sdanalysis/read/_gsd.py:_gsd_linear_trajectory", "src/sdanalysis/read/_gsd.py:_gsd_exponential_trajectory"]}
{"id": "C17", "title": "open_trajectory visits every frame_interval-th readable frame", "statement": "open_trajectory(gsd, frame_interval=n) yields exactly the readable frames at file positions 0, n, 2n, ... in order.", "quantifier": "all trajectories, all n >= 1, all placements of corrupt frames", "why_tests_cant": "Only one file with n = 1, 2 and only the type of the frames is tested.", "anchors": ["src/sdanalysis/read/_read.py:open_trajectory"]}
{"id": "C18", "title": "lammps parse is the inverse of writing, whatever the atom order", "statement": "Parsing the lammpstrj text of any list of frames returns those frames (timestep, box lengths, every column by atom id), independently of the order in which the atom lines of each frame are written.", "quantifier": "all lists of frames, all numbers of atoms and columns (with an id column), all permutations of atom lines", "why_tests_cant": "One small fixture; neither other atom orders nor other column layouts.", "anchors": ["src/sdanalysis/read/_lammps.py:parse_lammpstrj"]}
{"id": "C19", "title": "lammps frames before a malformed header are still delivered, then RuntimeError", "statement": "If a frame of the file has a wrong section header, all earlier frames are yielded intact and then RuntimeError is raised; nothing from the malformed frame is yielded.", "quantifier": "all files: any number of good frames followed by any line that is not the expected section header", "why_tests_cant": "No malformed file is tested.", "anchors": ["src/sdanalysis/read/_lammps.py:parse_lammpstrj"]}
{"id": "C20", "title": "lammps reader stops at the first frame beyond steps_max", "statement": "read_lammps_trajectory yields the maximal prefix of frames with timestep <= steps_max, each with keyframe list [0].", "quantifier": "all frame sequences and all steps_max including None", "why_tests_cant": "Prefix property over all sequences.", "anchors": ["src/sdanalysis/read/_lammps.py:read_lammps_trajectory"]}
{"id": "C21", "title": "WriteCache loses, duplicates and reorders nothing", "statement": "After any interleaving of append and flush calls ending with a flush, the table in the output file holds exactly the appended items in order (after the rows present before when opened with to_append).", "quantifier": "all sequences of append/flush operations, all cache sizes, all prior file contents", "why_tests_cant": "Flush boundaries depend on counts; tests never read the file back.", "anchors": ["src/sdanalysis/read/_read.py:WriteCache"]}
{"id": "C22", "title": "Crash safety of WriteCache: the file is always a prefix of what was appended", "statement": "At every point of every run (once a flush has happened) the stored table is a prefix of the appended items, short by exactly the rows still cached, and at most cache_multiplier*8192 rows are cached.", "quantifier": "every crash point of every operation sequence", "why_tests_cant": "A crash point cannot be enumerated by unit tests.", "anchors": ["src/sdanalysis/read/_read.py:WriteCache"]}
{"id": "C23", "title": "len(WriteCache) is the number of items appended", "statement": "len() of a WriteCache equals the number of items appended so far.", "quantifier": "all sequences of append and flush", "why_tests_cant": "Tests check one append count and never len after an explicit flush.", "anchors": ["src/sdanalysis/read/_read.py:WriteCache.__len__"]}
{"id": "C24", "title": "process_file returns the same rows in memory as it writes to a file", "statement": "For the same input, process_file without outfile returns exactly the rows that process_file with outfile stores in the 'dynamics' table.", "quantifier": "all inputs, any number of rows", "why_tests_cant": "Fixtures produce fewer rows than the cache size of 8192.", "anchors": ["src/sdanalysis/read/_read.py:process_file", "src/sdanalysis/read/_read.py:WriteCache"]}
{"id": "C25", "title": "Keyframes do not interfere", "statement": "The rows process_file produces for keyframe k, and its molecular relaxations, are those of a tracker that starts at the first frame handed out with index k and sees only the frames handed out with index k.", "quantifier": "all sequences of (indexes, frame) pairs, including frames that raise handled errors", "why_tests_cant": "Interference would need a particular interleaving of keyframes.", "anchors": ["src/sdanalysis/read/_read.py:process_file"]}
{"id": "C26", "title": "One row per frame and keyframe, with time measured from the keyframe's first frame", "statement": "process_file produces, in reading order, one row for each index of each non-empty frame (unless that computation raised a handled error), whose time is frame.timestep minus the timestep of the first non-empty frame of that index and whose keyframe is the index.", "quantifier": "all sequences of (indexes, frame) pairs", "why_tests_cant": "History property over the whole trajectory.", "anchors": ["src/sdanalysis/read/_read.py:process_file", "src/sdanalysis/dynamics/dynamics.py:Dynamics.compute_all"]}
{"id": "C27", "title": "Custom molecular relaxations passed to process_file accumulate over the trajectory", "statement": "With mol_relaxations given, the molecular relaxations reported for a keyframe are the first/last passage times over all frames of the keyframe, as for the default relaxations.", "quantifier": "all trajectories and all relaxation definitions", "why_tests_cant": "No test passes mol_relaxations; a one-frame test could not tell.", "anchors": ["src/sdanalysis/read/_read.py:process_file", "src/sdanalysis/dynamics/relaxations.py:Relaxations.set_mol_relax"]}
{"id": "C28", "title": "Re-running process_file on the same outfile is idempotent and leaves other tables alone", "statement": "Running process_file again with the same input and outfile leaves the 'dynamics' and 'molecular_relaxations' tables as after the first run, and never alters any other table in the file.", "quantifier": "all inputs, all prior contents of the output file", "why_tests_cant": "Prior file contents are unbounded; no test re-runs on an existing file.", "anchors": ["src/sdanalysis/read/_read.py:process_file", "src/sdanalysis/read/_read.py:WriteCache"]}
{"id": "C29", "title": "Displacements are unwrapped correctly across periodic boundaries", "statement": "If between consecutive frames each molecule moves by less than half the (tilted) cell in every lattice direction, then after any number of frames delta_translation equals the true unwrapped displacement from the first frame, however often the molecule crossed the boundary.", "quantifier": "all trajectories of any length, all cells including tilted ones, any number of crossings", "why_tests_cant": "Tests use untilted cubes and at most 100 steps.", "anchors": ["src/sdanalysis/dynamics/_util.py:TrackedMotion.add", "src/sdanalysis/util.py:create_freud_box"]}
{"id": "C30", "title": "Displacements agree with the stored positions modulo the lattice", "statement": "With no assumption on step size, delta_translation always differs from (current position - first position) by a lattice vector, and the increment of each frame lies in the central cell.", "quantifier": "all trajectories and cells", "why_tests_cant": "Universal over histories.", "anchors": ["src/sdanalysis/dynamics/_util.py:TrackedMotion.add"]}
{"id": "C31", "title": "In-plane rotations accumulate past full turns", "statement": "For 2D orientations (rotations about z) whose change between consecutive frames is less than pi, delta_rotation is (total turning angle, 0, 0) after any number of frames.", "quantifier": "all sequences of angles of any length with increments in (-pi, pi)", "why_tests_cant": "Hypothesis samples lists of angles; the claim is for every history.", "anchors": ["src/sdanalysis/dynamics/_util.py:TrackedMotion.add"]}
{"id": "C32", "title": "Uniform shifts and relabelling do not change the dynamics", "statement": "Adding a constant vector to all positions of all frames, or renumbering the molecules consistently in all frames, leaves msd, mfd, alpha, gamma, the rotational quantities and the structural relaxations unchanged.", "quantifier": "all trajectories, all shifts, all permutations of molecules", "why_tests_cant": "Symmetry over all inputs.", "anchors": ["src/sdanalysis/dynamics/dynamics.py:Dynamics", "src/sdanalysis/dynamics/_util.py:TrackedMotion"]}
{"id": "C33", "title": "Moment inequalities of the displacement statistics", "statement": "0 <= mean_displacement**2 <= msd, msd**2 <= mfd, 0 <= msr, mean_rotation**2 <= msr; all are zero when nothing moved.", "quantifier": "all configurations with at least one molecule", "why_tests_cant": "Inequalities over all arrays.", "anchors": ["src/sdanalysis/dynamics/dynamics.py:Dynamics.compute_msd", "src/sdanalysis/dynamics/dynamics.py:Dynamics.compute_mfd"]}
{"id": "C34", "title": "Range of the non-Gaussian and coupling parameters", "statement": "When some molecule moved, alpha >= -1/2, alpha_rot >= -2/3 and (when some molecule also rotated) gamma >= -1; when nothing moved the division 0/0 is reported as NaN, never as an exception.", "quantifier": "all configurations", "why_tests_cant": "The test only checks alpha >= -1 on samples.", "anchors": ["src/sdanalysis/dynamics/dynamics.py:Dynamics.compute_alpha", "src/sdanalysis/dynamics/dynamics.py:Dynamics.compute_alpha_rot", "src/sdanalysis/dynamics/dynamics.py:Dynamics.compute_gamma"]}
{"id": "C35", "title": "Relaxation functions are bounded and start at one", "statement": "The intermediate scattering function, rot1 and rot2 lie in [-1, 1] and equal 1 when nothing moved; rot2 is the mean of cos(2*rotation).", "quantifier": "all configurations, wave numbers and angular resolutions >= 1", "why_tests_cant": "Bounds over all arrays.", "anchors": ["src/sdanalysis/dynamics/dynamics.py:Dynamics.compute_isf", "src/sdanalysis/dynamics/dynamics.py:Dynamics.compute_rotational_relax1", "src/sdanalysis/dynamics/dynamics.py:Dynamics.compute_rotational_relax2"]}
{"id": "C36", "title": "Structural relaxation is the fraction that stayed within the distance", "statement": "structural_relax(d, dist) is the number of displacements below dist divided by their number: it is in [0, 1], is 1 when nothing moved (dist > 0), grows with dist and shrinks when displacements grow; NaN displacements count as moved (or make the result NaN on numpy builds that signal comparisons with NaN); it never raises.", "quantifier": "all arrays with at least one element, all distances", "why_tests_cant": "Monotonicity over all inputs; the docstring states the opposite fraction.", "anchors": ["src/sdanalysis/dynamics/dynamics.py:structural_relax"]}
{"id": "C37", "title": "mobile_overlap is a proportion", "statement": "mobile_overlap(displacement, rotation) is in [0, 1], is 1 when both rank the molecules alike, and is symmetric for non-negative inputs.", "quantifier": "all pairs of arrays of equal length, whatever order equal values are sorted in", "why_tests_cant": "Hypothesis only uses 100 elements; the outcome for fewer than ten molecules is never tested.", "anchors": ["src/sdanalysis/dynamics/dynamics.py:mobile_overlap"]}
{"id": "C38", "title": "compute_all always reports the same fifteen quantities", "statement": "compute_all returns a value for each of the fifteen quantities and no other; scattering_function is NaN unless requested and a wave number is set; com_struct is NaN iff there is no wave number; struct is NaN unless wave number, molecule and orientation are all present.", "quantifier": "all states and arguments with at least ten molecules", "why_tests_cant": "All combinations of options and histories.", "anchors": ["src/sdanalysis/dynamics/dynamics.py:Dynamics.compute_all"]}
{"id": "C39", "title": "Particle positions pair each molecule with its own rotation", "statement": "orientation2positions returns, at row p*N + m, position[m] plus the body vector p rotated by orientation[m]; the same holds of the particle positions used for the structural relaxation 'struct'.", "quantifier": "all numbers of molecules and particles, all positions and orientations", "why_tests_cant": "The tests for the second function use one molecule only, where a mix-up cannot show.", "anchors": ["src/sdanalysis/util.py:orientation2positions", "src/sdanalysis/dynamics/_util.py:molecule2particles", "src/sdanalysis/dynamics/dynamics.py:Dynamics.compute_struct_relax"]}
{"id": "C40", "title": "'struct' applies the tracked rotation", "statement": "For a molecule that turned by an angle phi about z, the 'struct' relaxation compares particle positions rotated by phi about z with the initial ones.", "quantifier": "all angles and molecules", "why_tests_cant": "Tests of struct only translate, or only check delta_rotation.", "anchors": ["src/sdanalysis/dynamics/dynamics.py:Dynamics.compute_struct_relax"]}
{"id": "C41", "title": "First-passage time", "statement": "MolecularRelaxation reports for each molecule the smallest time at which its distance exceeded the threshold, or 2**32-1 if there is none below that value; NaN distances never count.", "quantifier": "all sequences of (time, distances), all thresholds, in whatever order the times arrive", "why_tests_cant": "Over all histories and all orders.", "anchors": ["src/sdanalysis/dynamics/relaxations.py:MolecularRelaxation.add"]}
{"id": "C42", "title": "Last-passage time", "statement": "LastMolecularRelaxation (cutoff >= threshold) reports 2**32-1 until the distance first exceeds the cutoff; from then on, for ever, the time at which the molecule most recently left the threshold distance before that moment.", "quantifier": "all distance histories, thresholds and cutoffs", "why_tests_cant": "State machine over all histories; the test follows one path.", "anchors": ["src/sdanalysis/dynamics/relaxations.py:LastMolecularRelaxation"]}
{"id": "C43", "title": "Relaxation times are independent between molecules and consistent in kind", "statement": "The relaxation of a molecule depends only on that molecule's own distances; adding an array of another length raises RuntimeError and changes nothing.", "quantifier": "all numbers of molecules and histories", "why_tests_cant": "Independence over all histories.", "anchors": ["src/sdanalysis/dynamics/relaxations.py:MolecularRelaxation.add", "src/sdanalysis/dynamics/relaxations.py:LastMolecularRelaxation.add"]}
{"id": "C44", "title": "Order of the three default passage times", "statement": "For the default relaxations of one molecule tau_F <= tau_D and tau_F <= tau_L, and tau_D = 2**32-1 iff tau_L = 2**32-1, when frames are added in increasing time order.", "quantifier": "all trajectories", "why_tests_cant": "Relates three state machines over all histories.", "anchors": ["src/sdanalysis/dynamics/relaxations.py:Relaxations.__init__"]}
{"id": "C45", "title": "set_mol_relax validates its input", "statement": "set_mol_relax with definitions that all have a name, a non-negative threshold (and cutoff, for last passage) and a known type yields exactly one fresh relaxation per distinct name, the last definition winning; any violation raises ValueError or KeyError.", "quantifier": "all lists of definitions", "why_tests_cant": "All combinations of optional fields.", "anchors": ["src/sdanalysis/dynamics/relaxations.py:Relaxations.set_mol_relax", "src/sdanalysis/dynamics/relaxations.py:create_mol_relaxations"]}
{"id": "C46", "title": "A rejected set_mol_relax leaves the relaxations as they were", "statement": "If set_mol_relax raises, the relaxations configured before the call are still in place.", "quantifier": "all objects and all invalid definitions", "why_tests_cant": "Failure atomicity over all inputs.", "anchors": ["src/sdanalysis/dynamics/relaxations.py:Relaxations.set_mol_relax"]}
{"id": "C47", "title": "threshold_relaxation is the first crossing", "statement": "threshold_relaxation returns the first time whose value is beyond the threshold and the gap to the previous time; a series that never crosses is distinguishable from one that crosses at once.", "quantifier": "all time/value arrays, both directions", "why_tests_cant": "All arrays; tests treat the never-crossing answer as time 0.", "anchors": ["src/sdanalysis/relaxation.py:threshold_relaxation"]}
{"id": "C48", "title": "max_time_relaxation and max_value_relaxation pick the first maximum, ignoring NaN", "statement": "The result is the time (value) at the first position holding the largest non-NaN value; the errors are the distances in time and the differences in value to the neighbouring samples, averaged where there are two, and for increasing times the time error is non-negative; all-NaN or empty input gives (NaN, NaN); unequal lengths raise RuntimeError.", "quantifier": "all arrays including NaN anywhere", "why_tests_cant": "All arrays and NaN placements.", "anchors": ["src/sdanalysis/relaxation.py:max_time_relaxation", "src/sdanalysis/relaxation.py:max_value_relaxation"]}
{"id": "C49", "title": "diffusion_constant recovers an exact linear law", "statement": "If msd = 2*d*D*t + b on the samples with 2 < msd < 50 and these include at least three samples with two different times, the result is D whatever least-squares solver is used; with at most two samples in the region the result is (NaN, NaN).", "quantifier": "all sample times, D, b, dimensions", "why_tests_cant": "One line tested.", "anchors": ["src/sdanalysis/relaxation.py:diffusion_constant"]}
{"id": "C50", "title": "compute_relaxation_value chooses the documented method for each quantity", "statement": "msd and msr use the diffusion fit with dimensions 2 and 1, struct_msd the upward threshold 0.16, alpha and gamma the time of the maximum, every other name the downward threshold 1/e; unequal lengths raise RuntimeError.", "quantifier": "all names and arrays", "why_tests_cant": "All strings.", "anchors": ["src/sdanalysis/relaxation.py:compute_relaxation_value"]}
{"id": "C51", "title": "exponential_relaxation never reports a non-positive time", "statement": "Whatever the optimiser and root finder do, exponential_relaxation returns a positive time or NaN, returns NaN with three or fewer samples near 1/e, reports the root of the fitted decay when both succeed, and turns every RuntimeError of the two solvers and every FloatingPointError of the optimiser into NaN.", "quantifier": "all arrays and all behaviours of curve_fit and newton", "why_tests_cant": "All behaviours of the numerical routines.", "anchors": ["src/sdanalysis/relaxation.py:exponential_relaxation"]}
{"id": "C52", "title": "Only fully relaxed keyframes are summarised, with harmonic mean <= mean", "statement": "compute_molecular_relaxations returns one row for exactly those (keyframe, temperature, pressure) groups with known temperature and pressure in which every molecule relaxed in every quantity, and there hmean <= mean for every relaxation time.", "quantifier": "all tables", "why_tests_cant": "All tables.", "anchors": ["src/sdanalysis/relaxation.py:compute_molecular_relaxations"]}
{"id": "C53", "title": "comp_relaxations reports times", "statement": "The relaxation values written by compute_relaxations for a keyframe are computed from the 'time' column of that keyframe's rows.", "quantifier": "all dynamics tables", "why_tests_cant": "The tests only check that columns exist.", "anchors": ["src/sdanalysis/relaxation.py:compute_relaxations", "src/sdanalysis/relaxation.py:series_relaxation_value"]}
{"id": "C54", "title": "Trajectories without temperature or pressure in the filename are summarised too", "statement": "comp_relaxations yields a row for every fully relaxed keyframe, including when temperature or pressure is unknown.", "quantifier": "all dynamics files", "why_tests_cant": "The fixture has both values in its name.", "anchors": ["src/sdanalysis/relaxation.py:compute_relaxations", "src/sdanalysis/read/_read.py:process_file"]}
{"id": "C55", "title": "Filename round trip", "statement": "For non-negative temperature and pressure, parsing the name produced by SimulationParams.filename (with prefix None, dump, trajectory or thermo) gives back temperature and pressure rounded to two decimals and the space group.", "quantifier": "all non-negative values, all space group names without separators, all output directories", "why_tests_cant": "A few values tested.", "anchors": ["src/sdanalysis/params.py:SimulationParams.filename", "src/sdanalysis/util.py:Variables.from_filename", "src/sdanalysis/util.py:set_filename_vars"]}
{"id": "C56", "title": "The order of the fields of a filename does not matter", "statement": "Reordering the P, T, ID and crystal fields after the molecule name gives the same variables.", "quantifier": "all names with distinct fields, all permutations", "why_tests_cant": "All permutations and names.", "anchors": ["src/sdanalysis/util.py:Variables.from_filename"]}
{"id": "C57", "title": "temp_context restores the parameters", "statement": "After the with-block of temp_context, however it is left and whatever the block did (including nested contexts), every attribute has the value it had before.", "quantifier": "all sequences of assignments, nested contexts and exceptions inside the block", "why_tests_cant": "All programs and exit paths.", "anchors": ["src/sdanalysis/params.py:SimulationParams.temp_context"]}
{"id": "C58", "title": "parse_directory files each trajectory under its own variables", "statement": "Every entry of the result is a matched file and stands under its own pressure, temperature, crystal and id; every matched file is present unless another file with the same variables comes later; a file without pressure or temperature raises AssertionError.", "quantifier": "all directory listings", "why_tests_cant": "All sets of names and orders.", "anchors": ["src/sdanalysis/util.py:parse_directory"]}
{"id": "C59", "title": "Number of molecules of a snapshot", "statement": "For a Hoomd snapshot of N particles the number of molecules is max(body)+1 when body is present, non-empty and this is between 1 and N, and N otherwise, whether or not body+1 overflows 32 bits; it never exceeds the number of positions (ValueError instead).", "quantifier": "all snapshots", "why_tests_cant": "All body arrays.", "anchors": ["src/sdanalysis/frame.py:HoomdFrame._get_num_bodies"]}
{"id": "C60", "title": "Frame arrays have one entry per molecule", "statement": "For both frame types position, x/y/z_position and orientation (and image, if available) have exactly len(frame) rows, and row i of position is (x[i], y[i], z[i]).", "quantifier": "all snapshots whose arrays have N rows, and all lammps frames", "why_tests_cant": "All frames.", "anchors": ["src/sdanalysis/frame.py:HoomdFrame", "src/sdanalysis/frame.py:LammpsFrame"]}
{"id": "C61", "title": "Box conversion keeps lengths and tilts", "statement": "frame.box has six entries holding the lengths and tilts of the frame (zero where not given), and create_freud_box passes Lx, Ly, xy unchanged, with Lz, xz, yz for 3D frames only.", "quantifier": "all boxes of at least three entries", "why_tests_cant": "All boxes.", "anchors": ["src/sdanalysis/frame.py:LammpsFrame.box", "src/sdanalysis/util.py:create_freud_box"]}
{"id": "C62", "title": "Orientational order is in [0, 1] and depends only on relative orientation", "statement": "For unit quaternions the orientational order of a molecule, which has at least one column of neighbours, is the mean over its neighbours of (2*w**2-1)**2 with w the quaternion inner product; it is in [0, 1], unchanged by flipping the sign of any quaternion and by rotating all molecules together, and 1 for parallel and antiparallel neighbours.", "quantifier": "all neighbour lists and orientations", "why_tests_cant": "All configurations.", "anchors": ["src/sdanalysis/order.py:_orientational_order", "src/sdanalysis/order.py:_neighbour_relative_angle"]}
{"id": "C63", "title": "Missing neighbours count as aligned", "statement": "A missing neighbour (index >= number of molecules) contributes angle 0, i.e. order 1; never an index error.", "quantifier": "all neighbour lists", "why_tests_cant": "All neighbour lists.", "anchors": ["src/sdanalysis/order.py:_neighbour_relative_angle"]}
{"id": "C64", "title": "relative_distances marks missing neighbours as documented", "statement": "Entries for missing neighbours are -1 and all other entries are the distances to the neighbours.", "quantifier": "all neighbour tables", "why_tests_cant": "All tables.", "anchors": ["src/sdanalysis/order.py:relative_distances"]}
{"id": "C65", "title": "Molecules are centred and keep their shape", "statement": "After construction the mean particle position of every molecule is the origin; for a Trimer the outer particles are at the given distance from the central one and subtend the given angle, for a Dimer the two particles are at the given distance.", "quantifier": "all parameters", "why_tests_cant": "All parameters.", "anchors": ["src/sdanalysis/molecules.py:Molecule", "src/sdanalysis/molecules.py:Trimer", "src/sdanalysis/molecules.py:Dimer"]}
{"id": "C66", "title": "Molecule equality is an equivalence relation", "statement": "== on molecules is reflexive, symmetric and transitive and never raises.", "quantifier": "all pairs and triples of Molecule, Disc, Sphere, Dimer and Trimer objects", "why_tests_cant": "All triples.", "anchors": ["src/sdanalysis/molecules.py:Molecule.__eq__", "src/sdanalysis/molecules.py:Trimer.__eq__", "src/sdanalysis/molecules.py:Dimer.__eq__"]}
{"id": "C67", "title": "Plot data columns stay aligned", "statement": "frame2data returns five columns of length N*num_particles, and row p*N + m of every column describes particle p of molecule m: position, orientation, radius and colour.", "quantifier": "all frames and molecules", "why_tests_cant": "All sizes.", "anchors": ["src/sdanalysis/figures/configuration.py:frame2data", "src/sdanalysis/util.py:orientation2positions"]}
{"id": "C68", "title": "Colour lookup never fails and unordered molecules are light", "statement": "For every orientation in [-pi, pi] the colour lookup succeeds and uses the hue of the whole-degree angle modulo 360; with an ordering, exactly the unordered molecules get the light palette.", "quantifier": "all angles and orderings", "why_tests_cant": "All angles, including both end points.", "anchors": ["src/sdanalysis/figures/configuration.py:colour_orientation", "src/sdanalysis/figures/configuration.py:frame2data"]}
{"id": "C69", "title": "The viewer never asks for a frame outside the trajectory", "statement": "In every reachable state of the interactive viewer the displayed index is a valid frame of the open trajectory.", "quantifier": "all sequences of slider moves, next/previous/play ticks and file changes", "why_tests_cant": "All interaction histories.", "anchors": ["src/sdanalysis/figures/interactive_config.py:TrimerFigure"]}
{"id": "C70", "title": "The viewer's selection always names an existing file", "statement": "After any sequence of pressure, temperature, crystal and iteration selections the selected combination names a file of the directory, and the open trajectory is that file.", "quantifier": "all directories and all interaction histories", "why_tests_cant": "All interaction histories.", "anchors": ["src/sdanalysis/figures/interactive_config.py:TrimerFigure.update_temperature_button", "src/sdanalysis/figures/interactive_config.py:TrimerFigure.update_crystal_button", "src/sdanalysis/figures/interactive_config.py:TrimerFigure.update_index_button"]}
{"id": "C71", "title": "Play/pause keeps at most one timer", "statement": "After any number of clicks exactly one periodic callback is registered when playing and none when paused.", "quantifier": "all click histories", "why_tests_cant": "All histories.", "anchors": ["src/sdanalysis/figures/interactive_config.py:TrimerFigure._play_pause_toggle"]}
{"id": "C72", "title": "Command line options reach the analysis", "statement": "Every combination of global options accepted by the sdanalysis command can be used with comp-dynamics, and reaches process_file as the corresponding argument; --linear-dynamics selects the linear reader.", "quantifier": "all combinations of options", "why_tests_cant": "All combinations.", "anchors": ["src/sdanalysis/main.py:sdanalysis", "src/sdanalysis/main.py:comp_dynamics", "src/sdanalysis/read/_read.py:process_file"]}
{"id": "C73", "title": "Pairs from the linear reader can be kept", "statement": "Collecting the (indexes, frame) pairs of read_gsd_trajectory(linear_steps=None) in a list gives the same values as consuming them one at a time.", "quantifier": "all trajectories and parameters", "why_tests_cant": "The tests look at each pair as it is produced; sharing only shows when a pair is kept across a keyframe.", "anchors": ["src/sdanalysis/read/_gsd.py:_gsd_linear_trajectory"]}
{"id": "C74", "title": "frame_interval applies to lammps trajectories", "statement": "open_trajectory(lammpstrj, frame_interval=n) yields frames 0, n, 2n, ... of the file.", "quantifier": "all trajectories and n >= 1", "why_tests_cant": "The tests use n = 1 and look at types only.", "anchors": ["src/sdanalysis/read/_read.py:open_trajectory"]}
{"id": "C75", "title": "Every value of a lammps frame was read from the file", "statement": "No entry of the arrays of a yielded lammps frame is left uninitialised.", "quantifier": "all files the parser accepts", "why_tests_cant": "Needs files with repeated or missing atom ids, and uninitialised memory often looks like zero.", "anchors": ["src/sdanalysis/read/_lammps.py:parse_lammpstrj"]}
{"id": "C76", "title": "Atom ids outside 1..N are refused", "statement": "A lammps atom line whose id is not in 1..N raises an error instead of changing another atom.", "quantifier": "all numbers of atoms and all ids", "why_tests_cant": "Negative indices are legal in numpy so a wrong id is silent.", "anchors": ["src/sdanalysis/read/_lammps.py:parse_lammpstrj"]}
{"id": "C77", "title": "Triclinic lammps cells have their true edge lengths", "statement": "For a triclinic lammps frame the box lengths are those of the cell, as defined by the bounds and the tilt factors of the box lines.", "quantifier": "all bounds and tilt factors", "why_tests_cant": "The fixtures are orthorhombic.", "anchors": ["src/sdanalysis/read/_lammps.py:parse_lammpstrj"]}
{"id": "C78", "title": "A WriteCache with group None is refused", "statement": "WriteCache(group=None) raises ValueError when it is constructed.", "quantifier": "all combinations of the other arguments", "why_tests_cant": "The check is written but a misspelt hook name keeps it from running; no test constructs one.", "anchors": ["src/sdanalysis/read/_read.py:WriteCache"]}
{"id": "C79", "title": "Reported quantities are those of the true motion", "statement": "For molecules that move less than half the cell and turn less than half a turn about z between frames, the row compute_all gives for the last frame reports mean displacement, msd, mfd and com_struct of the true unwrapped displacements since the first frame, and mean rotation, msr, rot1 and rot2 of the true total turning angles, although stored positions are wrapped and stored quaternions have arbitrary sign.", "quantifier": "all cells (tilted or not), all trajectories with such steps, of any length and number of molecules", "why_tests_cant": "Tests use a handful of hand-made frames; the claim is about every trajectory, cell and number of boundary crossings, end to end.", "anchors": ["src/sdanalysis/dynamics/dynamics.py:Dynamics.compute_all", "src/sdanalysis/dynamics/_util.py:TrackedMotion.add"]}
{"id": "C80", "title": "Numerical failures of the solvers never escape exponential_relaxation", "statement": "For arrays of equal length neither a RuntimeError nor a FloatingPointError of the optimiser or the root finder escapes from exponential_relaxation.", "quantifier": "all arrays and all behaviours of curve_fit and newton", "why_tests_cant": "The failing inputs depend on the numerics of scipy; a test would have to hit an overflow in exactly one of the three root searches.", "anchors": ["src/sdanalysis/relaxation.py:exponential_relaxation"]}
{"id": "C81", "title": "The variables of a file name come from its fields", "statement": "For a name made of a molecule name and at least two non-empty fields, each of temperature, pressure, crystal and iteration id is the value of the last field of its kind after the molecule name, and None when there is no such field.", "quantifier": "all names, directories and extensions", "why_tests_cant": "The examples in the tests always contain all of the fields, which hides that the molecule name is taken for one.", "anchors": ["src/sdanalysis/util.py:Variables.from_filename", "src/sdanalysis/util.py:set_filename_vars"]}
{"id": "C82", "title": "After process_file the dynamics table holds rows of this input only", "statement": "When process_file with an output file returns, the rows of the dynamics table are exactly the rows computed for the given input, whatever the file contained before.", "quantifier": "all inputs (including ones of which every frame raises a handled error), all prior file contents", "why_tests_cant": "Depends on prior file contents and on a trajectory of which no frame can be processed.", "anchors": ["src/sdanalysis/read/_read.py:process_file", "src/sdanalysis/read/_read.py:WriteCache"]}
{"id": "C83", "title": "num_neighbours counts the particles within the radius", "statement": "num_neighbours returns for every particle the number of other particles whose nearest image is within max_radius.", "quantifier": "all boxes, configurations and radii", "why_tests_cant": "Test configurations are small or dilute; the cap of nine neighbours only shows in dense ones.", "anchors": ["src/sdanalysis/order.py:num_neighbours"]}
{"id": "C84", "title": "Neighbours are found in the cell of the configuration", "statement": "The neighbour search of compute_neighbours uses the cell of the configuration: the two dimensional box for a two dimensional configuration and the three dimensional one otherwise.", "quantifier": "all boxes and configurations", "why_tests_cant": "All test trajectories are two dimensional.", "anchors": ["src/sdanalysis/order.py:setup_neighbours", "src/sdanalysis/order.py:compute_neighbours", "src/sdanalysis/util.py:create_freud_box"]}
{"id": "C85", "title": "order writes a line for every readable frame", "statement": "run_analysis.order writes, in order, the step and the fraction (from 0 to 1) of molecules with order above 0.9 for every frame that can be read, and skips corrupt frames.", "quantifier": "all trajectories with any pattern of corrupt frames", "why_tests_cant": "Needs corrupt trajectories.", "anchors": ["src/sdanalysis/run_analysis.py:order"]}
{"id": "C86", "title": "translate_relaxation keeps quantities apart", "statement": "translate_relaxation gives the seven quantities alpha, gamma, com_struct, msd, rot1, rot2, struct their published names, leaves every other name as it is, and never gives two different quantities (not already carrying a published name) the same name; translating twice is translating once.", "quantifier": "all strings", "why_tests_cant": "There are infinitely many names; no test covers the function.", "anchors": ["src/sdanalysis/relaxation.py:translate_relaxation"]}
{"id": "C87", "title": "Constructing a Molecule leaves its arguments alone", "statement": "Molecule(positions=p, radii=r) does not change the array p nor the dictionary r of the caller.", "quantifier": "all position arrays and radius dictionaries", "why_tests_cant": "Tests build molecules from literals and never look at the arguments again.", "anchors": ["src/sdanalysis/molecules.py:Molecule"]}
{"id": "C88", "title": "Angle and quaternion conversions are inverse", "statement": "quaternion2z(z2quaternion(theta)) is theta modulo a full turn, exactly theta for angles in (-pi, pi]; z2quaternion(quaternion2z(q)) is q up to sign for every unit quaternion about the z axis; other lengths are refused.", "quantifier": "all arrays of angles and quaternions", "why_tests_cant": "Infinitely many angles; the interesting ones are at the cut.", "anchors": ["src/sdanalysis/util.py:z2quaternion", "src/sdanalysis/util.py:quaternion2z"]}
{"id": "C89", "title": "A viewer offers its own classification algorithms", "statement": "Every TrimerFigure offers the three built-in algorithms and the models it was given, each under its file stem, and every button uses the algorithm of its label.", "quantifier": "all sequences of viewers made in one process and all lists of models", "why_tests_cant": "Tests make one viewer at a time with few models.", "anchors": ["src/sdanalysis/figures/interactive_config.py:TrimerFigure.__init__", "src/sdanalysis/figures/interactive_config.py:TrimerFigure.get_order_function"]}
{"id": "C90", "title": "Logging options are independent", "statement": "After any sequence of -v and --log-file options the log level is WARNING, INFO or DEBUG according to the number of -v, and the log goes to the last file given with --log-file, to the terminal without one.", "quantifier": "all orders and numbers of the two options", "why_tests_cant": "Tests call the commands without logging options; the effect depends on the order of the options.", "anchors": ["src/sdanalysis/main.py:_verbosity", "src/sdanalysis/main.py:_file_logger"]}
{"id": "C91", "title": "process_file reports the true motion", "statement": "When process_file with an output file returns, it has stored for every keyframe one row per frame of the keyframe, and every row gives the time, the mean, mean square and mean quartic displacement, the mean and mean square rotation, the two rotational correlations, the proportion of molecules near their start and the scattering function of the true (unwrapped) motion of the molecules since the keyframe. The run returns whenever the frames with molecules have at least ten of them, a valid box and a wave number.", "quantifier": "all trajectories of at least ten molecules in which no molecule moves half the cell or turns half a turn between frames, all patterns of keyframes, all prior file contents, two and three dimensions, tilted cells", "why_tests_cant": "Combines the reader, the keyframe bookkeeping, the tracked motion, the moments and the cache; tests check single stages on one stored trajectory.", "anchors": ["src/sdanalysis/read/_read.py:process_file", "src/sdanalysis/dynamics/dynamics.py:Dynamics.compute_all", "src/sdanalysis/dynamics/_util.py:TrackedMotion.add"]}
{"id": "C92", "title": "The first row of a keyframe is at rest", "statement": "The first stored row of every keyframe has time 0, zero displacements and rotations, correlations, overlaps and scattering function 1, and NaN for the ratios of moments; the structural overlap is 1 if orientations are stored and NaN otherwise.", "quantifier": "all inputs of at least ten molecules, all keyframes", "why_tests_cant": "Holds because the keyframe is compared with itself through every quantity; tests check single quantities.", "anchors": ["src/sdanalysis/read/_read.py:process_file", "src/sdanalysis/dynamics/dynamics.py:Dynamics"]}
{"id": "C93", "title": "process_file stores the true molecular relaxation times", "statement": "The stored molecular relaxations of every molecule and keyframe are those of its true motion: the first times beyond the thresholds for tau_D, tau_F, tau_T2, tau_T3, tau_T4, and for tau_L the last time it left the threshold before it first was beyond the cutoff; 2**32-1 for never.", "quantifier": "all trajectories as in C91, all molecules", "why_tests_cant": "The state machine over the whole trajectory of each molecule, behind the unwrapping, is only tested on artificial one-step inputs.", "anchors": ["src/sdanalysis/read/_read.py:process_file", "src/sdanalysis/dynamics/relaxations.py:Relaxations", "src/sdanalysis/dynamics/relaxations.py:LastMolecularRelaxation"]}
{"id": "C94", "title": "process_file accepts systems of any size", "statement": "process_file returns for every file whose frames have the same, positive, number of molecules.", "quantifier": "all numbers of molecules", "why_tests_cant": "The test trajectories have many molecules.", "anchors": ["src/sdanalysis/read/_read.py:process_file", "src/sdanalysis/dynamics/dynamics.py:mobile_overlap"]}
{"id": "C95", "title": "process_file follows molecules in a changing cell", "statement": "When the cell changes from frame to frame (constant pressure simulations) the rows stored for a keyframe are still those of the true motion of the molecules, as in C91.", "quantifier": "all trajectories in changing cells in which no molecule moves half of either cell between frames", "why_tests_cant": "The test trajectories hardly change their cell.", "anchors": ["src/sdanalysis/dynamics/_util.py:TrackedMotion.add", "src/sdanalysis/read/_read.py:process_file"]}
{"id": "C96", "title": "process_file uses the frames of the series of each keyframe", "statement": "For a gsd file the frames used for a keyframe are exactly the readable, non-empty frames from its first step on that are on its own series of steps (all of them for linear steps), whenever frames and steps do not both have to be skipped; the rows stored are one for each of these frames and give the time since the first of them.", "quantifier": "all files with any pattern of corrupt and empty frames, all intervals, numbers of keyframes and linear steps", "why_tests_cant": "Combines the step iterator, the reader and the keyframe bookkeeping; tests check one small file.", "anchors": ["src/sdanalysis/read/_read.py:process_file", "src/sdanalysis/read/_gsd.py:read_gsd_trajectory"]}
{"id": "C97", "title": "A file that has grown is read in the same way", "statement": "What is read from a gsd file, frame by frame with the keyframes, is the beginning of what is read from a longer file starting with the same frames; so are the stored rows.", "quantifier": "all files and continuations, all arguments", "why_tests_cant": "Needs pairs of files, the second a continuation of the first.", "anchors": ["src/sdanalysis/read/_gsd.py:read_gsd_trajectory", "src/sdanalysis/read/_read.py:process_file"]}
{"id": "C98", "title": "The calculated wave number maximises the structure factor", "statement": "calculate_wave_number returns the first maximum, on the grid of 200 wave numbers from 0.5 to 20, of the static structure factor of the configuration, that of the plane for two dimensional boxes; so the wave number of Relaxations is positive when none is given.", "quantifier": "all radial distribution functions, boxes and configurations", "why_tests_cant": "The test checks one configuration against a hand-picked number.", "anchors": ["src/sdanalysis/dynamics/_util.py:calculate_wave_number", "src/sdanalysis/dynamics/_util.py:_static_structure_factor"]}
{"id": "C99", "title": "The search radius of the wave number fits in the cell", "statement": "All vectors up to the largest distance for which calculate_wave_number asks the radial distribution function lie inside the central cell, so that every pair within it is met through the nearest image.", "quantifier": "all cells, tilted or not, in two and three dimensions", "why_tests_cant": "Test cells are rectangular.", "anchors": ["src/sdanalysis/dynamics/_util.py:calculate_wave_number"]}
{"id": "C100", "title": "Wave vectors are evenly spread", "statement": "create_wave_vector gives as many vectors as asked for, all of the length of the wave number, which add up to zero for two or more; the scattering function does not change when all displacements are turned by the angle between neighbouring wave vectors.", "quantifier": "all wave numbers, resolutions and displacements", "why_tests_cant": "Statements over all resolutions and displacements.", "anchors": ["src/sdanalysis/dynamics/_util.py:create_wave_vector", "src/sdanalysis/dynamics/dynamics.py:Dynamics.compute_isf"]}
{"id": "C101", "title": "The number of steps is logarithmic", "statement": "generate_steps gives at most num_linear*(k+1)+2 steps when total-start is at most num_linear*10**k, and a series of K keyframes at most K*(num_linear*(k+1)+1)+1.", "quantifier": "all totals, starts, numbers of linear steps and keyframes", "why_tests_cant": "A bound over all lengths of runs.", "anchors": ["src/sdanalysis/StepSize.py:generate_steps", "src/sdanalysis/StepSize.py:GenerateStepSeries"]}
{"id": "C102", "title": "A skipped frame leaves no trace", "statement": "A frame for which process_file logs a warning instead of storing a row leaves the other rows of the keyframe, and its molecular relaxations, as they would be without that frame in the file.", "quantifier": "all files, frames and keyframes", "why_tests_cant": "Needs files with a broken frame in the middle, and the same file without it.", "anchors": ["src/sdanalysis/read/_read.py:process_file", "src/sdanalysis/dynamics/_util.py:TrackedMotion.add", "src/sdanalysis/dynamics/dynamics.py:Dynamics.compute_all"]}
{"id": "C103", "title": "The structural relaxation is the average over the particles of the molecule", "statement": "The status of StructRelaxations, given the displacements of all particles in the layout the package uses for particles, holds for each molecule the average over its particles of the first times at which they moved further than the threshold.", "quantifier": "all numbers of molecules and particles per molecule, thresholds and histories", "why_tests_cant": "Needs molecules of which the particles move at different times, in a system of several molecules.", "anchors": ["src/sdanalysis/dynamics/relaxations.py:StructRelaxations", "src/sdanalysis/dynamics/_util.py:molecule2particles"]}
{"id": "C104", "title": "The exponential fit recovers an exponential decay", "statement": "exponential_relaxation, given values which near 1/e lie on a decay a exp(-b t), returns the time at which that decay reaches 1/e to within the tolerance of Newton's method, with an error of zero: the fit is exact, the derivative passed to newton is the derivative, and 20 iterations suffice from the starting point used.", "quantifier": "all decays (rate at least 10**-1000, reaching 1/e after 1e-4), times, further values away from 1/e, NaN values, and least squares solvers", "why_tests_cant": "Convergence within maxiter for every rate and every starting point in the fit region cannot be sampled.", "anchors": ["src/sdanalysis/relaxation.py:exponential_relaxation", "src/sdanalysis/relaxation.py:_exponential_decay", "src/sdanalysis/relaxation.py:_ddx_exponential_decay", "src/sdanalysis/relaxation.py:_d2dx2_exponential_decay"]}
{"id": "C105", "title": "Dynamics and Relaxations follow the same motion", "statement": "A Dynamics and a Relaxations object constructed from the same timestep, box, positions, orientations and molecule, and given the same frames, have counted the same displacements and rotations.", "quantifier": "all arguments (with or without a molecule) and sequences of frames, including ones that raise", "why_tests_cant": "Needs the two classes run side by side on three dimensional positions and without a molecule.", "anchors": ["src/sdanalysis/dynamics/dynamics.py:Dynamics.__init__", "src/sdanalysis/dynamics/relaxations.py:Relaxations.__init__", "src/sdanalysis/dynamics/relaxations.py:Relaxations.add"]}
{"id": "C106", "title": "A lammps trajectory is analysed correctly end to end", "statement": "process_file on the text of a lammps trajectory of N atoms returns and writes one row of dynamics per frame, with the time since the first frame, the averages of the true displacements, and zero rotation, whatever the order of atom lines and columns in each frame and however the positions are wrapped; frames beyond steps_max are not used. A file whose first frame has no x, y or z column is a KeyError and writes nothing.", "quantifier": "all trajectories of at least 10 atoms with steps shorter than half the cell, all ways of writing the frames, all further frames beyond steps_max", "why_tests_cant": "Composes the parser, the view of the frame, the keyframe loop, the tracker and the cache over all texts.", "anchors": ["src/sdanalysis/read/_read.py:process_file", "src/sdanalysis/read/_lammps.py:read_lammps_trajectory", "src/sdanalysis/read/_lammps.py:parse_lammpstrj", "src/sdanalysis/frame.py:LammpsFrame"]}
{"id": "C107", "title": "Damage in a lammps trajectory does not lose the frames before it", "statement": "When a lammps trajectory is damaged after some frames, the dynamics of the frames before the damage are in the output file.", "quantifier": "all valid frames before the damage, all malformed continuations, all contents of the output file; and any reader raising any exception", "why_tests_cant": "The loss depends on the number of rows since the last flush, up to 8192.", "anchors": ["src/sdanalysis/read/_read.py:process_file", "src/sdanalysis/read/_read.py:WriteCache", "src/sdanalysis/read/_lammps.py:parse_lammpstrj"]}
{"id": "C108", "title": "A parameter assigned reads as one given at construction", "statement": "After assigning a parameter on SimulationParams, or inside temp_context, reading it gives what an object constructed with that value gives.", "quantifier": "all parameters, all values (paths, text, numbers, None), all earlier states", "why_tests_cant": "The setters, the constructor and the getters treat None and text differently; tests assign a handful of valid values.", "anchors": ["src/sdanalysis/params.py:SimulationParams.infile", "src/sdanalysis/params.py:SimulationParams.outfile", "src/sdanalysis/params.py:SimulationParams.output", "src/sdanalysis/params.py:SimulationParams.temp_context"]}
{"id": "C109", "title": "The thermodynamics dashboard shows the data chosen", "statement": "After any sequence of choices in the thermodynamics dashboard, the data shown are those of the chosen directory, file and quantity.", "quantifier": "all file systems, all sequences of choices", "why_tests_cant": "A state machine over arbitrary sequences of callbacks; there are no tests of it.", "anchors": ["src/sdanalysis/figures/thermodynamics.py:update_file_list", "src/sdanalysis/figures/thermodynamics.py:update_file", "src/sdanalysis/figures/thermodynamics.py:update_factors", "src/sdanalysis/figures/thermodynamics.py:update_datacolumns"]}
{"id": "C110", "title": "The thermodynamics read from a file average each time once", "statement": "read_file returns a row for every millisecond from the first record to the last. Each is the average over the times recorded in that millisecond, each time counted once with the values recorded last, and NaN when there are none. Every time is in exactly one row, and the times of the rows increase.", "quantifier": "all tables, in any order and with any repeated times", "why_tests_cant": "Restarted simulations repeat and reorder times in ways a sample does not cover.", "anchors": ["src/sdanalysis/figures/thermodynamics.py:read_file"]}
{"id": "C111", "title": "Relaxation times of molecules survive the whole chain", "statement": "comp_dynamics followed by comp_relaxations gives one row for each keyframe from which every molecule relaxed in every way and no others. Its means are the arithmetic and harmonic means of the true relaxation times of the molecules.", "quantifier": "all trajectories in which molecules move less than half the cell and turn less than half a turn between frames, any number of molecules from 10 on, any keyframes, times and temperatures", "why_tests_cant": "Tests run single commands and check that they exit with 0; the values that come out of two commands in sequence are not compared with the motion that went in.", "anchors": ["src/sdanalysis/main.py:comp_dynamics", "src/sdanalysis/main.py:comp_relaxations", "src/sdanalysis/read/_read.py:process_file", "src/sdanalysis/relaxation.py:compute_relaxations", "src/sdanalysis/relaxation.py:compute_relaxation_value"]}
{"id": "C112", "title": "The decay times reported are times", "statement": "For each quantity that decays from 1 (rot1, rot2, com_struct, scattering_function), comp_relaxations reports the time since the keyframe of the first frame at which it is below 1/e.", "quantifier": "all trajectories, keyframes and times of the frames", "why_tests_cant": "A synthetic table with the times as its index satisfies the tests; the table that comp_dynamics writes is indexed by row numbers.", "anchors": ["src/sdanalysis/relaxation.py:compute_relaxations", "src/sdanalysis/relaxation.py:series_relaxation_value", "src/sdanalysis/read/_read.py:WriteCache.flush", "src/sdanalysis/main.py:comp_relaxations"]}
{"id": "C113", "title": "Counting neighbours marks the molecules with that many Voronoi neighbours", "statement": "The ordering made by create_neigh_ordering(n) is True exactly for the molecules whose Voronoi cell in the periodic system has n neighbours.", "quantifier": "all configurations and cells, all n", "why_tests_cant": "The buffer of 5 around the cell is enough or not depending on the largest empty disc; tests use one dense configuration.", "anchors": ["src/sdanalysis/order.py:create_neigh_ordering", "src/sdanalysis/order.py:compute_voronoi_neighs"]}
{"id": "C114", "title": "A classification depends on the orientations only", "statement": "The labels given by a function from create_ml_ordering depend on the positions and the orientations of the molecules, not on which of the two quaternions of an orientation is stored.", "quantifier": "all configurations, all trained models, all choices of sign for each molecule", "why_tests_cant": "Tests use no models; a trajectory that happens to store one sign throughout shows nothing.", "anchors": ["src/sdanalysis/order.py:create_ml_ordering", "src/sdanalysis/order.py:relative_orientations", "src/sdanalysis/order.py:_neighbour_relative_angle"]}
{"id": "C115", "title": "The numbers of a lammps file are kept in single precision", "statement": "Every number of the columns of a lammpstrj file is read up to the precision of float32, the box lengths up to that precision of the bounds, and the column id lists the ids 1..N exactly.", "quantifier": "all frames, all numbers, all numbers of atoms, with rounding as numpy does it", "why_tests_cant": "The ids go wrong from 16777217 atoms on, more than any test file has; the errors are below the tolerance of comparisons.", "anchors": ["src/sdanalysis/read/_lammps.py:parse_lammpstrj", "src/sdanalysis/frame.py:LammpsFrame"]}
{"id": "C116", "title": "Displacements in single precision are right up to a fraction", "statement": "With positions in float32, the displacement followed by TrackedMotion is right up to a fixed small fraction of the way the molecule has come, however many frames are added.", "quantifier": "all trajectories of any length without a step of half the cell, rounding as numpy does it", "why_tests_cant": "Rounding shows only after thousands of frames, when the displacement is large compared with the steps.", "anchors": ["src/sdanalysis/dynamics/_util.py:TrackedMotion.add", "src/sdanalysis/dynamics/_util.py:TrackedMotion.__init__"]}
{"id": "C117", "title": "Trajectories whose steps go back are analysed", "statement": "If every readable frame of a gsd file can be analysed, process_file returns, in whatever order the frames are; times before the first frame of a keyframe are negative.", "quantifier": "all gsd files, both readers, all keyframe settings, all output files", "why_tests_cant": "A file that goes back in time (a restarted run, or joined files) is not among the test data, and the type of the step is that of the gsd library, not of the code.", "anchors": ["src/sdanalysis/read/_read.py:process_file", "src/sdanalysis/dynamics/dynamics.py:Dynamics.compute_time_delta", "src/sdanalysis/dynamics/relaxations.py:Relaxations.get_timediff", "src/sdanalysis/frame.py:HoomdFrame.timestep"]}
{"id": "C118", "title": "Rotations of orientations in single precision are right", "statement": "For molecules turning about z by less than half a turn between frames, with orientations stored as float32 quaternions of either sign, the accumulated delta_rotation is the true angle up to about 1.2e-6 and one rounding of the angle per frame; no frame is refused for its orientations not being of unit length.", "quantifier": "all numbers of molecules and frames, all angles, all signs of the quaternions, all tolerances of rowan at least 3.6e-7", "why_tests_cant": "Rounding errors of real quaternions differ at every angle; tests compare a few rotations with a tolerance, and whether the check of rowan for unit quaternions ever trips on rounded ones cannot be sampled.", "anchors": ["src/sdanalysis/dynamics/_util.py:TrackedMotion.add", "src/sdanalysis/dynamics/_util.py:TrackedMotion.__init__", "src/sdanalysis/util.py:z2quaternion"]}
{"id": "C119", "title": "Angles survive the trip through float32 quaternions", "statement": "quaternion2z(z2quaternion(theta)) is theta, less whole turns, within 1e-7 + 1e-7*|theta| for every angle, up to the cut at -pi; no quaternion made from an angle is refused by rowan.", "quantifier": "all arrays of angles, all tolerances of rowan at least 3.6e-7", "why_tests_cant": "The test samples angles with that very tolerance; whether some of the 2^64 angles misses it, above all next to the cut, no sample can tell.", "anchors": ["src/sdanalysis/util.py:z2quaternion", "src/sdanalysis/util.py:quaternion2z"]}
{"id": "C120", "title": "quaternion2z returns angles between -pi and pi", "statement": "All angles returned by quaternion2z are in [-pi, pi].", "quantifier": "all arrays of quaternions, all tolerances of rowan", "why_tests_cant": "The test compares float32 results with np.pi, which numpy rounds to float32 for the comparison, so that the excess cannot show.", "anchors": ["src/sdanalysis/util.py:quaternion2z"]}
{"id": "C121", "title": "mobile_overlap takes the whole part of the fraction of molecules", "statement": "For a fraction written as a decimal number, the number of molecules mobile_overlap takes from each order is the whole part of the fraction times the number of molecules.", "quantifier": "all numbers of molecules up to 2^52, all fractions from 0 to 1", "why_tests_cant": "A test takes one number of molecules; products such as 100*0.29 that fall just below a whole number are rare and give a plausible result.", "anchors": ["src/sdanalysis/dynamics/dynamics.py:mobile_overlap"]}
{"id": "C122", "title": "2**32-1 marks the molecules that have not relaxed", "statement": "A molecule's first-passage time is 2^32-1 exactly when it never exceeded the threshold, and its last-passage time exactly when it never went beyond the cutoff.", "quantifier": "all histories of distances, in any order and of any length", "why_tests_cant": "Only runs of more than 4e9 steps show the difference.", "anchors": ["src/sdanalysis/dynamics/relaxations.py:MolecularRelaxation.add", "src/sdanalysis/dynamics/relaxations.py:LastMolecularRelaxation.get_status"]}
{"id": "C123", "title": "Mean squared and fourth-power displacements are right in single precision", "statement": "msd and mfd of N molecules differ from the true averages by at most the fractions (N+4)/2^23 and (N+8)/2^23, in whatever order numpy adds.", "quantifier": "all displacements whose components are zero or at least 2^-20, up to 2^20 molecules", "why_tests_cant": "The error depends on the order of additions inside numpy and grows with N; tests compare a few small systems with a tolerance.", "anchors": ["src/sdanalysis/dynamics/dynamics.py:Dynamics.compute_msd", "src/sdanalysis/dynamics/dynamics.py:Dynamics.compute_mfd", "src/sdanalysis/dynamics/dynamics.py:Dynamics.compute_displacement2"]}
{"id": "C124", "title": "alpha, alpha_rot and gamma raise no FloatingPointError in single precision", "statement": "For all displacements of float32, compute_alpha, compute_alpha_rot and compute_gamma return NaN at rest and otherwise a number with a small relative error; FloatingPointError is caught.", "quantifier": "all displacements and rotations of float32", "why_tests_cant": "The failure needs motion so small that the square of a mean underflows while the mean of the squares does not.", "anchors": ["src/sdanalysis/dynamics/dynamics.py:Dynamics.compute_alpha", "src/sdanalysis/dynamics/dynamics.py:Dynamics.compute_alpha_rot", "src/sdanalysis/dynamics/dynamics.py:Dynamics.compute_gamma"]}
{"id": "C125", "title": "The legend shows the colours that are used", "statement": "In the viewer the colour of the bar Orientation at an angle is the colour of the molecules of that angle, and the shades of the bar Classification are those of crystal and liquid.", "quantifier": "all angles from -pi to pi, all palettes", "why_tests_cant": "The legend and the plot are drawn by the browser; no test looks at colours.", "anchors": ["src/sdanalysis/figures/interactive_config.py:TrimerFigure.create_legend", "src/sdanalysis/figures/configuration.py:colour_orientation"]}
{"id": "C126", "title": "Each category has its own colour", "statement": "In a figure of categories each category has a colour of the palette that no other one has, and the same one in all figures.", "quantifier": "all columns of categories, all palettes", "why_tests_cant": "Only figures with more than ten categories, or a comparison between figures, show the difference.", "anchors": ["src/sdanalysis/figures/configuration.py:plot_circles", "src/sdanalysis/figures/configuration.py:plot_frame"]}
{"id": "C127", "title": "What the viewer shows belongs together", "statement": "In every state of the viewer the selected file is the open one, its name is shown, and the plotted frame is the one of it that the slider is at.", "quantifier": "all directories and all sequences of events", "why_tests_cant": "It takes a certain order of choices between files of different lengths.", "anchors": ["src/sdanalysis/figures/interactive_config.py:TrimerFigure.update_current_trajectory", "src/sdanalysis/figures/interactive_config.py:TrimerFigure.update_frame"]}
{"id": "C128", "title": "The diffusion constants of the two steps together", "statement": "comp-dynamics followed by comp-relaxations reports, for molecules whose mean squared displacement (or rotation) grows linearly in time where diffusion_constant looks at it, the constant of that diffusion.", "quantifier": "all trajectories, keyframes, cells and times, with at least three frames in the region of the fit, and every least squares solver", "why_tests_cant": "Tests call diffusion_constant with times; the table it is called with has row numbers, which differ from times only in real data.", "anchors": ["src/sdanalysis/relaxation.py:compute_relaxations", "src/sdanalysis/relaxation.py:diffusion_constant", "src/sdanalysis/read/_read.py:process_file"]}
{"id": "C129", "title": "Mean displacement and rotation in single precision", "statement": "The mean displacement and the mean rotation that are reported differ from the averages of the lengths of the stored vectors by at most the fraction (N+4)/2^23, in whatever order numpy adds.", "quantifier": "all lists of up to 2^20 vectors without components below 1e-6 other than zero, and all orders of addition", "why_tests_cant": "Tests compare with numpy itself; the order of additions depends on the build.", "anchors": ["src/sdanalysis/dynamics/dynamics.py:Dynamics.compute_all", "src/sdanalysis/dynamics/dynamics.py:Dynamics.compute_mean_rotation"]}
{"id": "C130", "title": "The structural relaxation counts in single precision", "statement": "com_struct is the proportion of molecules whose displacement is shorter than the distance.", "quantifier": "all displacements, distances and orders of addition", "why_tests_cant": "The difference is in molecules within one part in two million of the distance.", "anchors": ["src/sdanalysis/dynamics/dynamics.py:structural_relax", "src/sdanalysis/dynamics/dynamics.py:Dynamics.compute_displacement"]}
{"id": "C131", "title": "Rotational relaxation in single precision", "statement": "rot1 and rot2 differ from the averages of cos and cos of twice the angle by at most d + (4T + 2N + 1)/2^23 and 5d + (20T + 2N + 13)/2^23, for N rotations by at most T and a cosine right up to d.", "quantifier": "all lists of up to 2^20 rotations, all orders of addition, all cosines of the given accuracy", "why_tests_cant": "Errors of sums with terms of both signs depend on order; a test has one.", "anchors": ["src/sdanalysis/dynamics/dynamics.py:Dynamics.compute_rotational_relax1", "src/sdanalysis/dynamics/dynamics.py:Dynamics.compute_rotational_relax2"]}
{"id": "C132", "title": "Translations in single precision, from the true motion to the reported averages", "statement": "With stored images of the true positions in float32 and a wrap right up to e in each component, what is reported after n frames as mean displacement, msd and com_struct differs from the averages of the true displacements by at most 2h + L(N+3)/2^22, 4hL + L^2(N+2)/2^22, and a change of the distance by 2h and one part in 2^20, where h is the error of a component (C116) and L bounds the displacements.", "quantifier": "all motions, cells, images, numbers of frames, up to 2^20 molecules, all orders of addition", "why_tests_cant": "A test has one trajectory and compares with the same float32 arithmetic.", "anchors": ["src/sdanalysis/dynamics/dynamics.py:Dynamics.add_frame", "src/sdanalysis/dynamics/dynamics.py:Dynamics.compute_all", "src/sdanalysis/dynamics/_util.py:TrackedMotion.add", "src/sdanalysis/dynamics/dynamics.py:structural_relax"]}
{"id": "C133", "title": "Rotations in single precision, from the true angles to the reported averages", "statement": "With orientations that are float32 quaternions, of either sign, of the true angles, what is reported after n frames as mean rotation, msr, rot1 and rot2 differs from the averages of the true angles, squares, cos and cos of twice the angle by at most h + L(N+3)/2^22, 2hL + L^2(N+2)/2^22, d + h + (3L+N)/2^22 and 5(d+h) + (15L+N+4)/2^22, where h is the error of an angle (C118), L bounds the angles and d is the error of the cosine.", "quantifier": "all motions about z by less than half a turn between frames, signs, numbers of frames, up to 2^20 molecules, all orders of addition", "why_tests_cant": "A test has one trajectory and compares with the same float32 arithmetic.", "anchors": ["src/sdanalysis/dynamics/dynamics.py:Dynamics.add_frame", "src/sdanalysis/dynamics/dynamics.py:Dynamics.compute_mean_rotation", "src/sdanalysis/dynamics/dynamics.py:Dynamics.compute_msr", "src/sdanalysis/dynamics/dynamics.py:Dynamics.compute_rotational_relax1", "src/sdanalysis/dynamics/dynamics.py:Dynamics.compute_rotational_relax2", "src/sdanalysis/dynamics/_util.py:TrackedMotion.add"]}
{"id": "C134", "title": "Relaxation times of molecules in single precision", "statement": "With positions and orientations in float32, and the thresholds converted to float32 for the comparison, the first passage time stored for a molecule is the first time at which its true displacement (or angle) exceeds the threshold; and so for the last passage with its cutoff.", "quantifier": "all motions, cells, images, numbers of frames and molecules, thresholds, all orders of addition", "why_tests_cant": "A test has one trajectory, and where it is near to the threshold is seen only against exact arithmetic.", "anchors": ["src/sdanalysis/dynamics/relaxations.py:Relaxations.add", "src/sdanalysis/dynamics/relaxations.py:MolecularRelaxation.add", "src/sdanalysis/dynamics/relaxations.py:LastMolecularRelaxation.add", "src/sdanalysis/dynamics/_util.py:TrackedMotion.add"]}
{"id": "C135", "title": "The reported quantities follow the unit of length", "statement": "For the same trajectory with all lengths in a unit a times smaller (positions, cell and molecule times a, the wave number divided by a), compute_all reports mean_displacement times a, msd times a^2, mfd times a^4, and every other quantity unchanged, or raises the same exception.", "quantifier": "all trajectories, cells, molecules, wave numbers, factors a > 0, numbers of frames", "why_tests_cant": "A test has numbers in one unit; the relation between two analyses is not seen in any single one.", "anchors": ["src/sdanalysis/dynamics/dynamics.py:Dynamics.compute_all", "src/sdanalysis/dynamics/dynamics.py:Dynamics.__init__", "src/sdanalysis/dynamics/_util.py:TrackedMotion.add"]}
{"id": "C136", "title": "The relaxation values follow the units of time and length", "statement": "With times in a unit t times smaller, all relaxation times and errors of compute_relaxation_value are t times larger and diffusion constants t times smaller; with lengths in another unit, diffusion constants change by the square of the factor.", "quantifier": "all series with NaN or not, all factors, all least squares solvers", "why_tests_cant": "A test has one series in one unit.", "anchors": ["src/sdanalysis/relaxation.py:compute_relaxation_value", "src/sdanalysis/relaxation.py:diffusion_constant", "src/sdanalysis/relaxation.py:threshold_relaxation", "src/sdanalysis/relaxation.py:max_time_relaxation"]}
{"id": "C137", "title": "The title of the plot belongs to the frame plotted", "statement": "On a page made by make_document, after any events the widgets allow, the title Timestep ... of the plot is the timestep of the frame that is plotted; and make_document succeeds whenever the constructor of TrimerFigure does.", "quantifier": "all directories, files, frames, sequences of events, exceptions of opening, reading and classifying", "why_tests_cant": "A test makes the page and looks at it once; frames that fail to be classified half way through a session are not tried.", "anchors": ["src/sdanalysis/figures/interactive_config.py:TrimerFigure.update_data", "src/sdanalysis/figures/interactive_config.py:TrimerFigure.initialise_doc", "src/sdanalysis/figures/interactive_config.py:TrimerFigure.create_doc", "src/sdanalysis/figures/interactive_config.py:make_document"]}
{"id": "C138", "title": "Times of the largest alpha and gamma are times", "statement": "The rows of process_file give alpha, alpha_rot and gamma of the true motion since the keyframe, and NaN where nothing has moved; and comp_relaxations reports for alpha and gamma the time since the keyframe of the first frame at which they are largest.", "quantifier": "all trajectories in which molecules move less than half the cell and turn less than half a turn between frames, any number of molecules from 10 on, any keyframes and times", "why_tests_cant": "The functions are tested on synthetic series whose index is the time; the values that come out of two commands in sequence are not compared with the motion that went in.", "anchors": ["src/sdanalysis/dynamics/dynamics.py:Dynamics.compute_alpha", "src/sdanalysis/dynamics/dynamics.py:Dynamics.compute_gamma", "src/sdanalysis/relaxation.py:max_time_relaxation", "src/sdanalysis/relaxation.py:compute_relaxations", "src/sdanalysis/relaxation.py:series_relaxation_value", "src/sdanalysis/read/_read.py:process_file"]}
{"id": "C139", "title": "What is reported for a keyframe depends on its frames only", "statement": "Two runs of comp_dynamics and comp_relaxations in which a keyframe has the same frames report the same for that keyframe, whatever other keyframes there are.", "quantifier": "all pairs of trajectories with a keyframe in common, all other keyframes, all orders of the frames", "why_tests_cant": "Needs two runs with different keyframes to be compared; the tests run one.", "anchors": ["src/sdanalysis/read/_read.py:process_file", "src/sdanalysis/read/_read.py:WriteCache.flush", "src/sdanalysis/relaxation.py:compute_relaxations", "src/sdanalysis/relaxation.py:compute_molecular_relaxations", "src/sdanalysis/relaxation.py:series_relaxation_value"]}
{"id": "C140", "title": "Small errors in the values change the relaxation times little", "statement": "Errors of at most e in the values change neither the time reported for a decay, when no value is as near as e to 1/e (0.16 for struct_msd), nor that of a maximum, when it exceeds all other values by more than 2e; they change the largest value by at most e, and the diffusion constant by at most e sqrt(n / S) / 2d for n points whose times have the sum of squares S, when no value is as near as e to 2 or 50. There is a size of errors for which times always change by a bounded amount.", "quantifier": "all series with NaN or not, all errors, all least squares solvers", "why_tests_cant": "A test has one series, with no errors or with errors far from any threshold.", "anchors": ["src/sdanalysis/relaxation.py:compute_relaxation_value", "src/sdanalysis/relaxation.py:threshold_relaxation", "src/sdanalysis/relaxation.py:max_time_relaxation", "src/sdanalysis/relaxation.py:max_value_relaxation", "src/sdanalysis/relaxation.py:diffusion_constant"]}
{"id": "C141", "title": "Relaxation times from single precision, from the true motion", "statement": "The values of rot1, rot2, msr, msd and com_struct for a keyframe and M frames after it, computed in float32 from float32 positions and orientations, lead to the relaxation times of the true motion when no true value is as near to 1/e as the errors of C132 and C133, and to diffusion constants that differ by at most that error times sqrt(n / S) / 2d.", "quantifier": "all motions, numbers of frames, up to 2^20 molecules, all orders of addition, all cosines of the given accuracy, all least squares solvers", "why_tests_cant": "Needs the error of the whole chain from positions to times; a test compares one time of one trajectory.", "anchors": ["src/sdanalysis/dynamics/dynamics.py:Dynamics.compute_rotational_relax1", "src/sdanalysis/dynamics/dynamics.py:Dynamics.compute_rotational_relax2", "src/sdanalysis/dynamics/dynamics.py:Dynamics.compute_msd", "src/sdanalysis/dynamics/dynamics.py:Dynamics.compute_msr", "src/sdanalysis/dynamics/dynamics.py:structural_relax", "src/sdanalysis/relaxation.py:threshold_relaxation", "src/sdanalysis/relaxation.py:diffusion_constant"]}
{"id": "C142", "title": "Figures that share a source agree", "statement": "The figure plot_frame returns shows the frame: a circle for each particle of each molecule, in its place and with 0.98 of its radius. Figures drawn from other sources do not change, a call that raises changes no figure, and an older figure of the same source, drawn with the same options, shows what the new one shows.", "quantifier": "all frames, molecules, sources, orders of calls, colours and palettes", "why_tests_cant": "A test draws one figure; agreement of older figures needs a sequence of calls on a shared ColumnDataSource.", "anchors": ["src/sdanalysis/figures/configuration.py:plot_frame", "src/sdanalysis/figures/configuration.py:plot_circles"]}
{"id": "C143", "title": "The cached wave vectors depend on the arguments only", "statement": "create_wave_vector(k, n) returns n vectors of length k, evenly spread, whatever was called before with any arguments, and the cache keeps at most 128 results; nothing done with returned arrays changes later results.", "quantifier": "all wave numbers, resolutions, and sequences of calls and of changes to returned arrays", "why_tests_cant": "lru_cache makes each result depend on the history of the process; tests run in one fresh process with one wave number.", "anchors": ["src/sdanalysis/dynamics/_util.py:create_wave_vector"]}
{"id": "C144", "title": "The reported quantities do not depend on the choice of axes", "statement": "Reversing the x or y axis, or exchanging the two, any number of times, in all frames of a trajectory (with the cell, the molecule and the sense of rotation) changes none of the quantities compute_all reports.", "quantifier": "all sequences of reversals and exchanges, all cells (all tilts for reversals, right angles for exchanges), all planar trajectories and wave numbers", "why_tests_cant": "A test compares single configurations; the statement is about the group generated by the reflections acting on all trajectories, and its failures are on sets of measure zero (steps of half a cell) or hidden by the default resolution.", "anchors": ["src/sdanalysis/dynamics/dynamics.py:Dynamics.compute_all", "src/sdanalysis/dynamics/_util.py:TrackedMotion.add", "src/sdanalysis/dynamics/_util.py:create_wave_vector"]}
{"id": "C145", "title": "The reported quantities do not depend on the direction of time", "statement": "The quantities compute_all reports for the last frame of a trajectory are those it reports for the same frames read backwards.", "quantifier": "all planar trajectories of any length, all cells, wave numbers and resolutions", "why_tests_cant": "Needs all trajectories: reversal exchanges the first and the last frame and the order of all steps, so it cannot be seen frame by frame.", "anchors": ["src/sdanalysis/dynamics/dynamics.py:Dynamics.compute_all", "src/sdanalysis/dynamics/_util.py:TrackedMotion.add"]}
{"id": "C146", "title": "The two tables of a keyframe agree", "statement": "com_struct in the table of dynamics for a frame is the proportion of molecules whose tau_F in the table of molecular relaxations is later than the frame; and rot1, rot2 are bounded below by the proportions of molecules with tau_T2, tau_T3, tau_T4 up to the frame.", "quantifier": "all trajectories with steps below half a cell and half a turn, all numbers of molecules from ten, all wave numbers, all files and keyframes", "why_tests_cant": "Compares the outputs of two classes that never meet in the code, for all trajectories.", "anchors": ["src/sdanalysis/read/_read.py:process_file", "src/sdanalysis/dynamics/relaxations.py:Relaxations.add", "src/sdanalysis/dynamics/dynamics.py:Dynamics.compute_all"]}
{"id": "C147", "title": "The reported quantities bound each other", "statement": "In every row with a wave number k: 1 - com_struct <= (4 k^2 / pi^2) msd, 1 - scattering_function <= (k^2 / 4) msd, 1 - rot1 <= msr / 2, 1 - rot2 <= 2 msr and rot2 >= 2 rot1^2 - 1.", "quantifier": "all frames, molecules, wave numbers above 0 and resolutions of three wave vectors or more", "why_tests_cant": "The inequalities relate averages over all molecules and directions; sampling cannot establish them.", "anchors": ["src/sdanalysis/dynamics/dynamics.py:Dynamics.compute_all", "src/sdanalysis/dynamics/dynamics.py:Dynamics.compute_isf", "src/sdanalysis/dynamics/dynamics.py:structural_relax"]}
{"id": "C148", "title": "quaternion_rotation and quaternion_angle give the angle of rotation", "statement": "quaternion_rotation(a, b) is the angle by which a has to be turned to become b, and quaternion_angle(q) the angle by which q turns, both between 0 and pi.", "quantifier": "all unit quaternions", "why_tests_cant": "Half angles and double angles agree on the identity, which is what the tests compare; the statement is over the whole sphere of unit quaternions.", "anchors": ["src/sdanalysis/util.py:quaternion_rotation", "src/sdanalysis/util.py:quaternion_angle"]}
{"id": "C149", "title": "Different keyframes of a run agree on the motion", "statement": "When keyframe k' starts at a frame of keyframe k and both have another frame in common, mean_displacement, the root of msd, mean_rotation and the root of msr reported by k for the two frames and by k' for the second one are as the sides of a triangle, and the times add up.", "quantifier": "all trajectories with steps below half a cell and half a turn, all pairs of keyframes with possibly different frames in between, all numbers of molecules from ten", "why_tests_cant": "Relates rows accumulated separately over different sets of frames, for all trajectories.", "anchors": ["src/sdanalysis/read/_read.py:process_file", "src/sdanalysis/dynamics/dynamics.py:Dynamics.add_frame", "src/sdanalysis/dynamics/_util.py:TrackedMotion.add"]}
{"id": "C150", "title": "The wave number given changes only what depends on it, and in one direction", "statement": "Running process_file with a larger wave number leaves all reported quantities as they are except scattering_function, com_struct and struct; com_struct and struct do not grow; tau_D, tau_F and tau_L are not later for any molecule and tau_T2, tau_T3, tau_T4 are the same.", "quantifier": "all trajectories, wave numbers above 0, numbers of molecules from ten, keyframes and files", "why_tests_cant": "Monotonicity in a real parameter for all trajectories; the last-passage time involves two thresholds which move together.", "anchors": ["src/sdanalysis/read/_read.py:process_file", "src/sdanalysis/dynamics/relaxations.py:Relaxations.__init__", "src/sdanalysis/dynamics/relaxations.py:LastMolecularRelaxation.add", "src/sdanalysis/dynamics/dynamics.py:structural_relax"]}
{"id": "C151", "title": "The values for a system made of two parts lie between those of the parts", "statement": "In each row, mean_displacement, msd, mfd, mean_rotation, msr, rot1, rot2 and, with a wave number given, com_struct and scattering_function of a system are the means of the values of its two parts weighted with the numbers of molecules; alpha, alpha_rot and gamma lie between those of the parts.", "quantifier": "all pairs of systems of at least ten molecules in the same cell, all trajectories with steps below half a cell and half a turn, all wave numbers", "why_tests_cant": "A statement about three runs on all pairs of trajectories; ratios of averages look like averages in samples with equal parts.", "anchors": ["src/sdanalysis/read/_read.py:process_file", "src/sdanalysis/dynamics/dynamics.py:Dynamics.compute_all"]}
{"id": "C152", "title": "Frames written more than once are used once", "statement": "When a frame of a gsd file is followed by further ones of the same step, as after a simulation was continued, read_gsd_trajectory yields the frames it yields without them, under the same keyframes, and process_file does the same.", "quantifier": "all files in increasing order of steps and all repetitions in them, all intervals, numbers of keyframes and of linear steps", "why_tests_cant": "The two nested catch-up loops of the reader meet repeated steps only in files of interrupted simulations; the statement is over all patterns of repetition.", "anchors": ["src/sdanalysis/read/_gsd.py:_gsd_exponential_trajectory", "src/sdanalysis/read/_gsd.py:_gsd_linear_trajectory", "src/sdanalysis/read/_gsd.py:read_gsd_trajectory"]}
{"id": "C153", "title": "A trajectory is analysed in the same way wherever its counter of steps starts", "statement": "With the same number of steps added to the step of each frame and to steps_max, the same frames are read with the same keyframes and process_file writes the same tables.", "quantifier": "all files, numbers of steps added, intervals, numbers of keyframes and of linear steps, molecules and relaxations", "why_tests_cant": "Tests use trajectories that start at step 0.", "anchors": ["src/sdanalysis/read/_read.py:process_file", "src/sdanalysis/read/_gsd.py:_gsd_exponential_trajectory", "src/sdanalysis/read/_gsd.py:_gsd_linear_trajectory", "src/sdanalysis/dynamics/dynamics.py:Dynamics.compute_time_delta", "src/sdanalysis/dynamics/relaxations.py:Relaxations.add"]}
{"id": "C154", "title": "steps_max only cuts off", "statement": "Of two values of steps_max, the smaller one gives each keyframe the frames before it that the larger one gives; the rows of dynamics agree up to there, with at most one further row from the smaller one. With linear steps the smaller one gives exactly the beginning.", "quantifier": "all gsd files, pairs of limits, intervals, numbers of keyframes and of linear steps", "why_tests_cant": "The limit goes into the generation of the step series and of every keyframe in it, so that it could change all that is read before; tests use one limit per file.", "anchors": ["src/sdanalysis/read/_gsd.py:_gsd_exponential_trajectory", "src/sdanalysis/read/_gsd.py:_gsd_linear_trajectory", "src/sdanalysis/StepSize.py:GenerateStepSeries", "src/sdanalysis/read/_read.py:process_file"]}
{"id": "C155", "title": "keyframe_max does not change the keyframes that are there anyway", "statement": "With a larger keyframe_max the keyframes below the smaller one get the same frames, and have the same dynamics and molecular relaxations.", "quantifier": "all gsd files, pairs of limits, intervals, numbers of steps and of linear steps", "why_tests_cant": "Further keyframes add steps to the series which the reader has to find; the effect on other keyframes shows only in files with missing and additional frames.", "anchors": ["src/sdanalysis/read/_gsd.py:_gsd_exponential_trajectory", "src/sdanalysis/read/_gsd.py:_gsd_linear_trajectory", "src/sdanalysis/StepSize.py:GenerateStepSeries", "src/sdanalysis/read/_read.py:process_file"]}
{"id": "C156", "title": "With enough linear steps both readers give the same", "statement": "When linear_steps is at least the number of steps to be read, so that every step is on the exponential series, the exponential and the linear reader give each keyframe the same frames, those from its start to steps_max, and process_file has the same results for it.", "quantifier": "all gsd files with increasing steps, intervals, numbers of keyframes, of steps and of linear steps", "why_tests_cant": "The two readers are separate code with separate ways of counting keyframes; tests compare neither.", "anchors": ["src/sdanalysis/read/_gsd.py:_gsd_exponential_trajectory", "src/sdanalysis/read/_gsd.py:_gsd_linear_trajectory", "src/sdanalysis/read/_gsd.py:read_gsd_trajectory", "src/sdanalysis/StepSize.py:GenerateStepSeries"]}
{"id": "C157", "title": "White space in a lammps file does not matter", "statement": "Two lammps files with the same words in each line are read as the same frames, whatever white space stands around and between the words.", "quantifier": "all files of any number of frames, all amounts and kinds of white space", "why_tests_cant": "The lines of a frame are taken apart in three ways (strip, split and split at a single space); tests have one file written by one program.", "anchors": ["src/sdanalysis/read/_lammps.py:parse_lammpstrj"]}
{"id": "C158", "title": "The numbers of a lammps frame are those in the file", "statement": "Each frame that is delivered is in the file, below a title and with its own step and number of atoms as whole numbers in decimal; each column has an entry for each of the atoms. A step that is no whole number is a ValueError.", "quantifier": "all texts, whether lammps files or not", "why_tests_cant": "It is about every text that can be handed to the parser, with signs, underscores and white space; tests read one good file.", "anchors": ["src/sdanalysis/read/_lammps.py:parse_lammpstrj"]}
{"id": "C159", "title": "Reading with exponential steps comes to an end", "statement": "Reading a gsd file with exponential steps ends, by returning or by raising, whatever whole numbers are given for the steps, the interval and the linear steps; what it yields is what the reader yields that has the whole list of steps before it starts.", "quantifier": "all files, all numbers of steps, intervals, keyframes and linear steps", "why_tests_cant": "The reader asks a chain of generators for one step at a time and one of them loops for ever when there are no linear steps; a test of that would not end.", "anchors": ["src/sdanalysis/read/_gsd.py:_gsd_exponential_trajectory", "src/sdanalysis/StepSize.py:GenerateStepSeries", "src/sdanalysis/StepSize.py:exp_sequence"]}
{"id": "C160", "title": "What is tracked depends on the values handed in, not on the arrays", "statement": "The displacements and rotations that are tracked over a trajectory are those of the values each frame had when it was added, whatever the caller does with the arrays afterwards, and what was read from the tracker stays as it was.", "quantifier": "all boxes, all sequences of frames held in any arrays, all writes of the caller between the frames", "why_tests_cant": "Whether two names stand for the same array is not seen in values; a test with a fresh array for every frame, as all tests here have, sees nothing of it.", "anchors": ["src/sdanalysis/dynamics/_util.py:TrackedMotion.__init__", "src/sdanalysis/dynamics/_util.py:TrackedMotion.add", "src/sdanalysis/dynamics/dynamics.py:Dynamics.add"]}
{"id": "C161", "title": "The viewer offers pressures, temperatures and iterations in increasing order", "statement": "In every state of the viewer the numbers among the choices of pressure, temperature and iteration are in increasing order.", "quantifier": "all directories of files, all histories of events", "why_tests_cant": "The values are sorted as texts, which agrees with the order of numbers as long as they have the same number of digits before the point; the files at hand all have.", "anchors": ["src/sdanalysis/figures/interactive_config.py:TrimerFigure.initialise_directory", "src/sdanalysis/figures/interactive_config.py:TrimerFigure.update_temperature_button", "src/sdanalysis/figures/interactive_config.py:TrimerFigure.update_index_button"]}
{"id": "C162", "title": "Few frames are lost where frames and steps do not go with each other", "statement": "The frames on the step series that the exponential reader does not hand out are at most twice as many as the frames off the series, and at most twice as many as the steps of the series that are missing; the same holds for the frames that process_file uses for each keyframe.", "quantifier": "all files with increasing steps, with unreadable frames anywhere, all limits and intervals, every keyframe", "why_tests_cant": "The loss needs a frame off the series and a missing step to meet in a certain order, and the bound must hold however many of them there are and wherever they are.", "anchors": ["src/sdanalysis/read/_gsd.py:_gsd_exponential_trajectory", "src/sdanalysis/read/_read.py:process_file"]}
{"id": "C163", "title": "An exception of the file other than that of a corrupt frame reaches the caller", "statement": "When reading a frame raises an exception other than RuntimeError and no frame before it is beyond the limit, the readers yield the frames they yield for the part of the file before it and then raise that exception, and so does process_file; open_trajectory raises it if the position is one it visits. Refuted for the exponential reader: a frame off the series just before the last step, with a step missing, uses up the steps and the reader ends as if the file had.", "quantifier": "all files with increasing steps, all exceptions but RuntimeError at any position, all limits and intervals, whatever follows", "why_tests_cant": "Tests only have files that can be read or whose frames are corrupt; whether another exception is lost depends on where it is and on the frames and steps before it.", "anchors": ["src/sdanalysis/read/_gsd.py:iter_trajectory", "src/sdanalysis/read/_gsd.py:_gsd_linear_trajectory", "src/sdanalysis/read/_gsd.py:_gsd_exponential_trajectory", "src/sdanalysis/read/_gsd.py:_get_num_steps", "src/sdanalysis/read/_read.py:open_trajectory", "src/sdanalysis/read/_read.py:process_file"]}
{"id": "C164", "title": "comp-dynamics writes the true motion at the state point of the file name", "statement": "The command comp-dynamics on a gsd file named by SimulationParams.filename reads it with the options given and, when it returns, every row has the temperature and pressure of the parameters rounded to two decimals and the rows of each keyframe report the true motion in the readable frames of its own steps, with exponential steps and with --linear-dynamics; it returns when the first readable frame starts keyframe 0 and every frame with molecules has ten of them, orientations and a box. Refuted for a space group that looks like another field: with P2gg the name gives the pressure 2gg and the command never returns. A name whose temperature or pressure is not a number never gives tables.", "quantifier": "all parameters, prefixes, options, wave numbers, trajectories and contents of the output file", "why_tests_cant": "Tests run the command on one file and look at the exit code; the values in the tables depend on names, options, steps and motion together.", "anchors": ["src/sdanalysis/main.py:sdanalysis", "src/sdanalysis/main.py:comp_dynamics", "src/sdanalysis/read/_read.py:process_file", "src/sdanalysis/params.py:SimulationParams.filename", "src/sdanalysis/util.py:Variables.from_filename"]}
{"id": "C165", "title": "The relaxation times of a simulation end up at its state point", "statement": "comp-dynamics on a gsd file named by SimulationParams.filename followed by comp-relaxations: if the frames of each keyframe are those of a true course, comp-relaxations returns and has one row for each keyframe from which every molecule relaxed in every way and no others, at the temperature and pressure of the parameters rounded to two decimals, with the arithmetic and harmonic means of the true relaxation times of the molecules. Refuted for keeping simulations apart: temperatures 0.4 and 0.401 give the same name, so the same state point.", "quantifier": "all parameters, options, files with corrupt frames, true courses of any length, earlier contents of the output file, fits and harmonic means", "why_tests_cant": "Tests run the two commands on one small file and look at the exit code; the result combines names, options, readers, trackers and tables.", "anchors": ["src/sdanalysis/main.py:comp_dynamics", "src/sdanalysis/main.py:comp_relaxations", "src/sdanalysis/read/_read.py:process_file", "src/sdanalysis/relaxation.py:compute_relaxations", "src/sdanalysis/params.py:SimulationParams.filename"]}
{"id": "C166", "title": "Working out the particles of the molecules leaves the orientations alone", "statement": "molecule2particles leaves the array of orientations handed to it as it was. Refuted: an array of zeros is overwritten with ones in the first column. Exactly: the array is kept when it has no rows or a component further than 1e-8 from zero, so always for unit quaternions, where the tolerances change nothing; calling again gives the same; orientations that close to zero stand for no rotation, up to 5e-8 of the size of the molecule.", "quantifier": "all positions, arrays of orientations, molecules", "why_tests_cant": "The test hands over an array of zeros that is not looked at afterwards; whether a caller's array is changed depends on a tolerance.", "anchors": ["src/sdanalysis/dynamics/_util.py:molecule2particles", "src/sdanalysis/util.py:rotate_vectors", "src/sdanalysis/dynamics/dynamics.py:Dynamics.compute_struct_relax"]}
{"id": "C167", "title": "comp-dynamics on a lammps trajectory writes the true motion, with keyframes as asked for", "statement": "comp-dynamics on a file named like those of SimulationParams.filename but ending in .lammpstrj returns and writes exactly one row per frame up to steps_max, at the temperature and pressure of the name, with the true displacements since the beginning of the keyframe, and the options for keyframes apply as to a gsd file. Refuted for keyframes: all rows are of keyframe 0, and --keyframe-interval, --keyframe-max, --linear-steps and --linear-dynamics change nothing.", "quantifier": "all options, names, texts of lammps trajectories, further frames beyond the limit", "why_tests_cant": "No test runs the command on a lammps file; the result combines options, names, the parser, the trackers and the tables.", "anchors": ["src/sdanalysis/main.py:comp_dynamics", "src/sdanalysis/read/_read.py:process_file", "src/sdanalysis/read/_lammps.py:read_lammps_trajectory", "src/sdanalysis/util.py:get_filename_vars"]}
{"id": "C168", "title": "The relaxation times of a lammps trajectory end up in the table of relaxations", "statement": "comp-dynamics on a .lammpstrj file followed by comp-relaxations: the times at which the atoms diffused are in the table of molecular relaxations, and when all atoms have diffused their mean is in the table of relaxations. Refuted for the table of relaxations: lammps frames have the same orientation throughout, so the times of turning stay at 2**32 - 1, the keyframe is taken for unfinished and the table has no rows, for every trajectory.", "quantifier": "all options, names, texts of lammps trajectories, numbers of atoms, fits and harmonic means", "why_tests_cant": "No test chains the two commands on a lammps file; the emptiness is of every possible trajectory and comes from the interplay of the frame class, the trackers and the filter for unfinished keyframes.", "anchors": ["src/sdanalysis/main.py:comp_dynamics", "src/sdanalysis/main.py:comp_relaxations", "src/sdanalysis/frame.py:LammpsFrame", "src/sdanalysis/relaxation.py:compute_relaxations", "src/sdanalysis/relaxation.py:compute_molecular_relaxations"]}
{"id": "C169", "title": "Frames are lost only just after a frame off the series and a missing step", "statement": "Reading a gsd file with exponential steps, a frame on the series is yielded whenever the two frames before it in the file are on the series, and a step whose frame is in the file is yielded, with its own start indices, whenever the frames of the two steps before it are in the file; fewer than two do when there are no more. One is not enough. So what is lost (C162) is lost next to where frames and steps do not go with each other, and the reader never goes out of step with the rest of the file.", "quantifier": "all files with increasing timesteps, corrupt frames anywhere, all limits, numbers of linear steps, keyframe intervals and numbers of keyframes", "why_tests_cant": "Tests read the one sample file, whose frames are all on the series; whether a reader that skips on both sides gets back in step is a statement about every pattern of missing and additional frames.", "anchors": ["src/sdanalysis/read/_gsd.py:_gsd_exponential_trajectory", "src/sdanalysis/StepSize.py:GenerateStepSeries"]}
{"id": "C170", "title": "Parameters of different simulations do not share changes", "statement": "What one sees of one SimulationParams object, its attributes and those of its molecule, is not changed by a program that only deals with others, and after temp_context one sees what one saw before. Refuted for changes of a molecule in place: all objects made without a molecule have the same default Trimer(), so that a change through one is seen in exactly those that have the same molecule, and temp_context keeps the reference and does not undo it. It holds for programs that only assign attributes, and for parameters whose molecule no others refer to.", "quantifier": "all programs of constructions, assignments, changes of molecules, exceptions, try blocks and nested contexts on any number of objects", "why_tests_cant": "Sharing shows only in sequences of operations on several objects; the tests make one object and assign to it.", "anchors": ["src/sdanalysis/params.py:SimulationParams", "src/sdanalysis/params.py:SimulationParams.temp_context", "src/sdanalysis/molecules.py:Trimer"]}
{"id": "C171", "title": "The scattering function is the average over all directions", "statement": "The scattering function reported with the 360 wave vectors of process_file differs by at most 1e-100 from the average over the molecules of the Bessel function J0 of the wave number times the distance moved in the plane, which is the average over all directions of the wave vector, as long as no molecule has moved further than 50 divided by the wave number; so that the directions in which the molecules moved make no difference beyond twice that. For n wave vectors and distances up to z divided by the wave number the difference is at most 2 z^n e^z / n!.", "quantifier": "all trajectories, wave numbers, numbers of wave vectors and displacements up to the bound", "why_tests_cant": "A bound of 1e-100 cannot be seen in floating point, and tests compare a few displacements; that 360 directions stand for all of them is a statement about all displacements.", "anchors": ["src/sdanalysis/dynamics/dynamics.py:Dynamics.compute_isf", "src/sdanalysis/dynamics/dynamics.py:Dynamics.__init__", "src/sdanalysis/dynamics/_util.py:create_wave_vector"]}
{"id": "C172", "title": "The option -v of figure shows the messages of the viewer only", "statement": "With -v after figure every message of the viewer (the logger of figures/interactive_config.py and those below it) from the level DEBUG on is written, to where the options of the group send the log. All other messages are written exactly from the level chosen by the options of the group on, whether or not -v is given after figure; those of gsd and freud from WARNING on.", "quantifier": "all options of the group, all numbers of -v after figure, all loggers and levels", "why_tests_cant": "Whether a message is written depends on the levels of all ancestors of its logger, on the callbacks of two commands and on which of them configures the root logger first; no test runs the figure command.", "anchors": ["src/sdanalysis/main.py:_interactive_verbosity", "src/sdanalysis/main.py:_verbosity", "src/sdanalysis/main.py:figure"]}
{"id": "C173", "title": "The scattering function with the rounding of numpy", "statement": "With numpy's rounding after every operation, a cosine and a sine right up to δ and additions in any order, compute_isf differs from the average of cos(k·d) over the wave vectors and the molecules by at most (kR + 1)(δ + 2^-46) + 360 N / 2^50 and terms below 2^-999, for displacements up to R; started from float32 positions it differs from the average of the Bessel function of the true distances by this and 2kη, η the error of C116. Its relaxation time is that of the true averages when none of these is as near to 1/e as the error. It never leaves [-1, 1], and is exactly 1 where no molecule moved in the plane.", "quantifier": "all wave numbers, numbers of molecules up to 2^20, true motions and stored images, accuracies of wrap, cos and sin, orders of the additions and fused products", "why_tests_cant": "The result mixes float32 displacements with float64 angles, products, cosines and a sum of 360 N terms; a test sees one platform's order of additions and one set of displacements.", "anchors": ["src/sdanalysis/dynamics/dynamics.py:Dynamics.compute_isf", "src/sdanalysis/dynamics/dynamics.py:Dynamics.__init__", "src/sdanalysis/dynamics/_util.py:TrackedMotion.add"]}
{"id": "C174", "title": "Equal molecules have the same shape", "statement": "Two molecules compare equal exactly when they have the same particles at the same positions with the same radii.", "quantifier": "all pairs of molecules made by the constructors", "why_tests_cant": "Equality compares classes and parameters, the shape is what the constructors computed from them; tests compare molecules of equal parameters only.", "anchors": ["src/sdanalysis/molecules.py:Molecule.__eq__", "src/sdanalysis/molecules.py:Trimer.__eq__", "src/sdanalysis/molecules.py:Dimer.__eq__", "src/sdanalysis/molecules.py:Trimer"]}
{"id": "C175", "title": "The summary in a file belongs to the other tables in it", "statement": "After any sequence of the commands comp-dynamics and comp-relaxations on the same file, the table relaxations, if there is one, is that of the tables dynamics and molecular_relaxations which are in the file.", "quantifier": "all sequences of commands with all options and inputs, including commands that fail", "why_tests_cant": "Tests run each command once on a new file; a table left from before is seen only in a longer history of the same file.", "anchors": ["src/sdanalysis/main.py:comp_dynamics", "src/sdanalysis/main.py:comp_relaxations", "src/sdanalysis/relaxation.py:compute_relaxations", "src/sdanalysis/read/_read.py:process_file"]}
{"id": "C176", "title": "order counts molecules, as the orderings do", "statement": "The fraction that run_analysis.order prints for a frame is the fraction of its molecules that create_orient_ordering(0.9) marks on the HoomdFrame of the same snapshot.", "quantifier": "all snapshots with one row per particle, all numbers of particles per molecule", "why_tests_cant": "A test compares numbers for one file; with a file of one-particle molecules both are the same, with the others nobody knows the right number.", "anchors": ["src/sdanalysis/run_analysis.py:order", "src/sdanalysis/order.py:create_orient_ordering", "src/sdanalysis/frame.py:HoomdFrame._get_num_bodies"]}
{"id": "C177", "title": "repr of a molecule", "statement": "Evaluating the repr of a molecule makes a molecule that is equal to it, and molecules of one class with the same repr are equal.", "quantifier": "all molecules of all classes, all arguments", "why_tests_cant": "A test looks at the repr of one trimer; nothing in the tests reads a repr back, and the classes without a __repr__ of their own are never shown.", "anchors": ["src/sdanalysis/molecules.py:Trimer.__repr__", "src/sdanalysis/molecules.py:Molecule", "src/sdanalysis/molecules.py:Dimer.__init__"]}
{"id": "C178", "title": "Which frames the exponential reader hands out", "statement": "Going along the merged times of the frames and of the step series, the exponential reader hands out a frame at exactly those common times at which neither a step nor a frame is held over from a step missing from the file after a frame off the series, or a frame off the series after a missing step.", "quantifier": "all files whose readable frames have increasing times, all step series", "why_tests_cant": "The tests read files whose frames are all on the series; which frames are lost depends on the order of extra frames and missing steps along the whole file.", "anchors": ["src/sdanalysis/read/_gsd.py:_gsd_exponential_trajectory"]}
{"id": "C179", "title": "Playing a trajectory", "statement": "In every state of the viewer, playing moves on by the chosen increment with each tick up to the last frame and stays there, without an exception; stepping on and then back returns to the same frame.", "quantifier": "all directories, all reachable states of the viewer, all increments and numbers of ticks", "why_tests_cant": "The tests call the handlers once on one file; none runs the timer to the end of a trajectory.", "anchors": ["src/sdanalysis/figures/interactive_config.py:TrimerFigure._incr_index", "src/sdanalysis/figures/interactive_config.py:TrimerFigure._decr_index", "src/sdanalysis/figures/interactive_config.py:TrimerFigure._play_pause_toggle", "src/sdanalysis/figures/interactive_config.py:TrimerFigure.initialise_media_interface"]}
{"id": "C180", "title": "Every column of a lammps file, whatever its heading", "statement": "In every lammps frame that is read, the entry of an atom in a column is the number in the last line with the id of the atom that has a word under that heading, in the last word under that heading; and the dictionary of the frame has every column of the file under its heading, and the box and the timestep of the file.", "quantifier": "all files that can be read, all headings including repeated ones, all ids including repeated and negative ones", "why_tests_cant": "The tests read one well formed file; none has repeated headings or ids, or columns called box or timestep.", "anchors": ["src/sdanalysis/read/_lammps.py:parse_lammpstrj", "src/sdanalysis/frame.py:LammpsFrame"]}
