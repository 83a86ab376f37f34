# Formal model of n2p2 in Lean 4: design

Source: `/repo` (CompPhysVienna/n2p2, C++). Read as text only, never built or run.
Properties: `properties.jsonl`. Status per property: `MANIFEST.json`.

## Layout

* `lean/Verif/Model/*.lean`  definitions modelling the C++ code, each with a citation of file and lines.
* `lean/Verif/Lemma/*.lean`  helper lemmas.
* `lean/Verif/Spec/*.lean`   small independent specifications used in the statements.
* `lean/Verif/Props/*.lean`  the property theorems, each with a non-vacuity `example` beside it.
* `seeded/LOG.jsonl`         mutation testing log.

## Trusted base

* Lean's kernel (4.33.0) and the three standard axioms `propext`, `Classical.choice`, `Quot.sound`.
  No axiom is added, there is no `sorry`, `native_decide` or `bv_decide`.
* Axioms per theorem (`#print axioms` on every theorem of `MANIFEST.json`): at most the three above.
  Only `propext`: `C06_comment_irrelevant`, `C50_log_force`. `propext` and `Quot.sound`: all theorems of
  C01 and C02, `C09_pruned_contents`, `C41_error_iff`, `C49_grouped`, `C50_log_used`. All other theorems
  depend on `propext`, `Classical.choice` and `Quot.sound` (the real numbers need them).
* Mathlib definitions used in statements (reals, `HasDerivAt`, matrices, `Real.exp`, ...).
* The reading of the C++ code: the correspondence of each definition with the cited lines is by inspection.

### Modelling decisions that apply everywhere

* `double` is modelled by the real numbers ℝ. Rounding, overflow, NaN and infinities are **not** modelled.
  Division by zero is never relied on: theorems carry the guard that excludes it, and where the code can
  reach the point it is called out.
* `size_t`/`int` are modelled by ℕ/ℤ; where the cast or wrap-around matters it is an explicit guard.
* Exceptions are `Except`/`Option` results. Undefined behaviour (out-of-range access, signed overflow) is a
  distinct outcome (`none`/`Except.error .ub`) or an explicit precondition.
* `std::string` is `List Char` (a list of characters); files are lists of lines.
* `std::sort` is modelled by *any* sorted permutation (unspecified order of equal elements).
* Random number generators are arbitrary input sequences (theorems quantify over them).
* MPI is modelled by its functional contract (reductions = sums/min/max over ranks, messages arrive unchanged).
* OpenMP loops are modelled sequentially; iterations write to disjoint atoms.
* Eigen matrices are Mathlib matrices. `colPivHouseholderQr().solve` is an arbitrary function `LinSolve`;
  theorems that need the solution assume that it solves non-singular systems (`LinSolve.Correct`).
  `std::erf`/`std::erfc` are defined by their integrals.
* The order of texts (`std::string::operator<`) is that of the code points; the element symbols are ASCII.

## Modelled code

| model file | source | left out |
|---|---|---|
| `Utility` | `utility.cpp/h`: `split`, `trim`, `reduce`, `pow_int`, string helpers | file readers and writers for tables |
| `ElementMap` | `ElementMap.cpp/h` | - |
| `Settings` | `Settings.cpp`, `Key.h`, `Mode::writePrunedSettingsFile`, `writeSettingsFile` | texts of log and exceptions |
| `Cutoff` | `CoreFunction`, `CutoffFunction`, `CompactFunction`, `ScreeningFunction` | - |
| `Scaling` | `SymFnc::setScalingType/scale/unscale`, `SymFncStatistics`, statistics part of `Element` | text of warnings |
| `NeuralNetwork` | `NeuralNetwork.cpp/h` | output to files, `info` |
| `Structure`, `Geometry` | records `Atom`, `Structure`; `Vec3D.h`; box, remap, minimum image, neighbour list, counters, cutoff map | `elementMap` |
| `StructureFile` | `Structure::writeToFile`, `readFromFile`, `readFromLines`, `setElementMap`; `strpr` | opening of files; texts of exceptions; printing and parsing of numbers (parameters, C58 says which conditions they have to satisfy) |
| `Prediction` | `Prediction::readStructureFromFile`, `predict` for the second generation, `Structure::reset` | `setup` (see `Mode`); opening of files |
| `Lammps` | `InterfaceLammps::setLocalAtoms`, `setLocalAtomPositions`, `setLocalTags`, `addNeighbor`, `process`, `getMaxCutoffRadius`, `getEnergy`, `getAtomicEnergy`, `getForces`; `PairHDNNP::compute`, `transferNeighborList`, for the second generation | `initialize` with the parsing of the type map, box, charges, fourth generation, extrapolation warnings, virial, `writeToFile` (not called) |
| `Units` | unit conversion of `Atom` and `Structure`; energy offsets and unit helpers of `Mode` | - |
| `SymFnc`, `SymFncSetup` | all eleven `SymFnc*` classes: `calculate`, caches, parameters, units, order; `Element` and `Mode` setup functions | number parsing (parameter), line number of a function |
| `SymGrp` | all eleven `SymGrp*` classes | text output |
| `Mode`, `ModeGroups` | second generation `Mode`: setup of scaling, memory and cache, `calculateSymmetryFunctions`, `calculateSymmetryFunctionGroups`, `calculateAtomicNeuralNetworks`, `calculateEnergy`, `calculateForces`, `evaluateNNP`; build with caches and reduced derivative memory | extrapolation warnings, log, `N2P2_FULL_SFD_MEMORY`, `N2P2_NO_SF_CACHE` |
| `Kspace` | `Kspace.cpp`, `ErfcBuf.cpp` | the choice of the Ewald parameters is in `EwaldSetup` |
| `Electrostatics` | `Structure`: electrostatic matrix and energy, screening, `calculateDAdrQ`, `calculateDQdChi/J`, energy derivatives, force multipliers; `Mode::chargeEquilibration` | - |
| `Mode4G` | fourth generation `Mode`: `setupCutoffMatrix`, `evaluateNNP` and everything it calls, 4G part of `calculateForces`; `Atom::calculateDChidr`, `Structure::calculateMaxCutoffRadiusOverall`, `calculateDQdr` | `EwaldSetup` (a function parameter), extrapolation warnings, `N2P2_FULL_SFD_MEMORY` |
| `Dataset` | distribution of structures, numeric forces, reductions of errors and statistics; `calculateBufferSize`, `sendStructure`, `recvStructure` (`MPI_Pack`, `MPI_Unpack` by contract, build without `N2P2_FULL_SFD_MEMORY` and `N2P2_NO_SF_CACHE`) | MPI transport, files |
| `Training`, `TrainingUpdate` | set selection, epoch schedule, candidates, weight vectors, error vector and Jacobian assembly | files, timing, log texts except those of C50 |
| `Updater` | `GradientDescent.cpp`, `KalmanFilter.cpp` | status texts |
| `WeightFile` | the functions of C87; file system as map from names to contents | opening for writing fails, formats with other conversions than one `%03zu`, log output except the lines with the file name |
| `ScalingFile` | the functions of C88; `atoi` for decimal numbers | symmetry function values are given; log output; NaN is an arbitrary number `nan`; numbers outside of `int` in `atoi` |
| `LammpsTypes` | the functions of C89 | log output and texts of messages (`strpr` buffers); white space other than blanks in `stoi` |
| `Normalization` | the functions of C90 | log messages, `evsv.dat`, copies of weights and settings, second setup of the symmetry functions; structures carry the energies and forces computed before |
| `LammpsWarnings` | the functions of C92, for all processes and time steps | the words around the numbers and names of a line; log lines of one time step are compared up to order; `MPI_Gather` and `MPI_Reduce` follow their contracts |
| `DataFile` | the functions of C93 | opening and rewinding the file; the number of bytes returned; the log; MPI messages arrive in order |
| `Select` | the functions of C94 | `atof`, `atoi` (the arguments are numbers), the log, the wrong type in `strpr("%d", size_t)` |
| `Convert` | the functions of C95 | opening of files; the log; `%d` with a `size_t` argument is a number below 2^31 or an error |
| `EwaldSetup` | the functions of C96 | text of the log, warning of `isEstimateReliable`; values of keywords are numbers; volumes are positive; rounding (in floating point the loops might end earlier or never) |
| `Training` (reports) | the functions of C97 | screen output of `printHeader`, `printEpoch`; energies, forces and charges of the structures are given for each epoch (how they are calculated is in C63, C65, C80); writing succeeds |
| `libnnpif/CabanaMD` | the functions of C98, C99 and C100 | MPI, exchange of ghost atoms and neighbour lists of CabanaMD; parallel execution (atomic additions in any order); log; reading of the settings file; `calculateElecProperties` and other functions without counterpart |
| `Dataset` (histograms) | the functions of C102 | log; `gsl_histogram` is modelled by its documentation (limits, increments and printing without rounding); writing succeeds |
| `Dataset` (file with symmetry functions) | `writeSymmetryFunctionFile` | log; values of symmetry functions are any function of the structure (they are C12 and following); several processes writing in the same round cannot happen (proved); writing succeeds |
| `Dataset` (atomic environments) | `sortNeighborLists`, `writeNeighborLists`, `writeAtomicEnvironmentFile` | log; files that cannot be opened; `sort` is any sorted permutation |
| `Sensitivity` | the functions of C108 | log; evaluation of the networks (`dEdG` is given, see C74); the files with energies and forces of nnp-dataset |
| `DatasetTool` | the functions of C109 | evaluation (parameter which keeps the given data); log apart from the table of errors; the files are written and combined one after the other |
| `NeuronFile` | the functions of C110 | which inputs occur (one for each atom, given); derivatives of networks, which do not change statistics; `strpr` never cuts the lines |
| `ShapeFile` | the functions of C111 | the lines of `infoSymmetryFunction` (given); conversion of the command line argument to a number; `strpr` never cuts the lines; results which are not finite are all printed alike |
| `Stopwatch` | the whole class, version for Linux | the versions for macOS and without a clock; warnings |
| `Norm2Tool` | checks, statistics, units and settings files of nnp-norm2 | log, `evsv.dat`, copies of the weights; the evaluation is that of C90 |
| `Compare` | message, differences and lines of the comparison; the selection | evaluation of the potentials (results are given), communicators, log, merging the files of processes (modelled elsewhere); `strpr` never cuts the lines; structures without atoms (division by zero) |
| `UpdaterStatus` | status lines, headers and files of Kalman filter and gradient descent | distribution over processes; quotients by zero are all printed as not a number; the element map is given as the list of numbers in file names |
| nnp-dist | nnp-dist.cpp:34-504 | log, headers and layout of files, conversion of the first three arguments; without names of elements a null pointer is read (63), here `none` |
| nnp-checkf | nnp-checkf.cpp:182-313, Dataset.cpp:888-950 | log, layout of files, potentials of the fourth generation |
| nnp-norm | nnp-norm.cpp:65-245 | log, `evsv.dat` |

## Plan per property

| id | what is modelled | how it is proved |
|---|---|---|
| C01, C02 | `split`, `trim`, `reduce` on character lists | induction on the line, against an independent word specification |
| C03 | `pow_int` loop with machine-int guard | loop invariant `result * x^m` |
| C04, C05 | `registerElements`, maps, atomic-number table | sorted-permutation uniqueness; finite table by kernel computation lifted by lemma |
| C06-C09 | `Settings::parseLines`, lookup, `sanityCheck`, `writePrunedSettingsFile` | induction over lines; multiset semantics |
| C10, C11 | `setScalingType`, `scale`, `unscale` | field arithmetic |
| C12 | `updateSymmetryFunctionStatistics`, container | induction over histories |
| C13-C16, C54 | core, cutoff, compact and screening functions | real analysis (`HasDerivAt`, monotonicity) |
| C17-C22 | network layout, propagation, back-propagation | induction over layers; derivative calculus |
| C23-C30 | box geometry, remap, minimum image, neighbour list, counters, cutoff map, units | linear algebra in components, induction over loops |
| C31-C36 | symmetry functions (all types via shared radial/angular kernels), forces | sums over lists, derivative calculus |
| C37, C38 | energy offset, unit helpers | field arithmetic, list induction |
| C39 | `KspaceGrid::setup` | half-space argument and lattice bound |
| C40 | `ErfcBuf` | cache invariant over access histories |
| C41, C42 | `distributeStructures`, `prepareNumericForces` | counting, division algorithm |
| C43 | statistics and error reductions | commutative monoid homomorphism from multisets |
| C44-C46 | Kalman filter, gradient descent | matrix positive definiteness, induction over updates |
| C47-C51 | set selection, schedules, candidates, thresholds, weight vectors | state-machine invariants |
| C52 | message buffers | packing and unpacking as composition of steps, each of which appends or removes the bytes of one item; an `int` passed as `size_t` is a parameter of the model |
| C53 | matrix entries (cluster and Ewald) and linear system of charge equilibration | closed forms of the entries; block matrix algebra, convexity/stationarity |
| C78 | `calculateElectrostaticEnergy`, `calculateScreeningEnergy`, `chargeEquilibration` | loop invariants; the matrix entries against the Coulomb and Ewald formulas |
| C79 | `calculateDAdrQ`, `chargeEquilibration` with derivatives | closed form of the loops as a sum over pairs; derivatives of `erf`, `erfc` and the reciprocal sum along arbitrary motions |
| C80 | `calculateElectrostaticEnergyDerivatives` | as C79; the loops stop at the first neighbour out of range, where the terms vanish because the lists are sorted |
| C81 | `calculateDQdChi`, `calculateDQdJ` | implicit differentiation of the linear system (`implicit_deriv`): the solution is a quotient of determinants, so continuous, and the difference quotient solves a system which converges |
| C82 | `Mode4G::evaluateNNP` with and without groups | loop invariants for each phase (second generation lemmas with other networks); motion lemmas of C79, C80 and C75; implicit differentiation; the adjoint solution turns the response of the charges into forces |
| C83 | `calculateDQdr` | as C82; invariant over the list of requests |
| C84 | `Prediction::readStructureFromFile`, `predict`, `Structure::reset` | composition of C58, C37, C74 and C75 with frame lemmas: reading leaves a state which does not depend on the past of the object, evaluation keeps everything the conversions need. Partial for forces: own images as in C75; without periodicity complete (`C84_forces_cluster`) |
| C85 | `InterfaceLammps` (see above), `PairHDNNP::compute`, `transferNeighborList` | the loop over local atoms gives the list of kept atoms and its index map; transferring the neighbour list gives each of them the sites within the cutoff radius; per-atom forms of the lemmas for C74 and C75 give energies and derivatives; the work of the force array is followed through `add3DVecToArray`. Forces are complete, as ghost atoms stand for images. Partial for atomic energies and tags, see disagreements |
| C86 | as C85, on several processes | each domain is an injective selection of images; environments carry over to those of the whole system; sum over owners; for forces the motion of the system moves all domains, the selection stays complete for a while (`eventually_partners`), then C85 for each process. Contrast to C75: no exception for own images, as ghost atoms have own entries in the force array |
| C55 | comparison operators of all types, `sortSymmetryFunctions`, `Mode::setupSymmetryFunctions` | lexicographic order; uniqueness of sorted permutations |
| C56 | all eleven `SymGrp*` classes: `addMember`, `sortMembers`, `setScalingFactors`, `calculate`; `Element` and `Mode` functions on groups; `evaluateNNP` of the default build | each member's running sums against those of the single function; order of functions does not matter; the rest of the evaluation sees the same atoms |
| C57 | caches of all symmetry function types | simulation between evaluations |
| C58 | structure writer and reader on characters: lines, words, keywords, numbers by abstract `print` and `atof` | the text written is split again into the same lines and words (C01), then induction over the atoms; remapping by C24 |
| C59-C61 | unit conversion, cutoff setters, repeated neighbour lists | counterexamples and partial theorems |
| C62-C67 | training data, finite differences, error vectors, energy and force Jacobians | list induction, derivative calculus |
| C68 | `calculate` of all symmetry function types against the documented formulas | loop invariants over neighbours and pairs; cache invariant |
| C69 | `Settings::writeSettingsFile` | induction over the lines |
| C70 | neuron statistics in `propagateLayer`, `resetNeuronStatistics`, `getNeuronStatistics` | induction over the sequence of inputs |
| C71 | `modifyConnections` (both overloads) | pointwise reading of parameters; `computed_propagate` for preconditioning |
| C72, C73 | `addSymmetryFunction`, `setParameters`, `changeLengthUnit`, `setCutoffFunction` of all types; number parsing and the element map are parameters | case analysis over types against a table of documented columns; scaling of the formulas |
| C74-C77, C35 | `Mode::evaluateNNP` (build without groups) and everything below it: neighbour list, caches, symmetry functions, networks, energy, forces | loop invariants for each phase, then the formulas; derivative of the energy along any movement; rotation of environments |
| C87 | `createFileHeader`, `writeConnections`, `writeWeights`, `readColumnsFromFile`, `readNeuralNetworkWeights`, `setupNeuralNetworkWeights`, `writeHardness`, hardness in `setupElectrostatics` | invariant of the loop over all parameters: the text is header plus one line per parameter, in the order of `setConnections`; lines are split into words (C01), header lines are comments; decimal digits of atomic numbers are injective, so files do not clash; induction over elements and networks. Partial for hardness (six digits), see disagreements |
| C88 | `collectSymmetryFunctionStatistics`, `writeSymmetryFunctionScaling`, `nnp-scaling` for given values, `setupSymmetryFunctionScaling`, `setScaling` and `setScalingType` with lines of text | the statistics of a process are those of its values (invariant of C12); the reduction gives those of all values; loop over functions; words of lines and decimal digits as in C87; induction over elements with the remaining lines; affine maps of mean, deviation and extremes. The check of the numbers in the lines is weaker than intended, see disagreements |
| C89 | `PairHDNNP::coeff` (with uninitialized array elements), the end of `InterfaceLammps::initialize` (cutoff check, mapping string, `ignoreType`), `split`, `reduce` with empty fill, `stoi` | `split` undoes joining for texts without the delimiter; decimal digits as in C87; last assignment to a map wins; induction over the arguments for string, array and flags. A last type `NULL` is undefined behaviour, and more types than elements are refused, see disagreements |
| C90 | `Training::dataSetNormalization` (statistics over processes, conversion factors, new settings file), `Mode::setupNormalization`, `Dataset::toNormalizedUnits` | sums over processes are sums over all values; mean and deviation under an affine map; the entries of the new file are those of the old one except for the three keywords (induction over the lines). Incomplete or indented keywords and the charge conversion factor break the claim, see disagreements. In mode `force` the forces predicted with the new settings have deviation 1 by C91 |
| C91 | `changeLengthUnit` of all symmetry functions, the setup of an element with and without `conv_length` (`SetupElement`), `Mode::evaluateNNP` | the functions set up from the same lines are the same functions in another unit (`InUnits`, induction over the setup steps), so neighbours, formulas and energies agree (C74); forces are the derivatives of the same energy along scaled displacements (`C75_forces_exact`) |
| C92 | `updateSymmetryFunctionStatistics` for all atoms of all processes, `getEWBufferSize`, `fillEWBuffer`, `extractEWBuffer`, `getExtrapolationWarningLines`, `handleExtrapolationWarnings` on all processes, runs of time steps | the containers hold the warnings of one symmetry function each (invariant); packing and unpacking are inverse and the size told is exact (as in C52), so merging keeps the lines up to order; counters by induction over the time steps |
| C93 | `getNumStructures`, `distributeStructures` with the contents of the structures: file position, `readFromFile`, `removeEnergyOffset`, `sendStructure`, `recvStructure` | the state with contents follows the state with numbers of C41 (`Follows`, a simulation); one step reads one section (`give_eq`), which uses C52 for the message and an invariant of the reader (`ReadKeeps`) showing that everything not transmitted is as in a new structure; `C93_written` combines it with C58 |
| C94 | `main` of nnp-select from the arguments to the files written | one section at a time (`select_section`), then induction over the sections; `C94_lines` and `C94_fails` by induction over the lines; the number selected by induction with `Nat.succ_div` |
| C95 | `writeToFileXyz`, `writeToFilePoscar`, `main` of nnp-convert (arguments, element map, loop with reuse of one object after `reset`) | text of all lines (`writeToFileXyz_eq`, `writeToFilePoscar_eq`), read again by separate descriptions of the formats (`ReadsXyz`, `ReadsPoscar`); the loop by induction over the structures with the members which `reset` does not touch as parameter (`readFromFile_past`); `C95_xyz_unique`: the reading is unique; `C95_grouped`: sorting by element is a permutation; `C95_written` combines it with C58 |
| C96 | `EwaldSetup` (all functions), `EwaldTruncJackson`, `EwaldTruncKolafaFixR`, `EwaldTruncKolafaOptEta`, the part of `setupElectrostatics` which calls them; loops are iterated functions with `none` if they never end | the Newton iterations (`nw_loop`): the function is convex, so after the first full step the arguments increase towards the solution; halving ends because small arguments give positive steps. The outer loop (`eta_seq`): in logarithms the width is contracted by less than 1/3 up to the error of the inner loop, and the sum of both is just below the accepted error. History: invariant over the structures (`Follows_step`). Units: all loops are conjugated by the change of units (`whileLoop_conj`) |
| C97 | `calculateError`, `calculateErrorEpoch`, `writeLearningCurve`, the part of `loop` which calls them, `updateError`, `getEnergyLine`, `getForcesLines`, `getChargeLine`, `collectError`, `combineFiles`, `createFileHeader` | sums over structures are split by processes (`collect_errors`); invariant over the epochs (`report_run`): header, one line for each epoch, complete comparison files; names of columns are pairwise different (whole table) and only the lines of the header with column numbers name columns (`header_names`); change of units (`error_units`) |
| C98 | `addSymmetryFunction`, `sortSymmetryFunctions`, `setupSymmetryFunctionGroups`, `setScaling`, `setupSymmetryFunctions`, `setupSymmetryFunctionScaling`, `calculateSymmetryFunctionGroups`, `compute_cutoff`, `scale` of the CabanaMD interface | rows of the interface are those of the functions of libnnp (`FromLine.row`); insertion sort with the comparison of the interface gives the order of `std::sort` up to equal functions (`cabanaSort_functions`); groups are a partition (`cabanaGroups_spec`), so that the loops over groups and neighbours give the sum for each function once (`raw_eq`); kernels equal the formulas of C53 within the cutoff. Partial: other types, other cutoff functions and negative shifts, see disagreements |
| C99 | `setupNeuralNetwork`, `setupNeuralNetworkWeights`, `calculateAtomicNeuralNetworks` of the CabanaMD interface, with `writeConnections` and `writeWeights` | each line names one parameter; invariant over the lines: entries of the parameters read so far are those written (`cabanaWeightLines`), induction over the elements; induction over the layers for values (`cabana_forward`) and derivatives along a path (`cabana_layer_deriv`). Partial: sizes are those of the last element, activation functions are fixed, see disagreements |
| C100 | `calculateSymmetryFunctionGroups`, `calculateAtomicNeuralNetworks`, `calculateForces` of the CabanaMD interface, one after the other as in a step | the power of the forces is a sum over groups, pairs and triplets (`forces_power`); each summand is the derivative of the kernel along the path (`radialRate_deriv`, `angularRate_deriv`); with the derivative of the network of C99 the sum over atoms is the derivative of the energy (`cabana_compute`). Partial: conditions of C98 and C99, and no angular function with `lambda` zero, where the force kernel divides by zero |
| C101 | `distributeStructures` (C93), `selectSets` (C47) with the contents of the structures, `writeSetsToFiles`, `combineFiles` | what a process holds is what is read from the lines of the structure, minus the offsets; adding them gives back the energy read (`chosen_step`); the text written is that of C58. The set read is the word behind "begin" (`readFromLines_set`). The numbers in both files are a permutation of all numbers (`numbersOf_perm`, `flatMap_perm`) |
| C102 | Histograms of symmetry functions and neighbours: `gsl_histogram` (limits, increment, printing), their reduction over processes, names and contents of the files, the file with neighbour statistics (Model/Histogram.lean) | An increment adds one to the bin which contains the value since the limits are strictly increasing; induction over atoms and processes gives the counts; limits in closed form; the statistics are those of C88; names are injective; files as in C96. Disagreement: `C102_few_bins`. |
| C103 | `writeSymmetryFunctionFile` on all processes, and what nnp-scaling does before: reading, handing out, offsets, normalization (Model/FunctionFile.lean, Model/DataFile.lean) | Handing out keeps the numbers on every process increasing (invariant of both loops), hence in round i structure i is the next one on its process; induction over the rounds. Text of a block as in C96. Offsets and conversion of the energy cancel. `C103_unsorted` shows that the order on the processes is needed. |
| C104 | `sortNeighborLists`, `writeNeighborLists`, `writeAtomicEnvironmentFile` and the table of neighbour numbers of nnp-atomenv (Model/AtomEnvironment.lean) | Partial. Fold over the sorted list: the counters of elements say how many were taken, hence the neighbours written are the closest ones of each element (`Selected`), and the counters at the end agree with the numbers demanded. `C104_not_grouped` and `C104_images` show where the manual and the code differ; the partial theorems give the cases in which they agree. |
| C105 | nnp-norm: statistics, units, conversion of structures, `output.data`, the two settings files (Model/NormTool.lean) | Statistics as in C90 (`normStats_eq`), largest charge by induction over processes, structures and atoms. `C105_files`: the text written is the text of `toNormalizedUnits`; reading the new settings gives the units and the same answers for all other keywords. `C105_twice`, `C105_refused`: settings with conversion data are refused. `C105_training`: same units as a training in mode `ref`. |
| C106 | nnp-checkf: displaced copies, evaluation on all processes, the arrays collected by `MPI_Reduce`, forces and summary (Model/CheckForces.lean) | A copy moved back into the box is the same arrangement up to a lattice vector, hence has the same energy. Running numbers of the processes are together `0, …, 6N-1` (`copyNumbers_flat`); the sum of arrays has each entry once; storing them is an induction over the running number. The analytic column comes from C75, the limit from the definition of the derivative. Agreement needs that no atom sees its own images (see C75). |
| C107 | nnp-dist from arguments to the lines of its files (Model/Distribution.lean) | Neighbour lists contain each image within the cutoff once (C26); folds over neighbours are sums of unit tables, so a bin holds the number of pairs (`distances_counted`, from both sides by reversal of a pair) or of angles (`angles_counted`). Normalization is a fold over distinct pairs and clears the histograms; the loop is an induction over the sections of the file. Partial: a distance equal to the cutoff radius is out of range; the integral of the angular function is the fraction of structures with such angles; the coordination number is half of a shell short. |
| C108 | Collection and reduction of sensitivities, files `sensitivity.???.out`, reading them again, both modes of nnp-prune (Model/Sensitivity.lean) | Induction over the atoms of a process (`sensAtoms_eq`), then over processes (`sensReduce_eq`); rows of the tables as in C102; `Tabled` texts are read back line by line (`readSensitivity_eq`); lines of the settings by C09; minimum and maximum by C88. |
| C109 | Loading, comparison files, output.data and error table of nnp-dataset (Model/DatasetTool.lean); `Mode::evaluateNNP` is a parameter (C74, C79) | `load_ok` relates the prepared structure to the one read; `energyLine_ok`, `forceText_ok` and `outputText_eq` give the lines of one structure; induction over the structures of a process (`steps_done`), then files of all processes as in C97 and errors as in C97 (`collect_errors`). |
| C110 | `writeNeuronStatistics`, `writeNeuronStatisticsEpoch`, `getNumNeurons`, reset and evaluations of an epoch (Model/NeuronFile.lean) | Statistics of one process from C70 (`epoch_stat`), sums and extreme values over processes as in C43 (`reduce_stat`, `variance_formula`), lines of all layers by induction (`range_layers`), text as in C102. |
| C111 | `calculateRadialPart`, `calculateAngularPart` of all types, `writeSymmetryFunctionShape` (Model/ShapeFile.lean) | Formula split into factors (`formula_parts`), parts compared with these factors (`radialPart_eq`, `angularPart_eq`), largest radius by induction (`shapeCutoff_eq`), files with different names as in C102. Partial because the code shows other values for narrow weighted functions and outside of the support of compact functions, both proved. |
| C112 | `Stopwatch` (Model/Stopwatch.lean) | Invariant over all histories by induction at the end: stored time plus time since the start is the running time (`Stopwatch.measured`). |
| C113 | nnp-norm2 (Model/Norm2Tool.lean) | Units by comparison with the training (C90), hence also the predicted forces; the file as in C105: the added lines define exactly three keywords (`header2_kv`, `contents2`). |
| C114 | nnp-comp2 (Model/Compare.lean) | Comparison: loop over atoms by induction (`compareAtoms_eq`), then the file round trip of C58. Selection: flags and statistics of all force components by induction (`checkComponents`), the reading loop as in C95 (`convertLoop_eq`), columns as in C109. |
| C115 | status files of updaters (Model/UpdaterStatus.lean) | Each updater writes its own file (`updaterName_inj`, `foldlM_write`); lines by induction on epochs as in C109. Means by rewriting sums over pairs (`offDiag_sum`, `asym_mean`). Symmetry from C44, decay rates by induction on updates. |

Properties found to be violated by the code keep a `_partial` theorem and a proved counterexample;
they are listed below.

## Disagreements between code and property (proved as counterexamples)

| id | what the code does | counterexample theorem |
|---|---|---|
| C05 | `symbolFromAtomicNumber(102)` throws although nobelium is known | `C05_last_element_rejected` |
| C16 | `CompactFunction::df` has the wrong sign (`fdf` is right) | `C16_separate_derivative_wrong` |
| C28 | per-element neighbour counters accumulate when a neighbour list is rebuilt | `C28_rebuild_negated` |
| C35, C75 | `calculateForces` leaves out the contributions of periodic images of the central atom itself; with angular functions and a cell shorter than the cutoff the forces are not the gradient and do not add up to zero | `C35_own_images_negated`, `C75_own_images_negated`; `C75_forces_exact` says which energy the forces belong to: the one in which the atom sees its own images fixed |
| C50 | threshold selection uses the last, not the worst candidate; the log names atom 0, component 0 | `C50_used_is_not_worst`, `C50_zero_trials`, `C50_log_force` |
| C55 | `operator==` of the types 3 and 9 ignores the shift, `operator<` does not | `C55_shift_ignored` |
| C56 | groups of the types 3 and 9 ignore negative shifts | `C56_negative_shift_ignored`, `C56_not_negative_shift` |
| C56 | groups of Gaussian angular functions divide by λ in the derivatives, the single functions do not | `C56_not_lambda_zero` |
| C57 | exponential angular functions test the cache of the first neighbour's element but read the slots of the second one | `C57_mixed_caches_wrong` |
| C59 | unit conversion scales symmetry function derivatives of an atom once per neighbour | `C59_derivatives_scaled_too_often` |
| C60 | `setCutoffRadius` after `setCutoffParameter` keeps a stale inner radius | `C60_radius_after_parameter_wrong` |
| C61 | stored neighbour counts survive a new neighbour list | `C61_stale_counts_negated` |
| C63 | central differences leave the networks at perturbed weights | `C63_networks_perturbed` |
| C65 | the charge error of 4G training is assigned instead of added | `C65_charge_error_lost` |
| C68 | compact angular functions skip collinear triplets even where the angular part is not zero (needed as a condition) | `C68_collinear_wrong` |
| C71 | Nguyen-Widrow halves only `neurons[0].weights[i]` for `i` below the number of output neurons, not the weights into all output neurons (undocumented step; proved as it is) | `C71_nguyen_widrow_output` |
| C78 | the screening energy counts own periodic images twice | `C78_own_images`, `C78_negated` |
| C79 | a second evaluation of a structure adds the diagonal of `dAdrQ` once more unless `clearElectrostatics` is called in between (`evaluateNNP` does not call it; with the call all is well, `C79_cleared`) | `C79_repeated`, `C79_repeated_negated` |
| C52 | three sizes are kept in an `int` and passed to `MPI_Pack` and `MPI_Unpack` as `size_t`: undefined behaviour for every structure | `C52_undefined` |
| C52 | the buffer size is an `int`, so structures of 2 GiB or more cannot be sent | `C52_too_long` |
| C58 | charged periodic structures are written but the file is rejected when read | `C58_charged` |
| C58 | a comment of 1015 or more characters overflows the buffer of `strpr` when written | `C58_long_comment` |
| C85 | `getAtomicEnergy` is called with LAMMPS indices: if a local atom has an ignored type, the request for atomic energies throws `std::out_of_range` | `C85_atomic_ignored` |
| C85 | `setLocalTags` uses indices of the structure for the array of LAMMPS: atoms behind an ignored one get the tag of another atom | `C85_tags_ignored` |
| C87 | the number of values in a weight file is not checked: with too few values `setConnections` reads behind the end of the vector, additional values are ignored | `C87_number_not_checked` |
| C87 | hardness is written with the default precision of six digits (weights: 17 digits), so that a restart or prediction uses another hardness | `C87_hardness_changed`; `C87_hardness_partial` has the error bound |
| C88 | a statistics line is refused only if both the number of the element and the number of the function are wrong (`&&`), so that lines of another element or in another order are used | `C88_element_not_checked`, `C88_function_not_checked`; `C88_both_wrong` has what is checked |
| C88 | an empty line in the scaling file, also at its end, throws (`line.at(0)`) | `C88_empty_line` |
| C88 | lines left over in the scaling file are ignored | `C88_surplus_ignored` |
| C89 | `pair_coeff` with `NULL` for the last type reads an array element which was never set (`for (int i = 0; i < n; i++) map[i] = 0` leaves out `map[n]`) | `C89_last_null`; `C89_pair_coeff` has the other cases |
| C89 | several types of one element are refused if there are more types than elements | `C89_too_many` |
| C89 | a mapping string of blanks is accepted and ignores all atoms; types below 1 are accepted without effect | `C89_blank`, example `"0:H, 1:O"` for `C89_mapping` |
| C90 | a settings file with only some of `mean_energy`, `conv_energy`, `conv_length` gets no lines for the others; later programs stop | `C90_some_keywords`; `C90_settings` for files with none or all |
| C90 | keywords in indented lines or followed by a tab are not replaced but defined twice; later programs stop | `C90_indented` |
| C90 | `conv_charge` of the settings file is not used in the training that computes the normalization, but by later programs | `C90_charge` |
| C92 | a negative `maxew` stops every run at its first time step if `showew` or `showewsum` is on, and is no limit otherwise | `C92_negative_limit`, `C92_off` |
| C92 | with `maxew 0`, the default, the log says "No extrapolation warning limit set.", but one warning stops the run | `C92_default_limit` |
| C92 | the size of the message is a `long` passed as `int`, so 2 GiB of warnings on one process cannot be reported | `C92_too_long` |
| C93 | a blank line between two structures is skipped when structures are counted, but reading throws an exception there | `C93_blank_line` |
| C93 | the number of box vectors and the neutrality of periodic structures are checked at the line "end" only; a file cut off in front of its last line is accepted without | `C93_missing_end` |
| C94 | a negative interval is accepted and selects the first structure only | `C94_negative_interval` |
| C94 | the interval 0 is a division by zero; a blank line throws an exception after part of the output was written | `C94_fails` |
| C94 | with ratio 0 structures are selected if the random number is 0 | `C94_ratio_zero` |
| C95 | for structures which are not periodic a file which is not a POSCAR file is written without any error (the exception is constructed but not thrown) | `C95_poscar` (last part) |
| C96 | no line `ewald_prec` with method 0, or one argument with method 1, are accepted: every periodic structure then ends with an error, and nnp-predict dereferences a null pointer for the others | `C96_unusable` |
| C96 | `four_pi_epsilon` is not used for the estimates: the error is the precision divided by its value | `C96_epsilon` |
| C96 | every text but "1" means method 0, without an error | `C96_method` |
| C96 | volume and number of atoms are stored before an error: the same structure again is accepted with old or zero parameters | `C96_error_once` |
| C98 | cutoff functions other than `CT_COS` and `CT_TANHU` are accepted: all symmetry functions are those of an atom without neighbours | `C98_other_cutoff` |
| C98 | symmetry functions of the types 9, 12 and 13 are silently ignored | `C98_ignored_types` |
| C98 | element and function numbers in the scaling file are not checked: if elements are not listed in order of atomic number, the lines go to other elements | `C98_numbers_ignored` |
| C99 | the number of inputs is that of the last element: derivatives for further symmetry functions of other elements are never written (`C99_stale_derivatives`), or arrays are too small (`C99_too_small`) | `C99_stale_derivatives`, `C99_too_small` |
| C99 | activation functions and `normalize_nodes` of the settings are ignored | `C99_settings_ignored` |
| C99 | a network without hidden layer gives undefined behaviour; an empty line in a weight file throws | `C99_no_hidden_layer`, `C99_empty_line` |
| C102 | nnp-scaling does not check the number of bins. With one bin the upper limit is a division by zero, with none the size wraps around and GSL is asked for a histogram without bins | `C102_few_bins` |
| C104 | the manual of nnp-atomenv groups neighbours by element; the code writes them in the order of distance because the comparison of elements in `Neighbor::operator<` is commented out | `C104_not_grouped` |
| C104 | in small periodic boxes the derivatives of a neighbour's symmetry functions contain only the closest image of the atom | `C104_images` |
| C107 | the neighbour list contains atoms at distance equal to the cutoff radius, for which there is no interval: nnp-dist ends with an exception (nnp-dist.cpp:170) | `C107_crash` |
| C107 | "integral = 1" in the header of the files with angles: the sum over structures is divided by the number of all structures, so the integral is the fraction of structures with such angles | `C107_adf_integral`, `C107_adf_integral_wrong` |
| C107 | the coordination number weighs the values of two intervals with the centre of the second one, and stops in the middle of the last interval: it is not the number of neighbours | `C107_coordination_counts`, `C107_coordination_wrong` |
| C108 | if all derivatives of an element are zero or the data set has no such atom, its shares are 0/0 and no function is removed, whatever the threshold | `C108_kept` |
| C109 | the predicted structures must be readable: a periodic structure with a predicted total charge other than zero is written to output.data but not accepted there (C58) | hypothesis `Filable` |
| C110 | `loop` does not reset the statistics before epoch 0: with normalize_data_set, evaluations of `dataSetNormalization` (Training.cpp:514) are part of the file of epoch 0 | `C110_first_epoch` |
| C110 | the header announces neuron values, but for all layers except the first the file contains arguments of the activation functions | `TrainedNetwork.values` |
| C111 | `SymFncExpAngnWeighted::calculateRadialPart` is the third power of the factor which all other angular types return | `C111_weighted_cubed` |
| C111 | compact functions are evaluated without checking their support: nnp-symfunc writes negative numbers (for the default polynomial) where the function is zero | `C111_outside_support` |
| C111 | the column with the angle is announced in degrees but has radians | `C111_header`, `C111_files_partial` |
| C114 | nnp-comp2 compares without forces if the settings do not use them, but leaves the reference forces in `comp.data`; a selection with a force threshold takes these for differences | `C114_no_forces` |
| C114 | without a threshold for forces, mean and maximum of force differences in `select.out` are zero although they are announced without condition | `C114_hidden` |
| C115 | the status of Adam announces the decay rates to the power of t, but after t updates the powers t + 1 are written | `C115_decay` |
| C115 | the status of a Kalman filter of one parameter divides by zero in the off-diagonal column | `C115_single` |

## Not modelled

* Floating point rounding, printing/parsing of numbers beyond abstract token identity.
* The parts of the LAMMPS interface named above, CabanaMD interface, Python interface, applications, `SetupAnalysis`, `Prediction::setup`, logging, timing.
* Races of OpenMP: `Q = A.colPivHouseholderQr().solve(b)` (Structure.cpp) is run by all threads of a parallel
  region which write the same vector.
