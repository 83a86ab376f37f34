{"id": "C01", "title": "Tokenising a line yields exactly its words", "statement": "Reducing a text line and splitting it at blanks returns exactly the maximal runs of non-blank (neither space nor tab) characters of the line, in order. No token is empty or contains a blank, and any two lines with the same words give the same tokens however they are spaced.", "quantifier": "for every text line over every character, of any length", "why_tests_cant": "Blank runs, leading/trailing blanks and tabs combine without bound; every input file is read through this function.", "anchors": ["src/libnnp/utility.cpp: split, trim, reduce"]}
{"id": "C02", "title": "Whitespace reduction is a normal form", "statement": "Reducing an already reduced line changes nothing, and a reduced line has no leading or trailing blank, no tab and never two consecutive spaces.", "quantifier": "for every text line", "why_tests_cant": "Idempotence is a statement about all strings; a test sees a handful.", "anchors": ["src/libnnp/utility.cpp: reduce, trim"]}
{"id": "C03", "title": "Fast integer power equals the mathematical power", "statement": "The integer power routine returns x multiplied n times for n >= 0 and the inverse of that for n < 0 (x != 0), for each exponent an int can hold except the most negative one.", "quantifier": "for every base x and every 32-bit exponent n", "why_tests_cant": "The number of squarings depends on the exponent's bit pattern; only all exponents together exclude a wrong bit.", "anchors": ["src/libnnp/utility.cpp: pow_int"]}
{"id": "C04", "title": "Element registration gives dense, sorted, mutually inverse indices", "statement": "After registering a list of pairwise different known elements, the symbol->index and index->symbol maps are inverse bijections onto 0..n-1, indices increase with atomic number, and the result does not depend on the order in which the symbols were listed.", "quantifier": "for every list of distinct known element symbols in any order", "why_tests_cant": "There are more than 10^160 element lists; order independence cannot be sampled.", "anchors": ["src/libnnp/ElementMap.cpp: registerElements, index, symbol"]}
{"id": "C05", "title": "Symbol and atomic number conversions are inverse", "statement": "For each known element, converting the symbol to its atomic number and back returns the symbol, and every number from 1 to the largest known one converts to a symbol and back; anything else raises an error.", "quantifier": "for every known symbol and every natural number", "why_tests_cant": "The whole table and all out-of-range numbers must behave; tests usually check one or two elements.", "anchors": ["src/libnnp/ElementMap.cpp: atomicNumber, symbolFromAtomicNumber"]}
{"id": "C06", "title": "Settings parsing is insensitive to comments, spacing and line order", "statement": "A settings file defines for each keyword exactly the set of values found on its non-comment lines. Comment text (after # or !), amount of blanks, empty lines, and the order of lines with different keywords do not change which value a keyword has.", "quantifier": "for every settings file (every list of lines)", "why_tests_cant": "Arbitrary user-written files; equivalence of infinitely many spellings.", "anchors": ["src/libnnp/Settings.cpp: parseLines, keywordExists, getValue"]}
{"id": "C07", "title": "Settings sanity check flags exactly the bad files", "statement": "A settings file with only known keywords, each used at most once (except the documented repeatable ones) and at most one spelling per keyword has no problems; a repeated non-repeatable keyword, or two different spellings of the same keyword, is always critical; an unknown keyword is always reported.", "quantifier": "for every settings file", "why_tests_cant": "The check must have no false negatives over all keyword multisets.", "anchors": ["src/libnnp/Settings.cpp: sanityCheck"]}
{"id": "C08", "title": "A keyword and its aliases are interchangeable", "statement": "If a settings file uses any one registered spelling of a keyword, asking for the keyword through any of its registered spellings reports existence and returns that value; asking for an unregistered keyword raises an error.", "quantifier": "for every settings file using one spelling, every registered keyword and alias", "why_tests_cant": "Lookup goes through several maps; the combination of all keywords and files is unbounded.", "anchors": ["src/libnnp/Settings.cpp: keywordExists, keywordCheck, getValue"]}
{"id": "C09", "title": "Pruning disables exactly the selected symmetry functions", "statement": "Writing a pruned settings file keeps every line in place, comments out exactly the selected lines, and re-reading the result gives the original settings minus exactly the selected entries.", "quantifier": "for every settings file and every set of selected line numbers", "why_tests_cant": "Round trip over arbitrary files and selections.", "anchors": ["src/libnnp/Mode.cpp: writePrunedSettingsFile", "src/libnnp/Settings.cpp: parseLines"]}
{"id": "C10", "title": "Symmetry function scaling and unscaling are inverse", "statement": "For every scaling mode, unscaling a scaled value returns the original value, provided the scaling statistics are non-degenerate (Gmax > Gmin, or sigma > 0, and Smax > Smin where used).", "quantifier": "for every value, all scaling statistics, all five scaling modes", "why_tests_cant": "Real-valued parameters; a test sees only a few numbers.", "anchors": ["src/libnnp/SymFnc.cpp: setScalingType, scale, unscale"]}
{"id": "C11", "title": "Scaling maps the training range onto the target interval", "statement": "With range scaling the interval [Gmin, Gmax] is mapped monotonically onto [Smin, Smax]: a value is inside the training range iff its scaled value is inside the target interval. With centering the mean is mapped to 0; with scale-and-center it is mapped to Smin.", "quantifier": "for every value and all scaling statistics", "why_tests_cant": "Equivalence over all reals.", "anchors": ["src/libnnp/SymFnc.cpp: setScalingType, scale"]}
{"id": "C12", "title": "Extrapolation warnings are raised exactly outside the training range", "statement": "For each evaluated atom a warning is recorded for a symmetry function iff its unscaled value lies outside [Gmin - eps, Gmax + eps]. The reported warning count equals the number of such events over the whole history since the last reset, and statistics counters equal the number, minimum, maximum, sum and sum of squares of all processed values.", "quantifier": "for every sequence of atoms, values and resets", "why_tests_cant": "A property of entire histories of calls.", "anchors": ["src/libnnp/Element.cpp: updateSymmetryFunctionStatistics", "src/libnnp/SymFncStatistics.cpp: addValue, addExtrapolationWarning, countExtrapolationWarnings"]}
{"id": "C13", "title": "Cutoff functions vanish at and beyond the cutoff and stay within bounds", "statement": "For all cutoff types the cutoff function is 0 for r >= rc; for all r >= 0 its value is between 0 and 1, it is 1 on the inner region r < alpha*rc for the types with inner radius, it equals 1 at r = 0 except for the unnormalised tanh, and (except for the hard type) it is continuous at the cutoff.", "quantifier": "for every radius, cutoff radius > 0, inner parameter 0 <= alpha < 1, cutoff type", "why_tests_cant": "Statement about a continuum of radii, including the boundary points.", "anchors": ["src/libnnp/CutoffFunction.cpp: f and all f* variants", "src/libnnp/CutoffFunction.h", "src/libnnp/CoreFunction.h"]}
{"id": "C14", "title": "The reported cutoff function derivative is the true derivative", "statement": "For all cutoff types the derivative routine returns the mathematical derivative of the value routine at every radius r > 0 (except the hard type at r = rc), including at the inner radius and at the cutoff.", "quantifier": "for every radius, cutoff radius, inner parameter and cutoff type", "why_tests_cant": "Finite difference tests sample few radii and miss boundary points.", "anchors": ["src/libnnp/CutoffFunction.cpp: df and all df* variants", "src/libnnp/CoreFunction.h: df*"]}
{"id": "C15", "title": "Separate and combined cutoff evaluations agree", "statement": "The combined value-and-derivative routine returns exactly the same (real-number) value and derivative as the two separate routines for every radius r >= 0.", "quantifier": "for every radius >= 0, cutoff radius, inner parameter and cutoff type", "why_tests_cant": "Agreement on a continuum; the combined cosine version uses a different formula (square root).", "anchors": ["src/libnnp/CutoffFunction.h: f, df, fdf", "src/libnnp/CutoffFunction.cpp: fdf*", "src/libnnp/CoreFunction.h: fdf*"]}
{"id": "C16", "title": "Compact functions: support, symmetry and derivative", "statement": "A compact function with center c and width w takes value 1 at c, is symmetric about c, vanishes at c-w and c+w and stays in [0,1] between; both ways of obtaining its derivative return its true derivative inside the support.", "quantifier": "for every center, positive width, core polynomial and argument inside the support", "why_tests_cant": "Continuum of arguments; sign errors on one side only show up for one half of the arguments.", "anchors": ["src/libnnp/CompactFunction.h: f, df, fdf", "src/libnnp/CompactFunction.cpp: setCenterWidth, setLeftRight"]}
{"id": "C17", "title": "Network parameters survive a set/get round trip", "statement": "Setting all weights and biases of a network from an array and reading them back returns the same array; reading, then setting leaves the network unchanged; the number of parameters is the sum over layers of (n_prev + 1) * n.", "quantifier": "for every layer layout and every parameter array", "why_tests_cant": "All topologies and all arrays; index arithmetic errors appear only in particular layouts.", "anchors": ["src/libnnp/NeuralNetwork.cpp: NeuralNetwork, setConnections, getConnections, getNumConnections"]}
{"id": "C18", "title": "Propagation computes the layered feed-forward function", "statement": "After setting an input and propagating, the output is the composition over all layers of y = f(W y_prev + b) with weights taken from the documented positions of the flat parameter array, independent of all earlier inputs and propagations.", "quantifier": "for every topology, parameters, input and prior history of the network object", "why_tests_cant": "History independence and all topologies cannot be enumerated.", "anchors": ["src/libnnp/NeuralNetwork.cpp: setInput, propagate, propagateLayer, getOutput"]}
{"id": "C19", "title": "Input gradient of the network is the true gradient", "statement": "The routine for the derivative of the network output with respect to its inputs returns the exact gradient of the propagated output, for each topology with one output and smooth activations.", "quantifier": "for every topology with single output, parameters and input", "why_tests_cant": "Finite differences at samples cannot establish equality for all networks.", "anchors": ["src/libnnp/NeuralNetwork.cpp: calculateDEdG, propagateLayer"]}
{"id": "C20", "title": "Parameter gradient of the network is the true gradient", "statement": "The routine for the derivative of the network output with respect to all weights and biases returns, at each documented array position, the partial derivative of the output with respect to that parameter.", "quantifier": "for every topology, parameters and input", "why_tests_cant": "A wrong or swapped array position shows only for particular layouts; equality with the true partial derivative is needed for all networks.", "anchors": ["src/libnnp/NeuralNetwork.cpp: calculateDEdc, calculateDEdb"]}
{"id": "C21", "title": "Force-parameter derivative is the true mixed derivative", "statement": "The routine for the derivative of a force contribution with respect to all weights and biases returns the partial derivatives of -sum_k (dE/dG_k) (dG_k/dx) with respect to each parameter.", "quantifier": "for every topology, parameters, input and dG/dx vector", "why_tests_cant": "Second derivatives of arbitrary networks, all array positions.", "anchors": ["src/libnnp/NeuralNetwork.cpp: calculateDFdc, calculateDxdG, calculateD2EdGdc"]}
{"id": "C22", "title": "Activation derivatives are true first and second derivatives", "statement": "For each activation function the stored first and second derivative are the true derivatives of the activation at the neuron's input (where it is differentiable and outside the numerical clamps).", "quantifier": "for every activation type and real neuron input", "why_tests_cant": "Continuum of inputs.", "anchors": ["src/libnnp/NeuralNetwork.cpp: propagateLayer"]}
{"id": "C23", "title": "Inverse box really inverts the box", "statement": "For every box with non-zero volume the computed inverse box converts Cartesian to fractional coordinates: box * (invbox * r) = r and invbox * (box * s) = s; the reported volume is the absolute determinant.", "quantifier": "for every triple of linearly independent box vectors and every position", "why_tests_cant": "Continuum of boxes.", "anchors": ["src/libnnp/Structure.cpp: calculateInverseBox, calculateVolume, remap"]}
{"id": "C24", "title": "Remapping puts atoms into the box and only moves them by lattice vectors", "statement": "After remapping, each atom has fractional coordinates in [0,1) and differs from its original position by an integer combination of box vectors; remapping twice is the same as once.", "quantifier": "for every non-singular box and position (within int range of cell index)", "why_tests_cant": "All positions including negative coordinates and exact cell boundaries.", "anchors": ["src/libnnp/Structure.cpp: remap"]}
{"id": "C25", "title": "Minimum image convention returns the nearest image when it is allowed", "statement": "If the check says that the minimum image convention can be applied for a cutoff, then for any distance vector having a periodic image within the cutoff, the minimum image routine returns precisely that (unique) image.", "quantifier": "for every box with non-zero volume, cutoff and distance vector", "why_tests_cant": "Skewed boxes make counterexamples rare; needs an argument for all boxes.", "anchors": ["src/libnnp/Structure.cpp: canMinimumImageConventionBeApplied, applyMinimumImageConvention"]}
{"id": "C26", "title": "Periodic images searched are sufficient: the neighbour list is complete and sound", "statement": "For a periodic structure with remapped atoms, the neighbour list of atom i contains, each exactly once, all periodic images (j, n) other than i itself whose distance is at most the cutoff, and nothing else; likewise for non-periodic structures.", "quantifier": "for every structure, box with non-zero volume and cutoff >= 0", "why_tests_cant": "The search range depends on box shape; a missing image appears only for special skewed boxes.", "anchors": ["src/libnnp/Structure.cpp: calculateNeighborList, calculatePbcCopies"]}
{"id": "C27", "title": "Neighbourhood is symmetric", "statement": "Atom j's image shifted by n is a neighbour of atom i with distance vector dr iff atom i's image shifted by -n is a neighbour of atom j with distance vector -dr.", "quantifier": "for every structure and cutoff", "why_tests_cant": "All pairs in all structures; Newton's third law in the force loop depends on it.", "anchors": ["src/libnnp/Structure.cpp: calculateNeighborList", "src/libnnp/Mode.cpp: calculateForces"]}
{"id": "C28", "title": "Unique-neighbour and per-element counters match the neighbour list", "statement": "After building a neighbour list on a fresh structure, the number of neighbours equals the list length, the per-element counters equal the number of list entries of that element, and the unique-neighbour list starts with the atom itself and contains each other neighbouring atom exactly once. Clearing and rebuilding the list gives the same counters.", "quantifier": "for every structure, cutoff and number of rebuilds", "why_tests_cant": "History of clear/rebuild calls on arbitrary structures.", "anchors": ["src/libnnp/Structure.cpp: calculateNeighborList, clearNeighborList", "src/libnnp/Atom.cpp: clearNeighborList"]}
{"id": "C29", "title": "Stored neighbour counts per cutoff are right", "statement": "After building a distance-sorted neighbour list with a list of cutoffs, the stored count for each cutoff equals the number of neighbours with distance <= that cutoff, and those neighbours are the first ones in the list.", "quantifier": "for every neighbour list and every set of cutoffs", "why_tests_cant": "Two-pointer loop with early exits; corner cases (no neighbours, equal distances, last neighbour) are many.", "anchors": ["src/libnnp/Structure.cpp: sortNeighborList, setupNeighborCutoffMap", "src/libnnp/Atom.cpp: getStoredMinNumNeighbors, calculateNumNeighbors"]}
{"id": "C30", "title": "Unit normalisation is undone by the reverse conversion", "statement": "Converting a structure to normalised units and back to physical units with the same factors restores every quantity (box, positions, energies, forces, charges, derivative arrays), and vice versa.", "quantifier": "for every structure and all non-zero conversion factors", "why_tests_cant": "Many fields and arbitrary structures including neighbour derivative arrays.", "anchors": ["src/libnnp/Structure.cpp: toNormalizedUnits, toPhysicalUnits", "src/libnnp/Atom.cpp: toNormalizedUnits, toPhysicalUnits"]}
{"id": "C31", "title": "Symmetry functions are invariant under rigid motions", "statement": "The value of every radial and angular symmetry function does not change if all atoms are translated by the same vector or transformed by the same orthogonal matrix.", "quantifier": "for every atomic environment and rigid motion, every radial and angular type", "why_tests_cant": "Continuous symmetry group.", "anchors": ["src/libnnp/SymFncExpRad.cpp: calculate", "src/libnnp/SymFncExpAngn.cpp: calculate", "src/libnnp/SymFncExpAngw.cpp: calculate", "src/libnnp/Structure.cpp: calculateNeighborList"]}
{"id": "C32", "title": "Symmetry functions do not depend on the order of neighbours", "statement": "Permuting the neighbour list of an atom leaves the value of each radial and angular symmetry function (including narrow, wide, weighted and element-resolved ones) unchanged.", "quantifier": "for every neighbour list and every permutation", "why_tests_cant": "n! permutations; angular functions loop over ordered pairs with element checks.", "anchors": ["src/libnnp/SymFncExpRad.cpp", "src/libnnp/SymFncExpAngn.cpp", "src/libnnp/SymFncExpAngw.cpp", "src/libnnp/SymFncExpRadWeighted.cpp", "src/libnnp/SymFncExpAngnWeighted.cpp"]}
{"id": "C33", "title": "Symmetry function derivatives are true gradients", "statement": "The derivative arrays produced with a symmetry function are the exact gradients of its (scaled) value with respect to the positions of the central atom and of each neighbour.", "quantifier": "for every environment without coinciding atoms, every radial and narrow/wide angular function of exponential type", "why_tests_cant": "Finite difference checks sample geometry; derivative has many terms.", "anchors": ["src/libnnp/SymFncExpRad.cpp: calculate", "src/libnnp/SymFncExpAngn.cpp: calculate", "src/libnnp/SymFncExpAngw.cpp: calculate"]}
{"id": "C34", "title": "Symmetry function derivatives sum to zero", "statement": "For each symmetry function the derivatives with respect to the central atom and all its neighbours add up to zero.", "quantifier": "for every environment, every symmetry function type", "why_tests_cant": "All environments.", "anchors": ["src/libnnp/SymFncExpRad.cpp: calculate", "src/libnnp/SymFncExpAngn.cpp: calculate", "src/libnnp/SymFncCompAngn.cpp: calculate"]}
{"id": "C35", "title": "Total force vanishes", "statement": "The short-range forces computed for a structure add up to the zero vector.", "quantifier": "for every structure, network gradients and symmetry function derivatives produced by the code", "why_tests_cant": "Double sum over atoms and periodic images; holds only if every pair contribution appears twice with opposite sign.", "anchors": ["src/libnnp/Mode.cpp: calculateForces", "src/libnnp/Atom.cpp: calculateSelfForceShort, calculatePairForceShort"]}
{"id": "C36", "title": "Neighbours outside the cutoff have no influence", "statement": "Adding or removing neighbours farther away than (or exactly at) the cutoff radius changes neither values nor derivatives of a symmetry function.", "quantifier": "for every environment and set of far neighbours", "why_tests_cant": "All environments; locality is the basis of the parallel MD code.", "anchors": ["src/libnnp/SymFncExpRad.cpp: calculate", "src/libnnp/SymFncExpAngn.cpp: calculate", "src/libnnp/SymFncExpAngw.cpp: calculate"]}
{"id": "C37", "title": "Energy offset removal and addition are inverse", "statement": "Adding and removing the per-element atomic energy offset restores all structure energies exactly (in real arithmetic), and the offset is the sum over atoms of their element's offset.", "quantifier": "for every structure and offset table", "why_tests_cant": "All structures and tables.", "anchors": ["src/libnnp/Mode.cpp: addEnergyOffset, removeEnergyOffset, getEnergyOffset, getEnergyWithOffset"]}
{"id": "C38", "title": "Normalised and physical values are inverse conversions", "statement": "For every property (energy, force, charge, hardness, negativity) converting a value to normalised and back to physical units is the identity, and the energy of a structure converts consistently with its per-atom mean.", "quantifier": "for every value and all non-zero conversion factors", "why_tests_cant": "Continuum of values.", "anchors": ["src/libnnp/Mode.cpp: normalized, physical, normalizedEnergy, physicalEnergy"]}
{"id": "C39", "title": "Reciprocal grid contains exactly one of each +-k pair", "statement": "The reciprocal-space grid contains for each non-zero reciprocal lattice vector k with |k| < kCut exactly one of k and -k, and no other vectors.", "quantifier": "for every box with non-zero volume and every kCut > 0", "why_tests_cant": "Search range depends on the box shape; a missing or doubled vector changes the energy slightly only.", "anchors": ["src/libnnp/Kspace.cpp: KspaceGrid::setup, calculatePbcCopies"]}
{"id": "C40", "title": "Buffered complementary error function is transparent", "statement": "Reading from the erfc buffer always returns erfc of the distance belonging to the addressed atom/neighbour divided by the eta in use, whatever the access order and repetition since the last reset.", "quantifier": "for every sequence of accesses", "why_tests_cant": "History of cache accesses.", "anchors": ["src/libnnp/ErfcBuf.cpp: reset, getf"]}
{"id": "C41", "title": "Structures are distributed completely and evenly", "statement": "Distributing a data file with N structures to P processes (optionally excluding the root, optionally at random) gives each structure to exactly one process, and the numbers of structures per receiving process differ by at most one; if there are fewer structures than receivers an error is raised.", "quantifier": "for every N, P, exclusion flag and every random sequence", "why_tests_cant": "Every random sequence and process count.", "anchors": ["src/libnnptrain/Dataset.cpp: distributeStructures"]}
{"id": "C42", "title": "Numeric force check covers every displacement once", "statement": "When preparing numeric forces for N atoms on P processes, the undisplaced structure is created once and each of the 6N displacements (atom, axis, direction) is created exactly once on exactly one process.", "quantifier": "for every N >= 0 and P >= 1", "why_tests_cant": "Index arithmetic with quotient and remainder for every N and P.", "anchors": ["src/libnnptrain/Dataset.cpp: prepareNumericForces"]}
{"id": "C43", "title": "Parallel statistics equal serial statistics", "statement": "The symmetry function statistics (count, minimum, maximum, mean, sigma) and the error metrics (RMSE, MAE) reported after combining the processes equal those of the whole data set and do not depend on how the structures are distributed or ordered.", "quantifier": "for every data set and every distribution over processes", "why_tests_cant": "All partitions and orders.", "anchors": ["src/libnnptrain/Dataset.cpp: collectSymmetryFunctionStatistics, writeSymmetryFunctionScaling, collectError", "src/libnnp/Structure.cpp: updateError"]}
{"id": "C44", "title": "Kalman filter covariance stays symmetric positive definite", "statement": "Starting from the documented initialisation, the error covariance matrix is symmetric positive definite after any number of updates, and each update's linear system is solvable.", "quantifier": "for every update history: all Jacobians, errors and (valid) filter parameters, standard and fading memory", "why_tests_cant": "Invariants over unbounded update histories.", "anchors": ["src/libnnptrain/KalmanFilter.cpp: update, setParametersStandard, setParametersFadingMemory"]}
{"id": "C45", "title": "Kalman filter parameter schedules", "statement": "Over any training run the learning parameter eta grows and process noise q decays monotonically; q never becomes negative; in fading memory mode lambda stays in (0,1] and converges geometrically to 1.", "quantifier": "for every number of updates and valid parameters", "why_tests_cant": "Unbounded iteration.", "anchors": ["src/libnnptrain/KalmanFilter.cpp: update"]}
{"id": "C46", "title": "Gradient descent update rules", "statement": "Fixed step descent moves the state by eta times error times gradient; the Adam rule after t updates equals the published bias-corrected form with exponentially weighted first and second moments of all t gradients.", "quantifier": "for every history of errors and gradients", "why_tests_cant": "Closed form over arbitrary update histories.", "anchors": ["src/libnnptrain/GradientDescent.cpp: update, setParametersFixed, setParametersAdam"]}
{"id": "C47", "title": "Training/test selection partitions the data set", "statement": "After selecting the sets each structure is either training or test, the number of test structures reported is right, and training candidates for each property enumerate precisely the training structures (energy) or all atoms/components of training structures (force).", "quantifier": "for every data set, test fraction and random sequence", "why_tests_cant": "Every random sequence.", "anchors": ["src/libnnptrain/Training.cpp: selectSets"]}
{"id": "C48", "title": "Epoch schedule contains each planned update exactly once", "statement": "The update schedule of each epoch contains every trained property exactly as many times as updates are planned for it.", "quantifier": "for every set of properties, update counts and random shuffle", "why_tests_cant": "Every shuffle and count.", "anchors": ["src/libnnptrain/Training.cpp: setEpochSchedule"]}
{"id": "C49", "title": "Update candidates are cycled without omission", "statement": "With random selection each pass over the candidate list uses every candidate exactly once before any is used again; in between candidates are reshuffled only.", "quantifier": "for every number of candidates, batch size and shuffle sequence", "why_tests_cant": "Unbounded training histories.", "anchors": ["src/libnnptrain/Training.cpp: update, shuffleUpdateCandidates"]}
{"id": "C50", "title": "Threshold selection uses a candidate above the threshold or the worst one seen", "statement": "With threshold selection the candidate used in an update either has an error above the threshold or, if none was found within the allowed trials, it is the one with the largest error among those tried; the candidate recorded in the training log is the one used.", "quantifier": "for every error sequence, threshold and number of trials", "why_tests_cant": "Depends on whole trial sequence.", "anchors": ["src/libnnptrain/Training.cpp: update"]}
{"id": "C51", "title": "Collecting and distributing weights are inverse", "statement": "Collecting all element networks' parameters (and hardness where applicable) into the training weight vector and distributing them back leaves all networks unchanged, each parameter occupies exactly one slot, and the slots partition the vector.", "quantifier": "for every number of elements and network layouts", "why_tests_cant": "All element/topology combinations.", "anchors": ["src/libnnptrain/Training.cpp: getWeights, setWeights, getConnectionOffsets, getNumConnections"]}
{"id": "C52", "title": "Message buffer for a structure has exactly the needed size", "statement": "The buffer size computed before sending a structure equals the number of bytes packed, and unpacking restores all transmitted fields.", "quantifier": "for every structure (any number of atoms, neighbours, derivatives, comment text)", "why_tests_cant": "Over/underflow depends on every array length.", "anchors": ["src/libnnptrain/Dataset.cpp: calculateBufferSize, sendStructure, recvStructure"]}
{"id": "C53", "title": "Charge equilibration conserves total charge", "statement": "The equilibrated charges sum to the prescribed total charge of the structure, and they make the electrostatic energy stationary among all charge distributions with that total.", "quantifier": "for every structure with solvable equation system", "why_tests_cant": "Continuum of geometries and networks.", "anchors": ["src/libnnp/Structure.cpp: calculateElectrostaticEnergy", "src/libnnp/Mode.cpp: chargeEquilibration"]}
{"id": "C54", "title": "Screening function", "statement": "The screening function is 0 up to the inner radius, 1 from the outer radius on, monotone and continuous in between, and its reported derivative is the true derivative.", "quantifier": "for every radius and inner < outer, every core function", "why_tests_cant": "Continuum of radii.", "anchors": ["src/libnnp/ScreeningFunction.h: f, df, fdf", "src/libnnp/ScreeningFunction.cpp: setInnerOuter"]}
{"id": "C55", "title": "Symmetry function order is a strict total preorder and parsing order does not matter", "statement": "The comparison used to sort symmetry functions is a strict weak order for which functions neither of which precedes the other are exactly those reported equal, so that sorting the same set of functions gives the same sequence of parameters whatever the order of lines in the settings file.", "quantifier": "for every set of symmetry functions", "why_tests_cant": "Violations need specific parameter combinations.", "anchors": ["src/libnnp/SymFncExpRad.cpp: operator==, operator<", "src/libnnp/SymFncExpAngn.cpp: operator==, operator<", "src/libnnp/SymFnc*.cpp"]}
{"id": "C56", "title": "Grouped evaluation equals individual evaluation", "statement": "Evaluating symmetry functions in groups gives the same values and derivatives as evaluating each individually.", "quantifier": "for every environment and every set of symmetry functions", "why_tests_cant": "All parameter combinations and environments.", "anchors": ["src/libnnp/SymGrpExpRad.cpp: calculate", "src/libnnp/SymGrpExpAngn.cpp: calculate", "src/libnnp/SymGrpCompAngn.cpp: calculate"]}
{"id": "C57", "title": "Function value cache is transparent", "statement": "Using the per-neighbour cutoff/compact function caches gives the same symmetry function results as recomputing, in any order of evaluation.", "quantifier": "for every environment, every set of symmetry functions and evaluation order", "why_tests_cant": "Cache history.", "anchors": ["src/libnnp/SymFncExpRad.cpp: calculate", "src/libnnp/SymFncBaseCutoff.cpp: getCacheIdentifiers", "src/libnnp/Mode.cpp: setupSymmetryFunctionCache"]}
{"id": "C58", "title": "Structure file round trip", "statement": "Writing a structure to the data file format and reading it back returns the same elements, positions, forces, charges, energy, box and comment (up to the printed number precision).", "quantifier": "for every structure", "why_tests_cant": "All structures, periodic or not, any comment.", "anchors": ["src/libnnp/Structure.cpp: writeToFile, readFromLines"]}
{"id": "C59", "title": "Unit conversion scales symmetry function derivatives exactly once", "statement": "After conversion to normalised units every stored position derivative of a symmetry function, of the atom itself and of its neighbours, is the physical one divided by the length conversion factor.", "quantifier": "for every atom with any number of neighbours and all conversion factors", "why_tests_cant": "Number of neighbours and derivative arrays are unbounded; a round-trip test cannot see a wrong intermediate scale.", "anchors": ["src/libnnp/Atom.cpp: toNormalizedUnits, toPhysicalUnits"]}
{"id": "C60", "title": "Cutoff functions depend only on the last requested settings", "statement": "After any sequence of calls setting type, radius and parameter of a cutoff function, the function is the one for the last type, radius and parameter requested, whatever the order of the calls.", "quantifier": "all sequences of setter calls", "why_tests_cant": "there are unboundedly many call orders and real parameters; tests fix one order", "anchors": ["src/libnnp/CutoffFunction.cpp: setCutoffType, setCutoffRadius, setCutoffParameter"]}
{"id": "C61", "title": "Rebuilding the neighbour list refreshes the stored neighbour counts", "statement": "After clearing the neighbour list, moving the atoms and building the list again with the same cutoffs, the stored neighbour count for each cutoff is the number of neighbours now within it.", "quantifier": "all structures, moves of atoms and cutoffs", "why_tests_cant": "the counts depend on the history of the structure object; tests build each list once", "anchors": ["src/libnnp/Structure.cpp: clearNeighborList, setupNeighborCutoffMap", "src/libnnp/Atom.cpp: clearNeighborList, getStoredMinNumNeighbors"]}
{"id": "C62", "title": "Kalman update solves the regularised least-squares problem", "statement": "The step of the state vector in a Kalman update is the unique minimiser of d^T P^-1 d + |xi - H^T d|^2 / r, with P the covariance before the update and r the measurement noise (1/eta, or lambda with fading memory).", "quantifier": "for every update history, number of observations, error vector and Jacobian", "why_tests_cant": "Optimality over all steps and all histories.", "anchors": ["src/libnnptrain/KalmanFilter.cpp: update"]}
{"id": "C63", "title": "Numeric weight derivatives are central differences and leave no trace", "statement": "The numeric check derivatives of the energy are the central differences for each entry of the weight vector in order, and afterwards weight vector and networks are as before.", "quantifier": "for every number of elements, network layout, weight vector and step", "why_tests_cant": "All layouts and weights; the restoring of state is not observed by the numbers returned.", "anchors": ["src/libnnptrain/Training.cpp: dPdcN, getConnectionOffsets, getNumConnectionsPerElement"]}
{"id": "C64", "title": "The update plan uses the requested fraction of patterns", "statement": "With a batch size the number of patterns used per epoch by all processes is the largest multiple of the global batch not exceeding the requested fraction; without, one update uses the fraction of each process. The places of the processes in the global error vector are disjoint and fill it.", "quantifier": "for every number of processes, candidates, batch size, fraction and Jacobian mode", "why_tests_cant": "All combinations of process numbers and batch sizes.", "anchors": ["src/libnnptrain/Training.cpp: setupUpdatePlan"]}
{"id": "C65", "title": "Errors and Jacobian rows handed to the updater belong together", "statement": "In each Jacobian mode and parallel mode the error vector and Jacobian given to the updater hold the (summed) error and derivative of the same candidates, times the weight of the property.", "quantifier": "for every number of processes, batch size, error and derivative values", "why_tests_cant": "All process and batch configurations; needs MPI runs of any size.", "anchors": ["src/libnnptrain/Training.cpp: update"]}
{"id": "C66", "title": "The Jacobian of an energy update is the gradient of the energy", "statement": "The row computed in an energy update is the gradient of the total energy with respect to the weight vector, whatever was evaluated before with the same networks.", "quantifier": "for every structure, network layout, weight vector and history", "why_tests_cant": "Gradient identity over all weights and structures.", "anchors": ["src/libnnptrain/Training.cpp: update", "src/libnnp/NeuralNetwork.cpp: calculateDEdc"]}
{"id": "C67", "title": "The Jacobian of a force update is the gradient of the force", "statement": "The row computed in a force update is the gradient of the force component with respect to the weight vector, whatever was evaluated before with the same networks.", "quantifier": "for every structure, network layout, weight vector and history", "why_tests_cant": "Second-derivative identity over all weights and structures.", "anchors": ["src/libnnptrain/Training.cpp: update", "src/libnnp/NeuralNetwork.cpp: calculateDFdc"]}
{"id": "C68", "title": "Symmetry functions compute their documented formulas", "statement": "For each symmetry function type the stored value is the scaled value of the documented sum over neighbours or unordered neighbour pairs (Gaussians or compact functions, cutoff function, angular factor, element or atomic number weights), as long as no collinear or degenerate triplet meets a non-vanishing compact angular part.", "quantifier": "for every environment, every type and parameter set, every state of the caches", "why_tests_cant": "Tests compare a few environments with stored numbers.", "anchors": ["src/libnnp/SymFncExpRad.cpp: calculate", "src/libnnp/SymFncExpAngn.cpp: calculate", "src/libnnp/SymFncExpAngw.cpp: calculate", "src/libnnp/SymFncCompAngn.cpp: calculate", "src/libnnp/SymFncCompAngw.cpp: calculate", "src/libnnp/Element.cpp: calculateSymmetryFunctions"]}
{"id": "C69", "title": "Written settings files contain the stored lines in order", "statement": "writeSettingsFile writes every stored line exactly as read, in order, one per line, so that reading the written file again gives the same contents.", "quantifier": "for every settings file contents", "why_tests_cant": "Tests write one file; the statement is about all contents.", "anchors": ["src/libnnp/Settings.cpp: writeSettingsFile"]}
{"id": "C70", "title": "Neuron statistics describe exactly the evaluations since the reset", "statement": "After resetNeuronStatistics and any number of evaluations, getNeuronStatistics reports for each neuron, layer by layer, the count, sum, sum of squares, minimum and maximum of the values it has seen, and writes nothing beyond the last neuron.", "quantifier": "for every network, parameter array, history and sequence of inputs", "why_tests_cant": "A running statistic over unbounded sequences.", "anchors": ["src/libnnp/NeuralNetwork.cpp: propagateLayer, resetNeuronStatistics, getNeuronStatistics"]}
{"id": "C71", "title": "Weight initialisation schemes do what they document", "statement": "Zero bias and zero output weights touch exactly these parameters; fan-in and Glorot-Bengio rescale exactly the weights into hyperbolic tangent layers; Nguyen-Widrow gives hidden neurons weights of length 0.7 m^(1/n) (doubled for hyperbolic tangent) without changing their direction; preconditioning scales the output around its bias by sigma and shifts it by mean.", "quantifier": "for every network, parameter values and index", "why_tests_cant": "Statement about all networks and weights.", "anchors": ["src/libnnp/NeuralNetwork.cpp: modifyConnections", "src/libnnptrain/Training.cpp: setupTraining, initializeWeights"]}
{"id": "C72", "title": "Every accepted symmetry function line gives a usable function with its documented parameters", "statement": "After the setup each line has become exactly one function, numbered by its place in the sorted list, whose elements, exponents, radii, angles and subtype are the documented columns of its type, and whose cutoff or compact functions are configured for exactly these radii and angles, so that the evaluation formulas apply.", "quantifier": "for every list of lines, element map, length conversion, cutoff type and parameter", "why_tests_cant": "Eleven types with different columns, all orders and all parameter values.", "anchors": ["src/libnnp/SymFnc*.cpp: setParameters, changeLengthUnit", "src/libnnp/Element.cpp: addSymmetryFunction, sortSymmetryFunctions, setCutoffFunction", "src/libnnp/Mode.cpp: setupSymmetryFunctions"]}
{"id": "C73", "title": "Changing the length unit does not change symmetry functions", "statement": "With normalisation switched on, the same lines give the same functions in the same order: each takes on the environment measured in the new unit exactly the value of its counterpart on the environment in the old unit.", "quantifier": "for every list of lines, every positive conversion factor and every environment", "why_tests_cant": "Statement about all lines, factors and environments.", "anchors": ["src/libnnp/SymFnc*.cpp: changeLengthUnit", "src/libnnp/Element.cpp: changeLengthUnitSymmetryFunctions", "src/libnnp/Mode.cpp: setupSymmetryFunctions"]}
{"id": "C74", "title": "The stored energy is the potential energy of the arrangement of atoms", "statement": "Evaluating a structure with a potential set up from its lines succeeds and stores, for every atom, the network output of the documented symmetry functions of its environment, and for the structure their sum. The value does not depend on the sizes of neighbour lists, the order of neighbours, or earlier evaluations, and the potential remains ready for the next evaluation.", "quantifier": "for every list of symmetry function lines per element, networks, scaling, structure (periodic or not) with distinct atoms and no collinear triplet for compact angular functions, in the build without groups", "why_tests_cant": "Composition of neighbour lists, caches, symmetry functions, scaling and networks over all structures and potentials.", "anchors": ["src/libnnp/Mode.cpp: evaluateNNP, calculateSymmetryFunctions, calculateAtomicNeuralNetworks, calculateEnergy", "src/libnnp/Structure.cpp: calculateNeighborList", "src/libnnp/Element.cpp: calculateSymmetryFunctions"]}
{"id": "C75", "title": "Forces are the negative gradient of the potential energy", "statement": "If atoms move away from their positions with any velocities, the potential energy changes at the rate minus the sum over atoms of force times velocity.", "quantifier": "for every set-up potential, structure, and differentiable movement of all atoms, also with several periodic images of a neighbour", "why_tests_cant": "Derivative statement over all movements; a numeric check only samples directions and structures.", "anchors": ["src/libnnp/Mode.cpp: calculateForces, evaluateNNP", "src/libnnp/Atom.cpp: calculateSelfForceShort, calculatePairForceShort"]}
{"id": "C76", "title": "Energy is invariant and forces are covariant", "statement": "Two structures which are the same arrangement of atoms up to rotation, reflection, translation, order of atoms and periodic images get the same energy, and their forces are rotated copies of each other.", "quantifier": "for every orthogonal matrix, translation, permutation and lattice vectors, every structure and set-up potential", "why_tests_cant": "A symmetry under a continuous group.", "anchors": ["src/libnnp/Mode.cpp: evaluateNNP", "src/libnnp/Structure.cpp: calculateNeighborList"]}
{"id": "C77", "title": "Forces exert no torque on an isolated cluster", "statement": "Without periodic boundary conditions the sum over atoms of position times force (cross product) vanishes, so angular momentum is conserved in molecular dynamics.", "quantifier": "for every cluster and set-up potential", "why_tests_cant": "Holds only if every pair and triplet contribution is exactly balanced; sums over all triplets.", "anchors": ["src/libnnp/Mode.cpp: calculateForces"]}
{"id": "C78", "title": "Electrostatic energy is the screened Coulomb energy", "statement": "After charge equilibration the stored electrostatic energy is the sum over all pairs of Gaussian charges of their Coulomb energy times the screening function; with periodic boundary conditions it is the Ewald energy of the cell minus the screened part of every pair within the screening range, images of an atom itself included once.", "quantifier": "for every cluster and every periodic structure, all charges, hardnesses and widths", "why_tests_cant": "Sums over all pairs and images; double counting only shows up in cells shorter than the screening radius.", "anchors": ["src/libnnp/Structure.cpp: calculateElectrostaticEnergy, calculateScreeningEnergy"]}
{"id": "C79", "title": "Derivatives of the electrostatic potentials are exact", "statement": "After charge equilibration with derivatives, the vectors dAdrQ of the atoms are the gradients of the electrostatic potential at every atom with respect to the position of every atom, at fixed charges, including Ewald sum, periodic images and the change caused by the atom's own motion.", "quantifier": "for every cluster and every periodic structure, all charges and all motions of the atoms", "why_tests_cant": "A gradient is a limit; finite differences sample single structures with a tolerance, and the accumulation of a second evaluation is invisible in a single call.", "anchors": ["src/libnnp/Structure.cpp: calculateDAdrQ", "src/libnnp/Mode.cpp: chargeEquilibration"]}
{"id": "C80", "title": "Derivatives of the electrostatic energy are exact", "statement": "After charge equilibration with derivatives, pEelecpr is the gradient of the stored electrostatic energy with respect to the positions at fixed charges, and dEelecdQ is its derivative with respect to the charges at fixed positions, also where pairs enter or leave the range of the screening.", "quantifier": "for every cluster and every periodic structure, all motions of the atoms and all changes of the charges", "why_tests_cant": "A gradient is a limit, and pairs at the screening radius are a null set which tests do not hit.", "anchors": ["src/libnnp/Structure.cpp: calculateElectrostaticEnergyDerivatives", "src/libnnp/Mode.cpp: chargeEquilibration"]}
{"id": "C81", "title": "Charge responses to electronegativities and hardnesses are exact", "statement": "calculateDQdChi and calculateDQdJ, called after charge equilibration, return the derivatives of the equilibrated charges with respect to the electronegativities of the atoms and the hardnesses of the elements. The table for the electronegativities is symmetric and conserves the total charge.", "quantifier": "for every cluster and every periodic structure whose equations have one solution, all correct solvers, and all curves of electronegativities or hardnesses along which charges stay in equilibrium", "why_tests_cant": "The charges are defined implicitly by a linear system whose size grows with the structure; a finite difference test settles neither the limit nor all systems.", "anchors": ["src/libnnp/Structure.cpp: calculateDQdChi, calculateDQdJ"]}
{"id": "C82", "title": "Fourth-generation evaluation returns equilibrated charges, energy and exact forces", "statement": "For a potential of the fourth generation evaluateNNP stores charges which are in equilibrium for the electronegativities predicted from the environments and sum up to the total charge, the electrostatic energy of these charges, and the potential energy (electrostatic plus short-range energies that depend on the charges). The total forces are the negative gradient of the potential energy and the electrostatic forces that of the electrostatic energy, including the response of the charges to the movement.", "quantifier": "for every potential, every cluster or periodic structure whose charge equations have one solution, every correct solver, and every motion of the atoms", "why_tests_cant": "The charges are defined implicitly by all positions, and forces contain products of network gradients, Ewald derivatives and adjoint charges; a finite difference test settles neither the limit nor all structures and potentials.", "anchors": ["src/libnnp/Mode.cpp: evaluateNNP, calculateForces, chargeEquilibration", "src/libnnp/Structure.cpp: calculateForceLambdaTotal, calculateForceLambdaElec, calculateDAdrQ", "src/libnnp/Atom.cpp: calculateDChidr"]}
{"id": "C83", "title": "Charge responses to positions are exact", "statement": "After an evaluation with forces calculateDQdr succeeds for every list of atom and component indices and stores, for each requested coordinate, the rate at which the charge of every atom changes if only that coordinate changes. Nothing else in the structure changes.", "quantifier": "for every potential of the fourth generation, every cluster or periodic structure whose charge equations have one solution, every list of coordinates, every correct solver", "why_tests_cant": "As C82; in addition all lists of requests, in any order and with repetitions, must leave earlier results intact.", "anchors": ["src/libnnp/Structure.cpp: calculateDQdr", "src/libnnp/Atom.cpp: calculateDChidr"]}
{"id": "C84", "title": "Prediction for a structure file gives physical energy and forces", "statement": "Reading a structure from a file and calling predict gives the energy of the potential converted to physical units plus mean and offset energies of all atoms, and forces which are its negative gradient in physical units. Positions, box and reference data afterwards are those of the file. The same object can be used for any number of files: nothing of earlier structures enters.", "quantifier": "for every potential of the second generation, every conversion factors different from zero, every file the parser accepts, every past of the object", "why_tests_cant": "Tests compare a few files with stored numbers, mostly without normalization, and with a new object each time; conversions cancel only for all values of factors, offsets and element counts.", "anchors": ["src/libnnp/Prediction.cpp: readStructureFromFile, predict", "src/libnnp/Structure.cpp: reset, readFromFile, toNormalizedUnits, toPhysicalUnits", "src/libnnp/Mode.cpp: evaluateNNP, addEnergyOffset, removeEnergyOffset"]}
{"id": "C85", "title": "LAMMPS gets the energy of its local atoms and forces which are its negative gradient", "statement": "In every time step the pair style hands the arrays and the neighbour list of LAMMPS to the library and gets back, in LAMMPS units, the energy of all local atoms of the potential, including offsets and mean energies. The forces added to the force array, on local and on ghost atoms, are the negative gradient of this energy with respect to the positions of all local and ghost atoms. Atoms of ignored types take no part. Nothing of earlier time steps enters. Atomic energies add up to the energy.", "quantifier": "for every potential of the second generation, every unit conversion, every number of atoms, every type map, every full neighbour list in any order, every past of the interface", "why_tests_cant": "Tests run a few steps of one system; index maps between LAMMPS and the library go wrong only for certain orders of types, and gradients are compared for single displacements only.", "anchors": ["src/libnnpif/LAMMPS/InterfaceLammps.cpp: setLocalAtoms, setLocalTags, addNeighbor, process, getEnergy, getAtomicEnergy, getForces", "src/interface/LAMMPS/src/ML-HDNNP/pair_hdnnp.cpp: compute, transferNeighborList"]}
{"id": "C86", "title": "Energies and forces do not depend on how LAMMPS distributes the system", "statement": "If a system is distributed over any number of processes such that each atom is local on exactly one of them, and around local atoms all images within the cutoff radius are present as local or ghost atoms, the energies of the processes add up to the energy of the system. After the forces on ghost atoms were added to those of the atoms they are copies of, the forces are the negative gradient of this energy. This includes atoms which see their own periodic images.", "quantifier": "for every system, periodic or not, every number of processes, every distribution of atoms and ghost atoms, every potential of the second generation, all units", "why_tests_cant": "Tests use one or a few processor grids; distributions of atoms, ghost shells and short boxes are unbounded in number.", "anchors": ["src/libnnpif/LAMMPS/InterfaceLammps.cpp: setLocalAtoms, addNeighbor, process, getForces", "src/interface/LAMMPS/src/ML-HDNNP/pair_hdnnp.cpp: compute, transferNeighborList"]}
{"id": "C87", "title": "Network parameters written by training are read back", "statement": "writeWeights stores the parameters of a network of every element in a file of its own; the next program, calling setupNeuralNetworkWeights with the same names, gets for every element each weight and bias at its place, up to the precision of the printed numbers. Header lines are never taken for data, files of other elements, networks and names are not touched. Atomic hardness written by training is read back.", "quantifier": "for every number of elements, every network architecture whose sizes are ints, all parameter values, every set of networks with file names that do not clash, every other contents of the directory, every title and column description", "why_tests_cant": "Tests write one small network; the claim is about the order of nested loops in two places and about text formatting for all sizes and all values.", "anchors": ["src/libnnp/NeuralNetwork.cpp:529-591", "src/libnnp/utility.cpp:111-290", "src/libnnp/Mode.cpp:1445-1478", "src/libnnp/Mode.cpp:2270-2289", "src/libnnp/Mode.cpp:399-423", "src/libnnptrain/Training.cpp:1662-1718"]}
{"id": "C88", "title": "Symmetry function scaling has the statistics of the whole data set", "statement": "nnp-scaling collects minimum, maximum, mean and standard deviation of every symmetry function over all atoms of the data set on all processes and writes them to a file. A program which reads this file scales each function with its own statistics: depending on the keywords, the scaled values of the data set cover exactly the interval from Smin to Smax, have mean zero, or have mean Smin and spread or standard deviation Smax - Smin. A file with too few lines is refused.", "quantifier": "for every number of elements and functions below 2^31 - 1, every data set and distribution over processes, all values, all settings", "why_tests_cant": "Tests compare one file with a stored one; the claim combines collection over processes, text formatting, the assignment of lines to functions and four formulas for all data.", "anchors": ["src/libnnptrain/Dataset.cpp:974-1101", "src/libnnp/Mode.cpp:712-840", "src/libnnp/Element.cpp:364-382", "src/libnnp/Element.cpp:462-541", "src/libnnp/SymFnc.cpp:52-98", "src/application/nnp-scaling.cpp:63-128"]}
{"id": "C89", "title": "LAMMPS atom types are the elements named in the input", "statement": "The command pair_coeff of the LAMMPS pair style names an element of the potential, or NULL, for each atom type. If the interface accepts the command, each type is handled as the element named, types with NULL are ignored, and pairs of types are flagged exactly if both have an element. Without names the types are the elements in the order of atomic numbers. The interface refuses names which are no elements of the potential, types out of range, and cutoff radii smaller than that of the potential.", "quantifier": "for every potential with pairwise different known elements, every number of atom types below 2^31, every list of arguments, every mapping string with entries type:symbol and blanks anywhere", "why_tests_cant": "Tests run single LAMMPS inputs; the claim is about composing and parsing the mapping string for all type numbers and orders, and about reads of memory which was never set, which a test need not notice.", "anchors": ["src/interface/LAMMPS/src/ML-HDNNP/pair_hdnnp.cpp:186-220", "src/libnnpif/LAMMPS/InterfaceLammps.cpp:144-244", "src/libnnp/utility.cpp:33-77", "src/libnnp/ElementMap.cpp:36-79"]}
{"id": "C90", "title": "Data set normalization gives unit mean and deviation, and other programs read the same conversion", "statement": "With the keyword normalize_data_set, training computes mean and standard deviation of energies per atom and of force components over the structures of all processes. After the conversion with the factors it chooses, the reference energies per atom have mean 0, the reference force components have standard deviation 1, and so have the energies (mode ref) or the predicted forces (mode force). The settings file it writes makes every later program use the same factors, and leaves all other settings as they were.", "quantifier": "all data sets of at least two structures with atoms, all distributions over processes, all settings files without or with complete normalization data, all ways to print numbers as words without comment signs", "why_tests_cant": "Tests run a few data sets on a few processes and check printed digits; they cannot show the statement for all data, distributions and layouts of the settings file.", "anchors": ["src/libnnptrain/Training.cpp:429-735", "src/libnnp/Mode.cpp:237-298", "src/libnnptrain/Dataset.cpp:952-961", "src/libnnp/Settings.cpp:301-321", "src/application/nnp-train.cpp:80-87"]}
{"id": "C91", "title": "Results do not depend on the unit of length", "statement": "With the keyword conv_length, all lengths and all length parameters of the settings are converted to another unit. If a structure is given in this unit, the potential defined by the same settings, scaling data and network parameters gives the same total energy and the same energy of every atom, and the same forces expressed in the new unit.", "quantifier": "all settings lines of all symmetry function types, all cutoff types, all scaling data, all networks, all positive conversion factors, all structures that can be evaluated, periodic or not", "why_tests_cant": "Tests compare a few structures in one pair of units with a tolerance; the claim ranges over all functions, structures and conversion factors.", "anchors": ["src/libnnp/Mode.cpp:615-690", "src/libnnp/Mode.cpp:1967-2016", "src/libnnp/Element.cpp:120-165", "src/libnnp/Structure.cpp:1249-1305"]}
{"id": "C92", "title": "LAMMPS runs report every extrapolation warning once, and stop at the limit", "statement": "In a LAMMPS run on several processes the log gets, at each time step, exactly the extrapolation warnings of all atoms, each once, with the atom, element, symmetry function, value and range it belongs to (showew). Each summary tells the number of warnings of all processes since the last summary (showewsum). The run is stopped exactly if a process has more warnings than allowed (maxew), counted per time step or since the start (resetew). This holds as long as no process has warnings for a message of 2 GiB.", "quantifier": "all numbers of processes, all runs, all distributions of atoms over processes and time steps, all potentials, all settings", "why_tests_cant": "Tests run a few time steps on one or two processes; the claim is about packing and merging any number of warnings from any number of processes, and about counters over runs of any length.", "anchors": ["src/interface/LAMMPS/src/ML-HDNNP/pair_hdnnp.cpp:292-361", "src/libnnpif/LAMMPS/InterfaceLammps.cpp:638-776", "src/libnnp/SymFncStatistics.cpp:91-149", "src/libnnp/Mode.cpp:1623-1633"]}
{"id": "C93", "title": "Every structure of a data file reaches exactly one process, unchanged", "statement": "When a data file with many structures is distributed over processes, in file order or at random, every structure ends up on exactly one process. There it is what is read from its own lines alone, with its position in the file as index and the energy offsets of its atoms subtracted from the reference energy; the lines of other structures, and sending it in a message, have no influence. Processes get the same number of structures up to one, none goes to an excluded process. Structures written one behind the other by the library are found again with their comment, box, energy, charge, elements, positions, forces and atomic charges.", "quantifier": "all data files, all structures, all numbers of processes, all random draws, all number and message formats", "why_tests_cant": "Tests read a few files with one number of processes. The claim is about any number of structures and processes and any sequence of draws, by following file position, counters and messages through both loops.", "anchors": ["src/libnnptrain/Dataset.cpp:709-722", "src/libnnptrain/Dataset.cpp:724-886", "src/libnnptrain/Dataset.cpp:165-707", "src/libnnp/Structure.cpp:113-271", "src/libnnp/Mode.cpp:2037-2054"]}
{"id": "C94", "title": "nnp-select splits a data file into selected and rejected structures", "statement": "nnp-select writes to output.data exactly the wanted structures, every n-th beginning with the first, or those with a random number not above the ratio, and to reject.data exactly the others, complete and in their order. For any file no line is lost, duplicated or reordered within its part. The numbers reported are right: with interval n, the number of structures divided by n, rounded up. A ratio of one or more selects all structures. Both files can be used as data files again.", "quantifier": "all data files, all intervals, ratios and sequences of random numbers", "why_tests_cant": "Tests compare the output for one file and one interval. The claim is about all files and all arguments, including those nobody tests (zero, negative, blank lines).", "anchors": ["src/application/nnp-select.cpp:46-137"]}
{"id": "C95", "title": "nnp-convert writes XYZ and POSCAR files with the same boxes, elements and positions", "statement": "For every data file, `nnp-convert xyz` writes one XYZ file which any reader of this format reads as exactly one frame per structure, in order, with the box (if periodic) and the elements and positions of all atoms, in order. `nnp-convert poscar` writes one numbered file per structure; for periodic structures it is read as a POSCAR file with the comment, the box and all atoms grouped by element in the order of the arguments, none lost or duplicated. Earlier structures of the file have no influence on later ones although one object is reused.", "quantifier": "all data files, all numbers of structures and atoms, all lists of distinct known elements, all formats of numbers", "why_tests_cant": "Tests compare output files for a few structures with reference files. The claim is that the format can be parsed back, with one result only, for all structures and element orders.", "anchors": ["src/libnnp/Structure.cpp:1533-1639", "src/libnnp/Structure.cpp:1319-1354", "src/application/nnp-convert.cpp:34-137"]}
{"id": "C96", "title": "The parameters of the Ewald summation are always found and meet the requested precision", "statement": "For every periodic structure the search for width and cutoffs of the Ewald summation ends. Method 0: both Gaussians have fallen to the precision at the cutoffs. Method 1 with a given cutoff: the estimated errors of the forces in real and reciprocal space are the precision (up to 1e-10), or an error is reported and then no width gives the precision. Method 1 without a cutoff: both errors are equal and at most the precision (up to 2e-10), and the width is not smaller than those of the charges. The parameters do not depend on structures handled before nor on the units of length and energy, and are printed once after every change.", "quantifier": "all volumes, numbers of atoms, precisions, charges, cutoffs, widths, units and sequences of structures", "why_tests_cant": "Two nested iterations with real numbers: that they end and what they end with for all inputs cannot be seen from a few runs. Tests compare a few values with reference values.", "anchors": ["src/libnnp/EwaldSetup.cpp:36-122", "src/libnnp/EwaldTruncJackson.cpp:11-58", "src/libnnp/EwaldTruncKolafaFixR.cpp:12-91", "src/libnnp/EwaldTruncKolafaOptEta.cpp:16-108", "src/libnnp/Mode.cpp:429-476"]}
{"id": "C97", "title": "The errors reported during training are those of the whole training and test set", "statement": "Every column of the learning curve contains what its name says: for each epoch in order, the root mean square or mean absolute error of the named property over all training or all test structures of all processes, in physical units or the units of training. In the epochs chosen by the settings the comparison files list reference and calculated values of all structures of the set, process by process. The files of the processes are removed and no other files are touched.", "quantifier": "all numbers of processes and epochs, distributions of structures, properties, settings for comparison files, units and existing files", "why_tests_cant": "Errors are summed on each process, reduced, normalised and converted, and the columns of header and lines are made by separate loops: that they agree for every combination of properties, processes and units cannot be seen from a few runs with reference values.", "anchors": ["src/libnnptrain/Training.cpp:1310-1543", "src/libnnptrain/Training.cpp:1734-1842", "src/libnnptrain/Training.cpp:2147-2253", "src/libnnp/Structure.cpp:1386-1447", "src/libnnptrain/Dataset.cpp:1712-1773"]}
{"id": "C98", "title": "The CabanaMD interface computes the symmetry functions of libnnp", "statement": "From the same settings and the same scaling file the CabanaMD interface sets up the symmetry functions of libnnp, and its kernels compute for every atom the network input of libnnp: each symmetry function of the neighbours, scaled with its line of the scaling file, at its place in the order of libnnp.", "quantifier": "all settings, numbers of elements and symmetry functions, scaling files, positions and neighbour lists", "why_tests_cant": "The interface has its own parser, sort, groups and kernels; an error shows only for particular combinations of symmetry functions, elements and environments, and energies would still look plausible.", "anchors": ["src/libnnpif/CabanaMD/ModeCabana_impl.h:119-440", "src/libnnpif/CabanaMD/ModeCabana_impl.h:604-831", "src/libnnpif/CabanaMD/ElementCabana_impl.h:40-449", "src/libnnpif/CabanaMD/ModeCabana.h:283-341"]}
{"id": "C99", "title": "The CabanaMD interface evaluates the networks which training wrote", "statement": "The CabanaMD interface reads the weight files written by training so that every weight and bias of every element gets to its place, and computes for every atom the energy of the network and its derivative with respect to each symmetry function.", "quantifier": "all elements, network sizes, parameters, file names and inputs", "why_tests_cant": "Indices of layers and neurons are taken from the text of the files and the derivative is computed by a separate loop: an exchange of two indices shows only for particular sizes.", "anchors": ["src/libnnpif/CabanaMD/ModeCabana_impl.h:442-602", "src/libnnpif/CabanaMD/ModeCabana_impl.h:833-925", "src/libnnp/NeuralNetwork.cpp:529-591"]}
{"id": "C100", "title": "The forces of the CabanaMD interface are the negative gradient of its energy", "statement": "A step of the CabanaMD interface gives the sum of the atomic energies of the potential, and adds to the force array forces which are the negative gradient of this energy in the units of the program, including the contributions to neighbours and to both neighbours of every triplet.", "quantifier": "all settings, numbers of elements and symmetry functions, networks, positions, neighbour lists, paths and units", "why_tests_cant": "The force kernels are separate code from the energy kernels with signs, prefactors and indices of their own; tests at single structures do not show an error which needs a particular group, element order or unit.", "anchors": ["src/libnnpif/CabanaMD/ModeCabana_impl.h:604-1216", "src/libnnpif/CabanaMD/typesCabana.h:21-23"]}
{"id": "C101", "title": "The files with the training and the test set are together the data set", "statement": "nnp-train writes the files train.data and test.data. Together they contain a copy of every structure of the data file exactly once, with the total energy although energies of free atoms were subtracted before. Structures marked by set=train or set=test are in the file named; the others are drawn. The structures in memory stay the same, and only the two files remain.", "quantifier": "all data files, numbers of processes, distributions to processes, random numbers and fractions", "why_tests_cant": "Structures are read, sent to other processes, drawn, changed and changed back, written by each process and combined; a lost or doubled structure depends on the distribution and on random numbers.", "anchors": ["src/libnnptrain/Training.cpp:82-112", "src/libnnptrain/Training.cpp:230-290", "src/libnnptrain/Dataset.cpp:1744-1773", "src/application/nnp-train.cpp:66-73"]}
{"id": "C102", "title": "Histograms of symmetry functions and neighbours count the whole data set", "statement": "nnp-scaling writes a histogram for every symmetry function which is not constant on the data set, and none for the others. The bins have equal width, all but the last divide the range from the minimum to the maximum, and the count of a bin is the number of values of the whole data set in it, however the data set is distributed over processes; every value is counted once. The comments give minimum, maximum, mean and standard deviation. In the neighbour histogram bin j counts the atoms with exactly j neighbours up to the greatest number, which is returned, and the file for structures has one line per structure with the number of atoms and the minimum, maximum and mean number of neighbours.", "quantifier": "all data sets and their distributions over any number of processes, all sets of symmetry functions, all numbers of bins, all contents of the directory", "why_tests_cant": "A test compares the files for one data set and one number of processes. Values on the limits of bins and the value equal to the maximum depend on the limits chosen, and the sum over processes on the distribution of the structures.", "anchors": ["src/libnnptrain/Dataset.cpp:1103-1253", "src/libnnptrain/Dataset.cpp:1320-1464", "src/application/nnp-scaling.cpp:63-131"]}
{"id": "C103", "title": "The file with symmetry functions lists the data set in its order", "statement": "nnp-scaling writes the file function.data with one block for each structure of the data file, in the order of the data file, whatever the number of processes and the way the structures are handed out. A block has the number of atoms, one line for each atom with its atomic number and its symmetry functions, and the energy per atom which stands in the data file, also if the program works with energy offsets and normalized units. No other file is written.", "quantifier": "all data files, all numbers of processes, ordered and random distribution with all random draws, all energy offsets and unit conversions, all values of symmetry functions", "why_tests_cant": "The processes take turns to append to the file, one round for each structure, and a process only compares the number of its next structure. The order depends on the distribution; a test tries one distribution.", "anchors": ["src/libnnptrain/Dataset.cpp:1255-1318", "src/libnnptrain/Dataset.cpp:724-886", "src/application/nnp-scaling.cpp:63-131"]}
{"id": "C104", "title": "Files with atomic environments list the closest neighbours of every atom", "statement": "nnp-atomenv writes for every atom a line with its element symbol, its symmetry functions and those of its closest neighbours, as many of each element as demanded on the command line, one element after the other and by distance for each element. Three further files have the derivatives of these symmetry functions with respect to the position of the atom, in the same order. If an atom has fewer neighbours than demanded, the tool stops with an error message. The file with neighbour lists has the number of neighbours of each element and all neighbours ordered by distance.", "quantifier": "all data sets and distributions to processes, all neighbour lists, all tables of neighbour numbers, all symmetry functions and derivatives", "why_tests_cant": "Which neighbours are taken depends on distances and elements around each atom. Images in periodic boxes occur only for small boxes.", "anchors": ["src/libnnptrain/Dataset.cpp:1466-1710", "src/application/nnp-atomenv.cpp:73-87", "src/libnnp/Atom.cpp:600-610", "src/doc/sphinx/source/tools/nnp-atomenv.rst:26-70"]}
{"id": "C105", "title": "nnp-norm writes a normalized data set and settings which describe its units", "statement": "After nnp-norm the reference energies per atom of the data set have mean 0 and standard deviation 1, the force components have standard deviation 1 and no charge is larger than 1. The file output.data has all structures in these units, in the order of the data set. The new settings file has the conversion data of these units and otherwise the same settings as before; the old settings are kept in input.nn.bak. Settings which already have conversion data are refused, hence a second run does no harm.", "quantifier": "all data sets and distributions to processes, all settings files, all number formats that can be read back", "why_tests_cant": "Statistics are summed over processes, and every line of the settings file may interfere with the lines added in front.", "anchors": ["src/application/nnp-norm.cpp:65-245", "src/libnnp/Structure.cpp:1046-1110", "src/libnnp/Mode.cpp:237-298", "src/libnnptrain/Training.cpp:485-574"]}
{"id": "C106", "title": "nnp-checkf compares every force with the central difference of the energy", "statement": "For every structure of the data file nnp-checkf lists, for each atom and axis exactly once, the analytic force and minus the difference of the energies with the atom displaced by plus and minus delta, divided by 2 delta, whatever the number of processes. Where the potential is differentiable and no atom sees its own periodic images the two agree to any accuracy if delta is small enough. The summary gives the number, the mean and the maximum of the differences, and the tool warns exactly if one of them exceeds 10 delta^2.", "quantifier": "all potentials of the second generation, all structures for which they can be evaluated, all displacements, any number of processes, any number of structures", "why_tests_cant": "Displaced copies are distributed to processes and identified by a running number, energies are added up over processes, and copies are moved back into the box; agreement is a statement about a limit.", "anchors": ["src/application/nnp-checkf.cpp:182-313", "src/libnnptrain/Dataset.cpp:888-950"]}
{"id": "C107", "title": "nnp-dist writes radial and angular distribution functions of the whole data set", "statement": "For each pair of elements nnp-dist writes one file with the radial distribution function: in each interval of distances the mean over all structures of the number of pairs of atoms, periodic images included, divided by the volume of the shell and for periodic structures by the number for independent atoms. On request it writes for each element in the middle and each pair of other elements the distribution of angles, with integral 1. If all structures are periodic, the coordination number is the number of neighbours up to the right limit of the interval.", "quantifier": "all data files with any number of structures and atoms, any elements, cutoff radii and numbers of intervals", "why_tests_cant": "Pairs are counted from both sides with different weights for equal and different elements, histograms are shared and reset between structures, and images depend on the box; counts over unbounded sets of lattice vectors cannot be enumerated by tests.", "anchors": ["src/application/nnp-dist.cpp:98-269", "src/application/nnp-dist.cpp:345-490"]}
{"id": "C108", "title": "Sensitivity analysis and pruning of symmetry functions", "statement": "nnp-dataset writes for each element the root mean square and the largest absolute value of the derivatives of atomic energies with respect to each symmetry function, over all atoms of the element on all processes, also as shares which sum to 100 percent. nnp-prune then comments out exactly those symmetry functions whose share, as printed, is less than the threshold; it stops if a table does not have a line for each symmetry function. In mode range it comments out exactly those whose largest and smallest value differ by less than the threshold.", "quantifier": "all data sets and their distributions over processes, all elements, symmetry functions, thresholds and settings files", "why_tests_cant": "Three programs communicate through files; sums and maxima are reduced over an unbounded number of processes and atoms, and every line of an arbitrary settings file must be kept or commented out.", "anchors": ["src/application/nnp-dataset.cpp:107-119", "src/application/nnp-dataset.cpp:206-226", "src/application/nnp-dataset.cpp:406-503", "src/application/nnp-prune.cpp:60-147", "src/libnnp/Mode.cpp:2227-2269"]}
{"id": "C109", "title": "Data set prediction with nnp-dataset", "statement": "nnp-dataset evaluates every structure of the data set in the units of the potential and without the energies of free atoms. energy.comp contains for each structure, over all processes and in order, index, number of atoms, reference and predicted energy in physical units with these energies added, followed by both in units of the potential if normalization is used. forces.comp contains three such lines for each atom. Read from output.data are the structures of the data set with the predicted energies and forces. The table of errors contains the errors of the whole data set, per atom and in total, in both units. The part files of the processes are gone and other files are unchanged.", "quantifier": "all data sets and distributions over processes, all evaluations which keep the given data, offsets, positive conversion factors, file systems", "why_tests_cant": "Energies pass through offset removal, normalization, evaluation, conversion back and printing, once for the file and once for the error sums; a wrong order or a missing offset shows only with nonzero offsets, mean energies and several processes at the same time.", "anchors": ["src/application/nnp-dataset.cpp:89-104", "src/application/nnp-dataset.cpp:121-205", "src/application/nnp-dataset.cpp:206-398", "src/libnnptrain/Dataset.cpp:800-870", "src/libnnptrain/Dataset.cpp:952-961"]}
{"id": "C110", "title": "Neuron statistics written during training", "statement": "In the epochs chosen with the settings, and only then, nnp-train writes a file with one line for each neuron of the trained networks: number of evaluations, minimum, maximum, mean and sample standard deviation of what the neuron has seen in the calculation of errors of this epoch, on all processes together. Training steps of the epoch are not counted. In epoch 0 this holds for networks not used before; after data set normalization its evaluations are counted as well.", "quantifier": "all network architectures, parameters, inputs, distributions over processes, epochs and settings", "why_tests_cant": "Running sums on every process, reset at the right moment and reduced over an unbounded number of processes, must give the statistics of all values; whether evaluations of other phases slip in depends on the order of calls in the training loop.", "anchors": ["src/libnnptrain/Training.cpp:1844-1970", "src/libnnptrain/Training.cpp:2146-2237", "src/libnnptrain/Training.cpp:514", "src/libnnp/NeuralNetwork.cpp:120-130", "src/libnnp/NeuralNetwork.cpp:898-939"]}
{"id": "C111", "title": "nnp-symfunc shows the factors of the symmetry functions", "statement": "nnp-symfunc writes one file for every symmetry function of every element. Its table samples distances from 0 to the largest cutoff radius and angles from 0 to pi in equal steps, together with the radial and the angular part of the function, the factors of which the documented formula is the sum of products.", "quantifier": "all sets of elements and symmetry functions of all eleven types, numbers of points and environments", "why_tests_cant": "The parts are computed by functions separate from the evaluation of symmetry functions; that they are its factors is a statement about all real distances, angles and environments.", "anchors": ["src/libnnp/SetupAnalysis.cpp:24-99", "src/application/nnp-symfunc.cpp:25-58", "src/libnnp/SymFncBaseExpAng.cpp:166-177", "src/libnnp/SymFncExpAngnWeighted.cpp:325-336", "src/libnnp/SymFncCompRad.cpp:210-220", "src/libnnp/SymFncBaseCompAng.cpp:178-188"]}
{"id": "C112", "title": "Timings are the times a stopwatch was running", "statement": "For every history of calls of start, stop, loop and reset at arbitrary times, stop returns the sum of all times between a start and the next call since the last reset, and loop returns this sum since the last beginning of a loop. A start of a running stopwatch, and a stop of one which does not run, change nothing. If the clock never goes back, no time is negative.", "quantifier": "all histories of calls, at all times", "why_tests_cant": "Timings depend on the order of calls and on the clock; a test can only compare a few histories with measured times.", "anchors": ["src/libnnp/Stopwatch.cpp:24-130", "src/libnnp/Stopwatch.h:37-83"]}
{"id": "C113", "title": "nnp-norm2 chooses units in which reference and predicted forces have the same spread", "statement": "In the units chosen by nnp-norm2 the reference energies per atom of the whole data set have mean 0 and the reference force components have standard deviation 1. The forces which the same networks predict with the new settings for the converted structures have standard deviation 1 too. The units are those of a training with normalize_data_set force. The new settings file makes other programs use these units and otherwise has the same settings as before; the old settings are kept in input.nn.bak. Settings which already have conversion data, or do not use forces, are refused, hence a second run does no harm.", "quantifier": "all data sets of at least two structures with atoms and forces that differ, all distributions to processes, all settings files, all number formats that can be read back", "why_tests_cant": "Statistics are summed over processes, predictions are compared in two systems of units for arbitrary potentials, and every line of the settings file may interfere with the lines added in front.", "anchors": ["src/application/nnp-norm2.cpp:69-93", "src/application/nnp-norm2.cpp:148-260", "src/application/nnp-norm2.cpp:290-319", "src/libnnp/Mode.cpp:237-298"]}
{"id": "C114", "title": "nnp-comp2 selects exactly the structures for which two potentials disagree", "statement": "Comparing two potentials with forces, comp.data has the differences of energies and forces in place of the reference values and the sum of both numbers of extrapolation warnings in the comment, and diff.out has the results of both potentials and mean and maximum of the force differences. The selection reads back these differences. A structure is selected if and only if a positive threshold for warnings is reached, or a positive threshold for the energy difference per atom or for a component of a force difference is exceeded. comp-selection.data has exactly these structures in the same order; select.out has a line for each structure with the reasons. Without a threshold for forces the columns for force differences are zero, and a comparison without forces keeps reference forces, which the selection then takes for differences.", "quantifier": "all pairs of results of two potentials, all numbers of structures and atoms, all thresholds, all data files whose comments hold the number of warnings", "why_tests_cant": "Which structures are selected depends on thresholds, arbitrary results of two potentials and every atom; the order and completeness of the selection must hold for every file, and results travel through a message, a file and a comment.", "anchors": ["src/application/nnp-comp2.cpp:200-207", "src/application/nnp-comp2.cpp:257-330", "src/application/nnp-comp2.cpp:344-505", "src/libnnp/Structure.cpp:1474-1531"]}
{"id": "C115", "title": "Status files of weight updaters report every epoch", "statement": "During training each updater has its own status file, named by its element, with exactly one line for the initial state and for each epoch, in this order. A line of a Kalman filter has the number of updates, the means of the absolute values of the diagonal, off-diagonal and asymmetric parts of the covariance and of the gain, process noise and learning rate or forgetting factors. A line of Adam has step size, decay rates and the means of both moments. Other files are unchanged. The asymmetry is zero after any number of updates and the mean of the diagonal is positive. The decay rates reported after t updates are the powers t + 1, not t as the header announces, and for one parameter the off-diagonal column never has a number.", "quantifier": "all numbers of updaters, epochs and parameters, all states of the updaters, all earlier files", "why_tests_cant": "The files grow over an unbounded number of epochs with arbitrary states of filters of any size; that the asymmetry is exactly zero follows from an invariant of all updates.", "anchors": ["src/libnnptrain/Training.cpp:1972-2006", "src/libnnptrain/KalmanFilter.cpp:243-319", "src/libnnptrain/GradientDescent.cpp:144-200"]}
