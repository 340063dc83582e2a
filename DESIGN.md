# Formal model of QuOCS in Lean 4 - design

The model lives in `lean/Verif/`:

* `Verif/Model/*.lean`   - definitions that mirror the Python functions branch by branch; each cites file and lines.
* `Verif/Spec/*.lean`    - small, model-independent vocabulary used to state the properties.
* `Verif/Lemmas/*.lean`  - helper lemmas (no property is stated here).
* `Verif/Props/*.lean`   - the property theorems `Cxx_*`, each followed by an `example` with a concrete non-trivial
  instance that meets its hypotheses.

`properties.jsonl` lists the properties, `MANIFEST.json` the theorems and the status of each property,
`seeded/LOG.jsonl` the wrong programs the theorems were tested against.

## Modelling conventions

* **Numbers.** Python floats become elements of an arbitrary linearly ordered field `K` (so the theorems hold for the
  rationals, the reals, ...), or real/complex numbers where analysis is needed. Transcendental functions (`sin`, `erf`,
  `norm.cdf`, `expm`, `eigh`) are parameters with the assumptions listed at the theorem, or Mathlib's function. Rounding,
  overflow and infinities are not modelled. Figures of merit are elements of a type with *no* assumed laws wherever
  possible, so `NaN` is covered by the run-level theorems.
* **Effects.** Objects become records. A method is a `Prog S a := S -> Except PyErr a * S`: it may raise an exception and
  the state changes made before the exception stay. The user's `get_FoM` (an arbitrary function of the whole history of
  calls), the clock, asynchronous stop requests (GUI stop, SIGINT at any poll point), random draws, the external program
  of the file exchange, other processes using the file system and the tie-breaking of `np.argsort` are universally
  quantified inputs.
* **Search methods.** A direct-search method is a strategy tree (`Strat`): the calls it makes to the algorithm object and
  how it continues with each possible answer. Run-level theorems hold for *every* strategy; Nelder-Mead and CMA-ES are
  two particular ones.
* **Loops.** `for` loops are structural recursion. `while` loops get a number of rounds ("fuel") and fail with `outOfFuel`
  if it is used up; separate theorems (C09, C51) show that a stated amount of fuel always suffices.

## Properties: what is modelled and how it is proved

| id | property | status | model and method |
|----|----|----|----|
| C01 | Total evaluation budget | proved | Whole run (`_routine_call`, `get_data`, re-evaluation, drift compensation, super-iterations). Invariant `calls <= max_eval_total` / counter against the log of user calls, preserved by every operation; induction over the strategy tree and the super-iterations. |
| C02 | Nothing is evaluated after the run was told to stop | proved | Same run model. The running flag is monotone; with the flag down no operation extends the log of user calls. |
| C03 | Reaching the goal stops the run | proved | Same. If the best value reached the goal the next check lowers the flag. With re-evaluation: the invariant that a record reaching the goal was reported after the last call and the run is stopped or its best value reaches the goal. |
| C04 | Reported best figure of merit is the true optimum of what was measured | partial | Same. Invariant: best value = running minimum of the log; record iff strictly below everything before. |
| C05 | A record is flagged exactly on strict improvement | proved | Same. Invariant: best value = running minimum of the log; record iff strictly below everything before. |
| C06 | Maximization is minimization of the negated figure of merit | proved | Simulation relation between a maximization run and the minimization run of the negated function. |
| C07 | A failed evaluation ends the run and is not recorded | partial | Same run model. The running flag is monotone; with the flag down no operation extends the log of user calls. |
| C08 | The evaluation counter is exact | partial | Whole run (`_routine_call`, `get_data`, re-evaluation, drift compensation, super-iterations). Invariant `calls <= max_eval_total` / counter against the log of user calls, preserved by every operation; induction over the strategy tree and the super-iterations. |
| C09 | Every run ends | proved | Nelder-Mead loop with fuel: measure `max_eval_total - calls`; fuel that always suffices. |
| C10 | The dumped best controls belong to the best figure of merit | partial | Invariant relating the dumped records with the log of user calls. |
| C11 | Dumped controls use unique, complete names | partial | `BestDump` naming: association list after all insertions; counterexamples for the collisions. |
| C12 | Results of earlier runs are never overwritten | proved | Folder creation on a set of paths with arbitrary interference between the steps. |
| C13 | Delivered pulses respect the amplitude limits | proved | `BasePulse` shaping pipeline as a function on lists; case split over the configured steps, list algebra. |
| C14 | Cutting only touches samples outside the limits | proved | `BasePulse` shaping pipeline as a function on lists; case split over the configured steps, list algebra. |
| C15 | Shrinking preserves the shape | proved | `BasePulse` shaping pipeline as a function on lists; case split over the configured steps, list algebra. |
| C16 | Pulse and time grid have bins_number samples | partial | `BasePulse` shaping pipeline as a function on lists; case split over the configured steps, list algebra. |
| C17 | Super-iterations accumulate the pulse | proved | Induction over the history of `set_base_pulse` / `update` operations. |
| C18 | Shaping options are applied in the listed order and unknown ones are ignored | proved | `BasePulse` shaping pipeline as a function on lists; case split over the configured steps, list algebra. |
| C19 | Documented boundary enforcement works | proved | `BasePulse` shaping pipeline as a function on lists; case split over the configured steps, list algebra. |
| C20 | Every control parameter has its own slot | proved | `Controls` constructor, gather and scatter on lists; induction over the lists of pulses and parameters. |
| C21 | Start point and start sizes come from the controls | partial | `Controls` constructor, gather and scatter on lists; induction over the lists of pulses and parameters. |
| C22 | Parameters respect their limits | proved | `Controls` constructor, gather and scatter on lists; induction over the lists of pulses and parameters. |
| C23 | Each control only depends on its own slots | partial | `Controls` constructor, gather and scatter on lists; induction over the lists of pulses and parameters. |
| C24 | Nelder-Mead never loses its best point | proved | `NelderMead.run_dsm` as a strategy; loop invariant over every play (sequence of answers). |
| C25 | The Nelder-Mead result is a measured pair | partial | `NelderMead.run_dsm` as a strategy; loop invariant over every play (sequence of answers). |
| C26 | Nelder-Mead keeps the simplex well formed | proved | `NelderMead.run_dsm` as a strategy; loop invariant over every play (sequence of answers). |
| C27 | Nelder-Mead evaluation overshoot is bounded | proved | `NelderMead.run_dsm` as a strategy; loop invariant over every play (sequence of answers). |
| C28 | Nelder-Mead moves are the documented affine combinations | proved | `NelderMead.run_dsm` as a strategy; loop invariant over every play (sequence of answers). |
| C29 | CMA-ES recombination weights are a convex combination | proved | Recombination weights with the real logarithm; monotonicity and sum. |
| C30 | CMA-ES stops only between generations and bounds the overshoot | proved | `CMAES.run_dsm` as a strategy; invariant over the generations. |
| C31 | CMA-ES result is the best individual of the last generation | proved | `CMAES.run_dsm` as a strategy; invariant over the generations. |
| C32 | A search is stopped exactly by its criteria | partial | Stopping criteria as functions; invariants of the reason string over plays of both search methods. |
| C33 | Change-based stop measures the least-squares slope | proved | Normal equations of the least-squares line. |
| C34 | Re-evaluation count is bounded | proved | Re-evaluation loop; induction over the list of re-evaluation steps; mean and variance of the collected values. |
| C35 | Re-evaluated records pass every threshold | proved | Re-evaluation loop; induction over the list of re-evaluation steps; mean and variance of the collected values. |
| C36 | Re-evaluated figure of merit is the mean of the measurements | proved | Re-evaluation loop; induction over the list of re-evaluation steps; mean and variance of the collected values. |
| C37 | Best controls can be reproduced after the run | partial | dCRAB `run` with concrete controls; invariant over super-iterations and evaluations. |
| C38 | Final result reports the best point | partial | dCRAB `run` with concrete controls; invariant over super-iterations and evaluations. |
| C39 | Number of super-iterations | proved | dCRAB `run` with concrete controls; invariant over super-iterations and evaluations. |
| C40 | Random super-parameters stay in their range | proved | Algebra of the `Uniform` distribution. |
| C41 | Basis pulses are linear in the optimized coefficients | partial | Bases as functions of optimization and super-parameters; finite sums. |
| C42 | Number of coefficients per basis matches what the basis reads | proved | Bases as functions of optimization and super-parameters; finite sums. |
| C43 | Start simplex | partial | `simplex_creation`, `gram_schmidt`; determinant and inner products in Mathlib. |
| C44 | Piecewise evolution composes | proved | Ordered products of matrices; matrix exponential of skew-Hermitian matrices. |
| C45 | Hermitian Hamiltonians give unitary evolution | proved | Ordered products of matrices; matrix exponential of skew-Hermitian matrices. |
| C46 | GRAPE forward and backward propagation agree | proved | GRAPE forward and backward propagation; derivative of the ordered product. |
| C47 | Automatic-differentiation propagator store | partial | AD variants of the propagation, compared with the NumPy ones. |
| C48 | Partial trace uses a permutation of the subsystem axes | proved | `partial_trace` reshapes and permutations against the sum formula. |
| C49 | Superoperator identities | partial | Kronecker product identities. |
| C50 | File-based evaluation never uses a stale figure of merit | partial | Handshake with an external program whose actions happen at arbitrary poll points; induction over the polls. |
| C51 | File-based evaluation waits a bounded time and fails cleanly | partial | Handshake with an external program whose actions happen at arbitrary poll points; induction over the polls. |
| C52 | Class lookup precedence | partial | Decision logic of `dynamic_import` and of the logger handlers; induction over the runs created in a process. |
| C53 | Log level filter | partial | Decision logic of `dynamic_import` and of the logger handlers; induction over the runs created in a process. |
| C54 | Step times of the sigmoid bases stay inside the pulse | proved | Sigmoid bases: step times after clipping and sorting of the optimizer values; list algebra. |
| C55 | Nelder-Mead starts at the given point | partial | `NelderMead.run_dsm` as a strategy; loop invariant over every play (sequence of answers). |
| C56 | CMA-ES candidates are drawn from a non-degenerate distribution around the best half | proved | Invariant over generations: step size positive, covariance symmetric and positive definite. With capped learning rate the selected individuals must span the space: at least n+1 of them, drawn in general position; independence of Gaussian draws by induction with Fubini (a proper subspace has measure zero). |
| C57 | GRAPE gradient is the derivative of the overlap | partial | GRAPE forward and backward propagation; derivative of the ordered product. |
| C58 | A crash while saving never loses the best controls | partial | Write steps of the dump; contents of the files; induction over the records of a run and the moments of its writes. |
| C59 | The controls file for the external program is complete | proved | Write steps of the dump; contents of the files; induction over the records of a run and the moments of its writes. |
| C60 | Each run has its own log | partial | Decision logic of `dynamic_import` and of the logger handlers; induction over the runs created in a process. |
| C61 | Evaluation budget and stop in automatic-differentiation runs | partial | AD runs: the optimizer is a tree of value and gradient requests interpreted in the run state; invariant by induction over the tree and the super-iterations; concrete witness runs for the violations. |
| C62 | Best controls of an automatic-differentiation run | partial | AD runs: the optimizer is a tree of value and gradient requests interpreted in the run state; invariant by induction over the tree and the super-iterations; concrete witness runs for the violations. |
| C63 | One-qubit problem: figure of merit | partial | Example problems as state programs; evolution as an ordered product; Cauchy-Schwarz for the fidelity. |
| C64 | One-qubit problem with two fields: figure of merit | partial | Example problems as state programs; evolution as an ordered product; Cauchy-Schwarz for the fidelity. |
| C65 | Rosenbrock problem | proved | Example problems as state programs; evolution as an ordered product; Cauchy-Schwarz for the fidelity. |
| C66 | Ising problem: Hamiltonians and states | partial | Kronecker products entry by entry: the qubits of an index; induction over the list of factors. |
| C67 | Ising problem: figure of merit | proved | Fidelity of pure states for every positive square root; invariant over histories of calls. |
| C68 | Ising problem: no stale propagators | partial | Fidelity of pure states for every positive square root; invariant over histories of calls. |
| C69 | Fidelities of density matrices | partial | Polar decomposition from the extension of isometries; the fidelity is the overlap of the roots up to a unitary; spectral theorem for sums over eigenvalues. |
| C70 | Displacement operator | proved | Exponential of a skew-Hermitian matrix. |
| C71 | Ornstein-Uhlenbeck noise | proved | Closed form of the recursion; mean and covariance of a linear combination of independent normal variables; geometric sum. |
| C72 | Resampling of pulses | proved | Index of the nearest sample as a count of midpoints; induction over the grid. |
| C73 | Configuration and results files in JSON | partial | Mutual induction over nested values for the writer and the reader; a failed text is a proper prefix of a complete one, so it is not readable. |
| C74 | Objects shared with the user's program | partial | Heap of dictionaries and arrays; induction over the history with the number of earlier evaluations of the same controls as invariant. |
| C75 | Reproducibility with a seed | partial | The global generator has arbitrary states and interference; induction over pulses and super-iterations shows that seeded draws are consecutive blocks of one sequence. |
| C76 | The life of an Optimizer object | partial | Invariants of the trace of actions of a run, started from the state left by the previous execution; induction over the executions. |
| C77 | The configured settings are used | proved | The constructors are programs with the dictionary as the state; each reader is shown to return the entry or the default, through the frame of the parts of the dictionary that other readers change. |
| C78 | The optimization dictionary is only extended | proved | Relation "is the dictionary with some defaults filled in" (a table of defaults for every path), kept by every reader; the values at all paths agree. |
| C79 | Optimizers created again from one dictionary | partial | The readers return the same result on related dictionaries; assignments preserve the relation if the table of defaults does not depend on the entry assigned to; induction over the session. |
| C80 | Documented defaults | partial | Writing a documented default is a step of the relation of C78, for each documented path. |
| C81 | Comments in the optimization dictionary | partial | The same relation; other names are unused entries of the table. |
| C82 | Everything delivered respects the lists of pulses, times and parameters | proved | Invariant of the run: everything in the log, the dumps and the result was built by a reachable controls object (Lemmas/Delivered.lean); a reachable object builds only admissible controls (Lemmas/Times.lean); link to the dictionary by C77. |
| C83 | Controls in runs with automatic differentiation | partial | Relation between the two variants of the controls object (Lemmas/ControlsAD.lean), then as C82 and C62. |
| C84 | Only the user's function can make a run fail | partial | Logic of programs that fail only for given reasons (Lemmas/Fine.lean): every part of a run keeps an invariant, and raises only if the user function did; the controls object never raises on usable dictionaries (Lemmas/Usable.lean), the search methods raise nothing themselves (Lemmas/System.lean). GRAPE: the same logic with an invariant that ties a missing best vector to the absence of better figures of merit (Props/UsableGrape.lean). |
| C85 | Values at the ends of a pulse when the limits act before the guess | partial | The steps of the order are unfolded; limiting keeps a zero sample (cut) or, when shrinking, if the pulse has one sign; counterexample by evaluation. |
| C86 | GRAPE's gradient belongs to the control parameters | partial | The model of get_gradient is composed with the controls object; number of entries by the length of the loops, derivative by the chain rule from C57; counterexamples for scaling and for a second control. |
| C87 | Documented basis functions | proved | Closed form of the loop over the basis vectors (Lemmas/Bases.lean), compared with the documented formula in real analysis (Spec/BasisFormulas.lean); modulus of continuity of arccos for Chebyshev. |
| C88 | Sigmoid pulses are zero at beginning and end | partial | Tail bound of the error function (Lemmas/ErrorFn.lean); lower bound of a Gaussian integral for the violation. |
| C89 | A super-iteration starts where the last one ended | partial | Logic of programs with a known first call (Lemmas/FirstCall.lean), together with the invariant of C37 that the controls at the mean are the best ones; the run with one more super-iteration is the shorter run followed by one pass of the loop. |
| C90 | Stopping earlier only cuts a run short | proved | Simulation of two runs in lockstep until the first one is stopped (Lemmas/Truncate.lean): a relation closed under sequencing, proved for every part of a run and every search method. |
| C91 | The scale of the figure of merit does not matter | partial | Simulation of the two runs in lockstep (Lemmas/Rescale.lean), with a relation of the two search methods that carries the values only through comparisons (Lemmas/RescaleSearch.lean). |
| C92 | CMA-ES is the published algorithm | proved | The published algorithm is written down separately as a relation between successive distributions (Spec/CmaReference.lean); the state of the modelled search is shown to follow it by induction over the generations; for a direct search the calls of the run are matched with the evaluations of the search (Lemmas/Made.lean). |
| C93 | Drift compensation inside a search | partial | Weakest preconditions over the list of calls (time of the last compensation as an inductive relation on the calls); a simulation between two searches whose values differ by a constant, by induction over the moves; the report by following the handler of the run. |
| C94 | Origin and unit of a parameter do not matter | proved | A relation between the states of the two runs, closed under sequencing, proved for every part of a run (Lemmas/Recoord.lean); the controls objects correspond slot by slot (Lemmas/RecoordControls.lean); the searches are equivariant under the affine map, by induction over their moves (Lemmas/MapSearch.lean; CMA-ES with a common factor: Lemmas/CmaScale.lean, evolution paths, covariance matrix and its factors in the new unit). |
| C95 | A run can be continued from earlier results | partial | A new pulse object with a guess within its limits is evaluated at zero coefficients (Lemmas/Continue.lean); what a run delivers is within limits and has the expected grid (C82); the first call of a run is at the mean (C89). For the second part: every recorded call has the answer of the user function (invariant), C37 for the first run, C04 for the second. For whole optimizations: the second list of pulses contains already the samples of the first (pulsesFrom is the identity on it), and controls admissible for the first list are admissible for the second, as bins, limits and times agree (Props/ProgramContinue.lean). |
| C96 | From the dictionary to the results | proved | The whole program is one function of the dictionary and its surroundings (Model/Program.lean); its parts are taken apart (optimize_parts), the settings of the run are those of the dictionary (C77), and the theorems for runs (C01, C03, C04, C37, C82, C84) are restated in terms of entries of the dictionary. With repeated measurements: the controls object with vectors of fixed length shows at its mean what was shown before (system_reproMean), then as C37. With drift compensation inside of a search (Lemmas/DriftMinutes.lean): an invariant relates the last calls of the search to the log and to the last vector; the announcement is the mean of the calls before it (C93_announcement). For the calls of a direct search: a state invariant (Underway) says that the log, the counters and the stop conditions agree with the calls so far, and an induction over the strategy tree of the search method follows the interpretation. |
| C97 | Documented dictionaries are accepted | proved | For every part of the constructors: on a dictionary of the documented form it succeeds (Lemmas/Accepted.lean), using that earlier parts change nothing that later parts read (the same lawful-program argument as for C77-C79). The values read are numbers where the run needs numbers (from C77), so the run is carried out; its end is C96/C84. |
| C98 | From the dictionary to the results with GRAPE | proved | As C96, with Model/ProgramGrape.lean: the minimizer is an inductive program (ask for a value and a gradient, or stop), so that the theorems for runs with arbitrary searches (C01, C03, C04, C37, C82, C84) apply; the settings are those of the dictionary by C77, acceptance is C97. The calls follow the minimizer by induction over it, with an invariant about the state between two evaluations (Lemmas/Follow.lean). Guess and scaling: Props/ManyCalls.lean computes the controls of a vector (as in C113). |
| C99 | From the dictionary to the results with automatic differentiation | partial | As C98, with Model/ProgramAD.lean: the minimizer is an inductive program that asks for values and gradients in any order. An invariant over the calls marked as evaluations or gradients (Lemmas/ProgramAD.lean) gives budget, goal and best value; the reasons for failures by a Hoare logic over the same program; the controls by Lemmas/UsableAD.lean (the AD variant builds the same controls filled up with zeros). The calls follow the minimizer by induction over it (Lemmas/FollowAD.lean); several pulses and parameters: Props/ManyCalls.lean. |
| C100 | dCRAB: new frequencies, base pulse and update in every super-iteration | proved | Spec/Dcrab.lean describes a run as a list of super-iterations in terms of the documented formulas. Lemmas/Stages.lean cuts any run into super-iterations for an arbitrary controls object (invariant: controls object, calls and kept vector since the start of the super-iteration). Lemmas/Dcrab.lean gives, for the controls object of the library, frequencies, base pulses and delivered pulses; Props/Dcrab.lean combines both by induction over the super-iterations. |
| C101 | Sigmoid bases with optimized step times and widths | proved | Closed forms of the three bases over the reals (Spec/Steps.lean: a pulse made of steps), by cases on which variations are active; moved step times by C54; the limits of the widths and the ends by inequalities for the error function, as in C88. |
| C102 | The unit of time does not matter | partial | Controls objects in both units correspond (Lemmas/TimeUnit.lean), basis by basis from the formulas; then the relation between whole runs of C94, with the identity on search vectors and every search method related to itself. |
| C103 | The unit of the amplitude of a pulse does not matter | partial | Controls objects in both units correspond (Lemmas/AmplitudeUnit.lean): limits, shrinking, guess, scaling and each basis are homogeneous, and every pulse reads its own slots of the search vector; then the relation between whole runs of C94 with one factor per slot. |
| C104 | The open-system example follows the Lindblad equation | partial | The generator is compared entry by entry with the Lindblad equation (Spec/Lindblad.lean). Without decay the exponential of the 4 by 4 matrix is the conjugation with the propagator of the qubit (left and right multiplication commute); the trace is a left null vector of the generator; for the violation the coherence evolves by itself while the drive is off. |
| C105 | The ring of spins with dephasing | partial | Operators entry by entry with the lemmas of C66 (Lemmas/IsingLindblad.lean). For solutions (Lemmas/LindbladFlow.lean): existence slice by slice with exponentials; the Hilbert-Schmidt norm never grows, which gives uniqueness and, applied to the difference with the adjoint, Hermiticity; the trace has derivative zero; positivity by contradiction at the first time at which the state, shifted by a small multiple of the identity, has a null vector. |
| C106 | The Walsh basis | partial | Closed form of the Fourier sum (C87), then adding the guess, limiting and subtracting the guess is the identity inside the limits; the violation is one pulse with three samples. |
| C107 | The examples with a ring of spins | partial | Operators from C105, propagators from C44 and C67; an invariant over histories of calls keeps the constants of the object and the number of random numbers drawn so far, which is a sum over the calls. Short pulses: the loop over the slices by induction, up to the first slice without a sample (Props/IsingShort.lean). The settings by following setdefault for an arbitrary dictionary (Props/ScriptArgs.lean). |
| C108 | The shipped example scripts | partial | The settings files are transcribed (Model/Scripts.lean); the dictionaries after the changes by the scripts have the documented form (C97) and the hypotheses of C96, C98 and C99, whose theorems are applied. What the figures of merit use of the pulses: the settings they read from the arguments, then C107. |
| C109 | The history of a run and what the interface is told | partial | The signals are part of the state of the algorithm model. One invariant for every action (Lemmas/History.lean): lists and signals are those computed from the calls so far, plus at most one set of controls; while the run goes on, without the latter. Automatic differentiation: the same for the calls that are not for gradients (Lemmas/HistoryAD.lean). For whole optimizations from the dictionary: Props/ProgramHistory.lean. |
| C110 | The file with the best controls during a whole optimization | partial | Model/ResultsFile.lean folds the reports of a run through the model of BestDump. One invariant for every action (Lemmas/Reports.lean, Lemmas/ReportsAD.lean): the reports are those computed from the calls so far (Spec/Reports.lean). Induction over the calls gives the file; names and lengths come from the dictionary (Props/ResultsFile.lean, Props/ResultsFileAD.lean). That every report can be saved follows from the invariant that all reported controls were built by the controls object (Props/ResultsFileSaved.lean); that the file shows the controls of get_best_controls from an invariant that follows the last record (Lemmas/ReproduceFirst.lean, Lemmas/ReproduceFirstAD.lean, Props/ResultsFileBest.lean, Props/ResultsFileBestAD.lean). |
| C111 | Nelder-Mead is the published method, with its decisions | proved | The published method is written down separately as a function from the sorted vertices and the values of the iteration to the next action (Spec/NmReference.lean); the modelled search is shown to follow it with weakest preconditions, by induction over rows and iterations; for whole programs the calls of the run are matched with the evaluations of the search. |
| C112 | dCRAB: whole optimizations, with the search in every super-iteration | proved | Lemmas/Made.lean: the calls made during any search strategy are its evaluations, in order, by induction over the strategy. Lemmas/Stages.lean cuts the run into super-iterations and keeps for each one what its search does; C21 gives the start vector and the sizes, C111 and C92 the published methods; Props/DcrabSearch.lean combines them by induction over the super-iterations (Spec/DcrabSearch.lean describes the run). |
| C113 | Best pulses without guess and scaling | partial | Model/Bare.lean. Every state of a run is one reachable by the operations on the controls (as in C89), where the start vector is zero in all coefficients (C21), and every library basis gives a zero update there (C37). Positive part: the steps of get_pulse are computed one after the other. |
| C114 | Automatic differentiation: whole optimizations with several super-iterations | partial | Spec/AdSuper.lean describes a run as a list of super-iterations. Lemmas/FollowAD.lean shows by induction over the search that the calls are those it asks for; Lemmas/AdSuper.lean keeps the invariant that the stored vector is the one of the best call for a figure of merit; frequencies, start vectors, rows and base pulses as in C100 and C112. Props/AdSuper.lean combines them by induction over the super-iterations. |
| C115 | Drift compensation between super-iterations | proved | Spec/DriftRun.lean describes a run as a list of super-iterations with measurements, calls and the value to beat. Lemmas/DriftRun.lean: induction over the measurements and the loop, an invariant for the value and vector kept inside of a search; a stopped run makes no further calls (Lemmas/FirstCall.lean). Props/DriftRun.lean: the parameter values do not change during the measurements because bringing them into the limits twice is the same as once. Props/DriftMeasure.lean: the same in terms of controls and figures of merit (the current best controls are measured again; the reported ones are the last ones), by the lemmas of C37 on the controls that an object shows, also for whole optimizations in terms of the dictionary. |
| C116 | Arguments of the control problems of the library | partial | Constructors as programs on the dictionary (Model/ProblemArgs.lean). Values by following setdefault for an arbitrary dictionary; using a dictionary again by an invariant of readers (the result does not change if entries are added) that is closed under sequencing; the default figure of merit from C63, those of the Ising problems from C67 (Model/IsingArgs.lean; what the Hamiltonians are: C66). |
| C117 | Incomplete settings of the change-based stop | proved | Model/ChangeStop.lean has the check on the raw entry, with exceptions as values and the guards of the callers. For complete entries an evaluation is the one of Model/Stopping.lean (so that C33 applies), for others the flag does not change; induction over the figures of merit. |

## Disagreements

Where the code violates a property, a theorem proves the violation on a concrete witness (or in general), and the
remaining theorems of the property, marked `_partial`, prove what does hold.

* `C04_drift_compensation_loses_best`: **Drift compensation can lose the best figure of merit**: the measurement that should renew the best value after a super-iteration is refused because the budget is used up, and the placeholder 1e10 becomes the reported best.
* `C04_failed_evaluation_becomes_best`: **C04 is violated by failed evaluations**: here the only successful answer is 5, the second evaluation fails with status code -1 and figure of merit 1, and the run reports 1.
* `C07_failed_reevaluation_is_dumped`: **C07 is violated with re-evaluation**: the second call (a re-evaluation) fails, and yet the results dump is told that it is a record.
* `C08_counter_off_by_one`: **C08 is violated** when a stop request arrives after the controls were sent and before the evaluation: the run ends without exception and reports one evaluation although the user's function was never called.
* `C10_drift_file_is_not_best`: **C10 is violated with drift compensation.** The best controls (call 2, value 4) are measured again between the two super-iterations, with 7 and 9. Both measurements are written to the best-controls file as records, so the file shows 9 for these controls, while the run goes on with the mean 8 as best figure of merit, reports 8 at its end, and nothing better than 8 is found.
* `C11_lost_pulse`: **C11 is violated in general** (first witness): with pulse names `p3`, `p`, `p` the third pulse replaces the first one.
* `C11_parameter_replaces_pulse`: **C11 is violated in general** (second witness): pulses `a`, `a` and parameters `b`, `a`: the second parameter replaces the second pulse.
* `C11_pulse_named_FoM`: **C11 is violated in general** (third witness): a pulse with the name of one of the further entries is replaced by this entry.
* `C11_pulse_named_file`: A pulse with the name `file` cannot be dumped in the `npz` format: the run stops with a `TypeError` at the first record, whatever the other controls are (as long as the names are different).
* `C16_single_bin_can_grow`: **C16** (violation for one bin). A pulse with one bin and a guess given as a list of two samples is delivered with two samples, while its time grid has one.
* `C20_optimized_time_shares_slot_zero`: **C20** is violated with an optimized time: the slot of the time is slot 0 of the first pulse.
* `C21_optimized_time_overwrites_first_size`: **C21** is violated with an optimized time: the time overwrites the start size of slot 0, which belongs to the first pulse (its own start size is `5/7`).
* `C23_optimized_time_couples_controls`: **C23** is violated with an optimized time: changing only slot 0, owned by the first pulse, changes the time grid of the second pulse.
* `C24_interrupted_search_loses_best`: a stop between reflection and expansion (NelderMead.py:117-119) throws the better reflected point away. Values 5, 3, 2 were obtained, the returned minimum is 3.
* `C25_unstable_sort_mixes_pairs`: with a sorting method that is not stable (NumPy's default `argsort` is not for more than 16 entries), a stop in the middle of shrinking (NelderMead.py:156-161) may return a moved vertex together with the value of its predecessor: the point 1/2 has the value 7, the returned pair is (1/2, 5).
* `C29_small_population_raises`: with a configured population of one (or none, e.g. 1.5 rounded down) there are no recombination weights, and the search raises `ZeroDivisionError` before the first evaluation (CMAES.py:94).
* `C31_earlier_best_is_not_returned`: Found: the best individual of an earlier generation is not returned by the search (the algorithm around it keeps its own record, see C04 and C38): values 2, 1, 6, 5 were obtained, 5 is returned.
* `C31_no_generation`: **C31.** If the search is stopped before the first generation, it returns the value 0 and the zero vector, which were not measured.
* `C32_reason_names_unmet_criterion`: when the run is stopped (here by the total budget of two evaluations), the reported reason of the search may be a left-over of earlier checks: with the change-based criterion switched on (100 values required, StoppingCriteria.py:145 sets the reason before anything is compared) it names this criterion after two evaluations.
* `C36_displayed_average_wrong`: **The figures of merit shown to the user during re-evaluation are not these means**: the point 2 is measured as 4, 2, 6 (running means 4, 3, 4), but the list of figures of merit shows 4, 2 and 9/2, because a mean over `n` earlier measurements is weighted with `n - 1` instead of `n`.
* `C37_no_base_pulse_loses_best`: **C37 is violated by shaping options without `add_base_pulse`**: the best figure of merit 3 was measured with the pulse `[1, 2]`, `get_best_controls` returns the initial guess `[0, 0]`.
* `C37_optimized_time_not_reproduced`: **C37 is violated with an optimized time**: the best figure of merit 1 was measured with the time grid up to 3, `get_best_controls` returns the same pulse with the time grid up to 2.
* `C37_overwrite_loses_best`: **C37 is violated with `overwrite_base_pulse`**: the best figure of merit 3 was measured with the pulse `[1, 2]`, the second super-iteration finds nothing better, overwrites the base pulse with its zero update, and `get_best_controls` returns the pulse `[0, 0]`.
* `C38_directSearch_reports_last_point`: **C38 is violated by DirectSearch**: the reported figure of merit 3 belongs to the point 1, the reported parameters are those of the last evaluation, 2.
* `C41_chebyshev_not_linear`: **C41** (Chebyshev is not linear): its second coefficient enters as a phase, so the update pulse of the sum of two coefficient vectors is not the sum of the update pulses.
* `C43_edges_not_orthogonal`: with different start sizes the edges of the start simplex are not orthogonal (line 80 of `linearalgebra.py` scales the columns of the rotation, but the points of the simplex are its rows): for start sizes 1 and 2 the two edges have the scalar product -36/25, and their lengths are not 1 and 2.
* `C46_real_target_loses_imaginary_parts`: for a target state given as a real array the imaginary parts of all stored states are dropped. Two slices with the propagator `diag(1, i)` rotate the real state `(1, 1)/√2` into one orthogonal to it, but the stored overlap with the (real) target `(1, 1)/√2` is 1/2.
* `C47_store_is_not_written`: `pw_evolution_AD` returns the store it was given, whatever the drive and the Hamiltonians are (`U_store.at[i].set(..)` does not change `U_store`).
* `C47_zero_propagators`: the propagators returned by `pw_evolution_AD` are not the step propagators.
* `C48_all_subsystems_raises`: tracing over all subsystems raises a `TypeError` instead of returning the trace.
* `C49_not_the_commutator`: for the Hermitian matrix `sigma_y` the superoperator applied to the flattened identity is not zero, although the identity commutes with every matrix.
* `C50_late_answer`: Without this restriction on the external program the property fails: if the program writes between the removal of the old file and the publication, the value is taken for the answer to the new controls. Here the controls `2` get the value of the controls `1`, and nothing was written after they had been published.
* `C50_nothing_published`: If the file extension is neither `txt` nor `json`, or the json file cannot be written, no controls are ever published, and evaluations go on: every value that comes back has nothing to do with the controls.
* `C51_half_the_time`: In particular the waiting time is only half of the configured `max_time`: with the documented 60 s the evaluation is given up after 30 s.
* `C51_no_answer_raises`: The run is not stopped with the status code: the figure of merit of a failed exchange is `None`, its multiplication by `FoM_factor` raises `TypeError` before the status code is looked at, and the running flag stays set.
* `C51_removal_race`: A program that deletes the file just when QuOCS wants to remove it makes the evaluation fail with an exception.
* `C52_missing_type`: Violated: with a name but without a class type the given module and class are ignored.
* `C53_no_debug_messages`: Violated: the debug log never contains a debug message, even if debugging is switched on, because the level of the logger itself stays at `INFO`.
* `C55_start_point_is_lost`: the start point `(1, 1)` is not a vertex of its start simplex.
* `C57_not_the_derivative`: when drift and control do not commute the gradient is not the derivative with respect to the amplitude. For the drift `2 pi sigma_x`, the control `sigma_z`, one slice of duration 1 and amplitude 0 the derivative of the overlap is 0 but the gradient entry is -1.
* `C57_other_system_type_has_zero_gradient`: **C57.** The gradient always has one entry per slice of the first pulse; for another system type all entries are zero, whatever the controls are.
* `C58_crash_loses_best`: **C58 is violated**: the file is truncated and rewritten in place. Whatever was stored before and whatever is being stored, there is a moment during the dump when a crash leaves neither the old nor the new best controls.
* `C58_every_record_can_be_lost`: **C58 is violated by every record of every run**: for each report of a record there is a moment at which a crash leaves a broken file, also if the file showed an earlier record before.
* `C60_log_lost`: Violated: as soon as another run is created in the same process, no message at all reaches the log file of the first run any more; all messages go to the log file of the second one.
* `C61_calls_after_stop`: **C61 is violated after a stop**: a stop request arrives before the second evaluation, no further value is computed, but the user's function is still called for the gradients of all remaining points and of the second super-iteration.
* `C61_gradients_exceed_budget`: **C61 is violated by the calls for gradients** (ADAlgorithm.py:125-130 calls `get_FoM` directly): for every number `n` there is an AD run with a budget of one evaluation that calls the user's function more than `n` times.
* `C62_second_super_iteration_spoils_best`: **C62 is violated with a second super-iteration** (ADAlgorithm.py:142: the best vector of the first super-iteration is added again if the second one finds nothing better). The best figure of merit 3 was measured with the pulse `[1, 2]`, `get_best_controls` returns the pulse `[2, 4]`.
* `C63_remembers_parameter`: **C63 is violated by mixed histories** (OneQubitProblem.py:91-93: the attribute keeps the parameter): the same call gives 1 on a fresh object, and 0 after a call with the parameter π.
* `C63_unnormalized`: **C63 is violated for states that are not normalized** (OneQubitProblem.py:145 divides by the norms, not by their squares): a drive that reaches the target exactly has the figure of merit -3.
* `C64_unnormalized`: **C64 is violated for states that are not normalized** (OneQubitProblem_2fields.py:115): a drive that reaches the target exactly has the figure of merit 3.
* `C66_two_qubits_wrong`: for two qubits and `g ≠ 0` the drift Hamiltonian is not the energy of the ring.
* `C68_stale_propagators`: after `get_propagator` with one pulse, `get_FoM` with another pulse returns the figure of merit of the first pulse. For two qubits without couplings the zero pulse has the figure of merit 0 and a pulse of area pi/2 has -1; after `get_propagator` with the zero pulse `get_FoM` of the other pulse returns 0.
* `C69_not_diff_differs`: **C69 is violated by `fidelity_not_diff_due_to_sqrtm`** (fidelities.py:46-51 omits the square): there are two pure states of a qubit with fidelity 9/25 for which it returns 3/5.
* `C73_failed_write_loses_file`: **C73 is violated by a failed write** (inputoutput.py:71-75: the file is opened for writing before the encoder fails): whatever readable content the file had, afterwards reading it gives `None`.
* `C73_function_not_written`: **C73 is violated by functions** (inputoutput.py:54: `obj is callable` is never true): a dictionary with a function, which is documented to be written as `None`, is not written.
* `C74_changed_controls_dumped`: **C74 is violated by a program that works in place on the arrays** (AllInOneCommunication.py:143 keeps a reference to the arrays given to the user, line 200 dumps them after the evaluation): the values are right, but the controls dumped for a record are the changed ones.
* `C74_remembered_dictionary`: **C74 is violated by a program that returns a remembered dictionary** (AllInOneCommunication.py:162 multiplies the user's own dictionary by -1): the value shown to the algorithm has the right sign in the odd evaluations of the same controls; in a maximization the even ones have the wrong sign. In a minimization all values are right.
* `C75_bad_seed_stops`: **C75 is violated by seeds that are no natural numbers**: a seed of a wrong type, for which the warning announces a default, stops GRAPE with a TypeError (GRAPEAlgorithm.py:79 is outside of the `try` block), and a negative seed stops all of dCRAB, GRAPE and AD with a ValueError, which is not caught.
* `C75_cmaes_ignores_seed`: **C75 is violated by CMA-ES** (CMAES.py:142 uses `np.random.randn`): whatever the seed setting is, the second point that is evaluated depends on the state of NumPy's global generator.
* `C75_direct_search_ignores_seed`: **C75 is violated by DirectSearch** (DirectSearchAlgorithm.py:300 calls `simplex_creation` without a generator): whatever the seed setting is, the start simplex is made from the next numbers of NumPy's global generator.
* `C76_failed_run_reports_nothing`: **C76 is violated by runs that raise** (Optimizer.py:90-92: `end` is not called): whatever was found before, an exception of the user's function, of the controls or of an interrupt (GRAPE) leaves no stored and no reported results.
* `C76_stopped_before_first_evaluation`: **C76 is violated by a direct search that is stopped before its first evaluation** (DirectSearchAlgorithm.py:336 reads `self.xx`, which does not exist): instead of a report the caller gets an `AttributeError`.
* `C76_stored_without_reason`: **C76 is violated by the stored file** (OptimizationAlgorithm.py:326-328 stores the results before the reason is added): no execution stores the reason of a global stop. In this run the budget ends the optimization; the report says so, the stored file does not.
* `C79_sigma_sweep_fails`: **C79 is violated** for `sigma`: the first optimizer writes `offset = -10 * sigma` into the dictionary, and the optimizer created after an assignment to `sigma` uses this offset, not the one for its own `sigma`.
* `C79_switch_algorithm_fails`: **C79 is violated** for the algorithm: without an entry `super_iteration_number`, dCRAB is not created. From the dictionary that was used for AD, it is created, with one super-iteration.
* `C80_bins_number_fails`: **C80 is violated** for `bins_number` of a pulse with the piecewise basis: documented 101, without it the creation fails.
* `C80_initial_value_fails`: **C80 is violated** for `initial_value` of a parameter: documented 0.1, used 1.
* `C80_max_eval_fails`: **C80 is violated** for `max_eval`: documented `10e10`, used `10 ** 10`.
* `C80_max_eval_total_fails`: **C80 is violated** for `max_eval_total`: documented `10e10`, used `10 ** 10`.
* `C80_parameter_name_fails`: **C80 is violated** for the name of a parameter: documented "parameter", without it the creation fails.
* `C80_pulse_name_fails`: **C80 is violated** for the name of a pulse: documented "pulse", without it the creation fails.
* `C80_time_name_fails`: **C80 is violated** for the name of a time: documented "time", without it the creation fails.
* `C81_comment_in_parameter_fails`: **C81 is violated** for parameters and times: a comment there makes the creation fail with a `TypeError`.
* `C81_reserved_names_fail`: **C81 is violated** for three names in a pulse: whatever else the dictionary contains, an entry `map_index`, `rng` or `is_AD` in a pulse makes the creation fail.
* `C83_shorter_pulse_filled`: **C83 is violated for pulses with different numbers of bins** (Controls.py:268-283, 302-316). The second pulse has two bins and the limits 1 and 5, but it is delivered with a third sample 0, below its lower limit, and with the time grid `[0, 2, 0]`.
* `C84_direct_search_raises`: **C84 is violated by DirectSearch with pulses**: the run raises `ValueError` before the first call.
* `C84_direct_search_with_pulses`: **C84 is violated by DirectSearch with pulses**: whatever search method is used, a DirectSearch run with at least one pulse never calls the user's function.
* `C84_grape_interrupt`: **C84 is violated by GRAPE when the user presses Ctrl-C**: the handler looks for a direct-search object, which GRAPE does not have, and the run raises `AttributeError` although every call of the user's function succeeded.
* `C84_grape_without_budget`: **C84 is violated by GRAPE when the run is stopped before the first call**: with `max_eval_total` zero a GRAPE run with a usable dictionary raises `AttributeError` although the user's function was never called.
* `C84_reevaluation_without_budget`: **C84 is violated by re-evaluation when the run is stopped before the first call**: with `max_eval_total` zero (or a stop request before the first call) and a threshold below one half, a dCRAB run with a usable dictionary raises `AttributeError` although the user's function was never called.
* `C85_shrink_moves_boundary`: **C85 is violated with `shrink_ampl_lim: True`**: an update with both signs that exceeds a limit is shrunk towards its smallest value, not towards `0`, and the samples where the scaling is `0` move. Here the guess starts at `1/2` and ends at `1/4`, the scaling vanishes at both ends, and the delivered pulse starts at `3/14` and ends at `-1/28`.
* `C86_scaling_ignored`: **C86 is violated by scaling functions**: the entries of the gradient are derivatives with respect to the scaled amplitudes, not with respect to the control parameters that the optimizer changes. With the scaling function `2`, control `sigma_z`, no drift, all parameters `0`, the gradient is `[-1, -1]` but the derivative of the negative overlap with respect to the first parameter is `-2`.
* `C86_wrong_number_of_entries`: **C86 is violated** by every other list of controls that starts with a piecewise pulse: as soon as there is a second pulse or a parameter, the gradient has fewer entries than there are control parameters.
* `C88_sigmoid_starts_above_zero`: **C88 is violated**: with the documented defaults `offset = sigma = 0.1` and any duration of at least 0.3, an update with a first step of size `a > 0` and no other steps starts with more than 5% of `a` instead of zero.
* `C89_optimized_time_restarts_elsewhere`: **C89 is violated with an optimized time**: the first super-iteration ends with the time 3 and the figure of merit -9/2. The second one starts again with the initial time 2 and the figure of merit -13/4.
* `C91_drift_average_scale`: **C91 is violated if a run is stopped during a drift compensation that averages.** The placeholder 10^10 of the measurement that was not made enters the average, and does not depend on the unit: the two final figures of merit differ by more than the factor 10.
* `C91_reevaluation_scale`: **C91 is violated with re-evaluation steps.** The figures of merit of two pulses are 2 and 1, without any noise, and the second pulse is the best one. Report the same figures of merit in a unit a hundred times as large: the better second pulse is not recognized and the first one is kept. The reason: a standard deviation of zero is replaced by 1 in the comparison (dCRABAlgorithm.py:419-421), whatever the unit.
* `C93_interrupted_compensation_loses_best`: **C93 is violated when the run ends during a compensation**: Violation found: a run with at most four evaluations measures 5, 4, 3 and 2. The compensation that is then due is not skipped although the budget is used up; its two measurements are refused, the placeholder 1e10 is taken for their values, and 1e10 is announced, reported as a record and kept as the best figure of merit of the run.
* `C95_scaled_pulses_are_scaled_again`: **C95 is violated with a scaling**: with the scaling 1/2 the best controls of the first run have the samples 0, 5/2, 4 and the figure of merit -3/2. Given back as initial guess they are scaled once more: the first call of the second run uses 0, 5/4, 2, and the second run ends with -1/4.
* `C99_gradients_after_goal`: **C99 is violated for the goal by the calls for gradients**: the fifth call, an evaluation, reaches the goal 1/10, and two calls for gradients follow.
* `C99_gradients_exceed_budget`: **C99 is violated for the budget by the calls for gradients**: two evaluations are allowed, but the user's function is called six times, and goes on being called for gradients at new controls after the budget is used up.
* `C102_step_widths_in_seconds`: **C102 is violated for SigmoidSigmas.** With an offset of 0.05 nanoseconds the step widths are kept within the room around the step; with the same offset in seconds (5e-11, taken for zero) they are not, and other pulses are delivered.
* `C102_switched_off_in_seconds`: **C102 is violated for SigmoidAllParas.** A variation of the step times of 0.05 nanoseconds gives one control parameter more per step; declared in seconds (5e-11) it is taken for zero: the step times are not optimized, without any message. The same problem has another number of control parameters in the other unit.
* `C103_chebyshev_phase`: **C103 is violated for the Chebyshev basis.** Half of its coefficients are phases, in radians, but the search takes them for amplitudes: their first step is the amplitude variation, in the unit of the amplitude. A pulse that is -1 in one unit should be -2 in units half as large; the coefficients of the other unit give 2.
* `C103_step_widths`: **C103 is violated for SigmoidSigmas.** Its last coefficients change the widths of the steps, and unlike the other sigmoid bases it does not compare them with the amplitude variation: in units half as large the widths change twice as much, and another pulse is delivered.
* `C104_figure_of_merit_unbounded`: **C104 is violated** (the range). With any decay rate the figure of merit, which is to be maximized, is unbounded: a short pulse at the beginning of a sufficiently long time grid gives a value above every bound. The evolved matrix is then no density matrix.
* `C104_wrong_sign`: **C104 is violated** (the equation). The generator of the example is the one of the Lindblad equation of a driven qubit with decay, except for one sign (line 49: `+ gamma_decay / 2`): the coherence between the two states grows instead of decaying.
* `C105_last_sample_ignored`: **C105 is violated** (the last sample). The last sample of the pulse has no effect on the figure of merit: the other samples share the whole time.
* `C105_two_qubits_wrong`: **C105 is violated** (two qubits, the default). The drift Hamiltonian of two qubits is not the one of the ring if there is a coupling of next-nearest neighbours: the spin itself is taken for the square of the spin.
* `C106_not_square_waves`: **C106 is violated.** One vector with the coefficients `(1, 0)`: a Walsh function takes the values `1` and `-1` only, but the first sample of the pulse is `0` and the second is `1`. The class is a copy of the Fourier basis (Walsh.py:61-81, `TODO Complete this basis`).
* `C108_ad_lindblad_ignores_last_sample`: **C108 is violated by execute_AD_Lindblad.py**: with the settings of the script the last sample of the pulse has no effect on the figure of merit, and the Hamiltonian is not the one of the ring of two spins.
* `C108_dcrab_few_slices_raise`: **C108 is violated by execute_dCRAB.py**, for fewer than 100 slices: as the figure of merit does not find the number of slices in the arguments of the script, it always asks for 100 samples and raises an `IndexError` for every pulse the optimizer can give it, after any history of calls.
* `C108_dcrab_ignores_samples`: **C108 is violated by execute_dCRAB.py**: the script passes the number of slices as `N_slices`, but the figure of merit reads `n_slices` and falls back to its default. So for `n ≥ 100` slices it evolves over 100 steps of length `T / n` (a twentieth of the duration for the 2000 slices of the script), and two pulses with the same first 100 samples have the same figure of merit, whatever the other samples are.
* `C109_plot_not_list`: **C109 is violated for direct search with repeated measurements: plot and list differ** (DirectSearchAlgorithm.py:254-287 lists the running mean and reports the single measurement).
* `C109_plot_wrong_sign`: **C109 is violated for maximizations: the plot shows the wrong sign** (AllInOneCommunication.py:153-189): the user's values 5 and 4 are listed as such but plotted as -5 and -4.
* `C110_json_ad`: **C110 is violated with automatic differentiation and the format `json`.** The first call with a value better than the start value makes the program fail with `TypeError` when its controls are to be saved.
* `C110_names_violated`: **C110 is violated for names used by QuOCS itself.** The pulse called `FoM` is not in the file, which has the figure of merit under this name; with a pulse called `file` the first report cannot be saved (`TypeError`).
* `C113_bare_controls_always_zero`: **C113 is violated** by every dCRAB run, with any search method, any answers of the user's function, stop requests and random numbers: whatever was found, `get_best_bare_controls` returns pulses that are zero in all bins. (It computes the update at the start point of the next super-iteration and does not add the base pulse, where the best update has been stored.) All bases of the library, fixed or optimized times.
* `C113_bare_controls_always_zero_grape`: **C113 is violated** by every GRAPE run in the same way.
* `C113_bare_is_not_best`: **C113 is violated** in a concrete run with two super-iterations: the bare best pulse is zero, but the best pulse is not the guess times the scaling `1/2` (which is `[0, 5/2, 4]`, the guess being cut at 8).
* `C114_update_added_twice`: **C114 is violated if a super-iteration finds nothing better** (ADAlgorithm.py:134-142; dCRAB starts each super-iteration with the mean value as best vector, dCRABAlgorithm.py:206, this algorithm keeps the old one): the update of the first super-iteration, whose figure of merit 3 remains the best one, is added once more after the second one, so the third one does not continue from the best controls `[1, 2]`. Its calls for the update `[1, 2]` get `[3, 6]`, cut off at the limit 5, and not `[2, 4]` as in the second one.
* `C116_rosenbrock_needs_dictionary`: **C116 is violated by the Rosenbrock problem** (RosenbrockProblem.py:27, 33): although the argument has the default `None`, the problem cannot be created without a dictionary; with an empty one it can.

## Trusted base

* Lean 4.33.0's kernel, and Mathlib as installed (its theorems are checked by the same kernel).
* Axioms: only `propext`, `Classical.choice` and `Quot.sound` are used; the table at the end lists the axioms of every
  property theorem (output of `#print axioms`). There is no `sorry`, no `native_decide`, no `bv_decide`, no axiom of our
  own.
* The correspondence between the cited Python lines and the definitions in `Verif/Model`. It was made by reading the
  source; nothing was executed.
* The library functions used by the code behave as written in the model: see the next section.

### What is modelled

| file in `/repo/src/quocslib` | model | remarks |
|---|---|---|
| `optimizationalgorithms/OptimizationAlgorithm.py` | `Model/Algorithm.lean` | `_routine_call`, stop checks, goal, budget, time limit, `handle_user_cancellation`, `get_best_controls` |
| `optimizationalgorithms/dCRABAlgorithm.py` | `Model/Algorithm.lean`, `Model/Results.lean` | super-iterations, re-evaluation, drift compensation, record logic, final results |
| `optimizationalgorithms/DirectSearchAlgorithm.py` | same | re-evaluation shared with dCRAB |
| `optimizationalgorithms/GRAPEAlgorithm.py` | same, `Model/TimeEvolution.lean`, `Model/GrapeControls.lean` | run, evaluation, gradient; scipy's L-BFGS-B is an arbitrary strategy |
| `gradientfreemethods/NelderMead.py`, `DirectSearchMethod.py` | `Model/NelderMead.lean` | all of `run_dsm`, default simplex |
| `gradientfreemethods/CMAES.py` | `Model/CMAES.lean` | all of `run_dsm` |
| `stoppingcriteria/*.py` | `Model/Stopping.lean` | all criteria |
| `pulses/BasePulse.py`, `pulses/basis/*.py`, `pulses/superparameter/*.py` | `Model/Pulse.lean` | all bases |
| `parameters/*.py`, `Controls.py` | `Model/Controls.lean`, `Model/Ops.lean`, `Model/ControlsAD.lean`, `Model/System.lean`, `Model/Bare.lean` | NumPy variant, AD variant of `get_controls_lists` |
| `tools/linearalgebra.py` | `Model/LinearAlgebra.lean` | `commutator`, `gram_schmidt`, `simplex_creation`, `to_sup_op`, `to_vec` |
| `tools/partial_trace.py` | `Model/PartialTrace.lean` | all |
| `optimizationalgorithms/ADAlgorithm.py` | `Model/AD.lean` | `run`, `inner_run`, `_inner_routine_call`, `get_gradient` around an arbitrary optimizer |
| `timeevolution/piecewise_integrator.py`, `piecewise_integrator_AD.py` | `Model/TimeEvolution.lean` | `pw_evolution`, `pw_final_evolution` and AD variants |
| `utils/BestDump.py` | `Model/Dump.lean`, `Model/Crash.lean`, `Model/ResultsFile.lean` | names, dictionary, crash points of a write and of a whole run, file during a whole optimization; a run goes on as if saving succeeded |
| `utils/FilesUpdateFom.py` | `Model/FileExchange.lean`, `Model/Dump.lean` | handshake with the external program, controls file |
| `communication/AllInOneCommunication.py` | `Model/Algorithm.lean`, `Model/Folder.lean` | `get_data`, `send_FoM_response`, results folder |
| `utils/dynamicimport.py`, `map_dictionary.json` | `Model/Lookup.lean` | all |
| `tools/logger.py` | `Model/Lookup.lean` | all |
| `optimalcontrolproblems/OneQubitProblem*.py`, `RosenbrockProblem.py` | `Model/Problems.lean`, `Model/ProblemArgs.lean` | `get_FoM`, random numbers are inputs; `__init__` |
| `optimalcontrolproblems/IsingModel*.py`, `utils/jax_utils.py` | `Model/Ising.lean`, `Model/IsingArgs.lean` | all; `expm`, `sqrtm` are parameters |
| `tools/fidelities.py`, `tools/operations.py`, `tools/pulsetools.py`, `noiseprocesses/` | `Model/Tools.lean` | `fidelity_*`, `state_to_dm`, `_sqrtm`, `_displace`, `resample_pulse`, `OrnsteinUhlenbeck`; `eigh`, `eigvals`, `expm`, random numbers are parameters |
| `communication/AllInOneCommunication.py` | `Model/Alias.lean` | references to dictionaries and arrays shared with the user's program |
| `tools/randomgenerator.py` and its uses | `Model/Random.lean` | which source each random number comes from; the generators are arbitrary sequences |
| `Optimizer.py` (execute), `OptimizationAlgorithm.py` (end) | `Model/Lifecycle.lean` | several executions of one object; the results stored and reported |
| constructors of `Optimizer`, the algorithms, `StoppingCriteria`, `NelderMead`, `CMAES`, `Controls`, bases, `BasePulse`, `ChoppedBasis`, `Uniform`, `Parameter`, `TimeParameter` | `Model/Settings.lean` | reading of the optimization dictionary and the entries written into it |
| `StoppingCriteria.add_to_FoM_track`, `_check_cbs_stopping_crit`, `check_advanced_stopping_criteria`, and their callers in `_routine_call`, on the raw entry of the dictionary | `Model/ChangeStop.lean` | missing entries and entries of other types |
| `Optimizer.py` (creation followed by `execute`) | `Model/Program.lean`, `Model/ProgramGrape.lean`, `Model/ProgramAD.lean` | dCRAB and direct search with the search methods of the library; GRAPE and AD with an arbitrary minimizer, AD with arbitrary gradients |
| `Examples/LindbladProblem.py` | `Model/Lindblad.lean` | all; `expm` is a parameter |
| `Examples/IsingModelProblem.py`, `IsingModelProblem_AD.py` | `Model/IsingExample.lean` | all; `expm`, `sqrtm` and the random numbers are parameters |
| `Examples/IsingModelProblem_AD_Lindblad.py` | `Model/IsingLindblad.lean` | all; `odeint` is a parameter |
| `Examples/execute_*.py`, `Examples/settings_*.json`, `Examples/Simplified/*` | `Model/Scripts.lean` | dictionaries, their changes until the optimizer is created, settings of the figures of merit; not the plots and text files |
| `utils/inputoutput.py` | `Model/Json.lean` | `readjson`, `writejsonfile`, `ObjectEncoder` on the level of JSON tokens |

### What is not modelled

* Floating-point rounding, overflow, memory limits.
* JAX tracing and scipy's L-BFGS-B (parameters of `Model/AD.lean`), the AD variants of the bases (the same formulas in JAX).
* Text formats: spelling of numbers and strings in JSON, npz syntax, log message texts, the graphical interface (what is sent to it during a run is modelled, see C109).
* Conversion of strings to functions (`eval`, `lambda` strings); functions given by the
  user are arbitrary functions.
* Plotting (`tools/pulsetools.py: plot_pulse`).
* Operating-system failures other than those in `Model/Folder.lean` and `Model/FileExchange.lean` (disk full, permissions).
* Abstract base classes and templates without behaviour of their own (`figureofmeritevaluation/AbstractFoM.py`, `utils/AbstractDump.py`,
  `utils/AbstractFoM.py`, `utils/AbstractHandleExit.py`, `noiseprocesses/noiseprocess.py`, `handleexit/*`, `GradientFreeTemplate.py`), the debug and test
  helpers (`utils/DummyDump.py`, `utils/test_BestDump.py`), `Legacy/*`, the notebooks in `Examples/` and what its scripts do after the optimization,
  `pulses/basis/DummyBasis.py` (the formula of Fourier).
* `optimizationalgorithms/AlgorithmTemplate.py`: as it stands it cannot be run (its constructor does not pass `optimization_dict` on, it reads the missing
  attribute `max_num_function_ev` and calls `run_dsm` with an argument the search methods do not have).
### Axioms of each property theorem

* **Classical.choice, Quot.sound, propext**: `C01_budget`, `C02_no_call_after_stop_request`, `C02_stopped_is_final`, `C02_stopped_loop_ends`, `C02_time_limit`, `C03_goal_record_ends_run`, `C03_goal_stops`, `C03_remaining_super_iterations`, `C03_search_stops_at_goal`, `C04_best_is_optimum_library_partial`, `C04_best_is_optimum_partial`, `C04_best_never_worse`, `C04_drift_compensation_loses_best`, `C04_failed_evaluation_becomes_best`, `C05_every_success_reported_once`, `C05_record_iff_strict_improvement`, `C05_tie_and_nan_no_record`, `C06_maximization_mirrors_minimization`, `C07_failed_not_dumped_partial`, `C07_failed_reevaluation_is_dumped`, `C07_failure_stops_run`, `C07_nothing_after_failure`, `C08_counter_off_by_one`, `C08_counter_partial`, `C09_cmaes_not_cut_off`, `C09_cmaes_result_is_final`, `C09_no_search_is_cut_off`, `C09_result_is_final`, `C100_super_iterations`, `C101_all_parameters`, `C101_ends`, `C101_sigmas`, `C101_time_dep`, `C102_creation`, `C102_delivered_partial`, `C102_step_widths_in_seconds`, `C102_switched_off_in_seconds`, `C102_time_unit_partial`, `C102_user_function`, `C103_amplitude_units_partial`, `C103_any_units_partial`, `C103_chebyshev_phase`, `C103_common_unit_cmaes_partial`, `C103_common_unit_partial`, `C103_creation`, `C103_delivered_partial`, `C103_step_widths`, `C103_user_function`, `C104_closed_partial`, `C104_figure_of_merit_unbounded`, `C104_settings`, `C104_trace_preserved`, `C104_wrong_sign`, `C105_density`, `C105_dephasing_ring_partial`, `C105_last_sample_ignored`, `C105_settings`, `C105_two_qubits_wrong`, `C106_not_square_waves`, `C106_walsh_is_fourier_partial`, `C107_automatic_differentiation_partial`, `C107_noise_bounded`, `C107_range`, `C107_ring_partial`, `C107_settings`, `C107_settings_automatic_differentiation`, `C107_short_pulse_partial`, `C107_variants_agree_partial`, `C108_ad`, `C108_ad_fourier`, `C108_ad_lindblad`, `C108_ad_lindblad_ignores_last_sample`, `C108_ad_uses_whole_pulse_partial`, `C108_dcrab`, `C108_dcrab_few_slices_raise`, `C108_dcrab_ignores_samples`, `C108_grape`, `C108_grape_uses_whole_pulse_partial`, `C108_lindblad`, `C108_lindblad_uses_whole_pulse_partial`, `C108_simplified`, `C109_ad`, `C109_fom_list_length`, `C109_fom_list_partial`, `C109_iteration_numbers`, `C109_plot_is_list`, `C109_plot_not_list`, `C109_plot_wrong_sign`, `C109_program_ad`, `C109_program_best`, `C109_program_grape`, `C109_program_length`, `C109_program_numbers`, `C109_program_partial`, `C109_signals`, `C109_signals_order`, `C10_best_file_is_best_partial`, `C10_drift_file_is_not_best`, `C10_file_is_final_best_reeval_partial`, `C10_final_file_is_final_best_partial`, `C10_reports_show_last_call_partial`, `C110_best_controls_ad_partial`, `C110_best_controls_grape_partial`, `C110_best_controls_partial`, `C110_completes`, `C110_completes_ad_partial`, `C110_completes_grape`, `C110_completes_repeated`, `C110_file_ad_partial`, `C110_file_grape`, `C110_file_partial`, `C110_final_ad_partial`, `C110_final_grape`, `C110_final_partial`, `C110_json_ad`, `C110_names_violated`, `C110_saved`, `C110_saved_grape`, `C111_evaluations_per_iteration`, `C111_follows_publication`, `C111_program`, `C111_result`, `C112_cma_es`, `C112_nelder_mead`, `C113_bare_controls_always_zero`, `C113_bare_controls_always_zero_grape`, `C113_bare_controls_partial`, `C113_bare_is_not_best`, `C114_super_iterations_partial`, `C114_update_added_twice`, `C115_cma_es`, `C115_measures_best_controls`, `C115_nelder_mead`, `C115_program`, `C116_dictionary_can_be_used_again`, `C116_ising`, `C116_ising_automatic_differentiation`, `C116_ising_dictionary_can_be_used_again`, `C116_one_qubit`, `C116_one_qubit_without_arguments`, `C116_rosenbrock_needs_dictionary`, `C116_rosenbrock_partial`, `C116_two_fields`, `C117_entry_of_dictionary`, `C117_proper_entries`, `C117_stops_exactly_if_met`, `C117_switched_off`, `C117_unusable_entries`, `C117_without_change`, `C117_without_evaluations`, `C11_default_names_partial`, `C11_own_names_partial`, `C11_pulse_named_file`, `C11_repeated_names_partial`, `C12_earlier_results_kept`, `C12_new_folder`, `C12_only_own_files`, `C12_second_run_refused`, `C13_all_delivered_pulses_within_limits`, `C13_delivered_pulse_within_limits`, `C14_cut_only_outside`, `C15_shrink_preserves_shape`, `C16_all_delivered_pulses_have_bins_samples`, `C16_pulse_and_grid_have_bins_samples`, `C16_single_bin_can_grow`, `C18_default_order`, `C18_shaping_in_listed_order`, `C19_boundary_enforced`, `C20_no_shared_slot`, `C20_optimized_time_shares_slot_zero`, `C20_slots_partition`, `C21_initial_start_point`, `C21_optimized_time_overwrites_first_size`, `C21_start_point`, `C21_start_sizes_partial`, `C22_parameters_within_limits`, `C23_optimized_time_couples_controls`, `C24_interrupted_search_loses_best`, `C24_kept_value_is_minimum`, `C24_kept_value_never_increases`, `C24_only_last_value_can_be_lost`, `C24_result_is_minimum`, `C25_measured_pair_partial`, `C25_unstable_sort_mixes_pairs`, `C26_reported_evaluations`, `C26_sorted_simplex`, `C27_bounded_overshoot`, `C27_in_run`, `C28_adaptive_one_variable`, `C28_affine_hull`, `C28_documented_moves`, `C28_factors`, `C29_default_population`, `C29_mean_is_convex_combination`, `C29_mueff_range`, `C29_small_population_raises`, `C29_weights_decrease`, `C29_weights_positive`, `C29_weights_sum`, `C30_bounded_overshoot`, `C30_checks_between_generations`, `C30_first_point`, `C30_in_run`, `C30_whole_generations`, `C31_best_of_last_generation`, `C31_earlier_best_is_not_returned`, `C31_no_generation`, `C32_cmaes_check`, `C32_cmaes_ends_for_a_reason`, `C32_cmaes_met_criterion_ends_search`, `C32_met_criterion_ends_search`, `C32_nelderMead_check`, `C32_reason_names_unmet_criterion`, `C32_search_ends_for_a_reason`, `C32_spread_criterion`, `C32_stopped_stays`, `C33_change_check`, `C33_unique_slope`, `C33_values_of_this_search`, `C34_measurements_bounded`, `C34_single_measurement`, `C35_record_passes_thresholds`, `C36_displayed_average_wrong`, `C36_value_is_mean`, `C37_best_controls_drift_minutes_partial`, `C37_best_controls_mean_library_partial`, `C37_best_controls_mean_partial`, `C37_best_controls_reproduced_library_partial`, `C37_best_controls_reproduced_partial`, `C37_no_base_pulse_loses_best`, `C37_optimized_time_not_reproduced`, `C37_overwrite_loses_best`, `C37_standard_dictionary`, `C37_zeroUpdate`, `C38_directSearch_reports_last_point`, `C38_final_results_mean_partial`, `C38_final_results_partial`, `C38_reported_evaluations`, `C39_no_super_iteration_after_stop`, `C39_super_iterations`, `C40_super_parameters_one_per_bin`, `C41_chebyshev_not_linear`, `C41_update_is_linear`, `C41_zero_coefficients_zero_update`, `C41_zero_update_every_basis`, `C42_declared_number_suffices`, `C42_fewer_coefficients_fail`, `C43_edges_not_orthogonal`, `C43_not_degenerate`, `C43_orthogonal_edges_partial`, `C43_spread_per_coordinate`, `C43_start_simplex`, `C44_final_is_ordered_product`, `C44_no_slices`, `C44_refinement`, `C44_splitting_composes`, `C44_stored_propagators`, `C45_final_unitary`, `C45_states_preserved`, `C45_steps_unitary`, `C46_independent_of_earlier_calls`, `C46_overlap_is_constant`, `C46_real_target_loses_imaginary_parts`, `C47_final_evolution_agrees`, `C47_store_is_not_written`, `C47_store_partial`, `C47_zero_propagators`, `C48_all_subsystems_raises`, `C48_mask_is_permutation`, `C48_partial_trace`, `C48_trace_preserved`, `C49_not_the_commutator`, `C49_superoperator_partial`, `C50_answers_own_controls`, `C50_late_answer`, `C50_nothing_published`, `C50_written_in_this_evaluation_partial`, `C51_bounded_wait`, `C51_half_the_time`, `C51_removal_race`, `C51_returns_partial`, `C51_silent_program`, `C52_foreign_name`, `C52_precedence_partial`, `C54_step_times_inside`, `C55_start_point_is_lost`, `C56_almost_surely`, `C56_default_population_samples`, `C56_draws_in_general_position`, `C56_general_draws_samples`, `C56_uncapped_population_samples`, `C57_commuting_gradient_partial`, `C57_gradient_partial`, `C57_not_the_derivative`, `C57_other_system_type_has_zero_gradient`, `C58_crash_during_run_partial`, `C58_crash_keeps_best_partial`, `C58_every_record_can_be_lost`, `C59_json_controls`, `C59_txt_controls`, `C61_calls_after_stop`, `C61_evaluations_within_budget_partial`, `C61_gradients_exceed_budget`, `C62_best_controls_reproduced_partial`, `C62_second_super_iteration_spoils_best`, `C63_global_phase`, `C63_history_independent_partial`, `C63_is_infidelity`, `C63_noise_and_drift`, `C63_range`, `C63_remembers_parameter`, `C63_unnormalized`, `C63_zero_iff_target_reached`, `C64_equivalent_controls`, `C64_is_infidelity`, `C64_noise`, `C64_range_and_zero`, `C64_short_phase`, `C64_unnormalized`, `C65_noise`, `C65_unique_minimum`, `C65_value`, `C66_control_flips_single_qubits`, `C66_drift_is_ring_energy_partial`, `C66_hermitian`, `C66_one_qubit_rejected`, `C66_states`, `C66_two_qubits`, `C66_two_qubits_wrong`, `C67_automatic_differentiation`, `C67_is_transition_probability`, `C67_range_and_optimum`, `C68_history_independent_partial`, `C68_same_pulse_after_propagator_partial`, `C68_stale_propagators`, `C69_fidelity_AD`, `C69_not_diff_differs`, `C69_not_diff_is_root_partial`, `C69_pure_states`, `C69_range_and_optimum`, `C69_same_as_example`, `C69_sqrtm`, `C69_state_to_dm`, `C69_symmetric`, `C69_unitary_invariant`, `C70_displacement`, `C70_same_direction`, `C71_ensemble`, `C71_realization`, `C71_statistics`, `C71_too_short`, `C72_columns`, `C72_nearest`, `C72_refine_and_back`, `C72_same_grid`, `C73_failed_write_loses_file`, `C73_function_not_written`, `C73_round_trip_partial`, `C74_remembered_dictionary`, `C75_cmaes_ignores_seed`, `C75_same_run_partial`, `C76_best_of_life`, `C76_budget_for_life`, `C76_failed_run_reports_nothing`, `C76_results_reported_partial`, `C76_stopped_before_first_evaluation`, `C76_stopped_for_life`, `C76_stopped_handle`, `C76_stored_without_reason`, `C76_time_limit_per_execution`, `C77_configured_budget`, `C77_run_settings`, `C77_settings_used`, `C78_containers_kept`, `C78_entries_kept`, `C79_create_twice`, `C79_sigma_sweep_fails`, `C79_sweep_partial`, `C79_switch_algorithm_fails`, `C80_bins_number_fails`, `C80_documented_defaults_partial`, `C80_initial_value_fails`, `C80_max_eval_fails`, `C80_max_eval_total_fails`, `C80_parameter_name_fails`, `C80_pulse_name_fails`, `C80_time_name_fails`, `C81_comment_in_parameter_fails`, `C81_extra_entries_partial`, `C81_reserved_names_fail`, `C82_from_dictionary`, `C82_run_admissible`, `C83_best_rows_reproduced_partial`, `C83_run_admissible_partial`, `C83_run_rows`, `C83_shorter_pulse_filled`, `C84_completes_cmaes_partial`, `C84_completes_grape_partial`, `C84_completes_nelder_mead_partial`, `C84_creation`, `C84_direct_search_raises`, `C84_direct_search_with_pulses`, `C84_grape_interrupt`, `C84_grape_without_budget`, `C84_only_user_errors_cmaes_partial`, `C84_only_user_errors_grape_partial`, `C84_only_user_errors_nelder_mead_partial`, `C84_reevaluation_without_budget`, `C85_boundary_kept_cut`, `C85_boundary_kept_shrink_partial`, `C85_guess_beyond_limits_moves_boundary`, `C85_shrink_moves_boundary`, `C86_derivative_of_parameters_partial`, `C86_one_entry_per_parameter_partial`, `C86_scaling_ignored`, `C86_wrong_number_of_entries`, `C87_chebyshev`, `C87_fourier`, `C87_piecewise`, `C87_sigmoid`, `C87_sinc`, `C88_sigmoid_ends_partial`, `C88_sigmoid_starts_above_zero`, `C89_first_call_is_initial_guess_partial`, `C89_optimized_time_restarts_elsewhere`, `C89_super_iteration_starts_at_best_partial`, `C90_earlier_stop`, `C90_larger_budget_not_worse`, `C90_smaller_budget`, `C91_change_of_unit_partial`, `C91_drift_average_scale`, `C91_order_decides_partial`, `C91_reevaluation_scale`, `C92_direct_search`, `C92_follows_publication`, `C92_rates`, `C92_reference_length`, `C92_step_size`, `C93_announced_becomes_best_partial`, `C93_announcement`, `C93_interrupted_compensation_loses_best`, `C93_uniform_drift_compensated`, `C93_values_follow`, `C94_any_units_nelder_mead`, `C94_common_unit_cmaes`, `C94_common_unit_nelder_mead`, `C94_origin_cmaes`, `C94_origin_nelder_mead`, `C94_units_nelder_mead`, `C94_user_function`, `C95_continued_optimization_partial`, `C95_continued_run_partial`, `C95_continuing_never_worse_partial`, `C95_first_call_is_earlier_controls_partial`, `C95_optimization_never_worse_partial`, `C95_scaled_pulses_are_scaled_again`, `C96_best`, `C96_best_controls`, `C96_best_mean`, `C96_best_mean_drift`, `C96_budget`, `C96_calls`, `C96_completes`, `C96_completes_repeated`, `C96_first_call`, `C96_follows_cmaes`, `C96_follows_nelder_mead`, `C96_goal`, `C96_limits`, `C96_only_user_errors`, `C96_samples`, `C97_accepted`, `C97_completes`, `C97_no_parameters`, `C97_required`, `C97_runs`, `C98_best`, `C98_best_controls`, `C98_budget`, `C98_calls`, `C98_completes`, `C98_failures`, `C98_follows`, `C98_follows_shaped`, `C98_goal`, `C98_limits`, `C98_runs`, `C98_samples`, `C99_best`, `C99_best_controls_partial`, `C99_best_evaluation_partial`, `C99_budget_partial`, `C99_calls`, `C99_completes`, `C99_failures`, `C99_follows_many_partial`, `C99_follows_partial`, `C99_goal_partial`, `C99_gradients_after_goal`, `C99_gradients_exceed_budget`, `C99_limits`, `C99_limits_same_bins`, `C99_runs`, `C99_samples`, `C99_samples_same_bins`
* **Quot.sound**: `C51_no_answer_raises`
* **Quot.sound, propext**: `C11_lost_pulse`, `C11_parameter_replaces_pulse`, `C11_pulse_named_FoM`, `C15_shrink_total`, `C17_base_pulse_accumulates`, `C18_unknown_option_ignored`, `C23_control_depends_on_own_slots_partial`, `C29_best_half`, `C33_only_last_values`, `C48_basis_states_cover`, `C48_out_of_range_rejected`, `C53_console`, `C53_debug_log`, `C53_logfile`, `C53_severity`, `C55_default_simplex_partial`, `C60_last_run_partial`, `C60_log_lost`, `C74_changed_controls_dumped`, `C74_fresh_dictionaries`, `C74_value_of_this_call_partial`, `C75_default_seed`, `C75_numbers_of_the_seed_partial`, `C83_same_parameters`
* **none**: `C73_not_opened`
* **propext**: `C11_only_records_written`, `C12_refuses`, `C52_missing_type`, `C53_no_debug_messages`, `C58_crash_loses_best`, `C58_outside_the_dump_partial`, `C73_error_code`, `C75_bad_seed_stops`, `C75_direct_search_ignores_seed`
