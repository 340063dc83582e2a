{"id": "C01", "title": "Total evaluation budget", "statement": "Whatever the search method asks for, the user's get_FoM is called at most max_eval_total times during a whole run (all super-iterations, re-evaluations and drift compensations included).", "quantifier": "all sequences of requested evaluations, all figure-of-merit answers, clocks and stop signals, all max_eval_total", "why_tests_cant": "the number of requests depends on the search method, the noise and the number of super-iterations; a test only samples one history", "anchors": ["src/quocslib/optimizationalgorithms/OptimizationAlgorithm.py: _routine_call", "src/quocslib/optimizationalgorithms/dCRABAlgorithm.py", "src/quocslib/optimizationalgorithms/DirectSearchAlgorithm.py"]}
{"id": "C02", "title": "Nothing is evaluated after the run was told to stop", "statement": "Once the run has been stopped (user stop, job cancellation, goal reached, budget used up, global time limit, or a non-zero status code from the figure of merit) get_FoM is never called again, however many further requests the search method issues, and the running state never becomes true again.", "quantifier": "all continuations after the stop, of any length", "why_tests_cant": "needs an invariant over unbounded histories of requests following a stop at an arbitrary point", "anchors": ["src/quocslib/optimizationalgorithms/OptimizationAlgorithm.py: _routine_call", "src/quocslib/communication/AllInOneCommunication.py: get_data, set_is_running_state, get_user_running"]}
{"id": "C03", "title": "Reaching the goal stops the run", "statement": "As soon as the best figure of merit is at least as good as the requested FoM_goal (<= for minimization, >= for maximization), no further get_FoM call is made.", "quantifier": "all goals, directions, histories of evaluations", "why_tests_cant": "the goal may be hit at any evaluation of any history", "anchors": ["src/quocslib/optimizationalgorithms/OptimizationAlgorithm.py: __init__, _routine_call"]}
{"id": "C04", "title": "Reported best figure of merit is the true optimum of what was measured", "statement": "Without re-evaluation or drift compensation the best figure of merit of a run equals the best (minimum for minimization, maximum for maximization) of all non-failed figures of merit returned by get_FoM (or the initial value 1e10 if none was better) and it never gets worse during the run.", "quantifier": "all histories of figure-of-merit answers including failures and NaN, both directions", "why_tests_cant": "optimum over an unbounded history", "anchors": ["src/quocslib/optimizationalgorithms/OptimizationAlgorithm.py: get_is_record, _routine_call", "src/quocslib/optimizationalgorithms/DirectSearchAlgorithm.py: _inner_routine_call", "src/quocslib/optimizationalgorithms/dCRABAlgorithm.py: _inner_routine_call"]}
{"id": "C05", "title": "A record is flagged exactly on strict improvement", "statement": "Without re-evaluation or drift compensation an evaluation is reported to the client as a record if and only if its figure of merit is strictly better than every figure of merit measured before; ties and NaN never count as a record.", "quantifier": "all histories, including ties, NaN and infinities", "why_tests_cant": "order/tie behaviour over all prefixes of all histories", "anchors": ["src/quocslib/optimizationalgorithms/OptimizationAlgorithm.py: get_is_record", "src/quocslib/optimizationalgorithms/DirectSearchAlgorithm.py: _inner_routine_call"]}
{"id": "C06", "title": "Maximization is minimization of the negated figure of merit", "statement": "A run with optimization_direction maximization and figure of merit f evaluates exactly the same controls in the same order as a run with minimization and figure of merit -f (goal negated), and reports the negated best value.", "quantifier": "all figures of merit (also history dependent), all goals, all search strategies", "why_tests_cant": "an equivalence between two unbounded executions", "anchors": ["src/quocslib/optimizationalgorithms/OptimizationAlgorithm.py: __init__", "src/quocslib/communication/AllInOneCommunication.py: __init__, get_data"]}
{"id": "C07", "title": "A failed evaluation ends the run and is not recorded", "statement": "If get_FoM answers with a status code different from zero, the running state becomes false, the result is not written by the results dump, and nothing is evaluated afterwards.", "quantifier": "every position of the failing evaluation in every history", "why_tests_cant": "the failure can occur at any point of any history", "anchors": ["src/quocslib/communication/AllInOneCommunication.py: get_data, send_fom_response"]}
{"id": "C08", "title": "The evaluation counter is exact", "statement": "The number of function evaluations reported in the final results equals the number of times the user's get_FoM was called.", "quantifier": "all runs, stops and failures", "why_tests_cant": "counting invariant over all histories incl. early stops", "anchors": ["src/quocslib/optimizationalgorithms/OptimizationAlgorithm.py: _routine_call, end"]}
{"id": "C09", "title": "Every run ends", "statement": "With a finite max_eval_total the optimization loop (Nelder-Mead inside any number of super-iterations) ends after finitely many steps for every behaviour of the figure of merit.", "quantifier": "all figures of merit, all starting points, all budgets", "why_tests_cant": "termination is a liveness property over all executions", "anchors": ["src/quocslib/optimizationalgorithms/OptimizationAlgorithm.py", "src/quocslib/gradientfreemethods/NelderMead.py", "src/quocslib/optimizationalgorithms/dCRABAlgorithm.py: run", "src/quocslib/optimizationalgorithms/DirectSearchAlgorithm.py: run"]}
{"id": "C10", "title": "The dumped best controls belong to the best figure of merit", "statement": "At every moment after the first record, the best-controls file (for dump formats that overwrite) contains the controls and figure of merit of the best successful evaluation so far (with re-evaluation: of the accepted record with its mean), and files are written only on records.", "quantifier": "all histories of evaluations, crash after any evaluation", "why_tests_cant": "crash points and unbounded histories", "anchors": ["src/quocslib/utils/BestDump.py: dump_controls", "src/quocslib/communication/AllInOneCommunication.py: send_fom_response"]}
{"id": "C11", "title": "Dumped controls use unique, complete names", "statement": "The dictionary of dumped controls contains every pulse, time grid and parameter under its own name; no control silently replaces another one.", "quantifier": "all lists of control names", "why_tests_cant": "collision behaviour over all name lists", "anchors": ["src/quocslib/utils/BestDump.py: dump_controls"]}
{"id": "C12", "title": "Results of earlier runs are never overwritten", "statement": "A run creates a results folder that did not exist before, or refuses to start.", "quantifier": "all existing folder sets, names and timestamps", "why_tests_cant": "depends on arbitrary file-system contents", "anchors": ["src/quocslib/communication/AllInOneCommunication.py: __init__"]}
{"id": "C13", "title": "Delivered pulses respect the amplitude limits", "statement": "If limit_pulse is the last shaping option (as by default), every sample of every pulse delivered to the figure of merit lies between the lower and the upper amplitude limit, in cut and in shrink mode, and also if the user swapped the two limits.", "quantifier": "all pulses, basis outputs, guesses, scalings, base pulses, limits, shaping prefixes", "why_tests_cant": "real-valued inputs of any length", "anchors": ["src/quocslib/pulses/BasePulse.py: get_pulse, limit_pulse, _get_limited_pulse, _shrink_pulse_2"]}
{"id": "C14", "title": "Cutting only touches samples outside the limits", "statement": "In cut mode a sample inside the limits is unchanged, a sample outside becomes the nearest limit; applying the limits twice changes nothing.", "quantifier": "all pulses and limits", "why_tests_cant": "real-valued inputs of any length", "anchors": ["src/quocslib/pulses/BasePulse.py: _get_limited_pulse"]}
{"id": "C15", "title": "Shrinking preserves the shape", "statement": "In shrink mode a pulse inside the limits is unchanged; otherwise it is mapped by one order-preserving affine rescaling (no sample order is swapped, equal samples stay equal) and fits the limits.", "quantifier": "all pulses and limits", "why_tests_cant": "real-valued inputs of any length", "anchors": ["src/quocslib/pulses/BasePulse.py: _shrink_pulse_2"]}
{"id": "C16", "title": "Pulse and time grid have bins_number samples", "statement": "Every delivered pulse has exactly bins_number samples, the same as its time grid; the grid starts at 0, ends at the total time and is equally spaced and increasing.", "quantifier": "all bins numbers, times and shaping lists", "why_tests_cant": "all sizes", "anchors": ["src/quocslib/pulses/BasePulse.py: _set_time_grid, get_pulse, _get_build_pulse"]}
{"id": "C17", "title": "Super-iterations accumulate the pulse", "statement": "After any number of super-iterations the base pulse is the sum of the best updates of all finished super-iterations (or the last one if overwrite_base_pulse is set).", "quantifier": "any number of super-iterations and updates", "why_tests_cant": "unbounded number of super-iterations", "anchors": ["src/quocslib/pulses/BasePulse.py: set_base_pulse", "src/quocslib/Controls.py: update_base_controls", "src/quocslib/optimizationalgorithms/dCRABAlgorithm.py: _update_base_pulses"]}
{"id": "C18", "title": "Shaping options are applied in the listed order and unknown ones are ignored", "statement": "The delivered pulse is the composition of the known shaping steps in the order in which the user lists them; unknown names have no effect.", "quantifier": "all lists of shaping option names", "why_tests_cant": "all lists", "anchors": ["src/quocslib/pulses/BasePulse.py: __init__, _get_build_pulse"]}
{"id": "C19", "title": "Documented boundary enforcement works", "statement": "With the documented order (base, update, scale, guess, limit) and cut limits, at every sample where the scaling function is 0 the delivered pulse equals the initial guess cut to the limits, for every update and base pulse.", "quantifier": "all updates, bases, guesses, super-iterations", "why_tests_cant": "all real updates", "anchors": ["src/quocslib/pulses/BasePulse.py", "Documentation/Enforcing_Boundaries.md"]}
{"id": "C20", "title": "Every control parameter has its own slot", "statement": "The index lists of all pulses and parameters are pairwise disjoint, contiguous, in order, and together exactly cover 0..n-1 where n is the control-parameter number (times not optimized).", "quantifier": "all numbers of pulses, parameters and basis sizes", "why_tests_cant": "all configurations", "anchors": ["src/quocslib/Controls.py: __init__, _update_control_parameter_indexes, get_control_parameters_number", "src/quocslib/pulses/BasePulse.py: control_parameters_list", "src/quocslib/parameters/BaseParameter.py"]}
{"id": "C21", "title": "Start point and start sizes come from the controls", "statement": "The mean-value vector and the sigma vector given to the search have n entries and entry i of each is the mean / amplitude variation of the control owning slot i.", "quantifier": "all configurations", "why_tests_cant": "all configurations", "anchors": ["src/quocslib/Controls.py: get_mean_value, get_sigma_variation"]}
{"id": "C22", "title": "Parameters respect their limits", "statement": "Every parameter value delivered to the figure of merit lies between its lower and upper limit (given lower<=upper), inside values are passed unchanged, for every search vector.", "quantifier": "all search vectors", "why_tests_cant": "all reals", "anchors": ["src/quocslib/parameters/BaseParameter.py: get_parameter, _check_limits", "src/quocslib/Controls.py: _get_controls_lists"]}
{"id": "C23", "title": "Each control only depends on its own slots", "statement": "Changing a slot of the search vector changes only the one pulse or parameter that owns the slot.", "quantifier": "all configurations and vectors", "why_tests_cant": "non-interference over all inputs", "anchors": ["src/quocslib/Controls.py: _get_controls_lists"]}
{"id": "C24", "title": "Nelder-Mead never loses its best point", "statement": "In every iteration the best value kept in the simplex does not increase, and while no stop interrupts an iteration the returned minimum is the smallest of all values obtained by the search.", "quantifier": "all objective answers, all starting simplices, any number of iterations", "why_tests_cant": "invariant over unbounded iterations", "anchors": ["src/quocslib/gradientfreemethods/NelderMead.py: run_dsm"]}
{"id": "C25", "title": "The Nelder-Mead result is a measured pair", "statement": "The returned minimum value is the value the objective returned for the returned point (no drift compensation), never a stale or mixed pair.", "quantifier": "all objective answers, any number of iterations, interruption at any evaluation", "why_tests_cant": "interruption point is arbitrary", "anchors": ["src/quocslib/gradientfreemethods/NelderMead.py: run_dsm"]}
{"id": "C26", "title": "Nelder-Mead keeps the simplex well formed", "statement": "The simplex always has n+1 vertices of dimension n, its values are sorted at the start of every iteration, and the number of reported function evaluations is the number of objective calls.", "quantifier": "all dimensions and iterations", "why_tests_cant": "unbounded iterations", "anchors": ["src/quocslib/gradientfreemethods/NelderMead.py: run_dsm", "src/quocslib/gradientfreemethods/DirectSearchMethod.py"]}
{"id": "C27", "title": "Nelder-Mead evaluation overshoot is bounded", "statement": "With a maximum number of evaluations m for one direct search, the search makes at most max(m - 1, n + 1) + n + 2 objective calls (plus one drift compensation if that is switched on).", "quantifier": "all objectives, m, n", "why_tests_cant": "unbounded histories", "anchors": ["src/quocslib/gradientfreemethods/NelderMead.py", "src/quocslib/stoppingcriteria/NelderMeadStoppingCriteria.py", "src/quocslib/stoppingcriteria/StoppingCriteria.py: _check_func_eval"]}
{"id": "C28", "title": "Nelder-Mead moves are the documented affine combinations", "statement": "Reflection, expansion, contraction and shrink points are centroid-based affine combinations, so all trial points stay in the affine hull of the initial simplex.", "quantifier": "all simplices and coefficients", "why_tests_cant": "all reals", "anchors": ["src/quocslib/gradientfreemethods/NelderMead.py: run_dsm"]}
{"id": "C29", "title": "CMA-ES recombination weights are a convex combination", "statement": "For every population size >= 2 the recombination weights are positive, strictly decreasing and sum to one, and 1 <= mueff <= mu.", "quantifier": "all population sizes and dimensions", "why_tests_cant": "all sizes", "anchors": ["src/quocslib/gradientfreemethods/CMAES.py: run_dsm"]}
{"id": "C30", "title": "CMA-ES stops only between generations and bounds the overshoot", "statement": "CMA-ES performs whole generations; with a maximal number m of evaluations it performs fewer than m + population-size evaluations (if m>0).", "quantifier": "all objectives", "why_tests_cant": "unbounded histories", "anchors": ["src/quocslib/gradientfreemethods/CMAES.py: run_dsm", "src/quocslib/stoppingcriteria/CMAESStoppingCriteria.py"]}
{"id": "C31", "title": "CMA-ES result is the best individual of the last generation", "statement": "The returned value is the minimum of the last generation and was measured at the returned point.", "quantifier": "all objectives and samples", "why_tests_cant": "unbounded histories", "anchors": ["src/quocslib/gradientfreemethods/CMAES.py: run_dsm"]}
{"id": "C32", "title": "A search is stopped exactly by its criteria", "statement": "The direct search ends exactly when one of the configured criteria (evaluations, simplex size, figure-of-merit spread, time, advanced change-based stop) is met, and the reported reason names a criterion that is met.", "quantifier": "all simplices, values, times, settings", "why_tests_cant": "decision logic over all reals", "anchors": ["src/quocslib/stoppingcriteria/StoppingCriteria.py", "src/quocslib/stoppingcriteria/NelderMeadStoppingCriteria.py", "src/quocslib/stoppingcriteria/CMAESStoppingCriteria.py"]}
{"id": "C33", "title": "Change-based stop measures the least-squares slope", "statement": "The change-based stop fires iff it is active, at least n evaluations were made in this search and |slope*n| of the least-squares line through the last n values is below the threshold; it uses only the last n values.", "quantifier": "all histories", "why_tests_cant": "all histories", "anchors": ["src/quocslib/stoppingcriteria/StoppingCriteria.py: _check_cbs"]}
{"id": "C34", "title": "Re-evaluation count is bounded", "statement": "One requested dCRAB point is measured at most 1 + length(re_evaluation_steps) times.", "quantifier": "all measurement outcomes and step lists", "why_tests_cant": "all outcomes", "anchors": ["src/quocslib/optimizationalgorithms/dCRABAlgorithm.py: _inner_routine_call"]}
{"id": "C35", "title": "Re-evaluated records pass every threshold", "statement": "With re-evaluation a point becomes the new best only if the probability of being better reached the threshold of every re-evaluation step.", "quantifier": "all measurement outcomes and step lists", "why_tests_cant": "all outcomes", "anchors": ["src/quocslib/optimizationalgorithms/dCRABAlgorithm.py: _inner_routine_call, _probabnormx1betterx2"]}
{"id": "C36", "title": "Re-evaluated figure of merit is the mean of the measurements", "statement": "The figure of merit the search sees for a re-evaluated point is the arithmetic mean of its measurements.", "quantifier": "all measurement outcomes", "why_tests_cant": "all outcomes", "anchors": ["src/quocslib/optimizationalgorithms/dCRABAlgorithm.py: _get_average_FoM_std"]}
{"id": "C37", "title": "Best controls can be reproduced after the run", "statement": "After a dCRAB run the controls returned by get_best_controls are the controls at which the best figure of merit was measured.", "quantifier": "all histories, super-iterations, bases", "why_tests_cant": "unbounded histories", "anchors": ["src/quocslib/optimizationalgorithms/OptimizationAlgorithm.py: get_best_controls", "src/quocslib/optimizationalgorithms/dCRABAlgorithm.py: run, _update_base_pulses"]}
{"id": "C38", "title": "Final result reports the best point", "statement": "The final results' figure of merit and parameters are those of the best evaluation.", "quantifier": "all histories and stop points", "why_tests_cant": "arbitrary stop points", "anchors": ["src/quocslib/optimizationalgorithms/dCRABAlgorithm.py: _get_final_results", "src/quocslib/optimizationalgorithms/DirectSearchAlgorithm.py: _get_final_results"]}
{"id": "C39", "title": "Number of super-iterations", "statement": "A dCRAB run executes at most super_iteration_number super-iterations, stops early if the run is stopped, and each super-iteration draws a new basis.", "quantifier": "all histories", "why_tests_cant": "arbitrary stop points", "anchors": ["src/quocslib/optimizationalgorithms/dCRABAlgorithm.py: run"]}
{"id": "C40", "title": "Random super-parameters stay in their range", "statement": "Every Uniform super-parameter lies in [lower, upper], one in each of n equal bins, in increasing order, for every random draw.", "quantifier": "all n, limits and random draws", "why_tests_cant": "random input", "anchors": ["src/quocslib/pulses/superparameter/Uniform.py"]}
{"id": "C41", "title": "Basis pulses are linear in the optimized coefficients", "statement": "For Fourier, Chebyshev, Sinc and piecewise bases the pulse is linear in the coefficients; zero coefficients give the zero update.", "quantifier": "all coefficients, grids and super-parameters", "why_tests_cant": "all reals", "anchors": ["src/quocslib/pulses/basis/Fourier.py", "src/quocslib/pulses/basis/Chebyshev.py", "src/quocslib/pulses/basis/Sinc.py", "src/quocslib/pulses/basis/PiecewiseBasis.py", "src/quocslib/pulses/basis/Walsh.py"]}
{"id": "C42", "title": "Number of coefficients per basis matches what the basis reads", "statement": "Each basis reads exactly the coefficients it declares: declared number equals the number used to build the pulse.", "quantifier": "all basis sizes", "why_tests_cant": "all sizes", "anchors": ["src/quocslib/pulses/basis/"]}
{"id": "C43", "title": "Start simplex", "statement": "The start simplex has n+1 points, the first one is the mean point, the edges from the mean point are linearly independent (no start size zero), their spread in every coordinate is the requested start size, and the edges are orthogonal.", "quantifier": "all n, means, sigmas, random draws", "why_tests_cant": "random input, all dimensions", "anchors": ["src/quocslib/tools/linearalgebra.py: simplex_creation, gram_schmidt"]}
{"id": "C44", "title": "Piecewise evolution composes", "statement": "The final propagator of pw_final_evolution is the time-ordered product of the step propagators of pw_evolution times the initial one; splitting a pulse in two parts composes.", "quantifier": "all drives, Hamiltonians, slices", "why_tests_cant": "all sizes", "anchors": ["src/quocslib/timeevolution/piecewise_integrator.py"]}
{"id": "C45", "title": "Hermitian Hamiltonians give unitary evolution", "statement": "If drift and control Hamiltonians are Hermitian, all propagators and the final evolution are unitary, and norms/traces of evolved states are preserved.", "quantifier": "all drives, Hamiltonians, slices", "why_tests_cant": "all complex matrices", "anchors": ["src/quocslib/timeevolution/piecewise_integrator.py"]}
{"id": "C46", "title": "GRAPE forward and backward propagation agree", "statement": "The overlap of the forward-propagated state and backward-propagated target is the same at every time slice, and equals the overlap at the final time.", "quantifier": "all propagators and numbers of slices", "why_tests_cant": "all sizes", "anchors": ["src/quocslib/optimizationalgorithms/GRAPEAlgorithm.py: get_gradient"]}
{"id": "C47", "title": "Automatic-differentiation propagator store", "statement": "pw_evolution_AD returns the step propagators.", "quantifier": "all drives", "why_tests_cant": "all sizes", "anchors": ["src/quocslib/timeevolution/piecewise_integrator_AD.py"]}
{"id": "C48", "title": "Partial trace uses a permutation of the subsystem axes", "statement": "The axis order used for the partial trace is a permutation that keeps the requested subsystems and traces out all others, the result is the mathematical partial trace (in particular the trace is preserved), and out-of-range requests are rejected.", "quantifier": "all subsystem numbers and selections", "why_tests_cant": "all sizes", "anchors": ["src/quocslib/tools/partial_trace.py"]}
{"id": "C49", "title": "Superoperator identities", "statement": "to_sup_op / to_vec satisfy: applying the superoperator of H to vec(rho) is vec of the commutator with H.", "quantifier": "all matrices", "why_tests_cant": "all complex matrices", "anchors": ["src/quocslib/tools/linearalgebra.py"]}
{"id": "C50", "title": "File-based evaluation never uses a stale figure of merit", "statement": "The file-exchange figure of merit only returns a value written after the controls of the same evaluation were published.", "quantifier": "all schedules of the external program", "why_tests_cant": "all interleavings", "anchors": ["src/quocslib/utils/FilesUpdateFom.py"]}
{"id": "C51", "title": "File-based evaluation waits a bounded time and fails cleanly", "statement": "If the external program does not answer, the exchange gives up after the configured time, and the run is stopped with a status code instead of crashing.", "quantifier": "all schedules", "why_tests_cant": "all interleavings", "anchors": ["src/quocslib/utils/FilesUpdateFom.py", "src/quocslib/communication/AllInOneCommunication.py: get_data"]}
{"id": "C52", "title": "Class lookup precedence", "statement": "Configuration entries are resolved with the precedence attribute, then built-in name, then module and class; an unresolvable entry yields no class.", "quantifier": "all configurations", "why_tests_cant": "all combinations", "anchors": ["src/quocslib/utils/dynamicimport.py"]}
{"id": "C54", "title": "Step times of the sigmoid bases stay inside the pulse", "statement": "After the time variations of the optimizer are applied, every step time of a SigmoidTimeDep / SigmoidAllParas pulse lies between the offset and total time minus offset, and the order of the steps is kept.", "quantifier": "all step times, variations, offsets and durations", "why_tests_cant": "all real vectors of any length", "anchors": ["src/quocslib/pulses/basis/SigmoidTimeDep.py: _get_shaped_pulse", "src/quocslib/pulses/basis/SigmoidAllParas.py: _get_shaped_pulse"]}
{"id": "C53", "title": "Log level filter", "statement": "A message is printed/written iff its level passes the configured verbosity.", "quantifier": "all levels", "why_tests_cant": "all combinations", "anchors": ["src/quocslib/communication/AllInOneCommunication.py: print_logger"]}
{"id": "C55", "title": "Nelder-Mead starts at the given point", "statement": "A Nelder-Mead search without a prescribed start simplex has the given start point as a vertex; every other vertex differs from it in exactly one entry.", "quantifier": "all dimensions and start points", "why_tests_cant": "all real vectors of any length", "anchors": ["src/quocslib/gradientfreemethods/NelderMead.py: run_dsm (initial_simplex is None)"]}
{"id": "C56", "title": "CMA-ES candidates are drawn from a non-degenerate distribution around the best half", "statement": "Every point at which a CMA-ES search evaluates the objective is the start point (the first one) or is drawn from a normal distribution of full rank around the weighted mean of the best half of the previous generation: the covariance matrix never degenerates and the step size never becomes zero or negative, whatever values the objective returns.", "quantifier": "all objective values, dimensions, populations of at least two, start sizes and numbers of generations; all random draws as long as the learning rate of the covariance matrix is not capped (default population), almost all random draws for populations so large that it is capped", "why_tests_cant": "unbounded histories of covariance updates; events of probability zero", "anchors": ["src/quocslib/gradientfreemethods/CMAES.py: run_dsm"]}
{"id": "C57", "title": "GRAPE gradient is the derivative of the overlap", "statement": "The gradient GRAPE hands to the optimizer is, entry by entry, the derivative of the negative overlap between target and evolved state with respect to the amplitude of that slice, and has one entry per optimized amplitude.", "quantifier": "all drives, Hamiltonians, states, numbers of slices", "why_tests_cant": "statement about derivatives for all complex matrices", "anchors": ["src/quocslib/optimizationalgorithms/GRAPEAlgorithm.py: get_gradient"]}
{"id": "C58", "title": "A crash while saving never loses the best controls", "statement": "Whenever the process dies, the controls file of the best result so far (or of the one before it) is complete on disk.", "quantifier": "all crash points and histories", "why_tests_cant": "every crash point", "anchors": ["src/quocslib/utils/BestDump.py: dump_controls"]}
{"id": "C59", "title": "The controls file for the external program is complete", "statement": "The controls file handed to an external program contains every pulse, time grid and parameter, each under its own key or on its own line.", "quantifier": "all numbers of pulses and parameters", "why_tests_cant": "all lists of controls", "anchors": ["src/quocslib/utils/FilesUpdateFom.py: put_controls_into_user_path"]}
{"id": "C60", "title": "Each run has its own log", "statement": "The messages of a run are written to the log file of that run, whatever other runs are created in the same process.", "quantifier": "all sequences of runs", "why_tests_cant": "all histories of a process-wide object", "anchors": ["src/quocslib/tools/logger.py: create_logger", "src/quocslib/communication/AllInOneCommunication.py: __init__"]}
{"id": "C61", "title": "Evaluation budget and stop in automatic-differentiation runs", "statement": "In an AD run the user's figure of merit is evaluated at most max_eval_total times, gradients included, and not again after the run was stopped.", "quantifier": "all optimizers, budgets, user functions and stop times", "why_tests_cant": "all histories of value and gradient requests", "anchors": ["src/quocslib/optimizationalgorithms/ADAlgorithm.py: run, inner_run, _inner_routine_call, get_gradient", "src/quocslib/optimizationalgorithms/OptimizationAlgorithm.py: _routine_call"]}
{"id": "C62", "title": "Best controls of an automatic-differentiation run", "statement": "The best controls of an AD run reproduce the best figure of merit, however many super-iterations follow the one in which it was found.", "quantifier": "all runs and numbers of super-iterations", "why_tests_cant": "all histories", "anchors": ["src/quocslib/optimizationalgorithms/ADAlgorithm.py: run, get_best_controls", "src/quocslib/optimizationalgorithms/OptimizationAlgorithm.py: _routine_call"]}
{"id": "C63", "title": "One-qubit problem: figure of merit", "statement": "The figure of merit of the one-qubit problem is the infidelity between the target state and the state reached under the drive (with the sign of the optimization direction), lies in [0,1], is zero exactly if the target is reached up to a phase, does not depend on global phases or on earlier evaluations, and noise and drift move it by at most their configured size.", "quantifier": "all pulses, parameters, time grids, states, random draws and histories of evaluations", "why_tests_cant": "all complex states and unbounded pulse lengths", "anchors": ["src/quocslib/optimalcontrolproblems/OneQubitProblem.py: get_FoM, _time_evolution, _get_fidelity"]}
{"id": "C64", "title": "One-qubit problem with two fields: figure of merit", "statement": "The figure of merit of the two-field problem is the infidelity between the target and the state reached under amplitude and phase pulses, in [0,1], zero exactly at the target; a phase shift by two pi does not change it; noise moves it by at most its configured size.", "quantifier": "all pulses, time grids, states, random draws", "why_tests_cant": "all complex states and unbounded pulse lengths", "anchors": ["src/quocslib/optimalcontrolproblems/OneQubitProblem_2fields.py"]}
{"id": "C65", "title": "Rosenbrock problem", "statement": "The figure of merit of the Rosenbrock problem is never below the value at (1,..,1), which is the only minimum; noise moves it by at most its configured size.", "quantifier": "all parameter vectors of length two or more and random draws", "why_tests_cant": "all real vectors of any length", "anchors": ["src/quocslib/optimalcontrolproblems/RosenbrockProblem.py"]}
{"id": "C66", "title": "Ising problem: Hamiltonians and states", "statement": "For n qubits the drift Hamiltonian is the energy of a ring of spins with couplings of neighbours (J) and next-nearest neighbours (g), the control Hamiltonian flips single qubits, both are Hermitian, and the initial and target state are the normalized states with all spins up and all spins down.", "quantifier": "all numbers of qubits and couplings", "why_tests_cant": "all sizes", "anchors": ["src/quocslib/optimalcontrolproblems/IsingModelProblem.py: get_static_hamiltonian, get_control_hamiltonian, get_initial_state, get_target_state", "src/quocslib/optimalcontrolproblems/IsingModelADProblem.py"]}
{"id": "C67", "title": "Ising problem: figure of merit", "statement": "The figure of merit of the Ising problem is (up to the sign of the direction) the probability to find all spins down after the evolution under the pulse; it lies in [-1,0] or [0,1], the optimum is reached exactly by pulses that bring all spins down, and the automatic-differentiation variant returns the same probability.", "quantifier": "all numbers of qubits, couplings, slices, pulses, time grids", "why_tests_cant": "all sizes and real pulses", "anchors": ["src/quocslib/optimalcontrolproblems/IsingModelProblem.py: get_FoM", "src/quocslib/optimalcontrolproblems/IsingModelADProblem.py: get_FoM", "src/quocslib/utils/jax_utils.py"]}
{"id": "C68", "title": "Ising problem: no stale propagators", "statement": "Whatever methods of the Ising problem were called before, the figure of merit returned for a pulse is that of this pulse.", "quantifier": "all histories of calls, also of raising ones", "why_tests_cant": "all histories", "anchors": ["src/quocslib/optimalcontrolproblems/IsingModelProblem.py: get_propagator, get_FoM"]}
{"id": "C69", "title": "Fidelities of density matrices", "statement": "The fidelity functions return the Uhlmann fidelity of two states: a number in [0,1], one exactly for equal states, symmetric, unchanged if both states are evolved by the same unitary, and the transition probability for pure states.", "quantifier": "all dimensions and all positive semidefinite matrices", "why_tests_cant": "all complex matrices of any size", "anchors": ["src/quocslib/tools/fidelities.py: fidelity_AD, fidelity_not_diff_due_to_sqrtm", "src/quocslib/tools/operations.py: state_to_dm, _sqrtm"]}
{"id": "C70", "title": "Displacement operator", "statement": "The displacement operator is unitary for every mode operator and displacement, the displacement by -alpha is its inverse, zero displacement is the identity, and displacements in the same direction add up.", "quantifier": "all matrices a and complex alpha", "why_tests_cant": "all matrices of any size", "anchors": ["src/quocslib/tools/operations.py: _displace"]}
{"id": "C71", "title": "Ornstein-Uhlenbeck noise", "statement": "A noise realization has one value per complete time step, starts at x0 and has the mean and the covariance of the Ornstein-Uhlenbeck process at the sampled times, whatever the step size is; an ensemble consists of one realization per trajectory.", "quantifier": "all parameters, times, random numbers; expectation over all standard normal sequences", "why_tests_cant": "all real parameters and distributions", "anchors": ["src/quocslib/noiseprocesses/ornsteinuhlenbeckprocess.py: OrnsteinUhlenbeck"]}
{"id": "C72", "title": "Resampling of pulses", "statement": "A resampled pulse has at each new time the value of a nearest original sample (first and last value outside of the range), resampling on the original grid changes nothing, and refining the grid and going back restores the pulse.", "quantifier": "all pulses, step sizes and time axes", "why_tests_cant": "all real sequences of any length", "anchors": ["src/quocslib/tools/pulsetools.py: resample_pulse"]}
{"id": "C73", "title": "Configuration and results files in JSON", "statement": "A dictionary of numbers, strings, lists, dictionaries, arrays, functions and classes that is written to a JSON file is read back with arrays as lists and functions and classes as None; the error code says whether the file was written, and a failed write does not destroy the previous file.", "quantifier": "all nested dictionaries and previous file contents", "why_tests_cant": "all nested values of any depth", "anchors": ["src/quocslib/utils/inputoutput.py: readjson, writejsonfile, ObjectEncoder"]}
{"id": "C74", "title": "Objects shared with the user's program", "statement": "The algorithm uses the value that the user's program returned in this call, with the sign of the direction, and the controls of a record are stored as they were evaluated, whatever objects the program reuses or changes in place between and during its calls.", "quantifier": "all histories of evaluations and all programs that share objects with QuOCS", "why_tests_cant": "histories of calls of any length with shared mutable objects", "anchors": ["src/quocslib/communication/AllInOneCommunication.py: get_data, send_controls, update_controls", "src/quocslib/Controls.py: get_controls_lists"]}
{"id": "C75", "title": "Reproducibility with a seed", "statement": "With a seed number in the settings a run is determined by the settings, the seed and the answers of the user's program: all random choices come from the sequence of that seed, whatever the state and use of NumPy's global generator; a seed number that is no integer is replaced by a default.", "quantifier": "all seeds, settings, states of the global generator and interference of other code", "why_tests_cant": "all histories of the shared global generator", "anchors": ["src/quocslib/tools/randomgenerator.py: RandomNumberGenerator", "src/quocslib/optimizationalgorithms/dCRABAlgorithm.py", "src/quocslib/optimizationalgorithms/DirectSearchAlgorithm.py", "src/quocslib/optimizationalgorithms/GRAPEAlgorithm.py", "src/quocslib/optimizationalgorithms/ADAlgorithm.py", "src/quocslib/tools/linearalgebra.py: simplex_creation", "src/quocslib/pulses/superparameter/Uniform.py", "src/quocslib/gradientfreemethods/CMAES.py"]}
{"id": "C76", "title": "The life of an Optimizer object", "statement": "Over the whole life of an optimizer object, also when it is executed several times or an execution raises, the user's function is called at most max_eval_total times, no call starts later than total_time_lim after the start of its execution, a stopped object evaluates nothing more, and (without re-evaluation and drift compensation) the reported figure of merit is the best one of all executions. Every execution stores and reports its final results, with the reason it ended.", "quantifier": "all search methods, answers of the user's function, clocks, stop requests and numbers of executions", "why_tests_cant": "The property is about all histories of executions, including those with exceptions at arbitrary points.", "anchors": ["src/quocslib/Optimizer.py: execute", "src/quocslib/optimizationalgorithms/OptimizationAlgorithm.py: begin, end", "src/quocslib/handleexit/HandleExit.py"]}
{"id": "C77", "title": "The configured settings are used", "statement": "If an Optimizer is created from an optimization dictionary, every setting of it (budget, time limits, direction, goal, search method, stopping criteria, super-iterations, drift compensation, re-evaluation, seed, limits and shapes of the pulses, parameters and times, in their order) is the one in the dictionary, or the default if the entry is missing.", "quantifier": "all optimization dictionaries, for dCRAB, direct search, GRAPE and AD, all user functions and importable classes", "why_tests_cant": "There are dozens of optional settings at different depths; tests cover a few combinations of present and missing entries.", "anchors": ["src/quocslib/Optimizer.py: __init__", "src/quocslib/optimizationalgorithms/OptimizationAlgorithm.py: __init__", "src/quocslib/optimizationalgorithms/dCRABAlgorithm.py: __init__", "src/quocslib/optimizationalgorithms/DirectSearchAlgorithm.py: __init__", "src/quocslib/optimizationalgorithms/GRAPEAlgorithm.py: __init__", "src/quocslib/optimizationalgorithms/ADAlgorithm.py: __init__", "src/quocslib/Controls.py: __init__", "src/quocslib/pulses/BasePulse.py: __init__"]}
{"id": "C78", "title": "The optimization dictionary is only extended", "statement": "Creating an Optimizer, whether it succeeds or raises, keeps every entry that the user wrote in the dictionary, at any depth; only missing entries are added.", "quantifier": "all optimization dictionaries and all points at which the creation can fail", "why_tests_cant": "The constructors write into the dictionary of the user; the property covers every entry at every depth and every failure.", "anchors": ["src/quocslib/Optimizer.py: __init__", "src/quocslib/optimizationalgorithms/dCRABAlgorithm.py: __init__", "src/quocslib/Controls.py: __init__"]}
{"id": "C79", "title": "Optimizers created again from one dictionary", "statement": "Creating a second Optimizer from the same dictionary gives the same settings. If the user changes entries between creations (a sweep), every Optimizer has the settings that a never used dictionary with the same changes gives.", "quantifier": "all dictionaries and all sequences of changes of entries and creations", "why_tests_cant": "Defaults written by one creation could influence the next one; only some sequences of changes would show it.", "anchors": ["src/quocslib/Optimizer.py: __init__", "src/quocslib/pulses/basis/SigmoidTimeDep.py", "src/quocslib/optimizationalgorithms/ADAlgorithm.py: __init__"]}
{"id": "C80", "title": "Documented defaults", "statement": "Leaving out an entry of the optimization dictionary is the same as writing the default that the documentation gives for it.", "quantifier": "all optimization dictionaries, all documented entries, all positions of pulses, parameters and times", "why_tests_cant": "Tests use dictionaries in which most entries are present; the claim is about every entry in every surrounding.", "anchors": ["Documentation/Settings_in_Optimization_Dict.md", "src/quocslib/optimizationalgorithms/OptimizationAlgorithm.py: __init__", "src/quocslib/parameters/BaseParameter.py: __init__", "src/quocslib/parameters/TimeParameter.py: __init__"]}
{"id": "C81", "title": "Comments in the optimization dictionary", "statement": "Entries with names that are not names of settings, for example comments, have no influence on the created Optimizer.", "quantifier": "all dictionaries, all names and values of additional entries in the dictionary, its algorithm settings, pulses, parameters and times", "why_tests_cant": "The claim is about every possible additional name and value.", "anchors": ["Documentation/Settings_in_Optimization_Dict.md", "src/quocslib/Controls.py: __init__", "src/quocslib/parameters/Parameter.py: __init__"]}
{"id": "C82", "title": "Everything delivered respects the lists of pulses, times and parameters", "statement": "In every run, whatever the search method tries and the user's function answers, all controls passed to the user's function, saved to files, or returned as best controls have as many pulses and parameters as the dictionary lists, each pulse within its limits if limit_pulse is the last shaping step, sampled with its number of bins on an equidistant time grid over a duration allowed by the list of times, and each parameter within its limits.", "quantifier": "all optimization dictionaries, search methods, random numbers, answers of the user's function, all calls of a run and all points where it ends", "why_tests_cant": "The claim is about every call of every run; a device can be damaged by a single pulse outside of its limits.", "anchors": ["src/quocslib/Controls.py: get_controls_lists", "src/quocslib/pulses/BasePulse.py: get_pulse", "src/quocslib/optimizationalgorithms/OptimizationAlgorithm.py: inner_routine_call", "src/quocslib/Optimizer.py: execute"]}
{"id": "C83", "title": "Controls in runs with automatic differentiation", "statement": "In a run with automatic differentiation the rows of the arrays given to the user's function are the pulses and time grids of the dictionary (as C82), with the same parameters as in other runs, and the best controls are the arrays with which the best figure of merit was measured.", "quantifier": "all lists of pulses, times and parameters, optimizers, answers of the user's function and calls", "why_tests_cant": "The claim is about every call of every run and every combination of numbers of bins.", "anchors": ["src/quocslib/Controls.py: _get_controls_jax_obj, _get_converted_jax_obj", "src/quocslib/optimizationalgorithms/ADAlgorithm.py: inner_run"]}
{"id": "C84", "title": "Only the user's function can make a run fail", "statement": "With a usable optimization dictionary (something to optimize, at least one bin and one coefficient per pulse, arrays that fit, times that exist, different ends for optimized durations) the controls can be created, and a run raises an exception only if the last call of the user's function raised it or returned no figure of merit; if the user's function always answers, the run ends without an exception.", "quantifier": "all usable dictionaries, settings, random numbers, histories of answers of the user's function, stop requests and clocks, any number of super-iterations and evaluations", "why_tests_cant": "A run of many hours can be lost by an exception at any of its steps; the claim covers every step of every run.", "anchors": ["src/quocslib/Optimizer.py: execute", "src/quocslib/optimizationalgorithms/OptimizationAlgorithm.py: inner_routine_call", "src/quocslib/optimizationalgorithms/dCRABAlgorithm.py: run, _dsm_build, _inner_routine_call, _get_controls", "src/quocslib/optimizationalgorithms/DirectSearchAlgorithm.py: run, _get_controls", "src/quocslib/Controls.py", "src/quocslib/pulses/BasePulse.py", "src/quocslib/tools/linearalgebra.py: simplex_creation", "src/quocslib/gradientfreemethods/NelderMead.py", "src/quocslib/gradientfreemethods/CMAES.py"]}
{"id": "C85", "title": "Values at the ends of a pulse when the limits act before the guess", "statement": "With the shaping order add_base_pulse, add_new_update_pulse, scale_pulse, limit_pulse, add_initial_guess (documented as the way to combine fixed ends with shrinking) the delivered pulse has the value of the initial guess at every sample where the scaling function is zero, whether pulses are cut or shrunk (shrink_ampl_lim).", "quantifier": "all updates, base pulses, histories, limits around zero, guesses within the limits, scalings", "why_tests_cant": "The claim is about every update the search can try in every super-iteration.", "anchors": ["Documentation/Enforcing_Pulse_Boundaries_at_Beginning_and_End.md", "src/quocslib/pulses/BasePulse.py: _get_limited_pulse, _shrink_pulse_2, _get_initial_guess"]}
{"id": "C86", "title": "GRAPE's gradient belongs to the control parameters", "statement": "In a GRAPE run the gradient handed to the optimizer has one entry per control parameter, and each entry is the derivative with respect to that parameter of the figure of merit of the controls it produces.", "quantifier": "all pulses, parameters, times, states, Hamiltonians, propagators and control parameters", "why_tests_cant": "The gradient is derived for one pulse sample per parameter; only some dictionaries break this, silently.", "anchors": ["src/quocslib/optimizationalgorithms/GRAPEAlgorithm.py: get_gradient, inner_routine_call, __init__", "src/quocslib/Controls.py: get_controls_lists", "src/quocslib/pulses/BasePulse.py: get_pulse"]}
{"id": "C87", "title": "Documented basis functions", "statement": "The update pulse of the Fourier, Chebyshev, Sinc, Sigmoid or piecewise basis is the sum of the documented functions with the given coefficients and super parameters, at every sample of the equidistant time grid.", "quantifier": "all numbers of vectors, coefficients, super parameters, durations and numbers of bins", "why_tests_cant": "The claim is about all real coefficients and times.", "anchors": ["Documentation/Settings_in_Optimization_Dict.md: Bases Overview", "src/quocslib/pulses/basis/Fourier.py", "src/quocslib/pulses/basis/Chebyshev.py", "src/quocslib/pulses/basis/Sinc.py", "src/quocslib/pulses/basis/Sigmoid.py", "src/quocslib/pulses/basis/PiecewiseBasis.py"]}
{"id": "C88", "title": "Sigmoid pulses are zero at beginning and end", "statement": "An update pulse of the Sigmoid basis is zero at the first and at the last sample.", "quantifier": "all coefficients, step times, offsets, sigmas and durations", "why_tests_cant": "The claim is about all real coefficients and times.", "anchors": ["Documentation/Settings_in_Optimization_Dict.md: Basis Settings, offset", "src/quocslib/pulses/basis/Sigmoid.py: _get_shaped_pulse"]}
{"id": "C89", "title": "A super-iteration starts where the last one ended", "statement": "In a dCRAB run the first call of the user's function uses the initial guess of the pulses and parameters, and the first call of each further super-iteration uses the best controls found so far. Asking for more super-iterations does not change the calls of the earlier ones.", "quantifier": "all dictionaries, answers of the user's function, random numbers, clocks, stop requests and numbers of super-iterations", "why_tests_cant": "The claim is about all histories of a run; a wrong base pulse, start vector or simplex would show only after the first super-iteration.", "anchors": ["src/quocslib/optimizationalgorithms/dCRABAlgorithm.py: run, _dsm_build", "src/quocslib/Controls.py: select_basis, update_base_controls, get_mean_value", "src/quocslib/pulses/BasePulse.py: get_pulse, set_base_pulse", "src/quocslib/gradientfreemethods/NelderMead.py", "src/quocslib/gradientfreemethods/CMAES.py"]}
{"id": "C90", "title": "Stopping earlier only cuts a run short", "statement": "A run with a smaller evaluation budget makes exactly the first calls of the same run with a larger budget, with the same controls and answers; the same holds for a shorter time limit, an additional goal and additional stop requests. Hence (without re-evaluation and drift compensation) a larger budget never gives a worse result.", "quantifier": "all algorithms, search methods, settings, answers of the user's function, clocks, stop requests and pairs of budgets", "why_tests_cant": "The claim compares two runs of any length at every possible stopping point.", "anchors": ["src/quocslib/optimizationalgorithms/OptimizationAlgorithm.py: _routine_call, is_optimization_running, stop_optimization", "src/quocslib/optimizationalgorithms/dCRABAlgorithm.py: run, _inner_routine_call", "src/quocslib/optimizationalgorithms/DirectSearchAlgorithm.py", "src/quocslib/optimizationalgorithms/GRAPEAlgorithm.py"]}
{"id": "C91", "title": "The scale of the figure of merit does not matter", "statement": "If a second user's function reports a strictly increasing function of what the first one reports (and the goal is converted), both runs make the same calls with the same controls, stop for the same reason and return the same best controls, provided the tolerance fatol is 0 and the change-based criterion is off. For a change of unit and zero point (a f + b with a > 0) the same holds with fatol and cbs_change multiplied by a.", "quantifier": "all user's functions and increasing transformations, starting points, random numbers, stop requests, clocks, budgets, numbers of super-iterations", "why_tests_cant": "The claim compares two runs of any length for all functions and all changes of scale.", "anchors": ["src/quocslib/gradientfreemethods/NelderMead.py", "src/quocslib/gradientfreemethods/CMAES.py", "src/quocslib/optimizationalgorithms/OptimizationAlgorithm.py: _routine_call", "src/quocslib/optimizationalgorithms/dCRABAlgorithm.py: _inner_routine_call", "src/quocslib/optimizationalgorithms/DirectSearchAlgorithm.py", "src/quocslib/stoppingcriteria/StoppingCriteria.py"]}
{"id": "C92", "title": "CMA-ES is the published algorithm", "statement": "Every point at which a CMA-ES search evaluates the objective after the start point is mean + step size * factor * standard normal vector, where mean, step size, evolution paths and covariance matrix follow, generation by generation, the equations and constants of the published CMA-ES (Hansen's tutorial) from the points and values before; in particular the step size grows exactly when the path is longer than the expected length of a random one, and never shrinks by more than a factor e per generation. In a direct search over parameters the user's function is called exactly at these points (brought into the limits), from the initial values and with the amplitude variations of the dictionary, with the figures of merit (negated for a maximization) as values.", "quantifier": "all objective values, dimensions, start sizes, populations from two on, random draws, numbers of generations", "why_tests_cant": "The equations relate unboundedly many generations; a test compares a few numbers.", "anchors": ["src/quocslib/gradientfreemethods/CMAES.py: run_dsm"]}
{"id": "C93", "title": "Drift compensation inside a search", "statement": "With compensate_after_minutes set, a Nelder-Mead search re-measures its best point no earlier than that many minutes after the last compensation (or its start), num_average times in a row, and announces the mean; all values it knows are moved by the same amount and no point is moved. If the objective has changed by the same amount everywhere, the search therefore goes on exactly as if nothing had changed. The announced value becomes the best figure of merit of the run and is reported as a record; it is a mean of measurements.", "quantifier": "all start simplices, figures of merit, clock readings, stops, numbers of averages, sizes of the drift, all configurations of the run (with and without re-evaluation)", "why_tests_cant": "depends on the times at which the clock is read, on the whole history before the compensation, and compares whole infinite continuations of two searches", "anchors": ["src/quocslib/gradientfreemethods/NelderMead.py: run_dsm (drift_comp_minutes, drift_comp_num_average)", "src/quocslib/optimizationalgorithms/dCRABAlgorithm.py: _inner_routine_call (drift_comp)", "src/quocslib/optimizationalgorithms/DirectSearchAlgorithm.py: _inner_routine_call"]}
{"id": "C94", "title": "Origin and unit of a parameter do not matter", "statement": "If parameters are declared with another origin (initial value and limits moved by an offset which the user's function subtracts again), the run is the same run: the same pulses, the same parameters up to the offset and the same answers call by call, the same reports, best controls, figure of merit and reasons for stopping. The same holds for other units (also the amplitude variation is multiplied) with Nelder-Mead, if the tolerance for the size of the simplex is changed accordingly or is zero.", "quantifier": "all lists of pulses and parameters, offsets, positive factors, user functions with or without memory, random numbers, clocks, stop requests; dCRAB and DirectSearch with Nelder-Mead and CMA-ES (origins) or Nelder-Mead (units)", "why_tests_cant": "It compares whole runs of any length for all offsets and factors; a single absolute constant anywhere in the search, the start simplex or the limits would break it.", "anchors": ["src/quocslib/parameters/BaseParameter.py: BaseParameter", "src/quocslib/Controls.py: Controls.get_mean_value, Controls.get_sigma_variation", "src/quocslib/gradientfreemethods/NelderMead.py: NelderMead.run_dsm", "src/quocslib/gradientfreemethods/CMAES.py: CMAES.run_dsm", "src/quocslib/tools/linearalgebra.py: simplex_creation"]}
{"id": "C95", "title": "A run can be continued from earlier results", "statement": "If the pulses of the best controls of a run (or any controls delivered in it) are put as initial guesses and the parameters as initial values into the same lists, the first call of a new dCRAB run uses exactly these controls, sample by sample. With a user function that has no memory, and without re-evaluation and drift compensation, the best figure of merit of the new run is then not worse than that of the old one.", "quantifier": "all lists of pulses, times and parameters, both ways to limit pulses, both search methods, all settings and random numbers of both runs, all stop requests, all ends of the first run; user functions without memory (for the second part)", "why_tests_cant": "It links the end of one run of any length with the start of another one; a second application of limits, scaling or base pulses shows only for pulses at their limits or after several super-iterations.", "anchors": ["src/quocslib/optimizationalgorithms/dCRABAlgorithm.py: DCrabAlgorithm.run, DCrabAlgorithm.get_best_controls", "src/quocslib/pulses/BasePulse.py: BasePulse._get_initial_guess, BasePulse._get_limited_pulse, BasePulse.scale_pulse", "src/quocslib/Controls.py: Controls.get_mean_value, Controls.get_controls_lists", "src/quocslib/parameters/BaseParameter.py: BaseParameter"]}
{"id": "C96", "title": "From the dictionary to the results", "statement": "For an Optimizer created from a dictionary for dCRAB or direct search with Nelder-Mead or CMA-ES and then executed: each call gets controls that fit to the dictionary (numbers of pulses and parameters, limits, bins); with the entry max_eval_total = n there are at most n calls; with FoM_goal = g the first call that returns a value at least as good (in the direction of the dictionary) is the last one; the reported figure of merit was returned by a call and none returned a better one, and with dCRAB and standard controls the reported best controls are those of such a call; if the user's function always answers, the run ends without an exception; the first call of dCRAB has the initial values of the parameters and, for pulses with default shaping, the initial guess times the scaling function in the limits; a direct search calls the user's function for exactly the vectors that the search method named in the dictionary (Nelder-Mead with its adaptive entry, CMA-ES with its population entry) asks for, cut to the limits, starting at the initial values with the sizes given by the amplitude variations, and tells it the returned values (negated for maximization). With re-evaluation or drift compensation after super-iterations the reported figure of merit of dCRAB is the start value or the mean over a group of successive calls, all with exactly the reported best controls. Goal, optimum, end and the calls of a direct search: for dictionaries without re-evaluation and drift compensation.", "quantifier": "all optimization dictionaries, user functions (which may depend on all earlier calls), stop requests, clocks, random numbers and numerical libraries", "why_tests_cant": "It composes all parts of the library, from reading the dictionary to the search and the reports; a unit test sees one dictionary and one function.", "anchors": ["src/quocslib/Optimizer.py: __init__, execute", "src/quocslib/optimizationalgorithms/OptimizationAlgorithm.py", "src/quocslib/optimizationalgorithms/dCRABAlgorithm.py", "src/quocslib/optimizationalgorithms/DirectSearchAlgorithm.py", "src/quocslib/Controls.py", "src/quocslib/gradientfreemethods/NelderMead.py", "src/quocslib/gradientfreemethods/CMAES.py"]}
{"id": "C97", "title": "Documented dictionaries are accepted", "statement": "Every optimization dictionary of the documented form (entries of the documented types, the built-in names for algorithm, search method, basis and distribution, the required entries present, functions that Python can evaluate) is accepted: the creation of the Optimizer raises nothing and uses the named algorithm. For dCRAB and direct search the optimization is carried out, and with plain controls and a user's function that always answers it runs to its end. The lists of pulses, parameters and times are never optional.", "quantifier": "all dictionaries of the documented form, all values of their entries and all further entries, all user's functions", "why_tests_cant": "The claim is about every combination of documented entries; tests use a few dictionaries.", "anchors": ["Documentation/Settings_in_Optimization_Dict.md", "src/quocslib/Optimizer.py: Optimizer.__init__, execute", "src/quocslib/optimizationalgorithms/OptimizationAlgorithm.py", "src/quocslib/optimizationalgorithms/dCRABAlgorithm.py", "src/quocslib/optimizationalgorithms/DirectSearchAlgorithm.py", "src/quocslib/optimizationalgorithms/GRAPEAlgorithm.py", "src/quocslib/optimizationalgorithms/ADAlgorithm.py"]}
{"id": "C98", "title": "From the dictionary to the results with GRAPE", "statement": "For an Optimizer created from a dictionary for GRAPE and then executed, whatever L-BFGS-B asks for: each call gets controls that fit to the dictionary; with the entry max_eval_total = n of algorithm_settings there are at most n calls; with FoM_goal = g the first call that returns a value at least as good (in the direction of the dictionary) is the last one; the reported figure of merit was returned by a call and none returned a better one, and with standard controls the reported best controls are those of such a call. With one piecewise constant pulse, with or without initial guess and scaling function, the calls are exactly those for the vectors that L-BFGS-B asks for: it is started with the options in the dictionary at a vector with entries (1 - 2 u) times the amplitude_variation (u random), gets the figure of merit of each call, negated for a maximization, and the gradient; the calls end early only because of a stop request, the budget, the time limit, a reached goal or a status other than 0. A dictionary of the documented form with one piecewise constant pulse is accepted and run. If the run raises, the last call of the user's function failed, or the user pressed Ctrl-C, or no call returned a value better than the start value.", "quantifier": "all optimization dictionaries for GRAPE, user functions, gradients, minimizers, stop requests, clocks and random numbers", "why_tests_cant": "It composes all parts of the library with an arbitrary minimizer; a unit test sees one dictionary, one function and one version of scipy.", "anchors": ["src/quocslib/Optimizer.py: __init__, execute", "src/quocslib/optimizationalgorithms/OptimizationAlgorithm.py", "src/quocslib/optimizationalgorithms/GRAPEAlgorithm.py", "src/quocslib/Controls.py"]}
{"id": "C99", "title": "From the dictionary to the results with automatic differentiation", "statement": "For an Optimizer created from a dictionary for the algorithm AD and then executed, whatever L-BFGS-B asks for and whatever the gradients are: each call of the user's function, for a figure of merit or for a gradient, gets controls that fit to the dictionary, as arrays whose rows are filled up with zeros to the length of the longest pulse; with the entry max_eval_total = n of algorithm_settings there are at most n calls; with FoM_goal = g no call follows the first one that returns a value at least as good (in the direction of the dictionary); the reported figure of merit was returned by a call for a figure of merit and none of these returned a better one, and with standard controls the reported best controls are those of such a call. The calls are the ones L-BFGS-B asks for, each with the controls of the vector it asks for, and it gets the figures of merit with the right sign and the gradients. A dictionary of the documented form is accepted and run. If the run raises, the last call of the user's function failed, or the user pressed Ctrl-C, or no call returned a value better than the start value.", "quantifier": "all optimization dictionaries for AD, user functions, gradients, minimizers, stop requests, clocks and random numbers", "why_tests_cant": "It composes all parts of the library with an arbitrary minimizer and arbitrary gradients; a unit test sees one dictionary, one function and one version of scipy and jax.", "anchors": ["src/quocslib/Optimizer.py: __init__, execute", "src/quocslib/optimizationalgorithms/OptimizationAlgorithm.py", "src/quocslib/optimizationalgorithms/ADAlgorithm.py", "src/quocslib/Controls.py: get_controls_lists with jax"]}
{"id": "C100", "title": "dCRAB: new frequencies, base pulse and update in every super-iteration", "statement": "For a dCRAB optimization with fixed times, default shaping and documented bases (Fourier, Chebyshev, sinc, sigmoid, piecewise), without re-evaluation and drift compensation: super-iteration k draws for every pulse one frequency in each of n equal parts of the interval of its distribution, at the positions given by n new random numbers. Every call of the user's function in this super-iteration gets, sample by sample, the initial guess (within the limits) plus the base pulse plus the documented sum for these frequencies with the coefficients of the search vector, multiplied with the scaling function and brought into the limits. The search starts without update. At the end the update of the kept search vector, which is the best of all calls so far or the start vector if no call of this super-iteration was better than all before, is added to the base pulse, or replaces it with overwrite_base_pulse. The first base pulse is zero.", "quantifier": "all usable dictionaries of this kind, user functions, search methods of the library with their settings, stop requests, clocks and random numbers, any number of super-iterations", "why_tests_cant": "A unit test checks one pulse object or one run with fixed random numbers; the relation between the calls of all super-iterations has to hold for every history of answers.", "anchors": ["src/quocslib/optimizationalgorithms/dCRABAlgorithm.py: run, _dsm_build, update_base_pulses", "src/quocslib/Controls.py: select_basis, update_base_controls, get_controls_lists", "src/quocslib/pulses/BasePulse.py: get_pulse, set_base_pulse", "src/quocslib/pulses/superparameter/Uniform.py: set_random_super_parameter"]}
{"id": "C101", "title": "Sigmoid bases with optimized step times and widths", "statement": "The update pulse of SigmoidTimeDep, SigmoidSigmas and SigmoidAllParas is, at every sample, a sum of error-function steps: the first at offset, one per random time with the next coefficient as its size, and one at the end that brings the pulse back to zero (SigmoidAllParas: only with an offset of at least 1e-10). The coefficients after the sizes move the step times (times tau_variation / amplitude_variation): if all wanted times are between offset and total time minus offset they are used, otherwise they are moved inside without changing their order. The last coefficients change the widths: with an offset of at least 1e-10 a width is never below sigma and never so large that an end of the pulse is fewer widths away than offset is for the first step. Therefore such a pulse starts and ends below exp(-(offset/sigma)^2/2) times half the sum of the sizes of its steps, for all coefficients.", "quantifier": "all numbers of steps, coefficients, random times, offsets, sigmas, variations, durations and numbers of bins", "why_tests_cant": "The optimizer may choose any coefficients, also ones that move the steps out of the pulse; a unit test sees a few of them.", "anchors": ["src/quocslib/pulses/basis/SigmoidTimeDep.py", "src/quocslib/pulses/basis/SigmoidSigmas.py", "src/quocslib/pulses/basis/SigmoidAllParas.py"]}
{"id": "C102", "title": "The unit of time does not matter", "statement": "If every duration of a problem is declared in another unit (values and limits of the times; the random times, offsets, step widths and step time variations of the Sinc and sigmoid bases) and the guess, the scaling and the user's function get their time grids in the new unit, then the run is the same run: the same pulses and parameters and the same answers call by call, time grids multiplied with the factor, the same reports, best controls, figure of merit and reasons for stopping.", "quantifier": "all positive factors, lists of pulses, times (fixed or optimized) and parameters, guesses, scalings, shaping options, search methods, user functions with or without memory, random numbers, clocks, stop requests", "why_tests_cant": "It compares whole runs of any length for all factors; a single absolute constant compared with a time anywhere breaks it, and only for some factors.", "anchors": ["src/quocslib/pulses/BasePulse.py", "src/quocslib/Controls.py", "src/quocslib/parameters/TimeParameter.py: TimeParameter", "src/quocslib/pulses/basis/Sinc.py", "src/quocslib/pulses/basis/SigmoidSigmas.py", "src/quocslib/pulses/basis/SigmoidAllParas.py"]}
{"id": "C103", "title": "The unit of the amplitude of a pulse does not matter", "statement": "If every pulse is declared with another unit of its amplitude (limits, amplitude variation and guess multiplied with a positive factor, one per pulse), the user's function gets its pulses in the new units and the tolerance for the size of the simplex says the same of distances in the new units, then the run is the same run: call by call the same pulses in the new units, the same parameters, time grids and answers, the same reports, best controls, figure of merit and reasons for stopping.", "quantifier": "all positive factors, lists of pulses, fixed times and parameters, guesses, scalings, shaping options, limits with cutting or shrinking, user functions with or without memory, random numbers, clocks, stop requests", "why_tests_cant": "It compares whole runs of any length for all factors; one place where an amplitude is used as a pure number breaks it, and then only some bases and factors show it.", "anchors": ["src/quocslib/pulses/BasePulse.py", "src/quocslib/Controls.py", "src/quocslib/pulses/basis/Chebyshev.py", "src/quocslib/pulses/basis/SigmoidSigmas.py", "src/quocslib/gradientfreemethods/NelderMead.py"]}
{"id": "C104", "title": "The open-system example follows the Lindblad equation", "statement": "The figure of merit of the open-system example is the root of the overlap of the target with a density matrix that follows the Lindblad equation of a driven qubit with decay, slice by slice of the pulse, and lies between 0 and 1.", "quantifier": "all pulses, time grids, level splittings and decay rates", "why_tests_cant": "The generator is a 4 by 4 table typed in by hand; a wrong entry gives plausible numbers for short pulses and shows only for some drives and durations, without any bound on the length of the pulse.", "anchors": ["Examples/LindbladProblem.py: TLSProblem.__init__, TLSProblem.get_FoM, pw_evolution_final, fidelity_funct_LFS, convert_rho_to_LFS"]}
{"id": "C105", "title": "The ring of spins with dephasing", "statement": "In the example of a ring of spins with dephasing the state follows the Lindblad equation of a driven ring of spins 1/2 with collective dephasing, each sample of the pulse acting for its share of the time; it is a density matrix at every time, the equation has exactly one solution, and the figure of merit is the root of the probability to find all spins down, between 0 and 1.", "quantifier": "all numbers of qubits, couplings, dephasing rates, durations and pulses of any length", "why_tests_cant": "Positivity of the state and uniqueness of the solution are statements about a continuum of times; the operators grow with the number of qubits; a term with the wrong adjoint or an index that skips a sample gives plausible numbers.", "anchors": ["Examples/IsingModelProblem_AD_Lindblad.py: IsingModel.get_FoM, evolve_rho, _solve_LME, get_dephasing_Lindbladian, get_static_hamiltonian, get_control_hamiltonian, fom_funct"]}
{"id": "C106", "title": "The Walsh basis", "statement": "The update pulse of a pulse in the Walsh basis is a combination of Walsh functions, i.e. of square waves with the values 1 and -1.", "quantifier": "all numbers of vectors, coefficients, super parameters, durations, numbers of bins, guesses and limits", "why_tests_cant": "A pulse in the Walsh basis is produced without an error, and a test that only looks at limits and sizes accepts it.", "anchors": ["src/quocslib/pulses/basis/Walsh.py:Walsh._get_shaped_pulse", "src/quocslib/pulses/basis/Walsh.py:Walsh._limit_constraints"]}
{"id": "C107", "title": "The examples with a ring of spins", "statement": "In the examples with a ring of spins the figure of merit is minus the probability (with automatic differentiation: the root of the probability) to find all spins down after the evolution under the pulse; with a seed the coupling of every call is moved by the next random number by at most half of the variation, whatever was called before, also by calls that raised. A pulse with fewer samples than slices raises an IndexError; the stored propagators are then those of this pulse up to its last sample, and the earlier ones after it.", "quantifier": "all numbers of qubits, couplings, pulses, time grids, seeds and variations, all histories of calls", "why_tests_cant": "A history of calls of any length decides which random number is used; the operators grow with the number of qubits.", "anchors": ["Examples/IsingModelProblem.py: IsingModel.get_FoM, IsingModel.get_propagator, IsingModel.get_drift_Hamiltonian, fom_funct", "Examples/IsingModelProblem_AD.py: IsingModel.get_FoM, fom_funct"]}
{"id": "C108", "title": "The shipped example scripts", "statement": "Each of the scripts in Examples/ (dCRAB, GRAPE, AD, AD with Fourier basis, the two Lindblad scripts, and the simplified example) gives the optimizer a dictionary that is accepted and run with the named algorithm, whatever the user's function does. The figure of merit is called with pulses that have the number of samples set in the script, within the limits of the settings file, on equidistant times from zero to the duration in the settings; the dCRAB script makes at most 3000 calls and starts with the zero pulse, the simplified example starts with the constant pulses 0.11 and 0 and gets 110.11. If the function always returns a usable value, the run completes, and the reported figure of merit belongs to the reported pulse (dCRAB: as a mean over successive calls with it; GRAPE and AD: it is the best value returned; AD with Fourier basis and three super-iterations: value only). The figures of merit of the scripts use the whole pulse they are given.", "quantifier": "all numbers of slices at least two, all user functions, stop requests, clocks, random numbers and numerical libraries", "why_tests_cant": "The scripts are run by hand on a quantum problem with random numbers; a test sees that some number comes out, not which samples it depends on.", "anchors": ["Examples/execute_dCRAB.py", "Examples/execute_GRAPE.py", "Examples/execute_AD.py", "Examples/execute_AD_Fourier.py", "Examples/execute_AD_Lindblad.py", "Examples/execute_Lindblad.py", "Examples/settings_dCRAB.json, settings_GRAPE.json, settings_AD.json, settings_AD_Fourier.json, settings_LindbladProblem.json", "Examples/Simplified/opt_dict_creation_simplified_optimization.py", "Examples/Simplified/execute_simplified_optimization.py"]}
{"id": "C109", "title": "The history of a run and what the interface is told", "statement": "After a run, however it ended, the list of iteration numbers has the numbers of the calls of the user's function that returned a value with status code zero, and the list of figures of merit their values in the same order, as the user returned them (with repeated measurements: the mean so far). A graphical interface is told the controls before every call and the iteration number with the figure of merit of the list after every such call, in this order; only the controls told last may not have been evaluated.", "quantifier": "all algorithms, search methods, settings, user's functions (also failing ones), stop requests, clocks and exceptions", "why_tests_cant": "The lists are filled call by call over runs of any length that can end at every point by a stop request, a status code or an exception; a missing or doubled entry shows only for particular histories.", "anchors": ["src/quocslib/optimizationalgorithms/dCRABAlgorithm.py:_get_response_for_client", "src/quocslib/optimizationalgorithms/DirectSearchAlgorithm.py:_get_response_for_client", "src/quocslib/optimizationalgorithms/GRAPEAlgorithm.py:_get_response_for_client", "src/quocslib/optimizationalgorithms/ADAlgorithm.py:_get_response_for_client", "src/quocslib/communication/AllInOneCommunication.py:send_controls, send_FoM_response"]}
{"id": "C110", "title": "The file with the best controls during a whole optimization", "statement": "After any number of calls of the user's function in an optimization, the file with the best controls shows the first call so far with the best value for the direction in the dictionary, among the calls with status code zero: its pulses, time grids and parameters under the names in the dictionary, its value (with the other sign for a maximization) and its number. There is no file as long as no call was better than the start value. At the end the value in the file is the reported figure of merit.", "quantifier": "all dictionaries, algorithms, user's functions (also failing ones), clocks, stop requests, random numbers and numbers of calls", "why_tests_cant": "The file is rewritten at each record of a run of any length; a wrong comparison, a stale controls array or an exchanged name shows only for particular histories and dictionaries.", "anchors": ["src/quocslib/utils/BestDump.py:dump_controls", "src/quocslib/communication/AllInOneCommunication.py:update_controls", "src/quocslib/optimizationalgorithms/OptimizationAlgorithm.py:_get_controls_names", "src/quocslib/Optimizer.py:Optimizer.execute"]}
{"id": "C111", "title": "Nelder-Mead is the published method, with its decisions", "statement": "Each evaluation of a Nelder-Mead search is the one that the published method (Lagarias et al. 1998; factors of Gao and Han if adaptive) makes after the points and values so far: the start vertices in order; then from the sorted vertices the reflected point; the expanded point if the reflected one is better than the best vertex; nothing more if it is better than the second worst; the outside or the inside contraction depending on the comparison with the worst vertex; shrinking if the contraction does not help. The accepted point replaces the worst vertex. The result is the best vertex of the simplex that the method has reached, unless the search is stopped while it shrinks. In a direct search over parameters the user's function is called exactly at these points (brought into the limits), with the figures of merit of the calls, negated for a maximization, as values.", "quantifier": "all dimensions, start simplices, objectives (any values, in any order), stop requests, drift corrections, dictionaries and user's functions", "why_tests_cant": "Which move is made depends on comparisons of up to four values per iteration over a history of any length; a wrong comparison or a stale vertex shows only for particular sequences of values, and the search still converges on simple test functions.", "anchors": ["src/quocslib/gradientfreemethods/NelderMead.py:NelderMead.run_dsm", "src/quocslib/gradientfreemethods/DirectSearchMethod.py:DirectSearchMethod._get_wrapper", "src/quocslib/optimizationalgorithms/DirectSearchAlgorithm.py:DirectSearchAlgorithm.run", "src/quocslib/utils/linearalgebra.py:simplex_creation"]}
{"id": "C112", "title": "dCRAB: whole optimizations, with the search in every super-iteration", "statement": "For a dCRAB optimization as in C100 with Nelder-Mead or CMA-ES: every super-iteration makes one search with the published method, from the coefficients zero and the current parameter values, with the start sizes of the dictionary (amplitude variation, divided by the square root of two for Fourier, Chebyshev and sinc). Every call is made at the point that the published method asks for after the points and figures of merit (negated for a maximization) of the calls before in the same super-iteration, and shows the pulses and the parameter values (within the limits) of this point. Afterwards the parameter values of the kept vector, which is the best of all calls so far or the start vector, become the current ones, and the update of this vector is included into the base pulses. The first super-iteration starts with the initial parameter values and the base pulses zero.", "quantifier": "all pulse, time and parameter dictionaries in the scope, all answers of the user's function, stop requests, clocks and random numbers, all numbers of super-iterations", "why_tests_cant": "A test sees single runs with random frequencies and points; the claim ties every call to all answers before.", "anchors": ["src/quocslib/optimizationalgorithms/dCRABAlgorithm.py: run, _dsm_build, _update_base_pulses", "src/quocslib/Controls.py: get_mean_value, get_sigma_variation, select_basis, update_base_controls", "src/quocslib/gradientfreemethods/NelderMead.py: run_dsm", "src/quocslib/gradientfreemethods/CMAES.py: run_dsm"]}
{"id": "C113", "title": "Best pulses without guess and scaling", "statement": "get_best_bare_controls returns the bare pulses (without guess and scaling) of the best controls found so far: with the guess added, the scaling multiplied and the limits applied, they are the pulses that get_best_controls returns.", "quantifier": "all dictionaries, search methods, answers of the user's function, stop requests and random numbers", "why_tests_cant": "A test with one run cannot tell which of all later runs return the update that was found.", "anchors": ["src/quocslib/optimizationalgorithms/OptimizationAlgorithm.py: get_best_bare_controls, get_best_controls", "src/quocslib/Controls.py: get_bare_controls_lists, get_mean_value", "src/quocslib/pulses/BasePulse.py: get_bare_pulse, get_pulse"]}
{"id": "C114", "title": "Automatic differentiation: whole optimizations with several super-iterations", "statement": "For an AD optimization with pulses of a documented basis, default shaping and fixed times, and whatever L-BFGS-B asks for: there are as many super-iterations as declared (fewer only after a call without figure of merit, Ctrl-C, or without a figure of merit better than the start value). Each one draws new frequencies and makes one search from the coefficients zero and the current parameter values plus a random part of the start sizes. Every call is made at the vector L-BFGS-B asks for, which gets the figure of merit (negated for a maximization) or the gradient; the rows given to the user's function, also for gradients, show base pulse plus update, and the parameter values, of this vector. Afterwards the best update and parameter values of this super-iteration are included, so that the next one continues from the best controls.", "quantifier": "all dictionaries, frequencies, gradients, searches, answers of the user's function, stop requests and clocks", "why_tests_cant": "Whether a super-iteration finds something better depends on the answers; a test with improving values does not show what happens otherwise.", "anchors": ["src/quocslib/optimizationalgorithms/ADAlgorithm.py: run, inner_run, get_gradient, inner_routine_call", "src/quocslib/Controls.py: select_basis, update_base_controls, get_mean_value, get_sigma_variation"]}
{"id": "C115", "title": "Drift compensation between super-iterations", "statement": "With drift compensation after every super-iteration (and no re-evaluation), each super-iteration of dCRAB except the first one begins with the declared number of measurements of the current base pulses and parameter values without any update, and the average of their figures of merit is the value the following search has to beat. There are no measurements before the first super-iteration and none elsewhere; there are fewer only if the run ends with them. The update included after a search is the best one that beats the average, and none if no call beats it; the searches are those of Nelder-Mead or CMA-ES from the coefficients zero and the current parameter values. In the standard configuration the measured controls are exactly the best controls so far, and the best controls and the figure of merit reported at the end are those kept last, unless the run ends during the measurements.", "quantifier": "all dictionaries with documented bases, numbers of measurements, random frequencies, answers of the user's function, stop requests and clocks", "why_tests_cant": "Which update is kept depends on the whole history of answers and on drifting values; a test sees single runs with few super-iterations.", "anchors": ["src/quocslib/optimizationalgorithms/dCRABAlgorithm.py: run, _update_FoM, _update_base_pulses", "src/quocslib/Controls.py: select_basis, get_mean_value, update_base_controls"]}
{"id": "C116", "title": "Arguments of the control problems of the library", "statement": "The one-qubit, Ising and Rosenbrock problems have the states, numbers and switches of the dictionary of arguments, and the documented defaults for missing entries or without a dictionary; without arguments the figure of merit of the one-qubit problem is the infidelity with the state (|0> - i|1>)/sqrt(2) reached from |0>, between 0 and 1. The Ising problems evolve the number of qubits over the number of slices, with the couplings and the direction, in the dictionary. Entries of the user are kept, and the same dictionary, which gets the defaults, can be used again and gives the same problem.", "quantifier": "all dictionaries (also with entries of unexpected types), pulses, parameters and time grids", "why_tests_cant": "A dictionary can have any subset of the entries with any values; a test sees some of them, and not that a shared dictionary is changed in place.", "anchors": ["src/quocslib/optimalcontrolproblems/OneQubitProblem.py: OneQubit.__init__", "src/quocslib/optimalcontrolproblems/OneQubitProblem_2fields.py: OneQubit2Fields.__init__", "src/quocslib/optimalcontrolproblems/RosenbrockProblem.py: Rosenbrock.__init__", "src/quocslib/optimalcontrolproblems/IsingModelProblem.py: IsingModel.__init__", "src/quocslib/optimalcontrolproblems/IsingModelADProblem.py: IsingModel.__init__"]}
{"id": "C117", "title": "Incomplete settings of the change-based stop", "statement": "Whatever the user writes as change_based_stop (a missing number of evaluations or change, another type, not a dictionary), no evaluation fails because of it. A search is stopped by it exactly if the entry has an integer number of evaluations and a change, both numbers, and the criterion was met after one of the evaluations of the search. Without a usable number of evaluations nothing is recorded and two messages are logged at every evaluation; without a change the values are recorded and one message is logged at every evaluation; with a number of evaluations that is not an integer, or a change that is not a number, the message comes from the first evaluation on for which there are enough values; with both numbers, or switched off (also without the entry), nothing is logged.", "quantifier": "all values of the entry, all sequences of figures of merit in a search", "why_tests_cant": "An entry of a dictionary can have any type and any subset of its parts, and the message or the stop comes after any number of evaluations; tests use complete entries.", "anchors": ["src/quocslib/stoppingcriteria/StoppingCriteria.py: add_to_FoM_track, _check_cbs_stopping_crit, check_advanced_stopping_criteria", "src/quocslib/optimizationalgorithms/OptimizationAlgorithm.py: _routine_call"]}
