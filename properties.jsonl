{"id": "C01", "title": "Time conversion round-trips", "statement": "Converting any timedelta to a number in any accepted unit (days/d, hours/h/None, seconds/s, milliseconds/ms, microseconds/us) and converting that number back in the same unit gives the same timedelta; converting a number to a timedelta and back moves it by at most half a microsecond. Any other unit string is rejected with UserConfigError in both directions, whatever the time value is.", "quantifier": "all timedeltas in Python's range, all rational numbers, all unit strings", "why_tests_cant": "infinitely many durations and unit strings; tests use a handful of literal durations", "anchors": ["gerabaldi/helpers.py:_convert_time", "gerabaldi/helpers.py:TIME_UNIT_MAP", "gerabaldi/helpers.py:TIME_SECOND_FACTORS"]}
{"id": "C02", "title": "Stress phases never have zero duration and keep the requested length", "statement": "StrsSpec(conditions, duration, time_unit=u) either stores a nonzero timedelta equal to the requested duration (a timedelta as given; a number rounded to the nearest microsecond in unit u, hours by default) or raises UserConfigError; a zero length is always rejected and an unknown unit is always rejected for numeric durations.", "quantifier": "all durations (timedelta, number, pandas Timedelta) and units", "why_tests_cant": "the rejection boundary is a rounding boundary over all rationals; tests check only 0 and a few positive values", "anchors": ["gerabaldi/models/test_specs.py:StrsSpec.__init__", "gerabaldi/helpers.py:_convert_time"]}
{"id": "C03", "title": "Plain append keeps order and content", "statement": "append_steps without loop_for_duration adds exactly the given step or steps, in order, after all existing steps, and changes nothing else; a history of appends yields the concatenation of everything appended.", "quantifier": "all existing step lists, all appended steps, all histories of appends", "why_tests_cant": "unbounded histories of calls", "anchors": ["gerabaldi/models/test_specs.py:TestSpec.append_steps"]}
{"id": "C04", "title": "Looped append covers the requested stress time minimally", "statement": "append_steps(steps, loop_for_duration=D) with positive stress time P per repetition terminates and appends exactly n = ceil(D/P) whole copies of the steps: the appended stress time is at least D and less than D + P, whether or not the final warning is raised; nothing is appended when D is negative.", "quantifier": "all step lists with positive total stress time, all durations D, all existing tests", "why_tests_cant": "termination and minimality over unbounded loop counts", "anchors": ["gerabaldi/models/test_specs.py:TestSpec.append_steps"]}
{"id": "C05", "title": "Looped append warns whenever the appended stress time is not the requested one", "statement": "After a looped append the caller gets a UserWarning whenever the appended stress time differs from the requested duration, and never when it is equal.", "quantifier": "all step lists with positive stress time, all positive durations", "why_tests_cant": "needs a characterisation over all (P, D) pairs; sampled pairs miss the divisibility case where it is false", "anchors": ["gerabaldi/models/test_specs.py:TestSpec.append_steps"]}
{"id": "C06", "title": "Looped append never runs forever", "statement": "Every looped append either returns or raises; in particular the guard against step sets that add no stress time rejects every step set that would loop forever.", "quantifier": "all step lists and all durations", "why_tests_cant": "non-termination cannot be observed by a finite test", "anchors": ["gerabaldi/models/test_specs.py:TestSpec.append_steps", "gerabaldi/models/test_specs.py:StrsSpec.__init__"]}
{"id": "C07", "title": "Iterating a test yields every step once, in order, as often as one likes", "statement": "A for loop over a TestSpec yields exactly its steps in order; a later loop yields them again, also after an earlier loop was abandoned at any point. Two loops over the same object that overlap (nested or interleaved) do not disturb each other.", "quantifier": "all step lists, all abandonment points, all interleavings of iter/next calls", "why_tests_cant": "all interleavings of iterator calls", "anchors": ["gerabaldi/models/test_specs.py:TestSpec.__iter__", "gerabaldi/models/test_specs.py:TestSpec.__next__"]}
{"id": "C08", "title": "Sample requirement is the maximum over measurements", "statement": "calc_samples_needed maps exactly the parameters measured somewhere in the test, each to the largest count requested by any measurement of it; it depends neither on stress steps nor on the order of steps.", "quantifier": "all tests", "why_tests_cant": "unbounded lists of measurement specs and all their permutations", "anchors": ["gerabaldi/models/test_specs.py:TestSpec.calc_samples_needed"]}
{"id": "C09", "title": "HTOL builder produces the specified test", "statement": "htol(to_meas, ..., strs_meas_intrvl=i, duration_override=d) for positive integer hours returns, when i >= d, room measurement, one stress of d hours, room measurement; when i < d divides d, room measurement, stress measurement, d/i repetitions of (stress of i hours, stress measurement), room measurement; otherwise raises UserConfigError. The total stress time is always exactly d hours, all stress is at vdd_nom*vdd_strs_mult and the stress temperature, and the first and last steps are room measurements.", "quantifier": "all positive durations and intervals, voltages, temperatures, counts", "why_tests_cant": "unbounded arithmetic progression of steps", "anchors": ["gerabaldi/cookbook/test_specs.py:htol", "gerabaldi/models/test_specs.py:TestSpec.append_steps"]}
{"id": "C10", "title": "Unspecified variation layers never change a value", "statement": "After construction and any sequence of later attribute assignments (including failed ones), a LatentVar's or EnvVrtnMdl's layers that are not user-defined act as the identity for the current variation type: generated values equal those computed from the user-defined layers and base value only.", "quantifier": "all construction arguments, all histories of attribute assignments, all sample counts", "why_tests_cant": "unbounded histories of attribute mutation", "anchors": ["gerabaldi/models/devices.py:LatentVar.__setattr__", "gerabaldi/models/devices.py:LatentVar.gen_latent_vals", "gerabaldi/models/phys_envs.py:EnvVrtnMdl.__setattr__"]}
{"id": "C11", "title": "Latent values have the layered structure", "statement": "gen_latent_vals(num_devs, num_chps, num_lots) returns a lot x chip x device array whose (l,c,d) entry is base op dev[l,c,d] op chp[l,c] op lot[l]: one lot draw shared by the whole lot, one chip draw shared by the whole chip, one device draw per device, and exactly num_lots, num_lots*num_chps and num_lots*num_chps*num_devs draws are consumed from the respective distributions.", "quantifier": "all latent variables, all dimensions, all random streams", "why_tests_cant": "all array dimensions and all random streams", "anchors": ["gerabaldi/models/devices.py:LatentVar.gen_latent_vals"]}
{"id": "C12", "title": "Deterministic latents are constant", "statement": "A LatentVar with only deter_val set evaluates to exactly deter_val for every lot, chip and device, for either variation type and whatever the random state.", "quantifier": "all values, types, dimensions, random states", "why_tests_cant": "all dimensions and states", "anchors": ["gerabaldi/models/devices.py:LatentVar.gen_latent_vals", "gerabaldi/models/random_vars.py:Deterministic.sample"]}
{"id": "C13", "title": "The same distribution is described to every framework", "statement": "For every Normal, Gamma and Uniform variable the parameters handed to numpy, PyMC and Pyro describe the same distribution (same mean, same spread, same support), for all parameter values.", "quantifier": "all parameter values", "why_tests_cant": "continuous parameter space", "anchors": ["gerabaldi/models/random_vars.py:Normal._params_for_numpy", "gerabaldi/models/random_vars.py:Gamma._params_for_numpy", "gerabaldi/models/random_vars.py:Uniform._params_for_pymc", "gerabaldi/models/random_vars.py:RandomVar._get_dist_params"]}
{"id": "C14", "title": "CBI export has no side effects", "statement": "cbi_export leaves the latent variable unchanged, so that exporting any number of times, or exporting and then simulating, gives the same results as not exporting, on normal return and on error.", "quantifier": "all latent variables, all frameworks, all histories of exports", "why_tests_cant": "histories of exports and error points", "anchors": ["gerabaldi/models/devices.py:LatentVar.cbi_export", "gerabaldi/models/random_vars.py:Normal.set_centre", "gerabaldi/models/random_vars.py:Normal.get_centre"]}
{"id": "C15", "title": "CBI export describes the sampled distribution", "statement": "The exported device-level distribution combined with the exported chip and lot distributions has the same centre and spread as the values that gen_latent_vals draws.", "quantifier": "all latent variables with a Normal device distribution", "why_tests_cant": "continuous parameter space", "anchors": ["gerabaldi/models/devices.py:LatentVar.cbi_export", "gerabaldi/models/devices.py:LatentVar.gen_latent_vals"]}
{"id": "C16", "title": "Distribution names stay unique within a variable", "statement": "At every point of any history of assignments to a named LatentVar, its user-defined layer distributions carry the names the export needs: plain name for a lone device layer, otherwise distinct _dev/_chp/_lot suffixed names.", "quantifier": "all histories of attribute assignments", "why_tests_cant": "unbounded histories", "anchors": ["gerabaldi/models/devices.py:LatentVar.__setattr__"]}
{"id": "C17", "title": "An ideal environment applies exactly the requested conditions", "statement": "With an environment that defines no variation for a condition, every device of every parameter experiences exactly the condition value in the test step, for stress and for measurement, and no random state is consumed.", "quantifier": "all step conditions, device models, dimensions, random states", "why_tests_cant": "all dimensions and conditions", "anchors": ["gerabaldi/models/phys_envs.py:PhysTestEnv.gen_env_cond_vals", "gerabaldi/models/phys_envs.py:EnvVrtnMdl.gen_batch_vrtn", "gerabaldi/models/phys_envs.py:EnvVrtnMdl.gen_chp_vrtns", "gerabaldi/models/phys_envs.py:EnvVrtnMdl.gen_dev_vrtns"]}
{"id": "C18", "title": "Environmental variation is shared at the right level", "statement": "Within one step, all devices of all parameters on the same chip share one batch draw and one chip draw per condition and differ only by their own device draw: the value seen is base op batch op chip[l,c] op dev[l,c,d].", "quantifier": "all conditions, parameters, dimensions and random streams", "why_tests_cant": "all array dimensions and random streams", "anchors": ["gerabaldi/models/phys_envs.py:PhysTestEnv.gen_env_cond_vals"]}
{"id": "C19", "title": "Results do not depend on string hash order", "statement": "The generated condition values, and hence the simulation, are the same for every iteration order of the set of condition names, as long as different conditions do not share a random variable object.", "quantifier": "all set iteration orders (hash seeds), all conditions, all random states", "why_tests_cant": "hash randomisation picks one order per process", "anchors": ["gerabaldi/models/devices.py:DegPrmMdl.get_dependencies", "gerabaldi/models/phys_envs.py:PhysTestEnv.gen_env_cond_vals"]}
{"id": "C20", "title": "Instruments never report outside their range", "statement": "For every instrument with meas_lims=(lo,hi), lo<=hi, every reported finite or infinite reading lies in [lo,hi], whatever the noise and precision, and readings already inside are not moved by the limits.", "quantifier": "all true values, noise streams, precisions, limits", "why_tests_cant": "all values and all noise streams", "anchors": ["gerabaldi/models/phys_envs.py:MeasInstrument.measure"]}
{"id": "C21", "title": "Default instruments are exact", "statement": "An instrument without error, precision and limits (also the one supplied for parameters without an instrument) returns the true values unchanged and in the same container type, consuming no randomness.", "quantifier": "all value lists", "why_tests_cant": "all inputs", "anchors": ["gerabaldi/models/phys_envs.py:MeasInstrument.measure", "gerabaldi/models/phys_envs.py:PhysTestEnv.meas_instm"]}
{"id": "C22", "title": "Significant-figure rounding is sound", "statement": "With precision p>=1 a reading differs from the (noisy) value by at most half a unit of its p-th significant figure, keeps its sign, is a multiple of that unit, is unchanged by rounding again, and preserves order between values; zero and infinities are returned unchanged.", "quantifier": "all real values and all precisions", "why_tests_cant": "continuum of values and decade boundaries", "anchors": ["gerabaldi/models/phys_envs.py:MeasInstrument.measure"]}
{"id": "C23", "title": "Instruments accept every value a model can produce", "statement": "measure returns a reading for every list of true values, including zero, infinities and NaN.", "quantifier": "all value lists", "why_tests_cant": "value space includes special values at any position", "anchors": ["gerabaldi/models/phys_envs.py:MeasInstrument.measure"]}
{"id": "C24", "title": "Hard failures are permanent", "statement": "Once a failure mechanism of a device has left its unfailed value, no later sequence of stress and measurement steps, under any conditions, durations and random outcomes, ever changes that mechanism value again.", "quantifier": "all failure equations (including stochastic), all step sequences, all devices", "why_tests_cant": "unbounded histories of stress steps and random outcomes", "anchors": ["gerabaldi/models/devices.py:FailMechMdl.calc_deg_vals", "gerabaldi/sim.py:_sim_stress_step"]}
{"id": "C25", "title": "Non-degrading samples keep their previous value", "statement": "In a stress step each sample whose equivalent time plus stress duration exceeds 9e9 keeps exactly its previous mechanism value and every other sample gets the mechanism equation's value at that time.", "quantifier": "all equations, samples, conditions and times", "why_tests_cant": "per-sample decision over all arrays", "anchors": ["gerabaldi/models/devices.py:MechMdl.calc_deg_vals"]}
{"id": "C26", "title": "The equivalent-time search returns the best point it evaluated, in bounded work", "statement": "The search evaluates the residue at most maxiter+1 times and returns, for every sample, a point whose residue is no larger than at any other point evaluated for that sample.", "quantifier": "all functions, arrays, bounds, tolerances, iteration limits", "why_tests_cant": "all objective functions", "anchors": ["gerabaldi/math/minimize.py:minimize"]}
{"id": "C27", "title": "Samples do not influence each other", "statement": "The sequence of search points of one sample depends only on that sample's own objective; other samples only influence how many iterations are run.", "quantifier": "all arrays of any shape, all elementwise objectives", "why_tests_cant": "all array shapes and objectives", "anchors": ["gerabaldi/math/minimize.py:minimize"]}
{"id": "C28", "title": "Equivalent times stay within the search bounds", "statement": "For a single sample every evaluated time and the returned time lie strictly between the bounds (1e-3 and 1e10), for any mechanism equation; for several samples this holds up to the iteration where that sample has converged.", "quantifier": "all objective functions (also flat, discontinuous, multi-modal)", "why_tests_cant": "all objective functions", "anchors": ["gerabaldi/math/minimize.py:minimize", "gerabaldi/models/devices.py:DegMechMdl.calc_equiv_strs_time"]}
{"id": "C29", "title": "Equivalent times are accurate", "statement": "If the mechanism value is strictly monotone in time and reaches the current degradation at a time T within the bounds, and the search stops by its own convergence test, then the returned time is within a factor 10^(2*tol) of T, tol = sqrt(eps)*|log10 t| + precision/3, for every sample of the array.", "quantifier": "all strictly monotone mechanism equations, all samples", "why_tests_cant": "all monotone functions", "anchors": ["gerabaldi/math/minimize.py:minimize", "gerabaldi/models/devices.py:DegMechMdl.calc_equiv_strs_time"]}
{"id": "C30", "title": "Unreachable degradation is left alone", "statement": "If under the new stress conditions the mechanism stays strictly below the sample's present degradation for all times, and the search converges, the sample keeps exactly its previous degradation after the step.", "quantifier": "all strictly increasing bounded mechanism equations and degradations above their range", "why_tests_cant": "all monotone functions", "anchors": ["gerabaldi/models/devices.py:DegMechMdl.calc_equiv_strs_time", "gerabaldi/models/devices.py:MechMdl.calc_deg_vals", "gerabaldi/math/minimize.py:minimize"]}
{"id": "C31", "title": "Degradation from a fresh device follows the mechanism equation", "statement": "A fresh sample stressed for duration d has mechanism value f(d).", "quantifier": "all mechanism equations increasing in time, all durations", "why_tests_cant": "all functions", "anchors": ["gerabaldi/sim.py:_sim_stress_step", "gerabaldi/models/devices.py:DegMechMdl.calc_equiv_strs_time"]}
{"id": "C32", "title": "Time unit precedence", "statement": "After a DeviceMdl is built every mechanism's time unit is its own if given, else its parameter's, else the device's, else hours; building again with the same objects changes nothing.", "quantifier": "all device models and unit assignments", "why_tests_cant": "all combinations over unbounded numbers of parameters and mechanisms", "anchors": ["gerabaldi/models/devices.py:DeviceMdl.propagate_time_unit", "gerabaldi/models/devices.py:DegPrmMdl.propagate_time_unit", "gerabaldi/models/devices.py:MechMdl.set_time_unit"]}
{"id": "C33", "title": "Results do not depend on the time unit chosen", "statement": "Expressing the same mechanism in another time unit (with its equation rescaled) gives the same degradation for every stress duration.", "quantifier": "all mechanisms, durations and units", "why_tests_cant": "all durations", "anchors": ["gerabaldi/models/devices.py:MechMdl.calc_deg_vals", "gerabaldi/helpers.py:_convert_time"]}
{"id": "C34", "title": "Default parameter composition", "statement": "With the default compute equation a degraded parameter's true value is its initial value plus the sum of its mechanism values (plus the conditional model's neutral value), and a measurement returns the true value plus the conditional shift plus the mechanisms' neutral values; with no conditional model and neutral value 0 and an ideal instrument the report shows exactly the true value.", "quantifier": "all parameter models with the default equation, all dimensions", "why_tests_cant": "all models, dimensions, values", "anchors": ["gerabaldi/models/devices.py:DegPrmMdl.calc_deg_vals", "gerabaldi/models/devices.py:DegPrmMdl.calc_cond_shifted_vals"]}
{"id": "C35", "title": "Elementwise fallback equals array evaluation", "statement": "For a model equation that acts elementwise, the per-sample fallback used when the equation cannot take arrays gives, at every index, the same value as array evaluation would, and evaluates the samples in lot, chip, device order exactly once each.", "quantifier": "all equations, arrays and dimensions", "why_tests_cant": "all dimensions and equations", "anchors": ["gerabaldi/helpers.py:_loop_compute", "gerabaldi/helpers.py:_get_single_index"]}
{"id": "C36", "title": "Measuring does not disturb the devices", "statement": "A measurement step never changes parameter values, mechanism values, latent values or elapsed time; in a noise-free environment with pure equations deleting or inserting measurement steps anywhere leaves every other step's effect and every other measurement unchanged.", "quantifier": "all tests, device models, positions of measurement steps", "why_tests_cant": "all insertions into all histories", "anchors": ["gerabaldi/sim.py:_sim_meas_step", "gerabaldi/sim.py:simulate"]}
{"id": "C37", "title": "Test summary is a contiguous timeline", "statement": "A finished simulation's test summary has one row per executed step in order, numbered by position; each row's end minus start is its duration, each row starts where the previous one ended, the first starts at the initial elapsed time and the last ends at the initial elapsed time plus the sum of all stress durations; measurement rows have zero duration.", "quantifier": "all tests, device models, environments, initial states", "why_tests_cant": "unbounded step sequences", "anchors": ["gerabaldi/sim.py:_sim_stress_step", "gerabaldi/sim.py:_sim_meas_step", "gerabaldi/sim.py:simulate"]}
{"id": "C38", "title": "Measurement rows identify their device uniquely", "statement": "Formatting an L x C x D array gives L*C*D rows, one per (lot, chip, device), and the row labelled (l,c,d) carries the value at [l][c][d]; rows carry the parameter, step number and elapsed time of the measurement.", "quantifier": "all dimensions and values", "why_tests_cant": "all dimensions", "anchors": ["gerabaldi/models/reports.py:SimReport.format_measurements"]}
{"id": "C39", "title": "Reports only grow", "statement": "During a simulation rows already in the measurement table or the summary are never changed, removed or reordered; rows of a step carry that step's number, and step numbers are non-decreasing.", "quantifier": "all tests and all prefixes of their execution", "why_tests_cant": "all prefixes of all executions", "anchors": ["gerabaldi/models/reports.py:SimReport.format_measurementss", "gerabaldi/models/reports.py:SimReport.add_summary_report", "gerabaldi/sim.py:simulate"]}
{"id": "C40", "title": "Initial values and latents are constant during a simulation", "statement": "Throughout a simulation the initial parameter values, initial mechanism values and latent values of the state stay what they were at the start, and the caller's initial state object is not modified.", "quantifier": "all tests, models, environments", "why_tests_cant": "all histories", "anchors": ["gerabaldi/sim.py:simulate", "gerabaldi/models/states.py:SimState.__init__"]}
{"id": "C41", "title": "Enough devices are simulated for every circuit parameter", "statement": "gen_init_state gives every degraded parameter that a measured circuit parameter depends on at least as many devices as that circuit parameter, never lowers any requested count, and changes no other count.", "quantifier": "all device models and count mappings", "why_tests_cant": "all dependency graphs and counts", "anchors": ["gerabaldi/sim.py:gen_init_state", "gerabaldi/models/devices.py:CircPrmMdl.get_required_prms"]}
{"id": "C42", "title": "Device parameters that are not measured do not prevent simulation", "statement": "A device model may contain parameters that the test does not measure; initial state generation still succeeds.", "quantifier": "all device models and tests", "why_tests_cant": "all combinations of measured and unmeasured parameters", "anchors": ["gerabaldi/models/devices.py:DeviceMdl.gen_init_state", "gerabaldi/sim.py:gen_init_state"]}
{"id": "C43", "title": "Measuring an undefined parameter raises MissingParamError", "statement": "A measurement of a name that is neither a device parameter nor a condition of the step ends the simulation with MissingParamError.", "quantifier": "all steps, models and states", "why_tests_cant": "error precedence over all inputs", "anchors": ["gerabaldi/sim.py:_sim_meas_step", "gerabaldi/models/phys_envs.py:PhysTestEnv.gen_env_cond_vals"]}
{"id": "C44", "title": "A measurement of n samples yields n rows per chip", "statement": "A measurement step asking for n samples of a device parameter adds exactly lots*chips*n rows for it, covering each (lot, chip, device<n) once; a request for n samples of a condition adds n rows without device indices.", "quantifier": "all steps, dims, models", "why_tests_cant": "all dimensions and counts", "anchors": ["gerabaldi/sim.py:_sim_meas_step", "gerabaldi/models/devices.py:DegPrmMdl.calc_cond_shifted_vals", "gerabaldi/models/devices.py:CircPrmMdl.calc_circ_vals"]}
{"id": "C45", "title": "Supplying the generated initial state gives the same simulation", "statement": "simulate(test, dev, env) and simulate(test, dev, env, gen_init_state(dev, quantity_info=SimReport(test))) give the same report from the same random state.", "quantifier": "all tests, device models, environments", "why_tests_cant": "all models including ones with circuit parameters", "anchors": ["gerabaldi/sim.py:simulate", "gerabaldi/sim.py:gen_init_state"]}
{"id": "C46", "title": "Simulation of a sequence is the composition of its parts", "statement": "Executing steps xs then ys from a state equals executing xs ++ ys: the state and report after xs are all that ys depends on.", "quantifier": "all step lists and split points", "why_tests_cant": "all split points", "anchors": ["gerabaldi/sim.py:simulate"]}
{"id": "C47", "title": "JSON export and load preserve the report times", "statement": "Loading an exported report gives back the same measurement times, start times, end times, durations, name and description, for every accepted time unit.", "quantifier": "all reports and units", "why_tests_cant": "all times and units", "anchors": ["gerabaldi/models/reports.py:SimReport.export_to_json", "gerabaldi/models/reports.py:SimReport.__init__"]}
{"id": "C48", "title": "Report time conversion and export agree", "statement": "Exporting a report after convert_report_time writes the same times as exporting it before; converting is not undone by converting again; a failed conversion leaves the report unchanged.", "quantifier": "all reports, units, call histories", "why_tests_cant": "histories of conversions and failures", "anchors": ["gerabaldi/models/reports.py:SimReport.convert_report_time", "gerabaldi/models/reports.py:SimReport.export_to_json"]}
{"id": "C49", "title": "Custom log handlers replace the existing ones", "statement": "After configure_logger with a stream (file) handler the logger has exactly that plain stream (file) handler if it had at most one before, and no other handler is touched; repeated calls do not accumulate handlers.", "quantifier": "all handler lists, all call histories", "why_tests_cant": "histories of calls", "anchors": ["gerabaldi/helpers.py:configure_logger"]}
{"id": "C50", "title": "Summary rows show the step's own data", "statement": "Every summary row carries the step's name, type, number, duration, start and end time, and all of its condition values.", "quantifier": "all steps and condition names", "why_tests_cant": "all condition names, including ones that collide with columns", "anchors": ["gerabaldi/sim.py:_sim_stress_step", "gerabaldi/sim.py:_sim_meas_step"]}
{"id": "C51", "title": "Any parameter name can be measured", "statement": "Measurement works for every parameter name: names are only labels.", "quantifier": "all parameter names", "why_tests_cant": "all strings", "anchors": ["gerabaldi/models/phys_envs.py:PhysTestEnv.meas_instm", "gerabaldi/models/phys_envs.py:PhysTestEnv.__init__"]}
{"id": "C52", "title": "A test seed makes a random variable reproducible", "statement": "Two random variables of the same kind and parameters created with the same test_seed generate the same samples.", "quantifier": "all seeds, parameters, sample counts", "why_tests_cant": "all seeds", "anchors": ["gerabaldi/models/random_vars.py:RandomVar.__init__"]}
{"id": "C53", "title": "Well-formed simulations finish", "statement": "If every device parameter is measured (or needed by a measured circuit parameter), every measured name is a device parameter or a condition, counts agree with the state and all equations succeed on their arguments, simulate returns a report and raises nothing, for every number of steps.", "quantifier": "all well-formed tests, models, environments", "why_tests_cant": "unbounded tests and dimensions", "anchors": ["gerabaldi/sim.py:simulate"]}
{"id": "C54", "title": "Default mechanism means no degradation", "statement": "A mechanism model created without an equation leaves its parameter undegraded under any stress step.", "quantifier": "all device models with a default mechanism", "why_tests_cant": "must hold for every stress step", "anchors": ["gerabaldi/models/devices.py:MechMdl.__init__", "gerabaldi/models/devices.py:MechMdl.calc_deg_vals"]}
{"id": "C55", "title": "Splitting a stress step does not matter", "statement": "Consecutive stress steps under the same conditions add up: a sample on its mechanism curve at time T is afterwards on the curve at T plus the sum of the durations, within 1e-5 decades per step, and two ways of dividing the same total duration agree within that; as long as the searches converge and the times stay within the search bounds.", "quantifier": "all strictly monotone mechanism equations, all numbers of steps and durations", "why_tests_cant": "unbounded numbers of steps and all monotone functions", "anchors": ["gerabaldi/sim.py:_sim_stress_step", "gerabaldi/models/devices.py:DegMechMdl.calc_equiv_strs_time", "gerabaldi/math/minimize.py:minimize"]}
{"id": "C56", "title": "Stress never undoes degradation", "statement": "For a mechanism strictly increasing in time a stress step never lowers the degradation of a sample (never raises it for a decreasing one).", "quantifier": "all strictly monotone mechanism equations, all durations and degradations within the search bounds", "why_tests_cant": "all monotone functions and durations", "anchors": ["gerabaldi/sim.py:_sim_stress_step", "gerabaldi/models/devices.py:DegMechMdl.calc_equiv_strs_time", "gerabaldi/models/devices.py:MechMdl.calc_deg_vals"]}
{"id": "C57", "title": "Reported values are readings of the parameter's own instrument", "statement": "Every measured value in a report is what the instrument configured for that very parameter or condition (an exact one if none is configured) reads from the true values in the state left by the preceding steps; so every reported number lies in the range of its instrument, has its number of significant figures, and equals the true value without an instrument.", "quantifier": "all tests, device models, environments, initial states, positions of measurement steps", "why_tests_cant": "all executions; the instrument, the row and the value must belong together", "anchors": ["gerabaldi/sim.py:_sim_meas_step", "gerabaldi/models/phys_envs.py:PhysTestEnv.meas_instm", "gerabaldi/models/phys_envs.py:MeasInstrument.measure"]}
{"id": "C58", "title": "Exporting a model to a CBI framework hands over the whole model", "statement": "export_to_cbi evaluates the model equation with every latent variable in its exported form and every observed condition under its own name and nothing else, and conditions the output named after the model on the observed output, for both frameworks, with or without observed data.", "quantifier": "all latent models, observed data, frameworks", "why_tests_cant": "all models, names and data", "anchors": ["gerabaldi/models/devices.py:LatentMdl.export_to_cbi"]}
{"id": "C59", "title": "Prebuilt environments behave as described", "statement": "ideal_env applies every condition as requested and measures exactly; volt_and_temp_env affects only temperature and vdd, reads voltages to the nearest mV within 0 to 12 V and temperatures to the nearest hundredth of a degree Celsius within -40 to 180. With ideal generators, the temperatures of the devices are normal around the requested one with standard deviations of 0.5 degrees for the batch, 0.2 between chips and 0.05 between devices, and the voltages with 0.5 mV between chips and 0.3 mV between devices.", "quantifier": "all conditions, true values and random numbers", "why_tests_cant": "all true values", "anchors": ["gerabaldi/cookbook/test_envs.py:ideal_env", "gerabaldi/cookbook/test_envs.py:volt_and_temp_env"]}
{"id": "C60", "title": "The prebuilt NBTI mechanism is the JEDEC model", "statement": "The mechanism of jedec_nbti_mdl degrades every sample by a_0*exp(e_aa/(k*temp))*vdd**alpha*time**n with the sample's own conditions and latent values, starting at its neutral value 0; the degradation is accelerated by time, by voltage and by temperature.", "quantifier": "all positive conditions and latent values, all dimensions", "why_tests_cant": "all conditions, latent values, times and dimensions", "anchors": ["gerabaldi/cookbook/mech_mdls.py:jedec_nbti_mdl"]}
{"id": "C61", "title": "A stress without effect changes nothing", "statement": "If the equation of a DegMechMdl gives a sample the same value for all times under the conditions of a stress step, the sample keeps exactly its degradation through the step, for every duration and whatever the search for the equivalent time does.", "quantifier": "all steps, durations, constants, samples, other mechanisms", "why_tests_cant": "all durations and values, and the whole course of the search", "anchors": ["gerabaldi/models/devices.py:DegMechMdl.calc_equiv_strs_time", "gerabaldi/math/minimize.py:minimize", "gerabaldi/sim.py:_sim_stress_step"]}
{"id": "C62", "title": "The basic demonstration reads its own law", "statement": "demos/basic_use.py, for every number of devices, every pair of temperatures, every positive duration up to 9e9 hours and every normal distribution of the coefficient whose draws are finite: the simulation succeeds, the only numbers drawn are the n coefficients a, the first measurement reads 0 on every device, and the second measurement reads -a*temp*(duration + t) on each device with its own a and some 0 < t < 0.0011 hours, at the elapsed time of the stress.", "quantifier": "all device counts, temperatures, durations, draws and set iteration orders", "why_tests_cant": "A run of the demonstration shows a plot of five random devices; it does not relate the readings to the drawn coefficients.", "anchors": ["demos/basic_use.py:run_simulation", "gerabaldi/sim.py:simulate"]}
{"id": "C63", "title": "Values stay in their ranges", "statement": "Let each latent variable, condition, mechanism degradation, parameter value and reading have a range (any set of values). If all drawn values are in the ranges of their names, every equation maps arguments in their ranges to a value in the range of its result, the neutral and initial values are in range, and the instruments map values in range to readings in range, then after a simulation all parameter values, degradations and latent values of the state and all readings of the report are in their ranges: the search for equivalent times, the limit for late times, the element by element fallback, slicing and rounding do not produce values from elsewhere. In particular, with finite draws, finite conditions and equations that are finite on finite arguments no value and no reading is infinite or NaN.", "quantifier": "all devices, environments, tests, ranges, generators and set orders", "why_tests_cant": "all ranges, draws and executions, and the whole course of the search", "anchors": ["gerabaldi/sim.py:simulate", "gerabaldi/models/devices.py:DegMechMdl.calc_equiv_strs_time", "gerabaldi/math/minimize.py:minimize", "gerabaldi/models/phys_envs.py:MeasInstrument.measure"]}
{"id": "C64", "title": "The riverbed demonstration", "statement": "demos/riverbed_erosion.py, for every number of sampled locations, rivers and (up to a million) years and every generator whose normal distributions give finite numbers: building the test, the device and the environment and simulating succeed; the report has one reading for each river and location before the first and after each year; all readings are finite although the instrument rounds to significant digits; the erosion is never negative; and the readings are taken from levels that are the initial level of the location minus its erosion.", "quantifier": "all sample counts, years, draws and set iteration orders", "why_tests_cant": "A run of the demonstration shows a plot of one random execution.", "anchors": ["demos/riverbed_erosion.py:run_simulation", "gerabaldi/sim.py:simulate"]}
{"id": "C65", "title": "Parameters follow their own equation", "statement": "For a parameter whose user-supplied equation computes each sample from the arguments at that sample, directly on arrays or through the loop over the samples: after every stress step the true value of each device is the value of that equation for the initial value, the mechanism values and the latent values of that very device and the neutral conditional shift, independent of the true value before; this holds after any sequence of steps. A measurement gives each of the first n devices the value of the equation for its true value, its conditional shift, neutral mechanism values and its own latent values, so if the equation returns the initial value for neutral mechanisms the instrument reads the true values.", "quantifier": "all sample-by-sample equations (arithmetic ones are shown to be), devices, tests, numbers of lots, chips and devices, fewer measured than simulated devices", "why_tests_cant": "all executions and equations; arguments of different devices or names must not be mixed", "anchors": ["gerabaldi/models/devices.py:DegPrmMdl.calc_deg_vals", "gerabaldi/models/devices.py:DegPrmMdl.calc_cond_shifted_vals", "gerabaldi/sim.py:_sim_stress_step"]}
{"id": "C66", "title": "The TDDB demonstration", "statement": "demos/vts_paper_tddb_model_sensitivity.py, for every number of oxides and (up to a million) weeks, every defect generation constant and thermal exponent, and every generator whose draws succeed: building the test, the device and the environment and simulating succeed; the report has one reading for each oxide before the first and after each week; the reading after week y, at 168 y hours, is 0 for exactly those oxides in which the three defects of one of the four columns have formed in the state reached by the preceding steps and 1 for all others; initially no oxide is broken down; and an oxide once read as broken down is read so in every later measurement.", "quantifier": "all numbers of oxides and weeks, parameter values, draws and set iteration orders", "why_tests_cant": "A run of the demonstration shows one random outcome; no oxide may recover in any of them, and breakdown needs a complete column of defects", "anchors": ["demos/vts_paper_tddb_model_sensitivity.py:single_test", "demos/vts_paper_tddb_model_sensitivity.py:oxide_failed", "gerabaldi/models/devices.py:DegPrmMdl.calc_cond_shifted_vals", "gerabaldi/models/devices.py:FailMechMdl"]}
{"id": "C67", "title": "Circuit parameters follow their own equation", "statement": "A measurement of n samples of a circuit parameter gives each measured sample what the instrument reads from the value of the equation for the own latent values, the measurement conditions and the true values of the other parameters of that very sample, in the state left by the preceding steps; own latent variables take precedence over conditions and these over parameters. Exactly n devices of the parameter and of every parameter it reads exist; with fewer samples than lots only the first n lots are measured.", "quantifier": "all sample-by-sample equations (arithmetic ones are shown to be), devices, tests, numbers of lots, chips and devices, instruments, draws", "why_tests_cant": "Tests compare one circuit equation on hand-made arrays; a mix-up of samples or of the sources of arguments can cancel out there.", "anchors": ["gerabaldi/models/devices.py:CircPrmMdl.calc_circ_vals", "gerabaldi/sim.py:simulate", "gerabaldi/models/phys_envs.py:MeasInstrument.measure"]}
{"id": "C68", "title": "The presilicon variability demonstration", "statement": "demos/vts_paper_presilicon_variability.py, for every number of amplifiers, chips and lots, up to a million cycles and every generator whose normal distributions give finite numbers: building the two devices, the environment and the three tests succeeds, and so do all six simulations; every chip has as many transistors as amplifiers; the tables have one row for each measured amplifier at the beginning and after each stress step and no others, at the sum of the durations so far. The true threshold voltage is the initial value plus the BTI and HCI shifts of that very transistor, and the reading of an amplifier is the gain 20 (0.54 vdd - v) / (0.69 vdd - v)**2 for the threshold voltage and supply voltage of that very amplifier, unless one of the differences is zero.", "quantifier": "all numbers of amplifiers, chips, lots and cycles, draws and set iteration orders", "why_tests_cant": "The test suite runs the demonstration once and checks a few cells of the tables.", "anchors": ["demos/vts_paper_presilicon_variability.py:run_simulation", "gerabaldi/sim.py:simulate", "gerabaldi/models/devices.py:CircPrmMdl.calc_circ_vals"]}
{"id": "C69", "title": "The measurement table is ordered by step and name", "statement": "The measurement table of every successful simulation whose measurement steps name each quantity at most once consists of exactly the rows of its measurement steps, in the order of the steps, within a step in the order in which the quantities are named in its specification: no row is lost, doubled, interleaved or added.", "quantifier": "all tests, device models, environments, initial states and set orders", "why_tests_cant": "Tests look up single rows of one short test; a lost or doubled row of another step or quantity is not seen.", "anchors": ["gerabaldi/sim.py:_sim_meas_step", "gerabaldi/sim.py:simulate", "gerabaldi/models/reports.py:SimReport.format_measurements"]}
{"id": "C70", "title": "The environment uses every model for the name it was given", "statement": "An environment built from dictionaries uses each variability model and each measurement instrument for exactly the condition or parameter it was given for, and the model without variation or the exact instrument for every other name; built from lists, each name gets the last object of that name, and an object without a name is rejected with a TypeError.", "quantifier": "all dictionaries and lists of models and instruments, all names", "why_tests_cant": "Tests build environments of one or two models; two objects with one name, one object under two names, or names not given at all are not tried.", "anchors": ["gerabaldi/models/phys_envs.py:PhysTestEnv.__init__", "gerabaldi/models/phys_envs.py:PhysTestEnv.vrtn_mdl", "gerabaldi/models/phys_envs.py:PhysTestEnv.meas_instm"]}
{"id": "C71", "title": "Conditional shifts belong to the measured device", "statement": "A measurement of n devices of a parameter with a conditional model shows, for each of these devices, what the parameter's instrument reads from the value of the parameter equation for its true value, its conditional shift, the neutral mechanism values and its latent values; the conditional shift is the value of the conditional equation for the conditional latent values of that device and the measurement conditions at that device, latent values taking precedence; for equations evaluated on arrays and for equations that only take numbers and are applied through the loop over the samples.", "quantifier": "all sample-by-sample equations, tests, device models, environments, numbers of devices, chips and lots, positions of the measurement", "why_tests_cant": "Tests measure uniform devices, for which a shift of another device, of the stress conditions or of another step is the same number.", "anchors": ["gerabaldi/models/devices.py:CondShiftMdl.calc_cond_vals", "gerabaldi/models/devices.py:DegPrmMdl.calc_cond_shifted_vals", "gerabaldi/sim.py:_sim_meas_step"]}
{"id": "C72", "title": "Simulations start with new devices", "statement": "Unless a state is given, a simulation starts at time zero with as many devices of every degraded parameter as its count: the initial value of each device is the value of the initial equation for latent values drawn from the initial model's own variables at that very device, its present value is the initial value, every mechanism has its neutral value, and the latent values of the conditional model, of each mechanism and of the parameter equation are drawn from the variables of that very part; a parameter without an initial model starts at 0 everywhere.", "quantifier": "all device models whose parts have different names, all tests, numbers of devices, chips and lots, random numbers", "why_tests_cant": "Tests use one mechanism with one or two latent variables; values of another part, of another device, or a wrong default are not noticed.", "anchors": ["gerabaldi/models/devices.py:DeviceMdl.gen_init_state", "gerabaldi/models/devices.py:DegPrmMdl.gen_latent_vals", "gerabaldi/models/devices.py:InitValMdl.gen_init_vals", "gerabaldi/sim.py:gen_init_state"]}
{"id": "C73", "title": "What failure mechanisms do in a whole test", "statement": "In every simulation from new devices, the final value of each sample of a failure mechanism is decided by the first stress phase for which the mechanism's equation, evaluated for the length of that phase alone in the mechanism's time unit, the conditions requested for that phase and the latent values of that very sample, leaves the unfailed value; the sample gets that value and nothing later (stress or measurement) changes it. If no phase does so, the sample keeps what the last phase's equation gave, equal to the unfailed value. Phases longer than 9e9 time units are ignored. Lengths of phases do not add up.", "quantifier": "All devices (any number of parameters and mechanisms), tests of any number of phases, random outcomes, numbers of lots, chips and devices, equations computed sample by sample (array expressions or functions for single numbers), environments without variation of the conditions of that mechanism.", "why_tests_cant": "Tests simulate one or two phases of one mechanism; they cannot cover all sequences of phases or show that no later phase and no other sample matters.", "anchors": ["gerabaldi/models/devices.py:555-655", "gerabaldi/models/devices.py:417-463", "gerabaldi/sim.py:88-139", "gerabaldi/sim.py:201-237"]}
{"id": "C74", "title": "What any simulation reports, from drawn values, phases and conditions", "statement": "In a simulation from new devices, each sample has one history: its latent values are drawn once from the variables they belong to; each stress step is one phase with the conditions the environment gave that very sample; a mechanism starts at its neutral value and in each phase a failure mechanism evaluates its equation for the length of that phase unless the sample has failed, any other mechanism evaluates it for the length of the phase added to the time that the search found for its old value under the phase's conditions (all samples search for as many rounds as it takes until all are done, at most 50), and times above 9e9 units leave the old value. The true value is the initial value before any stress and otherwise what the parameter's equation gives for the initial value, the neutral conditional shift, those mechanism values and the parameter's latent values. A measurement shows what the instrument reads from the equation's value for the true value, the conditional shift under the measurement's conditions and neutral mechanism values, at the time that the preceding stress steps add up to. So the report is a function of the drawn values and conditions, and no sample depends on another one except through the common number of search rounds.", "quantifier": "all devices whose equations compute sample by sample, tests, environments, random generators, numbers of lots, chips and devices, and positions of the measurement", "why_tests_cant": "Tests compare a few readings of a few devices with constant equations; they cannot separate the histories of all samples over arbitrarily many phases.", "anchors": ["gerabaldi/sim.py:89-136", "gerabaldi/sim.py:137-199", "gerabaldi/sim.py:201-237", "gerabaldi/models/devices.py:417-463", "gerabaldi/models/devices.py:508-552", "gerabaldi/models/devices.py:555-655"]}
{"id": "C75", "title": "Degradation under changing conditions accumulates exposure", "statement": "If the equation of a DegMechMdl is one strictly monotone function of rate times time, where the conditions of a phase and the sample's latent values only decide on the rate, then after stress phases under any different conditions each sample has the value for the sum of rate times length over all phases. The tolerances are explicit: a factor of 10**0.00001 for each search, and for new devices at most 0.0011 time units at the first rate. The order of the phases does not matter beyond this tolerance.", "quantifier": "All such equations, numbers of phases, conditions, lengths, rates, sample counts and latent values, as long as the equivalent times stay within the search bounds and 9e9 units and the searches finish within 50 rounds.", "why_tests_cant": "Tests check single phase sequences (test_time_unit) on a linear law; the equivalent time step has to be right under every change of conditions and for every monotone law, and its errors must not add up faster than one tolerance per phase.", "anchors": ["gerabaldi/models/devices.py:417-463", "gerabaldi/models/devices.py:508-552", "gerabaldi/math/minimize.py:23-120", "tests/feature_tests/timescales_test.py"]}
{"id": "C76", "title": "A device does not depend on the devices tested with it", "statement": "With the same latent values, conditions and phase lengths, a device has the same mechanism values whichever and however many other devices are in the test. This holds exactly for failure mechanisms, and for others if the searches take the same number of rounds; in general the exposure of a DegMechMdl following a rate law is the same up to the tolerance of the searches. It is not exactly the same: all searches go on until the slowest is finished, so a second device can change the first.", "quantifier": "All numbers of lots, chips and devices on both sides, all positions of the device, all latent values, phases and equations.", "why_tests_cant": "The coupling only shows when two runs with different populations but equal draws are compared, and then in the sixth digit; random draws differ between such runs, so no test can compare them.", "anchors": ["gerabaldi/math/minimize.py:66-131", "gerabaldi/models/devices.py:508-552", "gerabaldi/models/devices.py:555-655"]}
{"id": "C77", "title": "A simulation without variation reads the nominal value everywhere", "statement": "If the latent variables of a degrading parameter, the conditions of the steps and the measurement have no variation and the parameter no instrument, every row of a measurement shows the same number. That number is a function of the fixed latent values, the requested conditions and the durations of the preceding stress steps and the requested conditions of the measurement, computed for one device alone. So two such simulations read the same value whatever the seeds, the numbers of lots, chips and devices, the order in which sets are traversed, the other parameters, the measurements in between and the later steps.", "quantifier": "for all devices, environments, tests, random states, set orders, numbers of samples and stress steps before the measurement", "why_tests_cant": "A test compares a few seeds and sizes; the claim is that no seed, size, neighbour or intermediate measurement can show up in the readings.", "anchors": ["gerabaldi/sim.py:89-136", "gerabaldi/sim.py:137-199", "gerabaldi/sim.py:201-237", "gerabaldi/models/devices.py:417-463", "gerabaldi/models/devices.py:508-552"]}
{"id": "C78", "title": "A longer stress step degrades at least as much", "statement": "Of two stress steps with the same conditions, applied to the same devices in the same random state, the longer one leaves every mechanism value further along (larger for a mechanism equation that increases with time, smaller for a decreasing one).", "quantifier": "for all devices, environments, steps before, lengths, numbers of samples and mechanism equations that act sample by sample and are monotone in time", "why_tests_cant": "A test compares a few durations; the claim fails only beyond a hidden limit that depends on the time unit of the mechanism.", "anchors": ["gerabaldi/models/devices.py:417-463", "gerabaldi/models/devices.py:508-552", "gerabaldi/models/devices.py:555-655"]}
{"id": "C79", "title": "A circuit sees its devices as they are", "statement": "A circuit parameter is computed from its own latent values, the conditions at the sample and the true values that the stress histories of the devices it reads lead to. A circuit parameter that is just a device parameter reads, in the same measurement, what that device parameter reads.", "quantifier": "for all devices, environments, tests, circuit equations, random states and numbers of samples", "why_tests_cant": "Tests look at circuits whose parameters have no conditional shift; the claim fails exactly for those that have one.", "anchors": ["gerabaldi/models/devices.py:1155-1184", "gerabaldi/models/devices.py:1046-1092", "gerabaldi/sim.py:137-199"]}
{"id": "C80", "title": "The layout of a report depends only on the test", "statement": "Apart from the measured values, the measurement table of every successful simulation with new devices is fixed by the test specification alone: its rows are, in order of steps, names, lots, chips and devices, one per requested reading, each with the step number, the name, the device's place (none for a condition) and the total stress time before it. Two simulations of one test with different environments, random numbers or device equations have tables that agree row by row in everything but the value, and their size is the number of requested readings.", "quantifier": "for all tests, environments, random streams and devices with sample-wise equations; measured circuit parameters have as many devices as samples and at least one sample per lot (otherwise see C44)", "why_tests_cant": "The layout is the product of the device numbering, the reshaping of arrays, the concatenation of tables and the clock, over arbitrarily many steps; tests look at single tables of a few rows.", "anchors": ["gerabaldi/sim.py:137-199", "gerabaldi/sim.py:201-237", "gerabaldi/models/reports.py:92-160"]}
{"id": "C81", "title": "Optional packages are optional", "statement": "The package can be imported and simulations run whichever of the optional packages PyMC, Pyro and torch are absent or broken; an export to a framework works as soon as that framework is there, regardless of the others, and otherwise raises an ImportError that names the module and the package to install, without touching the variable.", "quantifier": "for all outcomes of the optional imports, all latent variables and both target frameworks", "why_tests_cant": "Needs machines with every combination of absent and broken packages; the exception classes raised by broken packages are open-ended.", "anchors": ["gerabaldi/helpers.py:128-149", "gerabaldi/models/random_vars.py:64-101", "gerabaldi/models/devices.py:198-253", "gerabaldi/models/phys_envs.py:22-24"]}
{"id": "C82", "title": "The starting time only shifts the clock", "statement": "Starting a simulation with devices whose elapsed time is later by some amount gives the same report with every time in the measurement table and the summary moved by that amount: same rows, same values, same random numbers. Making the devices with gen_init_state at a later elapsed_time makes the same devices. Both hold for all documented kinds of elapsed times.", "quantifier": "for all devices, tests, environments, states and shifts for which the times stay in the range of timedelta", "why_tests_cant": "A dependence of degradation or measurement on the absolute time would show only in sequences of simulations that continue from intermediate states; tests start at zero.", "anchors": ["gerabaldi/sim.py:21-86", "gerabaldi/sim.py:89-136", "gerabaldi/sim.py:137-199", "gerabaldi/sim.py:201-237"]}
{"id": "C83", "title": "Accelerated tests", "statement": "For mechanisms whose conditions only decide how fast a device ages (the equation is one curve of an exposure, rate times time), two tests of the same new devices compare as their exposures do: phase by phase longer and faster stress leaves at least as much degradation, up to the tolerance of the searches (1e-5 decades per phase after the first) and 0.0011 time units at the start; when the exposure is larger by more than that, strictly more degradation; and a test that is A times as fast and A times shorter in every phase leaves the same degradation within that tolerance.", "quantifier": "all such equations with rising concave or falling convex curves, all numbers and lengths of phases, all rates, all devices and samples, all environments", "why_tests_cant": "An acceleration factor is a statement about two runs with arbitrary conditions and real exponents; tests can only compare a few pairs of runs numerically and have to guess a tolerance.", "anchors": ["gerabaldi/models/devices.py:508-552", "gerabaldi/math/minimize.py:23-134", "gerabaldi/sim.py:89-136"]}
{"id": "C84", "title": "A test owns its steps", "statement": "A test has exactly the steps that were put into it: appending to one test changes neither other tests nor the lists of the caller, and appending a list in a loop appends at least the requested stress time even if the list is the test's own. Holds for programs that give every list to at most one test and do not use it afterwards. Violated otherwise: the constructor keeps the caller's list object, so that two tests made from the same list (and the caller's list) grow together, and looping over the test's own list doubles the test while counting the doubled time, so that exactly half of the requested time is appended without a warning if the time is 2(2^k - 1) times that of the test.", "quantifier": "all sequences of making lists, making tests and appending to them, all step lists and loop durations", "why_tests_cant": "Aliasing needs particular sequences of calls that share a list object; the repository tests build every test from its own literal list.", "anchors": ["gerabaldi/models/test_specs.py:111-140", "gerabaldi/models/test_specs.py:142-202"]}
{"id": "C85", "title": "The arguments of gen_init_state", "statement": "gen_init_state takes the quantities from exactly one source (a dictionary of counts or a report) and leaves that source as it is. Precisely: with neither it raises UserConfigError; the dictionary or the report is unchanged if and only if it already had enough devices for every circuit parameter in it; otherwise the caller's object grows. Both sources together are accepted (against the error message) and the counts win.", "quantifier": "all devices, counts, reports, quantities and random states", "why_tests_cant": "The change happens in an object of the caller that the repository tests never look at again.", "anchors": ["gerabaldi/sim.py:21-86"]}
{"id": "C86", "title": "A saved report can be loaded from its file", "statement": "export_to_json with a file name makes the directory of the file if only that one is missing, writes the report to that file and to no other, and SimReport(file=...) with the same name then gives back the saved report (names, descriptions, times in the saved units, all rows). Saving again replaces the earlier report. An export that raises leaves every file as it was. A directory whose own parent is missing as well is made too.", "quantifier": "all reports that can be exported, all explicit time units other than days, all disks (any directories and files, any current directory), absolute and relative file names of any depth", "why_tests_cant": "Tests save one report to one directory; the claim is about every disk state and every file name, including that no other file changes.", "anchors": ["gerabaldi/models/reports.py:43-90", "gerabaldi/models/reports.py:170-219"]}
{"id": "C87", "title": "Measurements are formatted from lists of up to three levels", "statement": "format_measurements accepts a list of devices, a list of chips or a list of lots (as nested lists or arrays of one, two or three dimensions). It gives exactly one row per entry, numbered by the places of the entry in the lists (missing levels are number 0), in order. Readings of conditions have no numbers. Lists of different lengths on the same level give ValueError, a plain number IndexError, and four levels ValueError unless each device has exactly one entry.", "quantifier": "all nested lists of any sizes (including empty ones), all parameter names, times and step numbers", "why_tests_cant": "The repo's tests only see three dimensional arrays from simulations; the claim is about all shapes.", "anchors": ["gerabaldi/models/reports.py:92-146"]}
{"id": "C88", "title": "Reports have their documented attributes however they are made", "statement": "SimReport(test_spec, name, description, file) uses the given names (empty ones count as not given) or those of the test, has the sizes of the test (largest number of samples per name, chips, lots) and empty tables, and does not read the file if there is a test. A report loaded from a file has the names and tables of the saved report and its sizes, so that it can be used as quantity_info of gen_init_state. Without test and file the report is empty. Rows added to any report end up in its tables in order and change nothing else.", "quantifier": "all tests, names, disks, file names, reports and sequences of added rows, all devices", "why_tests_cant": "Tests build a few reports from tests; the claim covers all combinations of arguments and every later sequence of additions.", "anchors": ["gerabaldi/models/reports.py:43-90", "gerabaldi/models/reports.py:148-168", "gerabaldi/sim.py:54-86"]}
{"id": "C89", "title": "NBTI damage adds up over changing conditions", "statement": "In a test whose stress phases differ in temperature and voltage, the damage of every sample of the prebuilt JEDEC NBTI mechanism (its threshold shift to the power 1/n, with the sample's own time exponent n) is the sum of the damages that the phases would do to new samples under their own conditions, up to the tolerance of one equivalent-time search per phase and 0.0011 time units in the first phase. Under constant conditions the shift is the JEDEC shift for the total time, into however many phases the stress is divided.", "quantifier": "All latent values with positive prefactor and time exponent (up to one for new devices), all positive temperatures and voltages, any number of phases of any lengths whose equivalent times are in the range of the search and whose searches finish.", "why_tests_cant": "A test compares one or two stress histories with numbers computed by hand; that damage adds up for every history, sample and mixture of conditions concerns the equation and the search for the equivalent time together.", "anchors": ["gerabaldi/cookbook/mech_mdls.py:14-37", "gerabaldi/models/devices.py:508-552", "gerabaldi/math/minimize.py:23-134", "gerabaldi/sim.py:89-136"]}
{"id": "C90", "title": "The unit and the zero of a degradation mechanism do not matter", "statement": "Expressing a mechanism in another unit and with another zero (its equation and its unitary value become kappa*x+beta with kappa > 0) changes its value after every stress history exactly by that conversion, and if the parameter equation converts back, true values and measurements are the same. The minimisation inside gives the same points when its objective is rescaled.", "quantifier": "For all kappa > 0, beta, all equations and values including infinities and NaN, all mechanism kinds, numbers of samples, phases, lengths and conditions; for minimize all configurations and objectives, even failing ones.", "why_tests_cant": "Tests use one unit; a hidden absolute tolerance on degradation values would only show for very small or very large units.", "anchors": ["gerabaldi/models/devices.py:508-552", "gerabaldi/models/devices.py:555-655", "gerabaldi/math/minimize.py:23-134"]}
{"id": "C91", "title": "Lots, chips and devices vary independently, as a layered random model says", "statement": "With ideal random generators (independent standard numbers for every generator), the values that gen_latent_vals gives the devices are made of independent contributions of lots, chips and devices, each with the distribution of its layer. Hence devices of different lots are independent, the joint distribution does not change when lots, chips or devices are interchanged, means of the layers add up (or multiply), and the covariance of two devices is the variance of the layers they share. With normal layers every value is normal with the sum of the variances.", "quantifier": "For all latent variables with finite parameters, also when layers share a generator object, all numbers of lots, chips and devices, all places the generators have reached, all probability spaces with independent standard numbers.", "why_tests_cant": "A test can only estimate variances from samples; reusing a draw for two parts would pass value checks and only show as a correlation.", "anchors": ["gerabaldi/models/devices.py:167-196", "gerabaldi/models/random_vars.py:48-62"]}
{"id": "C92", "title": "Defects form independently with the stated chance", "statement": "In the oxide breakdown demonstration, when the uniform generator is ideal, the defects of all devices in all stress phases form independently of each other, each with the chance the formula gives (cut to the interval from 0 to 1), a defect stays once formed, and a device has no defect after a sequence of phases with the product of the chances of surviving each phase. Because the chance is linear in time, splitting a phase in two raises the chance to survive it.", "quantifier": "for all numbers of lots, chips and devices, all sequences of phases, all conditions and latent values per device with positive temperature, all ideal generators and positions on them", "why_tests_cant": "A test compares frequencies of a few thousand draws with a tolerance; a reused number, a turned comparison for rare defects or a correlation between devices stays within it.", "anchors": ["demos/vts_paper_tddb_model_sensitivity.py:43-48", "gerabaldi/models/devices.py:417-463", "gerabaldi/models/devices.py:628-657", "gerabaldi/helpers.py:184-192"]}
{"id": "C93", "title": "The conditions of a step vary independently, as the environment says", "statement": "With ideal random generators, the conditions that gen_env_cond_vals gives to the devices and sensors in a step are made of independent contributions: for every condition one of the batch, one of every chip, and one of every device of every parameter and of every sensor, each with the distribution of its layer. Hence different conditions are independent, and with additive normal variation the value of a device is normal around the requested one and the covariance of two devices is the variance of the layers they share.", "quantifier": "For all environments with finite distributions, also when models share generator objects, all devices, parameters and conditions, all numbers of lots, chips and devices, all set orders, all probability spaces with independent standard numbers.", "why_tests_cant": "A test can only estimate variances from samples; drawing the chip variation again for each parameter or sharing the device draw between parameters would pass value checks and only show as a correlation.", "anchors": ["gerabaldi/models/phys_envs.py:208-298", "gerabaldi/models/phys_envs.py:380-457", "gerabaldi/models/random_vars.py:48-62"]}
{"id": "C94", "title": "New devices vary independently, as their latent variables say", "statement": "With ideal random generators, the state that gen_init_state makes is built from independent contributions: for every latent variable of every parameter - of its equation, its conditional shift, each mechanism and its initial value - one of every lot, every chip and every device, each with the distribution of its layer. Hence initial values of different parameters are independent, initial values are independent of all mechanism variables, variables with the same name or the same generator objects are independent, and devices of different lots are independent; additive normal variation gives normal values with the sum of the variances.", "quantifier": "For all devices with finite distributions and total initial equations, also when variables share generator objects, all numbers of lots, chips and devices, all places the generators have reached, all probability spaces with independent standard numbers.", "why_tests_cant": "A test can only estimate correlations from samples; a latent variable drawn once and used for two parameters would pass value checks.", "anchors": ["gerabaldi/models/devices.py:1288-1321", "gerabaldi/models/devices.py:895-921", "gerabaldi/models/devices.py:300-321", "gerabaldi/models/devices.py:167-196"]}
{"id": "C95", "title": "Measurement errors are added independently and touch nothing else", "statement": "When the instruments draw their errors from generators of their own, a simulation gives exactly the report of the same simulation with error-free instruments, except that every reading is what the instrument shows for the true value plus an error. There is one error per reading; the errors are independent of each other and of everything the devices and conditions drew, and each has the distribution given for the instrument (nothing without one). Readings of instruments with normal errors, no limits and no rounding are therefore independent normal variables around the true values.", "quantifier": "for all tests, devices, environments and initial states, all numbers from the other generators, and all ways in which numpy makes random numbers from the given distributions", "why_tests_cant": "A test sees a few noisy numbers; that no error is reused between rows, leaks into the state of a device or shifts the numbers drawn by another generator is a statement about a joint distribution over unbounded runs.", "anchors": ["gerabaldi/models/phys_envs.py:57-98", "gerabaldi/sim.py:139-198"]}
{"id": "C96", "title": "Readings of new devices have the total variation of lots, chips, devices and errors", "statement": "In a test that only inspects new devices (measurements without stress, parameters with the default equations) every requested reading appears exactly once and is the device's initial value, made of the contributions of its lot, its chip and itself, plus an error of its own. With ideal generators all these contributions and errors are independent. If they are normal, a reading is normal with the sum of the four variances; two readings have as covariance the variances of just the lot, the chip and the device they share, so repeated readings of a device share everything but the error; readings of different parameters or from different lots are independent.", "quantifier": "for all device models, all inspections with any number of lots, chips, devices and steps, all instruments with error generators of their own, all distributions of the layers, and all executions (all contents of the generators)", "why_tests_cant": "Tests run a few seeds and look at a few numbers; the joint law of all readings over all seeds (a gauge study's variance components) is a statement about a measure on all contents of the generators.", "anchors": ["gerabaldi/sim.py:21-86", "gerabaldi/sim.py:139-198", "gerabaldi/models/phys_envs.py:57-98", "gerabaldi/models/random_vars.py:46-62"]}
{"id": "C97", "title": "Everything random in a test is independent, and there is one batch per test", "statement": "With ideal random generators, the contributions that new devices are made of, the contributions to the conditions of all steps, and the errors of all readings are independent together, each with the distribution of its layer or instrument - also where models share random variables (only the instruments have generators of their own). Hence the conditions of different steps vary independently of each other and of the latent values of all devices. The design has one batch per test: the batch contribution of a condition is the same in all its steps.", "quantifier": "for all devices, environments and tests with finite distributions, numbers of lots, chips and devices, step sequences with finite conditions, and set orders, with ideal generators", "why_tests_cant": "A test sees samples; independence of many thousand numbers across steps, devices and instruments cannot be sampled, and a shared or repeated draw looks plausible in every single report.", "anchors": ["gerabaldi/sim.py:88-237", "gerabaldi/models/phys_envs.py:164-167", "gerabaldi/models/phys_envs.py:208-298"]}
{"id": "C98", "title": "A simulation depends on the generators of its own random variables only, and positive seeds make it repeatable", "statement": "The report of a simulation (or its exception) is determined by the states of the generators of the random variables in its device and environment: the same set-up made of other random variable objects whose generators are in the same states gives the same report in any other world, all other generators stay as they were, no generator is created, and two simulations without a random variable in common give the same reports in either order. Hence a script that gives all random variables a seed has one result, whatever ran before it.", "quantifier": "For all tests, devices with equations that draw nothing, environments with variations and instrument errors, initial states, numbers of lots, chips and devices, bit generators, seeds, and histories of the program before", "why_tests_cant": "The test suite seeds nothing but single random variables; a draw from a shared or global generator would only show up in particular interleavings of simulations.", "anchors": ["gerabaldi/models/random_vars.py:28-62", "gerabaldi/sim.py:201-237", "gerabaldi/models/devices.py:167-196", "gerabaldi/models/phys_envs.py:57-98", "gerabaldi/models/phys_envs.py:380-457"]}
{"id": "C99", "title": "The demonstrations pass their own checks", "statement": "Run with --test, every one of the four demonstrations ends with exit code 0, whatever is drawn from the random generators and whether or not its reports are saved: the measurement table has the size the check asks for, and the lines of the test summary have the conditions, names and times of the steps that were specified. The same holds for reports that were saved and are checked again.", "quantifier": "for all generators with finite draws, all draws, all set orders, all disks with room for the reports", "why_tests_cant": "The demonstrations are run with one draw of the generators; that no draw can make a check fail cannot be seen from runs, and the checks are never run on saved reports.", "anchors": ["demos/basic_use.py:93-108", "demos/riverbed_erosion.py:167-182", "demos/vts_paper_presilicon_variability.py:271-290", "demos/vts_paper_tddb_model_sensitivity.py:283-303"]}
{"id": "C100", "title": "The figures of the demonstrations show the simulated readings", "statement": "The curves of the figures of the demonstrations are those of the readings in the report: for the basic demonstration one curve per device; for the erosion one curve per sample over the years, with the mean and the band between the smallest and largest reading of each river; for the oxides one failure time each, the end of the week after which the oxide is first read as broken, and none for the oxides that stay intact; for the amplifiers the average and the band over all lots, chips and devices and the last readings.", "quantifier": "for all numbers of lots, chips, devices, rivers, samples and weeks, all draws, all set orders", "why_tests_cant": "The figures are looked at by people; that a curve belongs to the device it is labelled with, or that an oxide without failure is counted as censored, is asserted nowhere.", "anchors": ["demos/basic_use.py:66-81", "demos/riverbed_erosion.py:108-144", "demos/vts_paper_presilicon_variability.py:181-230", "demos/vts_paper_tddb_model_sensitivity.py:201-243"]}
{"id": "C101", "title": "Lots, chips and devices are interchangeable", "statement": "The numbers of lots, chips and devices have no meaning. With ideal random generators, exchanging lots, chips within lots or devices on chips leaves the joint distribution of all random values of a test - initial values, latent values, and the conditions that the devices meet in all steps - as it is. And the same devices in another order, in other lots and chips, or together with copies of themselves, degrade to exactly the same values and show exactly the same to the instruments.", "quantifier": "for all devices, environments and tests with finite distributions, all exchanges, all families of values, all numbers of lots, chips and devices; for the degradation all equations, latent values, stress phases and rearrangements", "why_tests_cant": "A test sees one order of one sample; that the joint distribution of thousands of values is symmetric cannot be sampled, and an index that treats the first device of a chip specially would look plausible.", "anchors": ["gerabaldi/models/devices.py:1288-1321", "gerabaldi/models/devices.py:167-196", "gerabaldi/models/devices.py:508-552", "gerabaldi/models/phys_envs.py:208-298", "gerabaldi/math/minimize.py:66-131"]}
{"id": "C102", "title": "Seeded layers remain separate sources of variation", "statement": "Giving test seeds to the random variables of a latent variable only makes their numbers repeatable: every layer yields what it would yield on its own, however many numbers the other layers draw, and the variation of a device is not tied to the variation of its chip or lot.", "quantifier": "All latent variables, generators, seeds, distributions, numbers of lots and chips, and all programs that create the random variables", "why_tests_cant": "Tests with fixed seeds compare single numbers and cannot see that two layers move together.", "anchors": ["gerabaldi/models/random_vars.py:28-36", "gerabaldi/models/devices.py:167-196"]}
{"id": "C103", "title": "A prebuilt HTOL test ages prebuilt NBTI devices by the JEDEC equation", "statement": "At every point of a simulated HTOL test from the cookbook with intermediate intervals, in an environment that does not vary temperature and supply voltage, each sample of the cookbook NBTI mechanism has the JEDEC threshold shift for its own latent values, the stress temperature in kelvin, the multiplied supply voltage and the stress time so far, up to the tolerance of one equivalent-time search per completed interval after the first and 0.0011 time units in the first interval.", "quantifier": "All device models containing the mechanism, all intervals dividing the duration, all positive stress temperatures (in kelvin) and voltages, all latent values with positive prefactor and time exponent in (0,1], every prefix of the test, all samples, lots and chips, whenever the equivalent times are in the range of the search and the searches finish.", "why_tests_cant": "The test builder, the unit conversions, the environment, the simulator loop and the mechanism are tested one at a time with a few numbers; that they fit together for every test length and every sample cannot be enumerated.", "anchors": ["gerabaldi/cookbook/test_specs.py:16-83", "gerabaldi/cookbook/mech_mdls.py:14-37", "gerabaldi/sim.py:89-136"]}
{"id": "C104", "title": "The equivalent time is found within the rounds allowed", "statement": "For a mechanism that strictly increases with time, the search for the equivalent time of a sample finds the time at which the mechanism has the sample's degradation, so that further stress under the same conditions does not take the sample back.", "quantifier": "All strictly monotone mechanism equations, all degradations reached at a time within the bounds of the search.", "why_tests_cant": "Tests use power laws and similar curves, for which the search ends after about 30 of its 50 rounds; a curve on which parabolic steps keep shrinking without the bracket shrinking has to be constructed from the algorithm.", "anchors": ["gerabaldi/math/minimize.py:66-132", "gerabaldi/models/devices.py:508-552"]}
{"id": "C105", "title": "A slow sample does not spoil the search of the others", "statement": "Let a sample have a strictly monotone mechanism whose value equals the current degradation at a time T inside the search bounds, and let some search that contains this sample (for instance the search of the sample alone) stop by itself. Then in every other search that contains the sample, over an array of any size and with any other samples, the time returned for it is within the factor 10**(2*tol) of T, even if that search is cut off after 50 iterations because of other samples. The iterations a finished element goes through while others are still searching never undo its convergence.", "quantifier": "for all array sizes, positions, objectives of the other samples, worlds, strictly monotone mechanisms and times T in [1e-3, 1e10]", "why_tests_cant": "The stop test is over the whole array, so finished elements keep being stepped; whether these extra steps can widen a bracket again depends on all later values, and tests only see particular mechanisms.", "anchors": ["gerabaldi/math/minimize.py:66-129", "gerabaldi/models/devices.py:539-553"]}
