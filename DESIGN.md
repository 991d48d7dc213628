# Formal model of gerabaldi — design

Target: `ianrmhill/gerabaldi` at the pinned commit in `/repo` (Python).
Lean project: `/verif/lean`, modules under `Verif/`, all imported by `Verif.lean`.

## Layers

| Layer | Files | Content |
|---|---|---|
| Model | `Verif/Model/*.lean` | Shallow, branch-by-branch model of the Python functions. Exceptions are values. Every definition cites file and lines. |
| Spec | `Verif/Spec/*.lean` | Small specifications that do not use the model's helpers: logs of calls, expected rows, curves, densities, precedence rules. Some short ones sit at the top of their property file. |
| Lemmas | `Verif/Lemmas/*.lean` | Helper facts about the model. |
| Tests | `Verif/Tests/*.lean` | The repository's own unit tests run on the model with IEEE doubles (`#guard`). They check the transcription and are not proofs; no theorem uses them. |
| Props | `Verif/Props/*.lean` | Theorems `Cnn_...` for property `Cnn`, and `example`s that meet the hypotheses on non-trivial data. Theorems of one file with the same hypotheses share examples, which often exhibit the hypotheses (a run computed with `decide +kernel`) and do not apply each theorem by name; `*Ex`, `Cases`, `CasesRun` and `CasesAccel` have the cases that need more than their own file. |

`_partial` in a theorem name means: only part of the English property is proved,
or it is proved under a hypothesis the English text does not have. Where the code
violates the English property the violation is itself a theorem (`Cnn_..._violated`),
with a concrete witness or for a whole class of inputs, and the other theorems of
the property state what does hold. A property with a `_partial` or `_violated`
theorem is `partial` in `MANIFEST.json`.

## What is modelled

| Model file | Source |
|---|---|
| `Py` | exceptions, the effect monad, dictionaries |
| `Num`, `Ext`, `Field` | numbers, see below |
| `Arr` | three dimensional arrays, broadcasting, slicing, reshaping |
| `Time` | `helpers.py` `_convert_time`, `timedelta` |
| `Helpers` | user equations, `_get_single_index`, `_loop_compute` |
| `Logger` | `configure_logger` |
| `Minimize` | `math/minimize.py` |
| `RandomVars`, `Seeds` | `models/random_vars.py`: sampling, CBI parameters, object creation |
| `Latent` | `LatentVar` with its `__setattr__` state machine, sampling, CBI export |
| `Device`, `Build` | `LatentMdl`, mechanisms, conditional shifts, initial values, `DegPrmMdl`, `CircPrmMdl`, `DeviceMdl`; constructors, defaults, time units |
| `CbiModel` | `LatentMdl.export_to_cbi` |
| `Instrument`, `Env` | `models/phys_envs.py` |
| `TestSpec` | `models/test_specs.py`, `cookbook/test_specs.py` |
| `Report`, `ReportIO` | `models/reports.py`: formatting; export, load, conversion |
| `Sim` | `sim.py`: `gen_init_state`, stress and measurement steps, `simulate`; `simulate` on a heap of state objects |
| `CookbookEnv`, `CookbookMech` | `cookbook/test_envs.py`, `cookbook/mech_mdls.py` |
| `Demos`, `DemoAmp` | `demos/basic_use.py`, `demos/riverbed_erosion.py`, `demos/vts_paper_tddb_model_sensitivity.py`; `demos/vts_paper_presilicon_variability.py` |

## Modelling decisions

* **Numbers.** Python/numpy floats are an abstract type `V` with *lawless* operations
  (`PyArith`, `PyNum`: arithmetic, comparisons, `10**x`, rounding, literals).
  Bookkeeping theorems hold for every `PyNum V`, so in particular for IEEE doubles.
  A few need `UnitLaws` (x+0 = x, 1*x = x; true for doubles up to the sign of zero) or
  `InfLaw` (`inf == inf`). Numeric theorems (rounding, search
  accuracy, degradation curves) are on exact ordered fields extended with ±inf and NaN
  (`Ext K`); float rounding error is *not* modelled there.
* **Effects.** `M W α := W → Except Err α × W`. The world `W` holds random generator
  state and anything user supplied equations may touch; it survives exceptions.
  `Rng W V` is an arbitrary family of generators, one per random variable object;
  `LawfulRng` adds that draws have the requested length and that draws of different
  objects commute.
* **User equations.** `PyFun`: parameter names, defaults, `**kwargs`, and an arbitrary
  effectful function of the keyword arguments. Calls with unfitting arguments raise
  `TypeError`. Theorems that need more say so (`Elementwise`, `ShapeSafe`, `Direct`, `EqnWorks`).
  Numpy expressions (`NumExpr`) are proved to have all of these.
* **Time.** `timedelta` is an `Int` number of microseconds (its exact representation).
  Numbers are rationals; number → timedelta rounds half to even to a microsecond.
  Float error in `total_seconds()/factor` is not modelled.
* **Arrays.** `Arr3 V` has three dimensions and row-major data; broadcasting is
  explicit and fails on mismatched dimensions (`ValueError`).
* **Dicts.** Association lists with insertion order. Where uniqueness of keys matters it is
  a hypothesis (`Nodup`), which Python dictionaries always meet.
* **Sets.** `[*set(..)]` order is an oracle: any permutation of the de-duplicated list.
* **Unbounded loops.** Fuel plus theorems that enough fuel exists, or that none does.
* **Objects.** Mutable objects that alias (random variables, mechanism models, iterators,
  initial states, log handlers) get explicit identifiers or a heap where aliasing matters.
* `Err.unmodelled` marks behaviour the model does not follow. No theorem claims that it
  occurs, and theorems about success exclude it.

## Trusted base

* The Lean 4.33.0 kernel, and the axioms reported for each theorem
  (at most `propext`, `Classical.choice`, `Quot.sound`).
* Faithfulness of the model to the Python source: checked by reading, and by running the model on
  the assertions of `/repo/tests` (`Verif/Tests`: all except those about seeded numpy streams and
  pymc objects; for instance the time search and two-step simulations agree to all digits given there).
  The theorems' sensitivity is checked by the seeded bugs in `seeded/LOG.jsonl`.
* Semantics of numpy, pandas, datetime and logging as summarised in the definitions.

## Not modelled

* JSON text and the file system, beyond the digits written for numbers; column types guessed by `read_json`.
* PyMC/Pyro objects beyond the parameters handed over; lazy imports.
* numpy's bit generators (streams are abstract functions of the seed); coloredlogs beyond the type of its handler.
* Attribute-name collisions between `_latent_<var>`, `_<mech>_mdl` and the like; user subclasses of the
  library's classes; assignments to attributes other than the ones in the state machines.
* Docstrings, log text, warnings; drawing figures (colours, axes, curve fits), beyond the data that is drawn.

## Properties

Full statements are in `properties.jsonl`, the theorems of each property in `MANIFEST.json`.
Second column: p = proved, ◐ = partial (part proved, or violated and proved to be so).

| Id | | Files (`Props/`) | How proved; what is missing |
|---|---|---|---|
| C01 | p | Time | Integer arithmetic on microseconds; rounding of an exact integer.  |
| C02 | ◐ | Time | Case split on the kind of duration; zero iff it rounds to zero. Proved for timedelta and numeric durations. A pandas Timedelta is converted to a plain number and stored (C02_pandas_violated). |
| C03 | p | TestSpec | List append, induction over histories of calls.  |
| C04 | p | TestSpec | Loop invariant t = k·P with minimal k; a bound on the fuel.  |
| C05 | ◐ | TestSpec | Characterisation of `(t/D).is_integer()`. The warning tests t / duration for integrality, so an overshoot by an integer factor is silent (C05_silent_overshoot_violated). |
| C06 | ◐ | TestSpec | Termination measure for positive stress time; divergence for all fuel otherwise. Negative or cancelling durations and foreign step objects loop forever (C06_nontermination_violated); termination proved when a repetition adds positive stress time. |
| C07 | ◐ | TestSpec | Iterator as a state machine, induction on its steps. Overlapping loops share one cursor (C07_nested_violated); fresh loops after any abandoned loop are proved. |
| C08 | p | TestSpec | The fold is the maximum over all measurements.  |
| C09 | p | Htol | The append loop theorem, instantiated.  |
| C10 | p | Env, Latent | Invariant over all histories of assignments, refinement to a record of the last values. LatentVar and EnvVrtnMdl, any history of assignments; exact numbers or any arithmetic with unit laws. |
| C11 | p | Latent | Lookup lemmas for reshaped and broadcast arrays.  |
| C12 | p | Latent | Unit laws pointwise.  |
| C13 | p | RandomVars | Algebra on densities. Densities of the parameters handed over, on real numbers, for valid parameters. |
| C14 | ◐ | Latent | Case analysis of the export. Unchanged and repeatable when the export succeeds and the centre is not falsy; a centre of 0 and an export that raises leave the variable modified (two _violated theorems). |
| C15 | ◐ | CbiExport | Equality of laws of sums of independent normals (Mathlib measures). Offset mode proved as equality of laws; in scaling mode the exported device spread is not the sampled one (C15_scaling_spread_violated). |
| C16 | ◐ | Latent | Invariant on layer names over histories. Holds after construction, for histories that only replace existing layers, and after any renaming; a layer added later keeps a stale name (C16_late_layer_violated) and the export can emit duplicates (C16_export_clash_violated). |
| C17 | p | Env | Lookup lemmas.  |
| C18 | p | Env | Lookup lemmas.  |
| C19 | p | Env, Order | Commuting draws on distinct objects, induction over permutations, lifted to steps and simulations. Generated condition values (C19_conditions) and whole simulations (C19_steps, C19_simulate): every iteration order gives the same report and random state, for conditions that share no random variable. |
| C20 | p | ErrorLaw, Instrument | Order reasoning on extended numbers.  |
| C21 | ◐ | Env, Instrument | Case analysis. Values unchanged and no randomness for all inputs; numpy scalars and lists come back in another container type (C21_container_violated). The supplied default instrument is exact for every name except 'meas' (C51). |
| C22 | p | Instrument | Integer logarithm and rounding on ordered fields; completeness and idempotence.  |
| C23 | ◐ | Instrument | Case analysis over zero, finite, infinite, NaN. Total on zero, infinities and finite values; NaN with a precision raises ValueError (C23_nan_violated). |
| C24 | p | Fail | Absorbing invariant, induction on steps.  |
| C25 | ◐ | Mech, Sum | Pointwise lemma on arrays, lifted through the step. Values pointwise for elementwise equations without collisions, for one mechanism call and for a whole stress step (C25_step_partial); the marker for 'keep the old value' is infinity, so an infinite previous value is not distinguished (C25_infinite_violated). |
| C26 | p | Minimize | Loop invariant on traces of evaluations.  |
| C27 | p | Minimize | Projection of a vectorised trace onto one sample.  |
| C28 | ◐ | Minimize | Invariant a < x < b on an ordered field, embedded into extended reals. Proved for finite residues. With infinite residues the search evaluates the mechanism at time NaN (C28_nan_time_violated). |
| C29 | p | EquivTime, Minimize | Unimodality invariant: the bracket keeps the minimum; C29_mechanism carries it to the equivalent times of a mechanism model. Exact arithmetic (no float rounding); convergence before maxiter is a hypothesis, observable as fewer than 51 evaluations. |
| C30 | p | Degrade | Search trace of a strictly decreasing residue: the upper end never moves. Over Ext ℝ (exact reals with infinities), for every device, environment, test step and sample: C30_unreachable_kept takes one strictly monotone sample curve that never reaches the sample's value, a converging search, and shows the value after the step equals the value before. |
| C31 | ◐ | Degrade, Fresh | Search trace of a strictly increasing residue: the lower end never moves. For curves fastest at the beginning: a finite game on the lengths of the search interval (golden sections and parabolas against a residue that grows at most like the time) with a certificate table of 230 positions checked by the kernel bounds the iterations by 49 of 50 (Lemmas/Gentle, BrentStep, BrentMove, BrentRun, Fresh). Failure mechanisms: exactly f(d) (C31_fail_partial). DegMechMdl: f(d + t) with 0 < t < 0.0011 in the mechanism's unit (C31_partial, given that the search stops). For curves that are fastest at the beginning (concave increasing or convex decreasing: power laws up to linear, logarithmic, saturating), each sample with its own parameters, the search is proved to stop (C31_fresh_partial). The exact claim fails for every increasing curve, since the bounded search never returns time zero (C31_violated, C31_fresh_violated). |
| C32 | ◐ | Units | Fold over mechanisms with object identities. Precedence and stability when each mechanism object belongs to one parameter; a shared object keeps the first parameter's unit (C32_shared_violated). User subclasses of the mechanism classes are not modelled. |
| C33 | ◐ | Degrade | Scaling of the curve, C29. Durations below 9e9 in the unit: failure mechanisms equal (C33_fail_partial), DegMechMdl within the search tolerance (C33_deg_partial). Durations above 9e9 in the unit: the value is left unchanged whatever the equation says (C33_fail_violated, C33_deg_violated). |
| C34 | ◐ | Compose, Readings, Sum | Pointwise evaluation of `basic_sum`, invariants over runs. For mechanism names that do not collide with latents and equation arguments, and the default equations; holds at the start, after every stress step, at the end of a run and in the readings of a report (C34_start, C34_stress_partial, C34_run_partial, C34_reading_partial). A mechanism named like the initial value is lost (C34_reserved_name_violated). |
| C35 | ◐ | EquivTime, Helpers | Induction over index triples, observed calls; C35_models_partial for the try/except in the models. Proved for equations that accept all their arguments and act elementwise, when arrays share one shape and other arguments are plain scalars. numpy scalar arguments are dropped (C35_other_scalar_dropped_violated). |
| C36 | ◐ | Measure | Frame lemmas; simulation of two runs. State unchanged always; insertion and deletion proved for the executed steps on a given start state. For whole simulations the measurements decide how many devices are made, so with varying devices other readings change (C36_sample_counts_violated). |
| C37 | ◐ | Timeline | Induction over steps on rows and elapsed time. Proved when no condition bears the name of a summary column; such a condition replaces the column (C37_reserved_name_violated). |
| C38 | p | Report | Index arithmetic.  |
| C39 | p | Run | Prefix invariant.  |
| C40 | p | Run | Frame lemmas; heap of state objects. State constant during any run; the caller's object via a heap of state objects, also when a step raises. |
| C41 | ◐ | Init | Fold of maxima over dependencies. For counts from a report or from a dictionary. Given both, the code accepts them and may lower the report's counts (C41_both_sources_violated). |
| C42 | ◐ | Init | Case analysis of key errors. Succeeds when every device parameter is measured or needed by a measured circuit (C42_partial); otherwise KeyError for every device (C42_unmeasured_violated). |
| C43 | ◐ | Rows | Error precedence. Never a report (C43_no_report_partial), but the error is KeyError, raised while the conditions are generated, in every state (C43_key_error_violated). |
| C44 | ◐ | Samples | Slicing lemmas lifted to whole simulations. Degraded parameters: the report of a whole simulation has exactly one row per lot, chip and device below n (equations must work sample by sample, the initial value must depend on a latent variable, and no mechanism may be called 'init'). Conditions: n rows without indices. Circuit parameters are violated: the cut `[:][:][:n]` is applied to the lots, so lots are missing when n is below the number of lots (C44_circuit_violated, all such tests), and spare devices are all reported (C44_spare_violated). C44_circuit_partial: exact rows when there are no spare devices and n is at least the number of lots. |
| C45 | ◐ | Init | Equality of two runs. Proved when the test itself asks for enough devices of every parameter a measured circuit needs; otherwise KeyError (C45_counts_violated). |
| C46 | p | Run | Fold over appended lists.  |
| C47 | ◐ | ReportIO | C01 on every row; tables as lists of records. Proved for every report with rows in both tables and every unit but days, including every report simulate makes (condition names must differ from summary columns). Violated for days (ten written digits lose microseconds) and for reports without measurements (KeyError). pandas and json are modelled as identity on tables apart from the rounding of numbers; files are not modelled. |
| C48 | ◐ | ReportIO | State machine of conversions. Proved: converted numbers equal the exported ones, and the exported summary is unaffected. Violated: export after conversion writes milliseconds, converting twice undoes the conversion, a failed conversion changes time_unit. |
| C49 | ◐ | Logger | List lemmas over call histories. Proved for loggers with plain handlers over all call histories. Violated for the default coloredlogs handler (type differs from StreamHandler) and handler subclasses. |
| C50 | ◐ | Timeline | Dictionary update lemmas. Condition values always shown; the step's own columns only when no condition bears their name (C50_reserved_name_violated). |
| C51 | ◐ | Rows | Attribute lookup as in `getattr`. A parameter called 'meas' can never be measured, and an instrument with that name breaks every measurement (violated theorems); every other name is read with its own or the exact instrument (C51_read_partial). |
| C52 | ◐ | Seeds | Generators as functions of the seed. Proved for all seeds but 0: equal seeds give equal streams for the generator model. Violated for seed 0, which 'if test_seed:' ignores. |
| C53 | p | Finite, Total | Progress by induction over the steps; one lemma per function that it returns on well-shaped arguments. Totality of simulate, by induction over the steps with the invariant that the state holds arrays of the test's dimensions and every latent value the equations may ask for. C53_generated: state generated by the simulation; C53_given: state passed in. Hypotheses spelled out in Spec/Total.lean (DeviceWorks, TestOk, StepsOk): equations return on arguments that fit their signature (or raise ValueError on arrays and work per sample), latents, environment and instruments can be sampled, circuit parameters are requested in the same number as what they take, stress durations are timedeltas and their sum does not overflow. |
| C54 | ◐ | Mech | Signature mismatch for every stress step. Violated: the default equation takes no arguments but is called with the time and the conditions, so every stress step raises TypeError. |
| C55 | p | Split | Induction over steps with C33. C55_additive: after any number N of consecutive stress steps that give the mechanism the same conditions and latents, the sample is on its curve at a time within N*1e-5 decades of T plus all durations. C55_split: two divisions of one total duration agree within (N+N')*1e-5 decades. Hypotheses: searches stop by their own test, times stay within 1e-3..9e9 units. A two-step run is computed in SplitEx. |
| C56 | ◐ | Split, SplitEx | C29, and a run computed in rational numbers carried over to the reals. C56_partial: a step goes back by at most 1e-5 decades and not at all if it lasts at least T/10000. Missing: shorter steps. C56_violated: with f = log10 of seconds, devices at 1e6 s get one more second and their degradation falls below 6, since the search returns a time too short by more than a second. |
| C57 | p | ErrorLaw, Readings | Decomposition of a report into the readings of its measurement steps; C57_error: one error for each reading. Every row of every finished simulation. |
| C58 | ◐ | CbiModel | Dictionary lemmas over exported latents and observed data. Proved for PyMC when no latent variable shares a name with an observed condition (C58_arguments_partial, C58_pymc_succeeds_partial). Violated without observed data (TypeError), for Pyro (to_event on a tensor always fails) and for latent variables shadowed by observed conditions. |
| C59 | ◐ | CookbookEnv, EnvDefault, ErrorLaw | C22 and C57 instantiated; digits of a reading by its magnitude; distributions from C93, errors of the instruments from C95 (C59_readings). Proved: ideal environment, untouched other parameters, ranges in every report, mV below 1 V and hundredths below one degree, and with ideal generators the distribution and covariance of temperatures and voltages between devices (C59_temperatureLaw, C59_voltageLaw). Violated: precision counts significant figures, so from 1 V on readings are multiples of 10 mV and from 10 degrees on whole degrees (C59_resolution_violated, C59_temperature_violated). |
| C60 | ◐ | Fresh, Nbti, NbtiDefault | Numpy expressions act elementwise (structural induction); distribution of the latent values on the tapes of Spec/Tapes, Chebyshev; real analysis of exp and powers; power laws with exponent up to one are concave, so C31_fresh_partial applies. Proved: curve of every sample, start at 0, growth with time and voltage; a stress step of x units on fresh samples with exponents up to one gives the shift at x + t, 0 < t < 0.0011, without any assumption on the search (C60_stress_partial). With ideal generators the latent values of all devices are independent normal numbers with the cookbook's means and deviations (C60_latents), and all but one in 500 devices degrade more with time and voltage and less with temperature (C60_devices). Missing: the offset t. Violated: with a positive energy (default mean 0.05 eV) hotter samples degrade less (C60_temperature_violated). |
| C61 | p | Flat | On a constant residue all ties move the best point: golden steps walk to the upper bound (invariant over at most 50 iterations in two phases), so the time found passes 9e9 and the sample is kept. Proved without any assumption on the search (C61_inactive_kept); values are extended reals. |
| C62 | p | Demo | End to end: the device and test are built by the modelled constructors, C53 gives success, C34 the readings, the initial state and the conditions are computed, and C31 (a*temp not 0) or C61 (a*temp = 0) gives the degradation. The offset t is the equivalent time the search finds for a fresh device (C31_fresh_violated). |
| C63 | p | Finite, Ranges | Invariant of the simulation loop; the search (Nelder-Mead style loop) only calculates with numbers closed under arithmetic, its divisions are by non-zero numbers. C53_finite uses it: instruments that round (and fail on NaN) cannot fail on finite values. Ranges are arbitrary predicates on values. C63_finite is the instance for finite numbers (values are extended fields, no float overflow). Runs that start from a given state are not covered. |
| C64 | p | River | Constructors and append_steps computed; C53_finite gives success and finite readings, C44 the places, C63 with ranges "times and erosions are not negative" the sign, C65 the levels. Values are extended fields (extended reals for the sign of the erosion). |
| C65 | p | Equation | Spec/Equation.lean says what it means for an equation to compute a function of one sample (HasEquation); expr_equation shows it for arithmetic expressions; the argument dictionaries of calc_deg_vals and calc_cond_shifted_vals are looked up name by name, elementwise evaluation gives each sample; induction over stress loop and steps. Equations are numpy expressions with fixed arguments (any arithmetic on init, cond, mechanisms and latents); the default equation with any number of mechanisms is C34. A mechanism must not be called 'init' (DegShapes). |
| C66 | ◐ | TddbRead | Constructors and append_steps computed; C53_generated gives success (sizes other than one: Props/Tddb.lean shows the functions of the demonstration keep shapes for these), C63 with ranges "defects and states are 0 or 1" and C65 for loop-computed equations (Lemmas/LoopEqn.lean) give the readings in terms of Spec/Oxide.lean, C37 the times, C24 and C46 permanence. One oxide: the function returns a number and the first measurement raises IndexError. Violated for a single oxide: oxide_failed then returns a plain number instead of raising the ValueError that leads to the loop, and formatting the first measurement fails (the argument array_computable=False of the demonstration is stored but never read); for all other numbers of oxides it is proved. One lot and chip, as in the demonstration. TddbDraws: drawing from the normal, gamma and uniform distributions with the demonstration's parameters succeeds (nothing is assumed about the values). |
| C67 | p | Circuit | Spec/Circuit.lean says what the names of a circuit equation stand for; expr_circuit shows that arithmetic expressions qualify; the argument dictionary of calc_circ_vals is looked up name by name; C57_instrument, runSteps_shape and conds_dims give the state, the shapes and the reading. For every sample-by-sample circuit equation. Stated for runs in which exactly n devices of the circuit parameter and of the parameters it reads exist (otherwise the code broadcasts arrays of different sizes or cuts the lots, see C44). |
| C68 | p | Amp | AmpDev, AmpTest: the constructors of the demonstration evaluate to explicit devices (ampDevice_eq, ampNewProcess_eq with the assignments to latent variables) and tests; C53_generated gives success; circuit_places and C69_table the rows; C67_reading, C65_run and gain_latents the values; C37_elapsed the times. Finite threshold voltages are a hypothesis of the gain formula: an unlucky normal draw (a negative supply voltage with a fractional exponent) gives NaN, as in numpy. With fewer amplifiers than lots only the first lots are measured (see C44). |
| C69 | p | Table | Spec/Table.lean lists the rows of a table step by step and name by name; measLoop_table and runDelta_table show by induction over names and steps that the rows added by a step are exactly its own, and later steps add rows of later numbers only. Any initial state, any environment; together with C44, C57, C65 and C67, which describe the rows of one step and name, the whole table is determined. Specifications naming a quantity twice cannot be written (they are dicts). |
| C70 | ◐ | EnvBuild | A specification without dictionaries says which object of a list is the last with a name; setNamed_ok shows by induction that exactly this one is stored, and lastName_own that objects under one key each carry that key as name. Proved for lists, and for dictionaries whose entries are different objects. Violated for one object under two keys (C70_shared_violated, C70_instrument_violated): the constructor writes the key into the object, so that only the last key keeps it and the first condition is applied without variation, or the first parameter read exactly. |
| C71 | p | CondShift | Spec/Sample.lean says what a sample-by-sample equation computes, without arrays; expr_sample and number_sample show it for numpy expressions and for equations on single numbers; C71_shift evaluates the conditional model, condLatents_cut follows its latent values through the cut to n devices, and C71_reading puts the pieces together with C57 and C65. Proved for all equations that compute each sample from the arguments at that sample. The true values are those of the state left by the preceding steps (C65 says what they are). |
| C72 | p | Start | Spec/Start.lean says what new devices are, through Drawn: a dictionary with values of each variable of a model and nothing else. genLatent_drawn and mechLatents_drawn follow the drawing loops by induction; the initial equation is a sample-by-sample function. Proved for all models whose mechanisms are not called 'cond' and whose own latent variables are not called like a mechanism or 'cond' (the code keeps all of them in one dictionary, where they would replace each other). |
| C73 | p | FailHistory | Spec/FailHistory.lean gives the value of one sample as a fold over the phases, with the names of the equation read from the sample's latent values, the requested conditions and the phase's length. Props/FailHistory.lean proves by induction over the steps that the simulation computes it (C73_history) and that the first failing phase decides (C73_first_failure). Both theorems hold for all runs of simulateFull from new devices; conditions of the mechanism must have no variation in the environment (C17), and the equation must take 'time'. |
| C74 | p | History | Spec/History gives the closed form of a sample's value (phaseValue, mechHistory, trueAfter, shownAfter). C74_mechanisms is an induction over the steps with the invariant that every sample of every mechanism has its history's value (mechStep_names does one step: minLoop_states shows that the simultaneous search of all samples is, sample by sample, the search for one number, with the common number of rounds given by commonRounds). C74_true adds the equation of the parameter (C65) and the start (C72); C74_reading adds the measurement (C71) and the time (C37). The search for one number is described with the search state of the model, whose steps are the subject of C26 to C29. |
| C75 | p | Exposure | Spec/Exposure states the rate law, the sum of exposures and the limits. On the closed form of C74, one finished search is within the tolerance (trace_decade), and the exposure is carried through the phases by induction with one factor per search. For new devices the first search always finishes (C31). C75_order compares two orders of the same phases, C75_run connects it to simulations. C75_exposure for used devices, C75_order for the order of phases, C75_new for new devices, C75_run for whole simulations. Concrete two-phase case with a search computed in rational numbers. |
| C76 | ◐ | Others | On the closed form of C74. C76_failures by induction over the phases; C76_rounds from equal round counts; C76_others_partial from the two-sided bounds of C75; the violation is a search computed in rational numbers (4.602 finishes after 11 rounds, 2 after 21, and the first moves in between). C76_failures and C76_rounds are exact. C76_others_partial gives the tolerance. C76_others_violated: the same new device, alone and with a second one, has different values after the same hour. |
| C77 | p | Nominal | Spec/Nominal defines the reading of one device as a fold over the stress steps. C77_reading (Props/Nominal) collapses the sample-by-sample history of C74: constant latents draw constant arrays, ideal conditions are the requested ones (C17), and as all samples have the same residue the common number of search rounds is the number of rounds of one search alone. C77_same compares two arbitrary runs. proved for parameters whose equations act sample by sample |
| C78 | ◐ | Longer | Spec/Longer says what it means that a phase is too long and that an equation follows time. C78_longer_partial (Props/Longer) shows the claim for one stress step from any state and C78_run_partial after any steps from new devices: both steps use the same conditions, the same number of search rounds and the same equivalent time. C78_violated: the code ignores degradation that ends later than 9e9 units, so a mechanism with its time in microseconds degrades in two hours but not at all in three. the limit of 9e9 time units in calc_deg_vals violates the claim for longer steps (C78_violated); proved for steps that stay within it, and finite values are proved kept otherwise |
| C79 | ◐ | Direct | C79_reading (Props/Direct) combines C67 with the histories of C74 for every device parameter the circuit reads. C79_direct_partial compares a circuit that copies a device parameter with the parameter itself in the same step. C79_direct_violated: circuits are computed from the values without the conditional shift of the measurement, so at 30 degrees a parameter reads 68 and its copy 8. the second sentence holds for parameters without a conditional shift; with one it is violated, as circuits get the unshifted values |
| C80 | p | Layout | Spec/Layout enumerates the rows from the test alone; C80_layout combines C69 (order of steps and names), C44 (places) and C37 (times) by induction over the steps, C80_size counts them, C80_same compares two simulations. All tests. Circuit parameters under the condition of C44_circuit_partial; without it rows are missing or added (C44 violated theorems). |
| C81 | ◐ | Optional | Model/Optional models the outcome of an import, FailedImport, and get_cbi_form and cbi_export with the attribute lookups in the order of the code; C81_pymc and C81_pyro reduce them to the export model of C14, C15 and C58 when the one framework is there, C81_missing_pymc and C81_missing_pyro give the error otherwise, C81_import_partial follows the ten optional imports of the package. Violated: exceptions other than ImportError and SystemError (such as the OSError of a broken shared library) abort the import of the package (C81_import_violated), and a failed export of a variable with a base value leaves its centre shifted (C81_state_violated). No other function refers to the optional packages, so simulations need none. |
| C82 | ◐ | Clock | Every function of a step commutes with the shift of the state (stressPrm, measureTrue, readRows, summaryRow); induction over the steps with the running time in ClockFits. Proved for timedeltas (C82_later, C82_start). Numbers are documented and accepted as elapsed times too, but any test with a stress phase then fails, since a timedelta is added to a number (C82_number_violated). |
| C83 | p | Accelerate | C83_compare combines the bounds of C75 for two histories; harsher_exposure and accelerated_exposure reduce harsher and accelerated tests to the total exposure; C83_run carries it to two runs of the simulator from the same start (C74_mechanisms, whose latent values are those of the start). Sample level (C83_compare, C83_harsher, C83_accelerated) and whole runs (C83_run). Assumes what C75 assumes: times within the search bounds and searches that finish (the first always does). |
| C84 | ◐ | Owned | Model/StepRefs has the methods on a store of list objects. C84_append_partial: a call refines the value-level append_steps; C84_owned_partial: whole programs refine tests as values (invariant: tests have different list objects, none of which the program still holds); C84_own_partial: what looping over the own list does; two violations. Violations: C84_shared_violated (two tests made from one list), C84_own_violated (own list in a loop, for every k). |
| C85 | ◐ | Arguments | C85_counts_partial and C85_report_partial are equivalences, from augment_iff (the counts stay the same exactly if the circuit parameters are supplied, a condition that does not mention the model's helpers); C85_sources compares calls with and without a second source. Violation: C85_caller_violated (the dictionary of the caller gets a new entry). |
| C86 | ◐ | ReportFile | Model/ReportFile has a disk (directories, files, current directory), mkdir, open for writing and loading; Spec/ReportFile has the sane disk and the usable names. Props/ReportFile reduces to C47 for the contents and follows the disk through mkdir and write. The claim about nested missing directories is refuted for every report. Partial because mkdir is called without parents=True: a missing directory in a missing directory makes every export fail (C86_nested_violated), and because of the unit problem of C47. Symbolic links, .., permissions and full disks are not modelled. |
| C87 | p | ReportNested | Model/ReportNested has np.array on nested lists and the choice of dimensions; the specification enumerates the nested lists themselves. Props/ReportNested joins index columns and data block by block. Numbers only; the row index and dtypes of pandas are not modelled. |
| C88 | ◐ | ReportObject | Model/ReportObject has the constructor with all arguments and attributes that may be unset; the sizes are specified by the requests of C08, loading reduces to C86, growth is an induction over the additions. Partial: a loaded report never has dev_counts, num_chps and num_lots, so it can never be used as quantity_info (C88_sizes_violated, C88_state_violated hold for all files that load). |
| C89 | p | NbtiHistory | The mechanism is a rate law in the sense of C75 with the exponent function x^n; the sum follows from C75. The concrete case is two phases at 1 V and about 1.34 V, where the search of the second phase is run in the kernel with verified interval arithmetic (Lemmas/Interval), which proves that it finishes. C89_used, C89_new, C89_constant, C89_constant_new and C89_run; the limits (search tolerance, finished searches, 0.0011 units) are those of C31 and C75 and part of the statement. |
| C90 | p | DegUnit | Every operation of the search on objective values commutes with scaling (Ext field with infinities and NaN); the residue of the converted mechanism is the scaled residue, so the search visits the same points and stops in the same round; induction over phases, then C74. C90_minimize, C90_mechanism, C90_true, C90_shown, C90_reading; example: the ageing device with its drift in thousandths counted from 5 gives the same readings. |
| C91 | p | Tapes | Generators are endless tapes of standard numbers (Spec/Tapes). The places on the tapes used for the parts are shown to be pairwise different, also for shared generators, so independence of the numbers carries over (Mathlib probability); exchangeability from the product law, covariance and normal law by bilinearity and convolution. C91_layers, C91_values, C91_exchangeable, C91_lots, C91_covariance, C91_mean, C91_normal, C91_sampled (the law C15 speaks about is the law of the values); example: lot and device layers on one generator, built by the constructor, over the infinite product of standard normals. |
| C92 | p | Defects | Spec/Defects, Props/Defects: the fallback loop is run on the tapes of Spec/Tapes, which shows that every device and phase has its own number; independence and the law of the numbers give the chances (C92_defects, C92_survival, C92_split). C92_defects gives the independent events, C92_survival the chance to survive a sequence of phases, C92_split the effect of splitting a phase. Each call of the demo makes a new generator; here all calls draw from one endless stream of independent numbers. |
| C93 | p | EnvVariation | The generation is shown to make a list of requests that does not depend on the numbers drawn (Lemmas/Requests); requests of distinct labels read disjoint places of the ideal tapes, so their numbers are independent with the requested laws; the laws of devices follow with Mathlib's normal distribution. Proved with ideal generators: joint distribution, independence of conditions, normal law and covariance. How the generators of numpy approach the ideal is outside of the model. |
| C94 | p | InitVariation | The generation of a state makes a list of requests that does not depend on the numbers drawn, with a different label for each layer of each latent variable (Lemmas/Requests); their numbers are independent; functions of disjoint sets of them are independent. Proved with ideal generators. Needs that no own latent variable has the name of a mechanism or 'cond' (otherwise it replaces it in the state). How the generators of numpy approach the ideal is outside of the model. |
| C95 | p | Noise | Two runs, one with exact instruments, are compared step by step: nothing outside the instruments reads their generators (Lemmas/Blind: same result in all worlds that agree outside a set of generators), and the errors read consecutive disjoint places of the generators (Lemmas/Requests), so they are independent. Equations must not draw random numbers themselves. Equations of models are functions of their arguments; readings must not be NaN. |
| C96 | p | Inspect | Combines the requests of C94 (contributions) and C95 (errors) into one list, so that one independence theorem covers both; C34/C80 locate the row of each reading, and sums of independent normals give law and covariance. C96_joint and C96_readings for arbitrary layers; C96_normal, C96_covariance and C96_apart for normal ones; C96_values: such readings exist |
| C97 | ◐ | Together | C97_joint: labels every draw of a simulation (latent layers, condition layers by step, errors by row), shows that the program asks for exactly these, in this order, and uses the independence of all requests once; StepHas says in the run itself that the conditions of a step are made of its contributions. C97_steps, C97_latents, C97_values follow for single values. C97_batch_violated: every step draws its own batch, so deviations of a condition that varies between batches only are almost surely different in any two steps. joint independence proved; one batch per test is violated: gen_env_cond_vals draws the batch variation anew in every step, so two steps of the same test almost surely differ |
| C98 | ◐ | Streams | Lemmas/Streams: a relation between two programs in two worlds (same result, related worlds), proved for every function of the simulation with the generators of the set-up renamed by an injective map; Props/Streams: `C98_own`, `C98_others`, `C98_order`, and for seeds `C98_seeded_partial` over any world before the script. Seed 0 counts as no seed: `C98_zero_violated`. All proved for positive seeds; seed 0 is ignored by the code, so that a script which seeds everything is not repeatable if one seed is 0 (C98_zero_violated) |
| C99 | ◐ | DemoEntry, SelfCheck | Model/DemoEntry has `run_simulation` and `entry` of the four demonstrations with `--test`, on a disk. C99_cells shows for every simulation which conditions, names and times the lines of the summary have; C99_basic_partial, C99_river_partial, C99_amp_partial and C99_tddb_partial that the exit code is 0. For saved reports the claim is violated: C99_file_violated (no `dev_counts` in a loaded report, every file ends in an exception) and C99_dir_violated (the reports are put in a set, indexing raises TypeError). Exit code 0 for all four demonstrations on new simulations, for all draws, with and without saving. Violated for saved reports: with --data-file or --data-dir every run raises. |
| C100 | ◐ | AmpFigure, Fails, FigureDemos, FigureEx, Figures | Model/Figures has the data processing of the four visualize functions; Spec/Figures says what the curve of a device is, from the steps of the test and the table, and what an average with a band is. C100_basic, C100_spread, C100_failTimes and C100_ampPlot are about arbitrary tables with one row per measurement and device, C100_basicRun, C100_river, C100_tddb and C100_amp_partial about all simulations of the demonstrations. C100_amp_violated: with fewer devices on a chip than lots the figure of the amplifiers raises KeyError, as the gain is measured in too few lots (C44). The figure of the amplifiers fails with fewer devices on a chip than lots (C100_amp_violated), and is shown for finite gains (C100_amp_partial). The bands also contain -1000 and 1000 if all readings are beyond these. sort_index and loc are taken to keep the order of the rows with one label. |
| C101 | p | Carried, Exchange, Reorder | Spec/Exchange.lean states exchanges (permutations of lots, of the chips of each lot, of the devices of each parameter on each chip) and rearrangements of populations. The values of C94 and C97 are measurable functions of independent contributions; an exchange maps contributions to contributions of the same layer, so the product measure is invariant (C101_new, C101_test). The simultaneous searches stop after a number of rounds that only depends on the set of devices, hence histories are carried along (C101_history, C101_true, C101_shown, and for whole simulations C101_run, C101_reading). The joint law is proved for everything drawn before and during a test. C101_run and C101_reading carry whole simulations along exactly: two simulations of one device model, with any tests, environments and worlds, whose devices are rearranged and have the same drawn values and met conditions, end with the same true values and show them to the instruments, each at its place. Instrument errors are independent of all this by C97. |
| C102 | ◐ | SharedSeeds | Draws of each layer equal the run of the layer on its own (C102_own_partial), from C11 and the generator model of C52. Variables with the same distribution and positive seed yield the same numbers, so that with one device per chip the same number is applied for chip and device (C102_layers_violated). Each layer's numbers are its own (C102_own_partial). Violated for equal seeds: if chip and device layer have the same distribution and seed, with one device per chip the chip variation of a device is its device variation (C102_layers_violated). |
| C103 | p | HtolNbti | The stress steps of every prefix of the built test are shown to have the same conditions and duration (C09); an environment without variations passes them on unchanged; the phases are then the constant phases of C89, applied to the states of a real run with the history theorem C74. The example runs the first interval of a concrete 20-hour test. End-to-end theorems: C103_run for tests with intervals (range and finishing of the equivalent-time searches are hypotheses, as in C89), C103_whole for the test without intervals (no hypotheses on searches beyond the range of the duration). |
| C104 | ◐ | Unfinished | The witness is a concave, piecewise linear function of the logarithm of time whose slope halves at each point the search visits, so that every parabolic step is exactly half of the step before the last; the run of 50 rounds is computed in rational numbers by the kernel and carried to the reals, and from there to a stress step of a device. The search stops by its own test or is cut off; in either case the time found is on the right side of the starting time and no worse than it (C104_side_partial). The claim itself is false: a device on a strictly increasing curve at 10^9.9 s is taken back by an hour of stress to below its degradation at a fifth of that time (C104_healed_violated). C29 gives the accuracy when the search stops by itself. |
| C105 | p | Alone, DoneMech, DoneStays | Verif/Props/DoneStays.lean: in exact arithmetic an element that meets the stop test has a bracket narrower than four tolerances, so its next step is clamped to one tolerance towards the farther side, and the bracket then meets the test again whatever value the objective gives (update_done); the traces of the same element in two searches are prefixes of each other (trace_longer); the accuracy then follows as in C29. Example: two samples, the second being the mechanism of C104, where the array is cut off and the first is still found. C105_mechanism (Verif/Props/DoneMech.lean) is the same for the equivalent times that a DegMechMdl computes, given only that the search of the sample alone stops; its cases are an array that is not cut off and one that is (lure_cut). Verif/Props/Alone.lean: the search of a sample alone never makes more evaluations than a search over an array with the sample in it (C105_no_longer, for any numbers), so that C105_mechanism asks for less than C29_mechanism (C105_converges_alone). C29 without its hypothesis that the search over the whole array stopped by itself. Over exact reals; rounding is outside the model as in C29. |
