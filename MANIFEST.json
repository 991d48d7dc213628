{
 "claims": [
  {
   "property": "C01",
   "status": "proved",
   "theorems": [
    "Gerabaldi.Props.C01_timedelta_roundtrip",
    "Gerabaldi.Props.C01_timedelta_roundtrip_robust",
    "Gerabaldi.Props.C01_number_roundtrip",
    "Gerabaldi.Props.C01_number_monotone",
    "Gerabaldi.Props.C01_invalid_unit",
    "Gerabaldi.Props.C01_valid_unit_not_rejected"
   ],
   "note": ""
  },
  {
   "property": "C02",
   "status": "partial",
   "theorems": [
    "Gerabaldi.Props.C02_timedelta",
    "Gerabaldi.Props.C02_number_accepted",
    "Gerabaldi.Props.C02_number_zero_rejected",
    "Gerabaldi.Props.C02_invalid_unit",
    "Gerabaldi.Props.C02_never_zero_partial",
    "Gerabaldi.Props.C02_pandas_violated"
   ],
   "note": "Proved for timedelta and numeric durations. A pandas Timedelta is converted to a plain number and stored (C02_pandas_violated)."
  },
  {
   "property": "C03",
   "status": "proved",
   "theorems": [
    "Gerabaldi.Props.C03_append",
    "Gerabaldi.Props.C03_append_history"
   ],
   "note": ""
  },
  {
   "property": "C04",
   "status": "proved",
   "theorems": [
    "Gerabaldi.Props.C04_loop_minimal",
    "Gerabaldi.Props.C04_single_step",
    "Gerabaldi.Props.C04_negative",
    "Gerabaldi.Props.C04_rejections"
   ],
   "note": ""
  },
  {
   "property": "C05",
   "status": "partial",
   "theorems": [
    "Gerabaldi.Props.C05_warning_partial",
    "Gerabaldi.Props.C05_silent_overshoot_violated"
   ],
   "note": "The warning tests t / duration for integrality, so an overshoot by an integer factor is silent (C05_silent_overshoot_violated)."
  },
  {
   "property": "C06",
   "status": "partial",
   "theorems": [
    "Gerabaldi.Props.C06_terminates_partial",
    "Gerabaldi.Props.C06_nontermination_violated",
    "Gerabaldi.Props.C06_witness_constructible"
   ],
   "note": "Negative or cancelling durations and foreign step objects loop forever (C06_nontermination_violated); termination proved when a repetition adds positive stress time."
  },
  {
   "property": "C07",
   "status": "partial",
   "theorems": [
    "Gerabaldi.Props.C07_fresh_loop_partial",
    "Gerabaldi.Props.C07_nested_violated"
   ],
   "note": "Overlapping loops share one cursor (C07_nested_violated); fresh loops after any abandoned loop are proved."
  },
  {
   "property": "C08",
   "status": "proved",
   "theorems": [
    "Gerabaldi.Props.C08_max",
    "Gerabaldi.Props.C08_order_independent"
   ],
   "note": ""
  },
  {
   "property": "C09",
   "status": "proved",
   "theorems": [
    "Gerabaldi.Props.C09_htol_no_interval",
    "Gerabaldi.Props.C09_htol_interval",
    "Gerabaldi.Props.C09_htol_reject",
    "Gerabaldi.Props.C09_htol_total"
   ],
   "note": ""
  },
  {
   "property": "C10",
   "status": "proved",
   "theorems": [
    "Gerabaldi.Props.C10_env",
    "Gerabaldi.Props.C10_latent"
   ],
   "note": "LatentVar and EnvVrtnMdl, any history of assignments; exact numbers or any arithmetic with unit laws."
  },
  {
   "property": "C11",
   "status": "proved",
   "theorems": [
    "Gerabaldi.Props.C11_layered",
    "Gerabaldi.Props.C11_operation"
   ],
   "note": ""
  },
  {
   "property": "C12",
   "status": "proved",
   "theorems": [
    "Gerabaldi.Props.C12_constant",
    "Gerabaldi.Props.C12_deter_only"
   ],
   "note": ""
  },
  {
   "property": "C13",
   "status": "proved",
   "theorems": [
    "Gerabaldi.Props.C13_same_distribution"
   ],
   "note": "Densities of the parameters handed over, on real numbers, for valid parameters."
  },
  {
   "property": "C14",
   "status": "partial",
   "theorems": [
    "Gerabaldi.Props.C14_unchanged_partial",
    "Gerabaldi.Props.C14_repeat_partial",
    "Gerabaldi.Props.C14_zero_centre_violated",
    "Gerabaldi.Props.C14_error_path_violated"
   ],
   "note": "Unchanged and repeatable when the export succeeds and the centre is not falsy; a centre of 0 and an export that raises leave the variable modified (two _violated theorems)."
  },
  {
   "property": "C15",
   "status": "partial",
   "theorems": [
    "Gerabaldi.Props.C15_same_law_partial",
    "Gerabaldi.Props.C15_scaling_spread_violated"
   ],
   "note": "Offset mode proved as equality of laws; in scaling mode the exported device spread is not the sampled one (C15_scaling_spread_violated)."
  },
  {
   "property": "C16",
   "status": "partial",
   "theorems": [
    "Gerabaldi.Props.C16_constructed_partial",
    "Gerabaldi.Props.C16_history_partial",
    "Gerabaldi.Props.C16_renamed_partial",
    "Gerabaldi.Props.C16_distinct",
    "Gerabaldi.Props.C16_late_layer_violated",
    "Gerabaldi.Props.C16_export_clash_violated"
   ],
   "note": "Holds after construction, for histories that only replace existing layers, and after any renaming; a layer added later keeps a stale name (C16_late_layer_violated) and the export can emit duplicates (C16_export_clash_violated)."
  },
  {
   "property": "C17",
   "status": "proved",
   "theorems": [
    "Gerabaldi.Props.C17_device",
    "Gerabaldi.Props.C17_sensor",
    "Gerabaldi.Props.C17_no_randomness"
   ],
   "note": ""
  },
  {
   "property": "C18",
   "status": "proved",
   "theorems": [
    "Gerabaldi.Props.C18_shared",
    "Gerabaldi.Props.C18_sensor"
   ],
   "note": ""
  },
  {
   "property": "C19",
   "status": "proved",
   "theorems": [
    "Gerabaldi.Props.C19_conditions",
    "Gerabaldi.Props.C19_steps",
    "Gerabaldi.Props.C19_simulate"
   ],
   "note": "Generated condition values (C19_conditions) and whole simulations (C19_steps, C19_simulate): every iteration order gives the same report and random state, for conditions that share no random variable."
  },
  {
   "property": "C20",
   "status": "proved",
   "theorems": [
    "Gerabaldi.Props.C20_either_order",
    "Gerabaldi.Props.C20_in_range",
    "Gerabaldi.Props.C20_inside_not_moved"
   ],
   "note": ""
  },
  {
   "property": "C21",
   "status": "partial",
   "theorems": [
    "Gerabaldi.Props.C21_default_partial",
    "Gerabaldi.Props.C21_exact_partial",
    "Gerabaldi.Props.C21_container_violated"
   ],
   "note": "Values unchanged and no randomness for all inputs; numpy scalars and lists come back in another container type (C21_container_violated). The supplied default instrument is exact for every name except 'meas' (C51)."
  },
  {
   "property": "C22",
   "status": "proved",
   "theorems": [
    "Gerabaldi.Props.C22_sound",
    "Gerabaldi.Props.C22_idempotent",
    "Gerabaldi.Props.C22_monotone"
   ],
   "note": ""
  },
  {
   "property": "C23",
   "status": "partial",
   "theorems": [
    "Gerabaldi.Props.C23_total_partial",
    "Gerabaldi.Props.C23_nan_violated"
   ],
   "note": "Total on zero, infinities and finite values; NaN with a precision raises ValueError (C23_nan_violated)."
  },
  {
   "property": "C24",
   "status": "proved",
   "theorems": [
    "Gerabaldi.Props.C24_permanent",
    "Gerabaldi.Props.C24_sample"
   ],
   "note": ""
  },
  {
   "property": "C25",
   "status": "partial",
   "theorems": [
    "Gerabaldi.Props.C25_values_partial",
    "Gerabaldi.Props.C25_fail_partial",
    "Gerabaldi.Props.C25_arguments",
    "Gerabaldi.Props.C25_elementwise_partial",
    "Gerabaldi.Props.C25_infinite_violated",
    "Gerabaldi.Props.C25_step_partial"
   ],
   "note": "Values pointwise for elementwise equations without collisions, for one mechanism call and for a whole stress step (C25_step_partial); the marker for 'keep the old value' is infinity, so an infinite previous value is not distinguished (C25_infinite_violated)."
  },
  {
   "property": "C26",
   "status": "proved",
   "theorems": [
    "Gerabaldi.Props.C26_bounded_work",
    "Gerabaldi.Props.C26_best_of_evaluated"
   ],
   "note": ""
  },
  {
   "property": "C27",
   "status": "proved",
   "theorems": [
    "Gerabaldi.Props.C27_samples_independent"
   ],
   "note": ""
  },
  {
   "property": "C28",
   "status": "partial",
   "theorems": [
    "Gerabaldi.Props.C28_single_partial",
    "Gerabaldi.Props.C28_array_partial",
    "Gerabaldi.Props.C28_nan_time_violated"
   ],
   "note": "Proved for finite residues. With infinite residues the search evaluates the mechanism at time NaN (C28_nan_time_violated)."
  },
  {
   "property": "C29",
   "status": "proved",
   "theorems": [
    "Gerabaldi.Props.C29_mechanism",
    "Gerabaldi.Props.C29_accurate"
   ],
   "note": "Exact arithmetic (no float rounding); convergence before maxiter is a hypothesis, observable as fewer than 51 evaluations."
  },
  {
   "property": "C30",
   "status": "proved",
   "theorems": [
    "Gerabaldi.Props.C30_unreachable_kept"
   ],
   "note": "Over Ext \u211d (exact reals with infinities), for every device, environment, test step and sample: C30_unreachable_kept takes one strictly monotone sample curve that never reaches the sample's value, a converging search, and shows the value after the step equals the value before."
  },
  {
   "property": "C31",
   "status": "partial",
   "theorems": [
    "Gerabaldi.Props.C31_fail_partial",
    "Gerabaldi.Props.C31_partial",
    "Gerabaldi.Props.C31_violated",
    "Gerabaldi.Props.C31_fresh_sample_partial",
    "Gerabaldi.Props.C31_fresh_partial",
    "Gerabaldi.Props.C31_fresh_violated"
   ],
   "note": "Failure mechanisms: exactly f(d) (C31_fail_partial). DegMechMdl: f(d + t) with 0 < t < 0.0011 in the mechanism's unit (C31_partial, given that the search stops). For curves that are fastest at the beginning (concave increasing or convex decreasing: power laws up to linear, logarithmic, saturating), each sample with its own parameters, the search is proved to stop (C31_fresh_partial). The exact claim fails for every increasing curve, since the bounded search never returns time zero (C31_violated, C31_fresh_violated)."
  },
  {
   "property": "C32",
   "status": "partial",
   "theorems": [
    "Gerabaldi.Props.C32_precedence_partial",
    "Gerabaldi.Props.C32_others",
    "Gerabaldi.Props.C32_stable",
    "Gerabaldi.Props.C32_idempotent",
    "Gerabaldi.Props.C32_built_partial",
    "Gerabaldi.Props.C32_shared_violated"
   ],
   "note": "Precedence and stability when each mechanism object belongs to one parameter; a shared object keeps the first parameter's unit (C32_shared_violated). User subclasses of the mechanism classes are not modelled."
  },
  {
   "property": "C33",
   "status": "partial",
   "theorems": [
    "Gerabaldi.Props.C33_fail_partial",
    "Gerabaldi.Props.C33_fail_violated",
    "Gerabaldi.Props.C33_deg_partial",
    "Gerabaldi.Props.C33_deg_violated"
   ],
   "note": "Durations below 9e9 in the unit: failure mechanisms equal (C33_fail_partial), DegMechMdl within the search tolerance (C33_deg_partial). Durations above 9e9 in the unit: the value is left unchanged whatever the equation says (C33_fail_violated, C33_deg_violated)."
  },
  {
   "property": "C34",
   "status": "partial",
   "theorems": [
    "Gerabaldi.Props.C34_true_value_partial",
    "Gerabaldi.Props.C34_measured_partial",
    "Gerabaldi.Props.C34_exact_sum_partial",
    "Gerabaldi.Props.C34_report_partial",
    "Gerabaldi.Props.C34_reserved_name_violated",
    "Gerabaldi.Props.C34_reading_partial",
    "Gerabaldi.Props.C34_stress_partial",
    "Gerabaldi.Props.C34_start",
    "Gerabaldi.Props.C34_run_partial",
    "Gerabaldi.Props.C34_defaults"
   ],
   "note": "For mechanism names that do not collide with latents and equation arguments, and the default equations; holds at the start, after every stress step, at the end of a run and in the readings of a report (C34_start, C34_stress_partial, C34_run_partial, C34_reading_partial). A mechanism named like the initial value is lost (C34_reserved_name_violated)."
  },
  {
   "property": "C35",
   "status": "partial",
   "theorems": [
    "Gerabaldi.Props.C35_models_partial",
    "Gerabaldi.Props.C35_fallback_equals_array_partial",
    "Gerabaldi.Props.C35_fallback_order_partial",
    "Gerabaldi.Props.C35_other_scalar_dropped_violated"
   ],
   "note": "Proved for equations that accept all their arguments and act elementwise, when arrays share one shape and other arguments are plain scalars. numpy scalar arguments are dropped (C35_other_scalar_dropped_violated)."
  },
  {
   "property": "C36",
   "status": "partial",
   "theorems": [
    "Gerabaldi.Props.C36_state",
    "Gerabaldi.Props.C36_delete_partial",
    "Gerabaldi.Props.C36_insert_partial",
    "Gerabaldi.Props.C36_delete_all_partial",
    "Gerabaldi.Props.C36_sample_counts_violated"
   ],
   "note": "State unchanged always; insertion and deletion proved for the executed steps on a given start state. For whole simulations the measurements decide how many devices are made, so with varying devices other readings change (C36_sample_counts_violated)."
  },
  {
   "property": "C37",
   "status": "partial",
   "theorems": [
    "Gerabaldi.Props.C37_timeline_partial",
    "Gerabaldi.Props.C37_elapsed",
    "Gerabaldi.Props.C37_durations_partial",
    "Gerabaldi.Props.C37_contiguous_partial",
    "Gerabaldi.Props.C37_numbering_partial",
    "Gerabaldi.Props.C37_reserved_name_violated"
   ],
   "note": "Proved when no condition bears the name of a summary column; such a condition replaces the column (C37_reserved_name_violated)."
  },
  {
   "property": "C38",
   "status": "proved",
   "theorems": [
    "Gerabaldi.Props.C38_rows",
    "Gerabaldi.Props.C38_count",
    "Gerabaldi.Props.C38_value",
    "Gerabaldi.Props.C38_labels",
    "Gerabaldi.Props.C38_condition"
   ],
   "note": ""
  },
  {
   "property": "C39",
   "status": "proved",
   "theorems": [
    "Gerabaldi.Props.C39_grow",
    "Gerabaldi.Props.C39_numbers",
    "Gerabaldi.Props.C39_own_number"
   ],
   "note": ""
  },
  {
   "property": "C40",
   "status": "proved",
   "theorems": [
    "Gerabaldi.Props.C40_constant",
    "Gerabaldi.Props.C40_caller",
    "Gerabaldi.Props.C40_same_report"
   ],
   "note": "State constant during any run; the caller's object via a heap of state objects, also when a step raises."
  },
  {
   "property": "C41",
   "status": "partial",
   "theorems": [
    "Gerabaldi.Props.C41_report",
    "Gerabaldi.Props.C41_counts",
    "Gerabaldi.Props.C41_final",
    "Gerabaldi.Props.C41_both_sources_violated"
   ],
   "note": "For counts from a report or from a dictionary. Given both, the code accepts them and may lower the report's counts (C41_both_sources_violated)."
  },
  {
   "property": "C42",
   "status": "partial",
   "theorems": [
    "Gerabaldi.Props.C42_partial",
    "Gerabaldi.Props.C42_unmeasured_violated"
   ],
   "note": "Succeeds when every device parameter is measured or needed by a measured circuit (C42_partial); otherwise KeyError for every device (C42_unmeasured_violated)."
  },
  {
   "property": "C43",
   "status": "partial",
   "theorems": [
    "Gerabaldi.Props.C43_key_error_violated",
    "Gerabaldi.Props.C43_no_report_partial"
   ],
   "note": "Never a report (C43_no_report_partial), but the error is KeyError, raised while the conditions are generated, in every state (C43_key_error_violated)."
  },
  {
   "property": "C44",
   "status": "partial",
   "theorems": [
    "Gerabaldi.Props.C44_parameter",
    "Gerabaldi.Props.C44_condition",
    "Gerabaldi.Props.C44_circuit_partial",
    "Gerabaldi.Props.C44_circuit_violated",
    "Gerabaldi.Props.C44_spare_violated"
   ],
   "note": "Degraded parameters: the report of a whole simulation has exactly one row per lot, chip and device below n (equations must work sample by sample, the initial value must depend on a latent variable, and no mechanism may be called 'init'). Conditions: n rows without indices. Circuit parameters are violated: the cut `[:][:][:n]` is applied to the lots, so lots are missing when n is below the number of lots (C44_circuit_violated, all such tests), and spare devices are all reported (C44_spare_violated). C44_circuit_partial: exact rows when there are no spare devices and n is at least the number of lots."
  },
  {
   "property": "C45",
   "status": "partial",
   "theorems": [
    "Gerabaldi.Props.C45_partial",
    "Gerabaldi.Props.C45_counts_violated"
   ],
   "note": "Proved when the test itself asks for enough devices of every parameter a measured circuit needs; otherwise KeyError (C45_counts_violated)."
  },
  {
   "property": "C46",
   "status": "proved",
   "theorems": [
    "Gerabaldi.Props.C46_append",
    "Gerabaldi.Props.C46_simulate"
   ],
   "note": ""
  },
  {
   "property": "C47",
   "status": "partial",
   "theorems": [
    "Gerabaldi.Props.C47_partial",
    "Gerabaldi.Props.C47_default_partial",
    "Gerabaldi.Props.C47_unknown_unit",
    "Gerabaldi.Props.C47_days_violated",
    "Gerabaldi.Props.C47_empty_violated",
    "Gerabaldi.Props.C47_again",
    "Gerabaldi.Props.C47_simulated_partial"
   ],
   "note": "Proved for every report with rows in both tables and every unit but days, including every report simulate makes (condition names must differ from summary columns). Violated for days (ten written digits lose microseconds) and for reports without measurements (KeyError). pandas and json are modelled as identity on tables apart from the rounding of numbers; files are not modelled."
  },
  {
   "property": "C48",
   "status": "partial",
   "theorems": [
    "Gerabaldi.Props.C48_numbers_partial",
    "Gerabaldi.Props.C48_summary_partial",
    "Gerabaldi.Props.C48_export_violated",
    "Gerabaldi.Props.C48_twice_violated",
    "Gerabaldi.Props.C48_failed_violated"
   ],
   "note": "Proved: converted numbers equal the exported ones, and the exported summary is unaffected. Violated: export after conversion writes milliseconds, converting twice undoes the conversion, a failed conversion changes time_unit."
  },
  {
   "property": "C49",
   "status": "partial",
   "theorems": [
    "Gerabaldi.Props.C49_call",
    "Gerabaldi.Props.C49_history",
    "Gerabaldi.Props.C49_default_violated",
    "Gerabaldi.Props.C49_subclass_violated"
   ],
   "note": "Proved for loggers with plain handlers over all call histories. Violated for the default coloredlogs handler (type differs from StreamHandler) and handler subclasses."
  },
  {
   "property": "C50",
   "status": "partial",
   "theorems": [
    "Gerabaldi.Props.C50_conditions",
    "Gerabaldi.Props.C50_columns_partial",
    "Gerabaldi.Props.C50_reserved_name_violated"
   ],
   "note": "Condition values always shown; the step's own columns only when no condition bears their name (C50_reserved_name_violated)."
  },
  {
   "property": "C51",
   "status": "partial",
   "theorems": [
    "Gerabaldi.Props.C51_meas_violated",
    "Gerabaldi.Props.C51_instrument_violated",
    "Gerabaldi.Props.C51_read_partial"
   ],
   "note": "A parameter called 'meas' can never be measured, and an instrument with that name breaks every measurement (violated theorems); every other name is read with its own or the exact instrument (C51_read_partial)."
  },
  {
   "property": "C52",
   "status": "partial",
   "theorems": [
    "Gerabaldi.Props.C52_partial",
    "Gerabaldi.Props.C52_zero_violated"
   ],
   "note": "Proved for all seeds but 0: equal seeds give equal streams for the generator model. Violated for seed 0, which 'if test_seed:' ignores."
  },
  {
   "property": "C53",
   "status": "proved",
   "theorems": [
    "Gerabaldi.Props.C53_ranges",
    "Gerabaldi.Props.C53_finite",
    "Gerabaldi.Props.C53_given",
    "Gerabaldi.Props.C53_generated"
   ],
   "note": "Totality of simulate, by induction over the steps with the invariant that the state holds arrays of the test's dimensions and every latent value the equations may ask for. C53_generated: state generated by the simulation; C53_given: state passed in. Hypotheses spelled out in Spec/Total.lean (DeviceWorks, TestOk, StepsOk): equations return on arguments that fit their signature (or raise ValueError on arrays and work per sample), latents, environment and instruments can be sampled, circuit parameters are requested in the same number as what they take, stress durations are timedeltas and their sum does not overflow."
  },
  {
   "property": "C54",
   "status": "partial",
   "theorems": [
    "Gerabaldi.Props.C54_deg_equation_violated",
    "Gerabaldi.Props.C54_any_equation_violated",
    "Gerabaldi.Props.C54_stress_step_violated"
   ],
   "note": "Violated: the default equation takes no arguments but is called with the time and the conditions, so every stress step raises TypeError."
  },
  {
   "property": "C55",
   "status": "proved",
   "theorems": [
    "Gerabaldi.Props.C55_additive",
    "Gerabaldi.Props.C55_split"
   ],
   "note": "C55_additive: after any number N of consecutive stress steps that give the mechanism the same conditions and latents, the sample is on its curve at a time within N*1e-5 decades of T plus all durations. C55_split: two divisions of one total duration agree within (N+N')*1e-5 decades. Hypotheses: searches stop by their own test, times stay within 1e-3..9e9 units. A two-step run is computed in SplitEx."
  },
  {
   "property": "C56",
   "status": "partial",
   "theorems": [
    "Gerabaldi.Props.C56_partial",
    "Gerabaldi.Props.C56_violated"
   ],
   "note": "C56_partial: a step goes back by at most 1e-5 decades and not at all if it lasts at least T/10000. Missing: shorter steps. C56_violated: with f = log10 of seconds, devices at 1e6 s get one more second and their degradation falls below 6, since the search returns a time too short by more than a second."
  },
  {
   "property": "C57",
   "status": "proved",
   "theorems": [
    "Gerabaldi.Props.C57_error",
    "Gerabaldi.Props.C57_instrument",
    "Gerabaldi.Props.C57_exact",
    "Gerabaldi.Props.C57_in_range",
    "Gerabaldi.Props.C57_precision"
   ],
   "note": "Every row of every finished simulation."
  },
  {
   "property": "C58",
   "status": "partial",
   "theorems": [
    "Gerabaldi.Props.C58_arguments_partial",
    "Gerabaldi.Props.C58_pymc_succeeds_partial",
    "Gerabaldi.Props.C58_default_violated",
    "Gerabaldi.Props.C58_pyro_violated",
    "Gerabaldi.Props.C58_shadowed_violated"
   ],
   "note": "Proved for PyMC when no latent variable shares a name with an observed condition (C58_arguments_partial, C58_pymc_succeeds_partial). Violated without observed data (TypeError), for Pyro (to_event on a tensor always fails) and for latent variables shadowed by observed conditions."
  },
  {
   "property": "C59",
   "status": "partial",
   "theorems": [
    "Gerabaldi.Props.C59_ideal",
    "Gerabaldi.Props.C59_others",
    "Gerabaldi.Props.C59_voltmeter_partial",
    "Gerabaldi.Props.C59_thermometer_partial",
    "Gerabaldi.Props.C59_in_range",
    "Gerabaldi.Props.C59_resolution_violated",
    "Gerabaldi.Props.C59_temperature_violated",
    "Gerabaldi.Props.C59_temperatureLaw",
    "Gerabaldi.Props.C59_voltageLaw",
    "Gerabaldi.Props.C59_thermometerLaw",
    "Gerabaldi.Props.C59_voltmeterLaw",
    "Gerabaldi.Props.C59_ownErrors",
    "Gerabaldi.Props.C59_readings"
   ],
   "note": "Proved: ideal environment, untouched other parameters, ranges in every report, mV below 1 V and hundredths below one degree, and with ideal generators the distribution and covariance of temperatures and voltages between devices (C59_temperatureLaw, C59_voltageLaw). Violated: precision counts significant figures, so from 1 V on readings are multiples of 10 mV and from 10 degrees on whole degrees (C59_resolution_violated, C59_temperature_violated)."
  },
  {
   "property": "C60",
   "status": "partial",
   "theorems": [
    "Gerabaldi.Props.C60_stress_partial",
    "Gerabaldi.Props.C60_samplewise",
    "Gerabaldi.Props.C60_curve",
    "Gerabaldi.Props.C60_time",
    "Gerabaldi.Props.C60_voltage",
    "Gerabaldi.Props.C60_temperature_violated",
    "Gerabaldi.Props.C60_latents",
    "Gerabaldi.Props.C60_devices"
   ],
   "note": "Proved: curve of every sample, start at 0, growth with time and voltage; a stress step of x units on fresh samples with exponents up to one gives the shift at x + t, 0 < t < 0.0011, without any assumption on the search (C60_stress_partial). With ideal generators the latent values of all devices are independent normal numbers with the cookbook's means and deviations (C60_latents), and all but one in 500 devices degrade more with time and voltage and less with temperature (C60_devices). Missing: the offset t. Violated: with a positive energy (default mean 0.05 eV) hotter samples degrade less (C60_temperature_violated)."
  },
  {
   "property": "C61",
   "status": "proved",
   "theorems": [
    "Gerabaldi.Props.C61_inactive_kept"
   ],
   "note": "Proved without any assumption on the search (C61_inactive_kept); values are extended reals."
  },
  {
   "property": "C62",
   "status": "proved",
   "theorems": [
    "Gerabaldi.Props.C62_readings"
   ],
   "note": "The offset t is the equivalent time the search finds for a fresh device (C31_fresh_violated)."
  },
  {
   "property": "C63",
   "status": "proved",
   "theorems": [
    "Gerabaldi.Props.C63_finite",
    "Gerabaldi.Props.C63_ranges"
   ],
   "note": "Ranges are arbitrary predicates on values. C63_finite is the instance for finite numbers (values are extended fields, no float overflow). Runs that start from a given state are not covered."
  },
  {
   "property": "C64",
   "status": "proved",
   "theorems": [
    "Gerabaldi.Props.C64_run",
    "Gerabaldi.Props.C64_erosion",
    "Gerabaldi.Props.C64_level"
   ],
   "note": "Values are extended fields (extended reals for the sign of the erosion)."
  },
  {
   "property": "C65",
   "status": "proved",
   "theorems": [
    "Gerabaldi.Props.C65_stress",
    "Gerabaldi.Props.C65_start",
    "Gerabaldi.Props.C65_run",
    "Gerabaldi.Props.C65_measured",
    "Gerabaldi.Props.C65_reading"
   ],
   "note": "Equations are numpy expressions with fixed arguments (any arithmetic on init, cond, mechanisms and latents); the default equation with any number of mechanisms is C34. A mechanism must not be called 'init' (DegShapes)."
  },
  {
   "property": "C66",
   "status": "partial",
   "theorems": [
    "Gerabaldi.Props.C66_run",
    "Gerabaldi.Props.C66_readings",
    "Gerabaldi.Props.C66_permanent",
    "Gerabaldi.Props.C66_initial",
    "Gerabaldi.Props.C66_single_violated"
   ],
   "note": "Violated for a single oxide: oxide_failed then returns a plain number instead of raising the ValueError that leads to the loop, and formatting the first measurement fails (the argument array_computable=False of the demonstration is stored but never read); for all other numbers of oxides it is proved. One lot and chip, as in the demonstration. TddbDraws: drawing from the normal, gamma and uniform distributions with the demonstration's parameters succeeds (nothing is assumed about the values)."
  },
  {
   "property": "C67",
   "status": "proved",
   "theorems": [
    "Gerabaldi.Props.C67_reading"
   ],
   "note": "For every sample-by-sample circuit equation. Stated for runs in which exactly n devices of the circuit parameter and of the parameters it reads exist (otherwise the code broadcasts arrays of different sizes or cuts the lots, see C44)."
  },
  {
   "property": "C68",
   "status": "proved",
   "theorems": [
    "Gerabaldi.Props.C68_run",
    "Gerabaldi.Props.C68_gain",
    "Gerabaldi.Props.C68_times"
   ],
   "note": "Finite threshold voltages are a hypothesis of the gain formula: an unlucky normal draw (a negative supply voltage with a fractional exponent) gives NaN, as in numpy. With fewer amplifiers than lots only the first lots are measured (see C44)."
  },
  {
   "property": "C69",
   "status": "proved",
   "theorems": [
    "Gerabaldi.Props.C69_table"
   ],
   "note": "Any initial state, any environment; together with C44, C57, C65 and C67, which describe the rows of one step and name, the whole table is determined. Specifications naming a quantity twice cannot be written (they are dicts)."
  },
  {
   "property": "C70",
   "status": "partial",
   "theorems": [
    "Gerabaldi.Props.C70_dict_partial",
    "Gerabaldi.Props.C70_list",
    "Gerabaldi.Props.C70_unnamed",
    "Gerabaldi.Props.C70_shared_violated",
    "Gerabaldi.Props.C70_instrument_violated"
   ],
   "note": "Proved for lists, and for dictionaries whose entries are different objects. Violated for one object under two keys (C70_shared_violated, C70_instrument_violated): the constructor writes the key into the object, so that only the last key keeps it and the first condition is applied without variation, or the first parameter read exactly."
  },
  {
   "property": "C71",
   "status": "proved",
   "theorems": [
    "Gerabaldi.Props.C71_shift",
    "Gerabaldi.Props.C71_reading"
   ],
   "note": "Proved for all equations that compute each sample from the arguments at that sample. The true values are those of the state left by the preceding steps (C65 says what they are)."
  },
  {
   "property": "C72",
   "status": "proved",
   "theorems": [
    "Gerabaldi.Props.C72_start",
    "Gerabaldi.Props.C72_default"
   ],
   "note": "Proved for all models whose mechanisms are not called 'cond' and whose own latent variables are not called like a mechanism or 'cond' (the code keeps all of them in one dictionary, where they would replace each other)."
  },
  {
   "property": "C73",
   "status": "proved",
   "theorems": [
    "Gerabaldi.Props.C73_history",
    "Gerabaldi.Props.C73_first_failure"
   ],
   "note": "Both theorems hold for all runs of simulateFull from new devices; conditions of the mechanism must have no variation in the environment (C17), and the equation must take 'time'."
  },
  {
   "property": "C74",
   "status": "proved",
   "theorems": [
    "Gerabaldi.Props.C74_mechanisms",
    "Gerabaldi.Props.C74_true",
    "Gerabaldi.Props.C74_reading"
   ],
   "note": "The search for one number is described with the search state of the model, whose steps are the subject of C26 to C29."
  },
  {
   "property": "C75",
   "status": "proved",
   "theorems": [
    "Gerabaldi.Props.C75_exposure",
    "Gerabaldi.Props.C75_order",
    "Gerabaldi.Props.C75_new",
    "Gerabaldi.Props.C75_run"
   ],
   "note": "C75_exposure for used devices, C75_order for the order of phases, C75_new for new devices, C75_run for whole simulations. Concrete two-phase case with a search computed in rational numbers."
  },
  {
   "property": "C76",
   "status": "partial",
   "theorems": [
    "Gerabaldi.Props.C76_failures",
    "Gerabaldi.Props.C76_rounds",
    "Gerabaldi.Props.C76_others_partial",
    "Gerabaldi.Props.C76_others_violated"
   ],
   "note": "C76_failures and C76_rounds are exact. C76_others_partial gives the tolerance. C76_others_violated: the same new device, alone and with a second one, has different values after the same hour."
  },
  {
   "property": "C77",
   "status": "proved",
   "theorems": [
    "Gerabaldi.Props.C77_reading",
    "Gerabaldi.Props.C77_same"
   ],
   "note": "proved for parameters whose equations act sample by sample"
  },
  {
   "property": "C78",
   "status": "partial",
   "theorems": [
    "Gerabaldi.Props.C78_longer_partial",
    "Gerabaldi.Props.C78_run_partial",
    "Gerabaldi.Props.C78_violated"
   ],
   "note": "the limit of 9e9 time units in calc_deg_vals violates the claim for longer steps (C78_violated); proved for steps that stay within it, and finite values are proved kept otherwise"
  },
  {
   "property": "C79",
   "status": "partial",
   "theorems": [
    "Gerabaldi.Props.C79_reading",
    "Gerabaldi.Props.C79_direct_partial",
    "Gerabaldi.Props.C79_direct_violated"
   ],
   "note": "the second sentence holds for parameters without a conditional shift; with one it is violated, as circuits get the unshifted values"
  },
  {
   "property": "C80",
   "status": "proved",
   "theorems": [
    "Gerabaldi.Props.C80_layout",
    "Gerabaldi.Props.C80_size",
    "Gerabaldi.Props.C80_same"
   ],
   "note": "All tests. Circuit parameters under the condition of C44_circuit_partial; without it rows are missing or added (C44 violated theorems)."
  },
  {
   "property": "C81",
   "status": "partial",
   "theorems": [
    "Gerabaldi.Props.C81_import_partial",
    "Gerabaldi.Props.C81_import_violated",
    "Gerabaldi.Props.C81_pymc",
    "Gerabaldi.Props.C81_pyro",
    "Gerabaldi.Props.C81_missing_pymc",
    "Gerabaldi.Props.C81_missing_pyro",
    "Gerabaldi.Props.C81_state_violated"
   ],
   "note": "Violated: exceptions other than ImportError and SystemError (such as the OSError of a broken shared library) abort the import of the package (C81_import_violated), and a failed export of a variable with a base value leaves its centre shifted (C81_state_violated). No other function refers to the optional packages, so simulations need none."
  },
  {
   "property": "C82",
   "status": "partial",
   "theorems": [
    "Gerabaldi.Props.C82_later",
    "Gerabaldi.Props.C82_start",
    "Gerabaldi.Props.C82_number_violated"
   ],
   "note": "Proved for timedeltas (C82_later, C82_start). Numbers are documented and accepted as elapsed times too, but any test with a stress phase then fails, since a timedelta is added to a number (C82_number_violated)."
  },
  {
   "property": "C83",
   "status": "proved",
   "theorems": [
    "Gerabaldi.Props.C83_compare",
    "Gerabaldi.Props.C83_harsher",
    "Gerabaldi.Props.C83_accelerated",
    "Gerabaldi.Props.C83_run"
   ],
   "note": "Sample level (C83_compare, C83_harsher, C83_accelerated) and whole runs (C83_run). Assumes what C75 assumes: times within the search bounds and searches that finish (the first always does)."
  },
  {
   "property": "C84",
   "status": "partial",
   "theorems": [
    "Gerabaldi.Props.C84_append_partial",
    "Gerabaldi.Props.C84_owned_partial",
    "Gerabaldi.Props.C84_shared_violated",
    "Gerabaldi.Props.C84_own_partial",
    "Gerabaldi.Props.C84_own_violated"
   ],
   "note": "Violations: C84_shared_violated (two tests made from one list), C84_own_violated (own list in a loop, for every k)."
  },
  {
   "property": "C85",
   "status": "partial",
   "theorems": [
    "Gerabaldi.Props.C85_counts_partial",
    "Gerabaldi.Props.C85_report_partial",
    "Gerabaldi.Props.C85_sources",
    "Gerabaldi.Props.C85_caller_violated"
   ],
   "note": "Violation: C85_caller_violated (the dictionary of the caller gets a new entry)."
  },
  {
   "property": "C86",
   "status": "partial",
   "theorems": [
    "Gerabaldi.Props.C86_saved_partial",
    "Gerabaldi.Props.C86_failed",
    "Gerabaldi.Props.C86_nested_violated",
    "Gerabaldi.Props.C86_overwrites_partial"
   ],
   "note": "Partial because mkdir is called without parents=True: a missing directory in a missing directory makes every export fail (C86_nested_violated), and because of the unit problem of C47. Symbolic links, .., permissions and full disks are not modelled."
  },
  {
   "property": "C87",
   "status": "proved",
   "theorems": [
    "Gerabaldi.Props.C87_devices",
    "Gerabaldi.Props.C87_chips",
    "Gerabaldi.Props.C87_lots",
    "Gerabaldi.Props.C87_ragged_chips",
    "Gerabaldi.Props.C87_ragged_lots",
    "Gerabaldi.Props.C87_conditions",
    "Gerabaldi.Props.C87_rejected"
   ],
   "note": "Numbers only; the row index and dtypes of pandas are not modelled."
  },
  {
   "property": "C88",
   "status": "partial",
   "theorems": [
    "Gerabaldi.Props.C88_test",
    "Gerabaldi.Props.C88_file_partial",
    "Gerabaldi.Props.C88_sizes_violated",
    "Gerabaldi.Props.C88_state_violated",
    "Gerabaldi.Props.C88_empty",
    "Gerabaldi.Props.C88_grow",
    "Gerabaldi.Props.C88_simulated"
   ],
   "note": "Partial: a loaded report never has dev_counts, num_chps and num_lots, so it can never be used as quantity_info (C88_sizes_violated, C88_state_violated hold for all files that load)."
  },
  {
   "property": "C89",
   "status": "proved",
   "theorems": [
    "Gerabaldi.Props.C89_used",
    "Gerabaldi.Props.C89_new",
    "Gerabaldi.Props.C89_constant",
    "Gerabaldi.Props.C89_constant_new",
    "Gerabaldi.Props.C89_run"
   ],
   "note": "C89_used, C89_new, C89_constant, C89_constant_new and C89_run; the limits (search tolerance, finished searches, 0.0011 units) are those of C31 and C75 and part of the statement."
  },
  {
   "property": "C90",
   "status": "proved",
   "theorems": [
    "Gerabaldi.Props.C90_minimize",
    "Gerabaldi.Props.C90_mechanism",
    "Gerabaldi.Props.C90_true",
    "Gerabaldi.Props.C90_shown",
    "Gerabaldi.Props.C90_reading"
   ],
   "note": "C90_minimize, C90_mechanism, C90_true, C90_shown, C90_reading; example: the ageing device with its drift in thousandths counted from 5 gives the same readings."
  },
  {
   "property": "C91",
   "status": "proved",
   "theorems": [
    "Gerabaldi.Props.C91_layers",
    "Gerabaldi.Props.C91_values",
    "Gerabaldi.Props.C91_exchangeable",
    "Gerabaldi.Props.C91_lots",
    "Gerabaldi.Props.C91_covariance",
    "Gerabaldi.Props.C91_mean",
    "Gerabaldi.Props.C91_normal",
    "Gerabaldi.Props.C91_sampled"
   ],
   "note": "C91_layers, C91_values, C91_exchangeable, C91_lots, C91_covariance, C91_mean, C91_normal, C91_sampled (the law C15 speaks about is the law of the values); example: lot and device layers on one generator, built by the constructor, over the infinite product of standard normals."
  },
  {
   "property": "C92",
   "status": "proved",
   "theorems": [
    "Gerabaldi.Props.C92_defects",
    "Gerabaldi.Props.C92_survival",
    "Gerabaldi.Props.C92_split"
   ],
   "note": "C92_defects gives the independent events, C92_survival the chance to survive a sequence of phases, C92_split the effect of splitting a phase. Each call of the demo makes a new generator; here all calls draw from one endless stream of independent numbers."
  },
  {
   "property": "C93",
   "status": "proved",
   "theorems": [
    "Gerabaldi.Props.C93_conditions",
    "Gerabaldi.Props.C93_values",
    "Gerabaldi.Props.C93_separate",
    "Gerabaldi.Props.C93_normal"
   ],
   "note": "Proved with ideal generators: joint distribution, independence of conditions, normal law and covariance. How the generators of numpy approach the ideal is outside of the model."
  },
  {
   "property": "C94",
   "status": "proved",
   "theorems": [
    "Gerabaldi.Props.C94_variation",
    "Gerabaldi.Props.C94_initial",
    "Gerabaldi.Props.C94_mechanisms",
    "Gerabaldi.Props.C94_latents",
    "Gerabaldi.Props.C94_values",
    "Gerabaldi.Props.C94_normal",
    "Gerabaldi.Props.C94_initialNormal"
   ],
   "note": "Proved with ideal generators. Needs that no own latent variable has the name of a mechanism or 'cond' (otherwise it replaces it in the state). How the generators of numpy approach the ideal is outside of the model."
  },
  {
   "property": "C95",
   "status": "proved",
   "theorems": [
    "Gerabaldi.Props.C95_errors",
    "Gerabaldi.Props.C95_normal"
   ],
   "note": "Equations of models are functions of their arguments; readings must not be NaN."
  },
  {
   "property": "C96",
   "status": "proved",
   "theorems": [
    "Gerabaldi.Props.C96_joint",
    "Gerabaldi.Props.C96_readings",
    "Gerabaldi.Props.C96_normal",
    "Gerabaldi.Props.C96_covariance",
    "Gerabaldi.Props.C96_values",
    "Gerabaldi.Props.C96_apart"
   ],
   "note": "C96_joint and C96_readings for arbitrary layers; C96_normal, C96_covariance and C96_apart for normal ones; C96_values: such readings exist"
  },
  {
   "property": "C97",
   "status": "partial",
   "theorems": [
    "Gerabaldi.Props.C97_joint",
    "Gerabaldi.Props.C97_values",
    "Gerabaldi.Props.C97_steps",
    "Gerabaldi.Props.C97_latents",
    "Gerabaldi.Props.C97_batch_violated"
   ],
   "note": "joint independence proved; one batch per test is violated: gen_env_cond_vals draws the batch variation anew in every step, so two steps of the same test almost surely differ"
  },
  {
   "property": "C98",
   "status": "partial",
   "theorems": [
    "Gerabaldi.Props.C98_own",
    "Gerabaldi.Props.C98_same",
    "Gerabaldi.Props.C98_others",
    "Gerabaldi.Props.C98_order",
    "Gerabaldi.Props.C98_seeded_partial",
    "Gerabaldi.Props.C98_zero_violated"
   ],
   "note": "All proved for positive seeds; seed 0 is ignored by the code, so that a script which seeds everything is not repeatable if one seed is 0 (C98_zero_violated)"
  },
  {
   "property": "C99",
   "status": "partial",
   "theorems": [
    "Gerabaldi.Props.C99_cells",
    "Gerabaldi.Props.C99_river_partial",
    "Gerabaldi.Props.C99_tddb_partial",
    "Gerabaldi.Props.C99_amp_partial",
    "Gerabaldi.Props.C99_basic_partial",
    "Gerabaldi.Props.C99_file_violated",
    "Gerabaldi.Props.C99_dir_violated"
   ],
   "note": "Exit code 0 for all four demonstrations on new simulations, for all draws, with and without saving. Violated for saved reports: with --data-file or --data-dir every run raises."
  },
  {
   "property": "C100",
   "status": "partial",
   "theorems": [
    "Gerabaldi.Props.C100_ampPlot",
    "Gerabaldi.Props.C100_amp_partial",
    "Gerabaldi.Props.C100_amp_violated",
    "Gerabaldi.Props.C100_failTimes",
    "Gerabaldi.Props.C100_tddb",
    "Gerabaldi.Props.C100_river",
    "Gerabaldi.Props.C100_basicRun",
    "Gerabaldi.Props.C100_basic",
    "Gerabaldi.Props.C100_spread"
   ],
   "note": "The figure of the amplifiers fails with fewer devices on a chip than lots (C100_amp_violated), and is shown for finite gains (C100_amp_partial). The bands also contain -1000 and 1000 if all readings are beyond these. sort_index and loc are taken to keep the order of the rows with one label."
  },
  {
   "property": "C101",
   "status": "proved",
   "theorems": [
    "Gerabaldi.Props.C101_run",
    "Gerabaldi.Props.C101_reading",
    "Gerabaldi.Props.C101_new",
    "Gerabaldi.Props.C101_test",
    "Gerabaldi.Props.C101_history",
    "Gerabaldi.Props.C101_true",
    "Gerabaldi.Props.C101_shown"
   ],
   "note": "The joint law is proved for everything drawn before and during a test. C101_run and C101_reading carry whole simulations along exactly: two simulations of one device model, with any tests, environments and worlds, whose devices are rearranged and have the same drawn values and met conditions, end with the same true values and show them to the instruments, each at its place. Instrument errors are independent of all this by C97."
  },
  {
   "property": "C102",
   "status": "partial",
   "theorems": [
    "Gerabaldi.Props.C102_own_partial",
    "Gerabaldi.Props.C102_layers_violated"
   ],
   "note": "Each layer's numbers are its own (C102_own_partial). Violated for equal seeds: if chip and device layer have the same distribution and seed, with one device per chip the chip variation of a device is its device variation (C102_layers_violated)."
  },
  {
   "property": "C103",
   "status": "proved",
   "theorems": [
    "Gerabaldi.Props.C103_run",
    "Gerabaldi.Props.C103_whole"
   ],
   "note": "End-to-end theorems: C103_run for tests with intervals (range and finishing of the equivalent-time searches are hypotheses, as in C89), C103_whole for the test without intervals (no hypotheses on searches beyond the range of the duration)."
  },
  {
   "property": "C104",
   "status": "partial",
   "theorems": [
    "Gerabaldi.Props.C104_side_partial",
    "Gerabaldi.Props.C104_healed_violated"
   ],
   "note": "The search stops by its own test or is cut off; in either case the time found is on the right side of the starting time and no worse than it (C104_side_partial). The claim itself is false: a device on a strictly increasing curve at 10^9.9 s is taken back by an hour of stress to below its degradation at a fifth of that time (C104_healed_violated). C29 gives the accuracy when the search stops by itself."
  },
  {
   "property": "C105",
   "status": "proved",
   "theorems": [
    "Gerabaldi.Props.C105_no_longer",
    "Gerabaldi.Props.C105_converges_alone",
    "Gerabaldi.Props.C105_mechanism",
    "Gerabaldi.Props.C105_accurate"
   ],
   "note": "C29 without its hypothesis that the search over the whole array stopped by itself. Over exact reals; rounding is outside the model as in C29."
  }
 ]
}