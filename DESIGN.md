# Formal model of EcosizerEngine: design

The code under study is the Python package in `/repo/src/ecoengine`. `lean/Verif` holds an executable Lean 4 model of
it, written function by function, and theorems about the model. `properties.jsonl` lists the properties, `MANIFEST.json`
maps each property to its theorems.

## Layout

| directory | contents |
|---|---|
| `lean/Verif/Model/*.lean` | the model; every definition cites the file and lines it mirrors |
| `lean/Verif/Spec/*.lean` | small specifications, written without the model's helpers |
| `lean/Verif/Lemmas/*.lean` | helper lemmas |
| `lean/Verif/Props/*.lean` | property theorems (`Cnn_...`), with examples that meet their hypotheses |
| `seeded/LOG.jsonl` | mutation log: wrong programs tried and the theorems that rejected them |

## Modelling conventions

* **Numbers.** Python floats are modelled by exact arithmetic in an ordered field `K` (instantiated at `ℚ` for
  computation and at `ℝ` where a specification uses an integral or continuity). Rounding, overflow, `inf` and `nan` are
  *not* modelled; see the trusted base.
* **Exceptions** are values of `Except PyErr`. A division whose divisor can be zero in the code is guarded in the model
  and yields `zeroDivision` (numpy divisions, which give `inf`/`nan` with a warning, are named where they occur).
* **Mutable objects** are structures; a method that mutates returns the new structure. Where a property is about state
  left behind by an exception (C07, C08, C09, C69, C70), the model returns the state *and* the result, so that the state
  after a raise is visible.
* **Loops** are folds or structural recursion with the same bound as the code.
* **External data** (weather files, pickled grids, model catalogue, `scipy` interpolation, the inverse normal CDF) are
  parameters. Assumptions about them are hypotheses of the theorems.
* **False properties.** Where the code does not have a property, the negation is a theorem with a concrete witness, the
  part that does hold is a theorem with the suffix `_partial` or a theorem with the needed hypothesis, and the manifest
  says `partial`.

## What is modelled

| source file | model | left out |
|---|---|---|
| `objects/dhwsystems/DHWSystem.py` | `Sizing`, `LoadShift`, `Size`, `Simulate` | `plot_sizing_curve`, warnings text |
| `objects/dhwsystems/InstantWHSystem.py` | `SimRun` | |
| `objects/dhwsystems/utils.py` | `MixingValve` | |
| `recirc_systems/RecircSystem.py`, `ParallelLoopSystem.py` | `ParallelLoop`, `Simulate` | the `print` of each step |
| `recirc_systems/SwingSystem.py` | `Swing`, `Simulate` | |
| `recirc_systems/SwingERTrdOffSystem.py` | `SwingEr` | |
| `rtp_systems/RTPSystem.py`, `SinglePassRTPSystem.py` | `Rtp`, `Simulate` | |
| `rtp_systems/MultiPassRTPSystem.py` | `MultiPass`, `MultiPassCurve` | |
| stub classes (`MPNoRecirc`, `SP_RTPInParallel`, `SP_RTPInSeries`, `MP_RTPInSeries`) | none | their `size` and `simulate_step` are `pass` |
| `components/storage/*.py` | `StratTank`, `EnergyTank`, `SlugTank`, `MixedTank` | the abstract base class |
| `components/heating/Controls.py`, `WaterHeater.py` | `Controls`, `Heater` | fuel type |
| `components/heating/PerformanceMap.py` | `PerfMap` | pickled grids and JSON coefficients (parameters), `scipy` interpolation (parameter) |
| `building/Building.py` | `Building` | reading the JSON load-shape files (parameter) |
| `building/ClimateZone.py` | `Climate` | reading the CSV files (parameter) |
| `building/UtilityCostTracker.py` | `Utility` | CSV text (rows are modelled) |
| `simulation/SimulationRun.py` | `SimRun` | `to_csv`, `to_plotly` |
| `interfaces/Simulator.py` | `SimRun`, `Simulate`, `MultiPass` | |
| `interfaces/EcosizerEngine.py` | `Engine`, `Climate` | plots and HTML |

## Properties: how each is modelled and proved

* **C01 Running volume is exactly the worst shortfall** (proved; `Running`). `_get_peak_indices`, tiling, cumulative sums and minimum as list functions; spec: `IsGreatest` of the shortfalls over all windows of the periodic demand. A best window can be moved to start at a peak index and shortened to a day. *Status:* Exact arithmetic. Needs daily generation >= daily use; C01_no_surplus_hour shows what the code does without it.
* **C02 A store of the sized running volume never runs dry, a smaller one does** (proved; `Running`). Spec: level recursion `min V (level + gen - demand)`; reflected-walk argument from C01.
* **C03 Sized capacity delivers the design day in the allowed run time** (proved; `Running`). Field arithmetic on the capacity formula.
* **C04 Fewer run hours: more capacity, no more storage** (proved; `Running`). The window characterisation of C01 is antitone in the generation rate.
* **C05 Stratification factor is the exact yield of the assumed tank profile** (proved; `StratFactor`). Interval integral over `ℝ` of the assumed temperature profile. *Status:* Over the reals, as a Lebesgue integral of the assumed profile; the trigger must not exceed storage temperature (an example shows the code miscounts otherwise).
* **C06 Load-shift sizing never shrinks the system** (proved; `Size`). Case analysis of `size`; both branches compared. *Status:* For every class that inherits size(); the comparison with uncapped run hours is for the base class.
* **C07 size() leaves max_daily_run_hr as it found it** (proved; `Size`, `SwingSize`). `size` as a state transformer returning state and result; all exception points. *Status:* Every outcome, every class that inherits size().
* **C08 size() leaves the building's load-shape mode as it found it** (partial; `Size`, `SwingSize`). As C07, for the building. *Status:* False of the code: C08_not_restored_on_error (an exception leaves an annual building on the daily shape). Proved for successful calls and for daily buildings.
* **C09 Sizing results are available exactly after a successful size()** (partial; `Size`). Invariant over histories of calls. *Status:* False of the code when a zero capacity is computed: C09_failed_call_stores_results. Proved for all other histories; idempotence proved.
* **C10 Sizing curve is consistent with sizing** (proved; `Curves`). The sweep as recursion over the run hours with early break. *Status:* Order of capacity and storage for the base class on a normalised day; the rest for every class that inherits the method. Exact arithmetic for np.arange.
* **C11 Recommended point of the sizing curve is the sized system** (proved; `Curves`). As C10, with the point of the sized run hours located in the sweep. *Status:* C11_sweep_reaches_recommended_point gives conditions under which the sweep reaches the point (run hours above 1.001 times the physical minimum).
* **C12 Load-shift curve agrees with load-shift sizing** (proved; `Curves`). The curve points are sizing results; the quantile function is a parameter. *Status:* The normal quantile function is a parameter.
* **C13 More load-shift coverage never needs less storage** (partial; `LoadShift`). Monotonicity of each formula in the fraction; witness for the failure. *Status:* False of the code for storage when the schedule has load-up hours: C13_storage_can_shrink. Capacity is monotone; storage is monotone when the rate does not change.
* **C14 First shed block and load-up hours are identified correctly** (proved; `LoadShift`). Characterisation by induction over the schedule.
* **C15 Load-shift store survives the shed** (proved; `LoadShift`). Window argument from the end of the first shed block. *Status:* C15_sized_rate_covers shows that the sized rate meets the covering hypothesis.
* **C16 Load-shift store survives every shed block** (partial; `LoadShift`). Witness with two shed blocks; window argument for one. *Status:* False of the code for several blocks (C16_second_block_runs_dry) and on the block of the next day (C16_second_day_runs_dry). Proved for one block and a store that is full when it starts, up to the next block; C16_margin_suffices gives a volume that never runs dry, whatever the blocks.
* **C17 Degenerate load-shift schedules are rejected cleanly** (partial; `LoadShift`). The exceptions are computed for all degenerate schedules. *Status:* size always raises, but not a ValueError: C17_not_value_error.
* **C18 Control schedule built from the 0/1 list is the documented one** (proved; `Engine`). List functions; pointwise characterisation of the 24 entries. *Status:* The 24-entry list as documented, the empty or absent list, and the controls attached to each label.
* **C19 Every scheduled hour has controls** (partial; `Engine`). Exact characterisation of hours without controls. *Status:* False in general: load_up_hours > 0 without load_up_aquastat_fract labels hours loadUp that have no controls (C19_load_up_without_controls). Exact characterisation C19_exact; all hours have controls otherwise.
* **C20 Climate argument is resolved as documented** (partial; `Engine`, `Message`). Case analysis over the argument's form. *Status:* All documented forms except five-digit integers, which are documented as zip codes but always rejected (C20_integer_zip_rejected). C20_zone_data: the zone's data are its columns of the two tables.
* **C21 Schematic selection and required parameters** (proved; `Engine`). Decision logic over schematic names. *Status:* Aliases equal, class and arguments passed to from_size or the constructor, ValueError for missing loop data or unknown names (provided the control list and given heaters are usable, which is needed: C21_errors_before_dispatch), pre-sized builds independent of from_size.
* **C22 Model listing returns exactly the requested models** (proved; `Engine`). Filter over the catalogue list. *Status:* Exactly the requested entries in catalogue order; MP and SP listings partition the requested entries.
* **C23 Heater state follows the hysteresis rule over any history** (proved; `Heater`). Induction over update histories against a two-state specification.
* **C24 No heater chatter** (proved; `Heater`). Monotone tank profile between two sensor heights. *Status:* Under the sensor order stated in the property; C24_needs_sensor_order shows it is needed.
* **C25 Inactive heaters produce and consume nothing; missing controls are an error** (proved; `Heater`). Case analysis.
* **C26 Multi-point performance map interpolates between its data points** (partial; `PerfMap`). Bracket search over a sorted table; continuity over `ℝ`. *Status:* Interpolation, agreement at points, power betweenness, continuity, backup. Capacity betweenness is false in general (C26_capacity_above_both_points), proved when COP and power move together; extrapolated power can be negative (C26_extrapolates_negative).
* **C27 Reported COP is output over input** (proved; `PerfMap`). Field arithmetic.
* **C28 Grid performance map fallback order** (proved; `PerfMap`). Case analysis of the fallback chain; the interpolators are parameters. *Status:* The fallback order is proved; C28_outlet_not_nearest records that the outlet chosen is not always the numerically nearest.
* **C29 Timestep demands add up to the daily use** (proved; `Building`). Sums over steps, hours and days. *Status:* For every interval dividing the hour: per hour, per any number of hours, per day (24-hour shape) and per year (8760-hour shape). C29_needs_divisor: a 90-minute interval breaks the sum promised by the docstring.
* **C30 Load-shape validation accepts exactly valid shapes** (partial; `Building`). `iff` with an independent predicate. *Status:* The validator is exact and named types with custom shapes are accepted exactly for valid shapes; without a type a custom average day is scaled and then validated (C30_custom_average). The property is false for building_type=None (C30_custom_type_not_validated): unnormalised shapes are scaled and never checked.
* **C31 Mixed-use building is the sum of its parts** (proved; `Building`). Induction over the parts. *Status:* Daily use and demand at every timestep are the sums over the stand-alone parts; shapes stay normalised.
* **C32 Switching between annual and daily load shapes is lossless** (partial; `Building`). Histories of switches. *Status:* Lossless for every switch history for buildings with stored shapes; false for custom shapes (C32_custom_shape_lost): the custom day is replaced by the stored one.
* **C33 Hour-to-month mapping follows the 365-day calendar** (proved; `Utility`). Finite table lifted to all hours. *Status:* Hour to month is exact for all 8760 hours and each month gets 24 times its days.
* **C34 Rate validation accepts exactly well-formed rate structures** (partial; `Utility`). `iff` with an independent predicate over Python values. *Status:* The validator accepts exactly the structures of Spec.ValidRates and rejects all others with ValueError. The property fails in two ways, both proved: empty lists are accepted, and the discount arguments are not validated.
* **C35 Every hour of the year is billed in the right period** (proved; `Utility`). Partition of the year proved from the accepted structure. *Status:* For every accepted structure with at least one season (the empty one is C34/C36).
* **C36 Every billed hour and period has a defined charge** (partial; `Utility`). As C35. *Status:* Proved for structures with a season and numeric discount charges; the empty structure and missing discount charges are proved counterexamples.
* **C37 Rate structure survives a CSV round trip** (partial; `Utility`). Row-level round trip; the CSV text is Python's `csv` module. *Status:* Exact round trip without a discount period; rates survive with one; the peak and discount classification does not (proved for every off-peak hour of an odd month).
* **C38 Annual cost is energy plus demand plus base charges** (proved; `SimRun`). Sums over steps, spec written as sums over periods and months. *Status:* For every priced run; C38_only_priced shows a cost is only reported if every step has a rate and a period.
* **C39 Monthly bills add up to the annual bill** (partial; `SimRun`). Regrouping of sums by month. *Status:* True without temperature-maintenance power for every accepted rate structure (C39_built_partial); false with it (C39_tm_ignored: the monthly bills leave its power out) and for rate files with free period numbers (C39_csv_periods_dropped).
* **C40 Detailed monthly bill refines the monthly bill** (proved; `SimRun`). Regrouping of sums by month and period. *Status:* For every accepted rate structure, with and without temperature maintenance; C40_refines_monthly compares it with the plain breakdown month by month.
* **C41 Monthly energy adds up to total energy** (partial; `SimRun`). Regrouping of sums by month. *Status:* True without temperature maintenance; with it the monthly totals fall short by exactly its energy (C41_monthly_energy_exact, C41_tm_gap).
* **C42 Outage accounting is exact** (partial; `SimRun`). Induction over the simulation loop with an arbitrary step function. *Status:* Outage minutes exact. Success ignores the early stop: C42_stopped_but_successful is a stopped run reported successful (negative threshold); C42_stopped_not_successful gives the conditions under which this cannot happen.
* **C43 Early stop happens exactly when the delivery deficit lasts too long** (proved; `SimRun`). As C42. *Status:* For every system with a step function, both durations.
* **C44 Recorded series are complete and aligned** (proved; `SimRun`). As C42. *Status:* For every system whose steps report six node temperatures.
* **C45 A tankless system that meets demand is reported successful** (partial; `SimRun`). The loop instantiated with the tankless step. *Status:* False for every building: C45_instant_never_successful (usable volume is reported as zero, so every minute is an outage); C45_completes_partial shows the simulation does finish.
* **C46 Climate queries are periodic over the year** (proved; `Climate`). Modular arithmetic on hours. *Status:* OAT depends only on the hour of the year and inlet temperature only on the month of the day; both repeat every year; constant climates are constant.
* **C47 Design temperatures bound every hour** (proved; `Climate`). Minimum over lists. *Status:* Design temperatures are the least of the hourly / monthly values when no design value is given.
* **C48 Temperature buckets count every day once** (proved; `Climate`). Partition of the 365 days. *Status:* The buckets partition the 365 days by their mean temperature and the counts add up to 365; without hourly data a ValueError is raised.
* **C49 Stratified tank is never colder higher up and stays within its limits** (proved; `StratTank`). Invariant over histories of calls. *Status:* For every history of calls.
* **C50 Usable volume is the volume at or above supply temperature** (proved; `StratTank`). Lebesgue-free: the set of heights at or above supply is an interval whose length is computed. *Status:* The usable volume is the volume of the part at or above the supply temperature, for supply between inlet and outlet; C50_above_outlet records what happens above the outlet temperature.
* **C51 Drawing never adds and heating never removes usable hot water (stratified tank)** (proved; `StratTank`). Monotonicity of the thermocline position. *Status:* For the temperature of the call; C51_draw_adds_lukewarm shows a draw can raise the usable volume at a lower temperature.
* **C52 Average draw temperature is the mean of the profile** (proved; `StratTank`). Interval integral over `ℝ`.
* **C53 Stratified draw delivers the demanded heat** (partial; `StratTank`). Bisection invariant plus monotone yield function. *Status:* Heat balance and returned volume within the search tolerance whenever the tank can deliver the draw. False when the whole tank is drawn (C53_full_draw_leaves_hot_water).
* **C54 Heating a stratified tank stores the supplied heat** (proved; `StratTank`). Interval integral over `ℝ`.
* **C55 Energy tank never holds negative energy or more than a full tank** (partial; `EnergyTank`). Invariant over histories of calls. *Status:* Proved for every history at a constant inlet temperature; false when the inlet gets warmer (C55_rising_inlet).
* **C56 Energy tank books exactly the heat moved** (proved; `EnergyTank`, `SlugHeat`). Sum over histories of calls. *Status:* For every history of sensible calls whose running total stays between empty and full; C56_one gives the cut-off otherwise.
* **C57 Energy and thermocline position determine each other** (proved; `EnergyTank`). Interval integral and bisection invariant. *Status:* Over the reals: energy is the integral of the profile, monotone, and the position found reproduces the stored energy within the stated tolerance.
* **C58 Mixed tank keeps an exact heat balance** (proved; `MixedTank`). Field arithmetic per operation. *Status:* For every operation; a draw needs the tank at least a millionth of a degree above the make-up water (below that it books nothing, C58_cold_tank_unchanged).
* **C59 Mixed tank temperature stays within the range of its inputs** (proved; `MixedTank`). Invariant over histories. *Status:* For every history; C59_needs_volume shows the volume limit is needed.
* **C60 Mixed tank heating is capped at the outlet temperature** (partial; `MixedTank`). Witness for every tank. *Status:* False for every tank (C60_exceeds_outlet: the cap is commented out in the code); C60_cap_partial gives the exact condition.
* **C61 Slug tank usable volume stays within the usable tank** (proved; `SlugTank`). Invariant over histories. *Status:* For every history with any arguments; exactness in and out of heating cycles. C61_add_to_slug_uncapped shows the direct call is not limited, contrary to its description.
* **C62 Slug heat balance** (partial; `SlugTank`). Field arithmetic per operation. *Status:* Heat balances exact and reported temperatures at most storage; the slug's own temperature is not capped (C62_slug_overheats for every tank, C62_overheated_energy).
* **C63 Mixing valve conserves mass and heat** (partial; `MixingValve`). Linear balance equations; uniqueness. *Status:* For cold < return <= supply < storage and any load/flow with something to move, the answer is the unique balanced distribution of its regime; regimes agree at the switch-over. False at rest: no load and no loop loss raises ZeroDivisionError (C63_idle_raises); storage at exactly supply temperature also raises.
* **C64 Temperature-maintenance sizing meets the off-time and recovers** (proved; `LoopChecks`, `ParallelLoop`). Field arithmetic and the tank's own operations. *Status:* Validation is characterised exactly, cooling and recovery times are exact through the tank API, and size reports these values. The advice in the error text (raise the safety factor) never helps (C64_advice_never_helps).
* **C65 Temperature-maintenance heater cycles off in simulation** (partial; `ParallelLoop`, `Turnover`). Orbit of the step map; fixed point and monotonicity. *Status:* False in general: with OFF at or above tmLimit (which includes the engine's default settings on loops with a drop up to 32/3 F) the heater never turns off. Exact criterion proved for from_size systems: C65_cycles_iff_partial when less than the tank volume circulates per step, C65_full_turnover for all longer steps (the 10-minute steps of a year for a loop with a small drop).
* **C66 Swing tank volume comes from the table and is large enough** (proved; `LoopChecks`, `Swing`). Table lookup over sorted sizes. *Status:* The California size is 480, which may not cover the need, above 480 gallons.
* **C67 Swing sizing never fails for a feasible system** (proved; `Swing`, `SwingSize`). Totality of the minute loop by an invariant on temperatures. *Status:* Simulation, running volume and the whole size call; C67_equal_volume_raises shows why the volume must be strictly larger although the table lookup accepts equality.
* **C68 ER element covers the worst deficit** (proved; `ErRun`, `SwingEr`). Worst minute of the simulated day; the run itself is checked against heat and water balances stated without the model's helpers (`Spec.ErMinutes`). *Status:* For er_safety_factor at least 1; it is not checked, and C68_small_safety_factor_fails shows that below 1 the enlarged element falls short in the worst minute. Holding is per simulated state, as the property says; see C83 for the whole run.
* **C69 ER trade-off query leaves system and building unchanged** (partial; `SwingErCurve`). State and result of the query; list of points. *Status:* Unchanged on return and the points are proved. False on error (C69_raises_and_leaves_changes: no try/finally) and the start index names 120 percent when 120 percent needs no addition (C69_start_names_120_witness, and with the default safety factor C116_more_coverage_smaller_element). Proved: the start index is right exactly when 120 and 110 percent need an addition.
* **C70 Return-to-primary capacity covers demand and loop losses** (proved; `MultiPass`, `Rtp`). State and result of `size`; energy balance. *Status:* Exact without load shifting, at least with it, within the hours that are not shed; multi-pass systems cannot be load shifted and the capacity is exact. The building is unchanged on every path (the += and -= cancel in exact arithmetic; floating point may leave a rounding difference).
* **C71 Multi-pass sizing volume bounds every growing slug** (proved; `MultiPass`). Spec: recursion on the slug (`Spec/Growing`), invariant over minutes. *Status:* The slug is reset when it reaches the storage temperature, as in the code; the docstring says supply temperature.
* **C72 Simulated primary system stays physical** (partial; `MultiPassSim`, `Simulate`). Invariant of the simulation loop per system class. *Status:* Proved for plain primary, single-pass, parallel-loop and swing systems. For multi-pass systems the bounds on volume and temperature and the zero output are proved (C72_multi_pass_partial), but temperatures that do not decrease with height is false: C72_multi_pass_not_rising.
* **C73 Recorded outdoor temperature is the climate's outdoor temperature** (partial; `MultiPassSim`, `Simulate`). Invariant of the simulation loop. *Status:* Proved for every system but multi-pass. There it is false: C73_multi_pass_records_tank shows that the recorded outdoor temperature is a tank temperature, never below that of the cold water.
* **C74 Engine falls back to default per-person use** (partial; `Engine`). Case analysis. *Status:* False for multi_family: without gpdpp the engine always raises ValueError (C74_multi_family_without_gpdpp); true for the other types.
* **C75 Listed weather stations can be used** (proved; `Engine`). Dictionary lemmas.
* **C76 Output capacity of a catalogue model** (proved; `Engine`). Case analysis.
* **C77 A heating cycle of the slug tank conserves heat** (proved; `SlugHeat`). Interval integral over a heating cycle. *Status:* Over the reals, for every cycle; C77_average_ignores_growth records that the reported average draw temperature is wrong once the slug has grown.
* **C78 Temperature-maintenance off cycles are no longer than configured** (partial; `ParallelLoop`). Orbit of the cooling map. *Status:* Holds when ON is not below supply; false in general (C78_longer_off_cycle).
* **C79 Swing sizing simulation conserves heat** (proved; `Swing`). Sum over the minute loop.
* **C80 Swing running volume is the worst shortfall of the tried days** (proved; `Swing`). Window argument over the tried days. *Status:* For the start hours the code tries.
* **C81 Sized swing plant balances the day's heat** (proved; `SwingSize`). Sum over the minute loop.
* **C82 Curves of a swing system agree with its sizing** (partial; `SwingSize`). Comparison of stored and recomputed fractions. *Status:* Points of the sizing curve agree. False for the load-shift curve: C82_ls_curve_below_sizing, a curve asked for right after a load-shift sizing lies below it. Agreement is proved, and that the system is left unchanged, when the stored effective mix fraction is that of the normal sizing; both curves may change that stored fraction.
* **C83 Sized ER element holds supply in its own sizing run** (partial; `SwingEr`). Induction over the run; witness. *Status:* False: C83_enlarged_run_falls_short. Proved for a primary that generates every minute's demand.
* **C84 ER sizing accepts every building the swing sizing accepts** (partial; `SwingEr`). Totality; witness. *Status:* False for annual buildings (C84_annual_building_raises: the ER step reads the 8760-entry shape). Proved for daily shapes whose busiest minute is below the tank volume.
* **C85 Load-shift sizing counts the recirculation loop once** (partial; `Rtp`). Energy balance. *Status:* False: C85_loop_loss_counted_twice shows the capacity covers the loop loss exactly twice. C70_capacity_load_shift is the direction that holds.
* **C86 Single-pass storage allows for the recirculation loop** (partial; `LoopChecks`, `Rtp`). Comparison of two buildings. *Status:* False: C86_storage_ignores_loop. The line that adds the loop is commented out in the code; the docstrings still describe it. What is reported instead: C86_storage_of_plain_system.
* **C87 Reported recirculation capacity is the loop's share of the sized capacity** (partial; `Rtp`). Field arithmetic; exact difference. *Status:* Proved without load shifting. With load shifting it is false (C87_share_wrong_when_shifting gives the exact difference).
* **C88 A simulation starts with the tank charged to the ON trigger** (partial; `Simulate`). The initial state and the first control decision. *Status:* False: C88_starts_cold shows the ON sensor reads cold water at the start. C88_fires_at_once_partial is what happens instead.
* **C89 A sized system passes its own simulation** (partial; `Simulate`). A concrete sized system run for one step in the kernel, then C42. *Status:* False: C89_sized_system_fails_own_simulation is a sized system whose own simulation reports an outage in its first step.
* **C90 The simulation draws the building's demand** (proved; `MultiPassSim`, `Simulate`). Invariant of the simulation loop.
* **C91 A simulation of a well-formed system completes** (partial; `Catalogue`, `MultiPassSim`, `Simulate`). Totality of the step functions. *Status:* Proved for plain primary, single-pass, parallel-loop and swing systems; the swing case also assumes the inlet water is no warmer than supply. C91_grid_heater, C91_table_heater and C91_formula_heater: heaters with a well-formed map of the catalogue meet the condition on heaters. False for multi-pass: C91_multi_pass_raises.
* **C92 The storage that multi-pass sizing asks for holds its largest slug** (partial; `MultiPass`). Factor computed; witness. *Status:* False: C92_tank_smaller_than_slug. C92_storage_vs_slug_partial says by which factor the reported storage differs from the slug.
* **C93 Multi-pass sizing answers for every sensor position** (partial; `MultiPass`). Totality; exact condition for the exception. *Status:* False: C93_high_sensor_raises. C93_completes_partial says for which sensors sizing completes.
* **C94 The assumed outlet temperature is the mean temperature of the hot water at the ON trigger** (proved; `MultiPass`). Interval integral over `ℝ`; minimum over the controls.
* **C95 The capacity boost of multi-pass sizing only raises the capacity** (proved; `MultiPassSim`). Invariant of the boost loop.
* **C96 The multi-pass sizing curve starts at the sized system and trades run hours for capacity** (proved; `MultiPassCurve`). The sweep as recursion over the run-hour list, carrying the points and the recommended run hours; invariant by induction: points in strictly decreasing run hours, each read off the system itself or off `from_size`; rounding is monotone, so fewer run hours mean more capacity. *Status:* For positive capacity, defrost factor and daily heat, a storage other than 0 and a sweep that has at least one value. The annual building returns to the annual shape of its file (see C32).
* **C97 Tankless sizing meets the busiest step** (partial; `Report`). Closed forms of both functions; monotonicity for the bound, and the step at the busiest hour as witness of equality with a sixtieth. *Status:* C97_covers_partial: the capacity covers every step whose cold water is not below design. False as stated: C97_sixty_times, the sized capacity is sixty times the largest need (a rate per hour is multiplied by 60 as if it were per minute).
* **C98 The summary of a run agrees with its recorded series** (partial; `Report`). From the recorded-series invariant of the simulation loop (C41, C42, C44) and the maximum of the recorded powers. *Status:* False for the peak: C98_peak_ignores_tm, power of temperature maintenance is in the energy but not in the peak.
* **C99 A run that heats reports the power it takes** (partial; `Report`). Invariant over all steps: the heaters keep their performance, and a nominal performance has no power; then all sums and maxima are empty. For other performances the recorded power of a step is computed from the active heaters. *Status:* False for every system that from_size builds, plain or single-pass (C99_sized_system_reports_no_energy, C99_sized_single_pass_reports_no_energy): energy and peak are 0 and the cost is the base charges (C99_only_base_charges). Proved for heaters whose performance map knows the power (C99_power_partial).
* **C100 The exported file is the run** (proved; `Report`). The rows read from the recorded series are computed from the trace of outputs; all series have the same length by the invariant. *Status:* Assumes that the system reports six temperatures in every step, as all modelled systems do.
* **C101 The plot shades exactly the load-shift minutes** (proved; `Report`). Induction over the fuel of the two loops, with the specification of the inner loop (all steps of the block have the mode, the next has not).
* **C102 The plotted sizing curve shows the sized system** (proved; `EngineReport`). The plot is the reversed curve; with C10-C12 (the curve leaves the system alone, is monotone, and its recommended point is the sized system). *Status:* The marker theorem assumes that the curve reaches the system's own run hours (proved in C11 for a non-flat day); C102_empty_curve: without any point the stand-alone plot function raises IndexError.
* **C103 The utility comparison shows both bills** (proved; `EngineReport`). Positions of the interleaved lists by induction; totals from C40.
* **C104 Temperature buckets of a location** (partial; `EngineReport`). Case analysis on the arguments, then C48 for the selected column; a negative Python index makes zone 0 the last column. *Status:* C104_zone_zero: zone 0 is not rejected but silently answered with the last zone.
* **C105 Loading a catalogue model** (partial; `EngineReport`). Case analysis; suffixes of one list are comparable, so `_SP` excludes `MP`. *Status:* The pass type agrees for codes ending in _SP or _MP; C105_listed_single_loaded_multi for others (none in the shipped registry).
* **C106 A system the engine sizes can be simulated** (partial; `EngineReport`). C19 gives every hour controls, a nominal heater answers all questions, so C91 applies; the failing case is computed by the kernel. *Status:* Proved for a non-zero sized storage and controls for every load-up hour. False for a building with flat use: C106_flat_use_crashes.
* **C107 The load-shift tank lasts from the load-up level down to the shed level** (proved; `LoadShiftTank`). From C14 (the block), C15 (the shortfall), C05 (the yields as integrals) and the definition of the results: the reported capacity is at least the load-shift one, the reported storage at least the load-shift one. *Status:* Stated for levels in the right order; C107_inverted_levels_ignored shows that for inverted levels the negative load-shift storage is dropped silently. A store that keeps more than it can hold is not excluded here; see C16.
* **C108 Simulating a system again gives the same run** (partial; `Repeat`). The set-up forgets everything about the tank but size and slope, and the invariant of the loop gives that heaters only change their flag; if the first decision turns every heater on, the first steps agree and so do the loops. The failing case reaches a fixed point after two steps, whatever the hour, and ends with its heater on. *Status:* False in general: the set-up of a simulation resets the tanks but not the heaters' on/off flags (`C108_second_run_differs`, a year-long run that starts with the heater off the first time and on the second time, for every stop setting from ten minutes on). Proved: run and final state are equal if the first decision turns every heater on, i.e. the sensors of the first hour lie no higher than the start level and the cold water is below the triggers.
* **C109 Plots show rates in gallons per hour** (proved; `Traces`). Closed form of the traces, with the series invariant of the simulation loop.
* **C110 The system built after sizing is the reported one** (proved; `Built`). Inversion of `from_size`, C03 for the heat, and for the simulation the invariant that the one heater keeps its nominal performance.
* **C111 A mixed tank is usable as a whole or not at all** (proved; `MixedTank`). Case analysis.
* **C112 The failure message names the first day without hot water** (proved; `Message`). The recorded-series invariant turns the indices without usable water into the reports without (induction from the end of the list); the first index is the least because the filtered range is increasing. *Status:* For runs of any step function whose reports have six tank temperatures and deliver from the top of the tank or the shown temperature-maintenance tank (C112_primary and C112_swing: the modelled systems do).
* **C113 The heat balance of a run closes** (proved; `RunHeat`). The state of the tank is one number, the thermocline shift. While the top is at outlet temperature a draw takes exactly its outlet-temperature share (the average of the block is the outlet temperature, so the search is not entered), and a heating step that does not fill the tank adds exactly the heated gallons; induction over the steps. The bound needs only that the search never returns less than its lower end. *Status:* Exact balance for primary systems and for single-pass return-to-primary, and the bound for primary systems, in usable gallons.
* **C114 A pre-sized system carries the equipment that was given** (proved; `Equipment`). Inversion of the construction, schematic by schematic, against an arbitrary constructor of systems; the argument lists say what each system is made of. *Status:* With a heater model instead of a capacity the primary heaters come from the performance tables, which are not modelled.
* **C115 The load-shift sizing of a swing system carries it through the shed** (proved; `SwingShift`). The preliminary volumes are sums of the simulated draws; the generation per minute is the specification's day by position; the worst negative running sum is the least store (as in C15, in minutes); then inversion of `size`, with the capacity and the storage at least the load-shift ones. *Status:* The draws of the shed block and of the day after it come from two simulations of the swing tank that both start just above supply temperature, as in the code; the second day is not covered.
* **C116 More coverage never needs a smaller electric element** (partial; `ErCoverage`, `ErWitness`). The deficit of a minute in closed form from the temperature after mixing; mixing takes at most the demand's heat less the primary's, by cases on where the feed comes from, and exactly that in the first minute of the run from an empty primary. The counterexample's two runs of 2880 minutes stay at small fractions and are computed by the kernel. *Status:* False in general: C116_more_coverage_smaller_element, a system that needs an addition at 100 percent but none at 120. Proved: upper and lower bound for every system (C116_bounds), the exact addition and monotonicity when the sizing run starts with the busiest hour of the day.
* **C117 A sized recirculation system is built as reported and can be simulated** (partial; `RecircBuilt`). Inversion of sizing and construction; the built heater has fixed capacity, so it answers every question, and C91 gives completion for nonzero storage. For flat use the sized storage is 0 and the kernel computes the crash. *Status:* Built as reported: proved (C117_swing_built, C117_er_built, C117_parallel_loop_built). Simulation: proved for a sized storage other than 0; false in general (C117_flat_use_crashes: flat use is sized with 0 gallons and its simulation divides by zero).
* **C118 A swing system delivers at supply temperature until the primary storage runs out** (proved; `RecircBuilt`, `SwingRun`). Invariant over the steps: swing tank at or above supply temperature and primary tank between cold and outlet temperature; a draw that leaves usable water is on average at supply temperature or above, so only the loop cools the swing tank, and the element, on at supply temperature, gives at least the loop loss. *Status:* For positive loop flow, return below supply, supply at or below storage and outlet temperatures and cold water at or below supply temperature.
* **C119 A simulated swing system is reported as failed only if it failed to deliver** (partial; `StrongElement`). A strong element holds the swing tank at supply temperature by an invariant over the steps: a step mixes in at most the demand, never colder than the inlet water, and the element makes up for that and the loop. The counterexample applies this to a system with a sized addition (its size from C116) whose first step, computed by the kernel, empties the primary storage. *Status:* False: C119_delivers_but_reported_failed, a trade-off system with an addition sized by the code delivers at supply temperature in all 4320 steps and is reported as failed, since the report looks at the primary storage only. C119_element_alone_partial: with an element that covers loop and busiest hour every step delivers at supply temperature and the run is not stopped. The other direction is C118.
* **C120 A figure with a slider shows the selected size, and starts at the size of the system** (partial; `Slider`). The visible traces are the zip of traces and visibility, filtered; a one-hot list picks one marker (induction from the end of the list). The loops over points are inverted by position. The start is C11 and C69; the witness of C116 starts at 120 percent. *Status:* Proved for every curve with an inside recommended index: figure drawable, exactly the curve and the selected marker visible, label of that point, at first and after every move. Starts at the sized system for the sizing curve. False for the trade-off figure (C120_er_starts_elsewhere: it can start at 120 percent); proved when 110 and 120 percent need an addition. Colours and texts are not modelled.
* **C121 The electric resistance trade-off curve rises and contains the sized system** (partial; `ErTradeoff`). Each percentage is a sizing run that starts with the busiest hour, so C116 gives its addition in closed form; C84 gives that no run fails; the loop over the percentages is total and C69 lists its points. Rounding is monotone. The dip is computed from the closed form. *Status:* Proved when the sizing run starts with the busiest hour, which the tank takes at 120 percent. The rise needs the same safety factor throughout: with an own factor of 2 and the default additional factor of 1 the element drawn for 110 percent (367 kW) is smaller than the one for 100 percent (635 kW), C121_safety_factor_dip. Without the busiest hour first it is false (C116_more_coverage_smaller_element).
* **C122 The answers of an engine do not depend on the calls made before** (partial; `Session`). A relation gives, for each call, the object afterwards and the answer; a simulation that raises may leave any flags and tank contents. Induction over the history: everything but flags and contents is unchanged. Other calls do not read those; a simulation starts with a fresh tank, and under the conditions its first decision overwrites the flags (as in C108). The counterexample is the engine that builds the system of C108. *Status:* Sizing results, magnitude and sizing curve: full. Simulations: proved if the day starts with normal controls, the off sensor is no higher than the on sensor and the incoming water is below the triggers; refuted in general (C122_simulations_differ), because simulate does not reset which heaters are on.
* **C123 A larger system never does worse** (partial; `Larger`). Counterexamples with the default controls: the tank level and the heater state are given for every minute in closed form and checked against the controls by the kernel (the step itself is proved in general); once the heater is on too late, a bound on the level falls below the ON level minute by minute. For ample equipment an invariant keeps the level above the lower of the start level and the ON level less one minute of demand; the condition is monotone in capacity, volume and demand. *Status:* refuted for capacity, storage and demand: a heater that fills the tank earlier switches off and comes back later; proved for equipment that keeps up with every minute of demand
* **C124 A building is the one its lists of parts describe** (partial; `BuildingArgs`). Each argument is one value or a list; the lists are zipped into parts by position, and a part that received a number instead of a load shape always raises. The blend is a weighted sum given entry by entry (C31), so it is invariant under permutation; the daily use of a part is linear in its magnitude, so equal parts add up. The refutation evaluates the call. *Status:* refuted for a list of one type with a list of one load shape, which raises; everything else proved. For a mixed-use building the argument annual is ignored
* **C125 Simulating a system with a recirculation loop again gives the same run** (partial; `RepeatLoop`). The set-up forgets the tank contents, so two simulations can only differ through the flags that the first left. The temperature-maintenance heater reads one temperature, so its first decision is a function of its flag and of that temperature, which the record shows if the heater is off; the record's last output shows the flag. If the first decisions agree the loops agree; if they differ the first recorded outputs differ. With C65 the heater of a parallel loop is on at the end of every long enough run; the swing case is computed by the kernel. *Status:* False as stated. Proved: for single-pass systems under the condition of C108; for parallel loops and swing tanks under that condition, the second run is the same exactly if the record does not show that the first left the temperature-maintenance heater on. Refuted otherwise: for parallel loops whose OFF temperature is out of reach, the engine's defaults among them, every long enough run leaves the heater on and the next run differs (`C125_parallel_loop_differs`); a swing witness is computed (`C125_swing_differs`). Missing: single-pass systems outside the condition of C108.
* **C126 A parallel loop is kept at its ON temperature** (partial; `LoopHeat`, `LoopWeather`). One step is exact: the tank temperature moves by the loop share k towards the return temperature and by the heater's output. With k at most one, ON and the upper temperature are both kept, by induction over the recorded steps: a heater that is on gives at least the loss at ON, and one that is off was not below ON. For the refutations the tank is compared with one whose heater never turns off, which tends geometrically to the balance temperature. *Status:* Missing: ON above the balance temperature ret + sf*(supply-ret), or steps in which more than one tank of water goes round the loop. In both cases the property is false: C126_falls and C126_long_step_falls, with valid, sized example systems (ON 130 F at supply 120 F; the ten-minute steps of the annual simulation with a short off time). C126_weather_partial is the same for loop heaters whose capacity depends on the weather.
* **C127 The heat for a parallel loop is what the loop takes plus what its tank gains** (proved; `LoopHeat`, `LoopWeather`). The exact step of C126, multiplied by the heat capacity of the tank and summed over the run (telescoping). The bounds put the temperatures of C126 into the loss. *Status:* C127_sized is the balance for every sized system; C127_balance is the same for any system with a fixed loop heater, and C127_any_heater for every loop heater that never cools, whatever the weather does to it. C127_bounds_partial adds the bounds where C126 holds.
* **C128 A building k times as large needs a system k times as large** (partial; `Scale`). A relation between two sets of sizing methods (each answer of the second, for k times the use, is k times the answer of the first) is proved for the base methods and for the single-pass ones, and the sizing and both curves respect it. For multi-pass systems the slug of the sizing run is k times as large in every minute, at the same temperature. The swing refutation uses C67 for both sizings. *Status:* Proved for systems without a loop, parallel loops, single-pass and multi-pass return to primary, and the sizing curves of the first and third (C128_size_partial, _sizing_curve, _ls_curve, _parallel, _single_pass, _single_pass_curve, _multi_pass). False for swing systems (C128_swing_not_proportional, C128_swing_too_large). The multi-pass theorem is about size; the trial simulation of from_size is not covered.
* **C129 Harder conditions never lead to a smaller system** (partial; `Harder`, `HarderShift`, `SensorShift`). By C05 the yield of the assumed tank is an integral over its usable heights; a harder setting lowers the profile at every height, shrinks the usable part and lowers the yield per gallon, so the integral falls. The capacity is a product of monotone factors, and the running volume is proportional to the daily use (C128). For load shifting the yield between two levels depends on the inlet only through the surplus heat between them, which is not negative if one profile lies above the other; more use scales the sizing (C128) and the defrost factor scales the capacity. The refutations are kernel computations of sizings. The normal ON sensor enters load-shift sizing through the hot share of the tank above it, which falls as the sensor rises or its trigger falls. *Status:* C129_harder proves the property without load shifting, for all parameters at once. With load shifting it is proved for more use, colder mains and a lower defrost factor together when the load-up profile lies above the shed profile (C129_load_shift_partial), false for colder mains otherwise (C129_contradictory_controls_smaller), and false for the supply temperature, the storage temperature and the gradient (C129_load_shift_other_settings_smaller). For the normal ON sensor and its trigger the capacity is proved to grow (C129_load_shift_sensor_partial); the storage can shrink (C129_load_shift_sensor_smaller). The sensors of load-up and shed, which have no harder direction, are not covered.
* **C130 The reported sizes of a loop system all belong to the last successful sizing** (partial; `LoopResults`). A general induction over histories: a call that succeeds reports what it reports on a new object, a call that raises changes nothing. For swing systems the sizing reads only the settings, so two objects with equal settings raise at the same place and store the same; the refutation uses a schedule that sheds every hour, which fails after the tank has been sized. *Status:* False for swing tanks (C130_swing_mixed, C130_er_mixed, witness C130_swing_reports_two_buildings): a sizing that raises late leaves its loop sizes behind. Proved for the primary plant of swing systems in full, for parallel loops without calls that compute a zero capacity (C09), and for swing systems (also with an enlarged element) when failing calls store nothing.
* **C131 A plant k times as large behaves the same for a building k times as large** (partial; `ScaleSim`). A relation between two plants is kept by every step: tank contents are k times apart, temperatures equal, heater decisions equal. Each tank and heater operation is shown to respect it; the one that does not is the search in the primary draw, which is skipped when the top stays at outlet temperature. For the refutation the first minute of two runs is computed. *Status:* exact for swing systems, including exceptions, and for the heater maps; primary and parallel-loop systems only while the top of the tank is at outlet temperature, because the search for the drawn volume stops at an absolute width, which refutes exact proportionality
* **C132 Control settings that no hour of the schedule uses have no effect** (partial; `Unused`). The relation of C131 with factor 1 and a weaker condition on the heaters: equal controls in each hour instead of equal maps. Every step, exception included, respects it. For the sizing each place that reads the map is shown to read only normal, load-up and shed. The refutations compute two sizings and compare the first recorded demand of two runs (C90). *Status:* Proved for all simulations (primary, single-pass, parallel loop, swing) when the normal settings stay and both or neither map can shift load, and for the sizing when normal, load-up and shed are the same. The general statement is false and its negation is proved (C132_simulation_fails, C132_sizing_fails).
* **C133 Outside its operating range a heat pump is an electric element of its nominal capacity** (partial; `PerfBounds`). Case analysis on the search for the neighbouring data points and on the order of the fallbacks. That the reports come from the data is stated as independence of the nominal capacity. *Status:* Proved for multi-point maps (C133_points), and for grid maps where the interpolation is defined exactly inside the range (C133_grid_partial). False otherwise: C133_polynomial_fails, C133_grid_fails.
* **C134 Splitting the heating capacity over several heaters changes nothing** (proved; `Staged`). A relation between two lists of heaters (one is the other with each heater replaced by a group) is kept by the decisions; for each group the outlet temperature, the mode, the output and the power are those of the replaced heater, by induction over the groups. Then the loop of C131 with factor 1. *Status:* Proved for all five kinds of system, exceptions included.
* **C135 A system put together from the reported sizes is the sized system** (partial; `Components`). Inversion of `from_size`; `size` reads none of the components. The curve reads the slope of the last sizing if there is one. The failing curves are computed by the kernel. *Status:* The plant, the sizes and later sizing are proved. The curve is the same only if the slope is given again; otherwise it is refuted.
* **C136 How the annual bill depends on power and rates** (proved; `Bills`). For each step the lookups of C35 give the period, the energy rate and the demand rate in force, so that the bill of C38 is a function of the tariff. Two partitions of the steps into periods are compared through the period of the step with the highest power; a finer partition keeps a period for each of the coarser one. *Status:* Equality, scaling, monotonicity and the flat case are proved for accepted structures; DiscountPriced (numbers as discount rates) is needed because the validator does not check them (C34, C36).
* **C137 The order in which the heaters are listed does not matter** (partial; `Order`). Each place that reads the list of heaters is a sum, a maximum, an `any` or a map, which respect permutations; the two that are not are the reported mode and the initial charge, which look at the first heater. One step respects the relation, then induction over the loop. For the refutation the first minute of two runs is computed by the kernel. *Status:* False as stated: the tank starts charged to the ON sensor of the heater listed first, so with sensors at different heights the order decides how much hot water the run starts with (C137_order_matters: hot water in one order, none and a failed run in the other); the reported mode is also that of the first heater. Proved for all five kinds of system if the heaters follow one schedule and have their normal ON sensors at one height; capacities, maps and the other settings may differ.
* **C138 The stop rule only cuts a run short** (proved; `Cut`). Two runs of the same steps with the same records, of which the stricter one has counted at least as long a deficit, stay so related until the stricter one stops; recording only appends to the series. Induction over the loop, for any step function; then one line per system. *Status:* Proved for the five tank systems and the tankless system, from one theorem about the simulation loop. Note what this means together with C42: a stricter rule never turns a successful run into a failed one, because the verdict counts only the outage minutes recorded before the stop.
* **C139 A simulation looks neither ahead nor beyond its end** (partial; `Cut`). A step asks the building for the demand and the two temperatures of its own time and for nothing else, so the steps of the two buildings are the same function before the minute; induction over the loop. The set-up asks for the design inlet temperature, which is the coldest month of the whole year; the first minute of the refuting run is computed by the kernel. *Status:* False as stated: the tank starts with the design inlet temperature, the coldest mains of the whole year, at its bottom. Colder mains in months after the simulated days change the first minute of a three-day run, from hot water to none, and the verdict (C139_later_weather_matters). Proved for the five tank systems if the two buildings have the same design inlet temperature, and for the tankless system without that condition (for runs that complete).
* **C140 Sizing depends on the climate only through the design inlet water temperature** (partial; `DesignDay`). All sizing steps read the daily use, the two load shapes and the design inlet temperature and nothing else of the building, so each of them gives the same value for two buildings that agree in those; the switch to the daily shape and back keeps the climate. For the constructor of the multi-pass system, the trial runs are handled as in C139. *Status:* Proved for size of all six systems and for both curves of the primary, single-pass and swing systems. Missing: from_size of the multi-pass system runs trial simulations, which read the weather of the first days; proved for places with the same weather in those days.
* **C141 The average day counts for load shifting only, and a load-shifting run follows it alone** (proved; `Shapes`). Without load shifting the sizing steps read the daily use, the peak-day shape and the design inlet temperature; `set_to_daily_load_shape` overwrites both shapes. A run asks for the demand with one flag, whether some heater can shift load; no step changes the control settings, so the flag is an invariant of the loop and the demand always comes from the same shape.
* **C142 The efficiency of a run lies between the lowest and the highest COP of its heaters** (proved; `Efficiency`). A heater that is on gives its COP times its power; the sum over the heaters that are on and then over the recorded steps keeps the two bounds. The heaters keep their maps and settings (invariant of the loop), and a step asks them at the weather of its own time.
* **C143 Sizing does not depend on the hour from which the day is counted** (partial; `Clock`). `List.rotate` on the load shapes (`countedFrom`). The running volume is the greatest shortfall over all stretches of the repeated day (C01), and that set does not change under rotation; the methods read the shape otherwise only through its maximum. For swing tanks the days tried are the same up to rotation, by C80. The negations are kernel computations of two sizings. *Status:* Proved for primary systems, single-pass return to primary, parallel loops, tankless systems and the sizing curves. False for multi-pass systems (C143_multi_pass_fails: 1225 gallons or 720 gallons for the same building) and for load shifting, even with the schedule counted from the same hour (C143_load_shift_fails). For swing tanks C143_swing_partial gives the same storage and swing tank if no deficit begins in the last hour of the day; missing: the other days, and the heating capacity when two starts are equally bad.
* **C144 A small change of the load shape changes the sized system only a little** (partial; `Robust`, `RobustShift`). The running volume is the greatest shortfall (C01), attained on a stretch of hours that can be cut to at most a day because a whole day has no shortfall. Over at most a day the shortfalls of the two shapes differ by at most the sum of the hourly differences. The factor from running volume to storage does not read the shape and cancels in the relative difference. With load shifting each formula is shown to change at most by a fixed factor times the change of the average day: sums over hours, the greatest of two, and the worst sum of consecutive hours, over at most 48 hours. The negation is a kernel computation of two sizings. *Status:* Proved for primary systems, single-pass return to primary, parallel loops and tankless systems. False for multi-pass systems (C144_multi_pass_fails: one gallon of 1000 moved from hour 2 to hour 8 enlarges the storage from less than 368 to more than 599 gallons). With load shifting a bound is proved whose factor does not depend on the days (C144_load_shift and its variants). Missing: swing tanks.
* **C145 Only differences of temperature count** (partial; `Degrees`, `DegreesCurve`, `DegreesMp`, `DegreesSim`). Each temperature in the model is raised by `d` (Spec/Degrees); each formula is shown to give the same volume or heat, or a temperature `d` higher, exceptions included. The sizing run of the swing tank and that of the multi-pass slug are inductions over the minutes. For simulations a relation between the two plants is kept by every step (as in C131); the mean temperature of a draw is a mean because its cold, sloped and hot parts make up all of it. For multi-pass tanks the same is shown of a zone of the tank, whose bounds stay within the tank by the invariant of the slug. The refutation computes the first minute of two runs. *Status:* Sizing is proved for all schematics, load shifting included, and the sizing curve and load-shift sizing curve for primary and single-pass systems. Simulations are proved for all schematics with heaters whose answers do not depend on the raise, if the design temperature of the cold water is known and not zero before and after. Without that the claim is false (C145_simulation_fails: the simulator takes zero for unknown). For swing tanks the heaters are assumed never to aim below the temperature of the cold water, for multi-pass systems the tank to be consistent (SlugTank.Ok, as built by the constructor).
* **C146 One plant for several buildings is no larger than separate plants together** (partial; `Shared`, `SharedLoop`, `SharedShift`, `SharedSwing`). The running volume is the greatest shortfall of any stretch of hours (C01); the shortfall of the whole in its worst stretch is the sum of the shortfalls of the parts in that stretch, each at most the greatest of its part. The capacity is proportional to the daily use. With load shifting the generation rate is the greater of two sums over hours of use, and a greater of two is at most the sum of the greater ones. For single-pass systems the loop adds the same gallons to each building, so its part of the rate of the whole is at most that of the parts. The sizes of the tank of a parallel loop are proportional to the flow of the loop. The volume of a swing tank is the next table entry above a need that adds up at most, and no table entry is more than 8/5 of the one before. The refutations are kernel computations of sizings. *Status:* Proved without load shifting for primary systems, systems with a parallel loop and single-pass return to primary, for tankless systems, and with load shifting for the heating capacity of primary systems, single-pass systems and systems with a parallel loop; C146_mixed_use shows that mixed-use buildings are such buildings. False for the storage with load shifting (C146_load_shift_storage_fails), for multi-pass systems (C146_multi_pass_fails) and for swing tanks, whose volume is rounded up to a table (C146_swing_fails: 240 gallons instead of twice 100). C146_swing_tank_partial bounds the swing tank by 8/5 of the sum and gives its heating capacity as the sum. Missing: the primary storage in front of a swing tank.
* **C147 Heating capacities are proportional to the spread of the temperatures, volumes depend on their ratios only** (partial; `AnyScale`, `Unit`). Every temperature of the model is multiplied by `u` (Spec/Unit); every formula of sizing is shown to give the same volume or `u` times the heat, exceptions included. The sizing run of the multi-pass slug is an induction over the minutes. The refutation computes the table look-up of the stretched swing system in the kernel; that the unstretched one is sized follows from C67. *Status:* Proved for size of primary, single-pass, parallel-loop, multi-pass and tankless systems, load shifting included, and for the sizing curve and the load-shift sizing curve of primary and single-pass systems. C147_any_scale and its variants for the other schematics join it with C145: sizing in Celsius gives the storage of Fahrenheit and 5/9 of the capacity. C147_swing_fails: false of swing tanks, whose volume is read from a table of gallons by the heat lost in the loop. The sizing curve of multi-pass systems is not covered: its trial runs solve for the tank profile up to an absolute tolerance of one millionth of a Btu when less than one Btu is stored.

## Findings

Each of these is a theorem (named in the status notes above or in the module of the property); the list says what a user
would see.

Sizing and schedules
* C08: if sizing raises while the building is on its annual load shape, the building stays on the daily shape.
* C09: a failing call can still overwrite the stored results (capacity 0).
* C13: a higher load-shift percentile can need *less* storage when the schedule has load-up hours.
* C16: with two shed blocks only the first is sized for; the store runs dry in the second.
* C107: if the shed ON level lies below the load-up OFF level, the load-shift storage is negative and silently dropped.
* C17: an all-normal, all-shed or too short schedule ends in IndexError or ZeroDivisionError, not in ValueError.
* C05: an ON trigger above the storage temperature makes the code count hot water that is not there.
* C19: `load_up_hours > 0` without a load-up fraction labels hours that have no controls.
* C20: five-digit integers are documented as zip codes but always rejected.
* C74: `multi_family` without `gpdpp` always raises although the argument is documented as optional.

Components
* C26, C28: interpolated capacity can lie outside its two neighbours; the chosen outlet is not always the nearest.
* C29: with an interval that does not divide the hour, the demands of a day do not add up to the daily use.
* C30: a custom building type is accepted with shapes that are not normalised.
* C32: switching a custom shape to annual and back loses it.
* C34, C36: empty rate lists are accepted, discount arguments are not checked.
* C37: peak and discount classes do not survive the CSV round trip.
* C50, C51, C53, C55: edge cases of the stratified tanks (supply above outlet, lukewarm water added by a draw, a full draw
  leaves hot water, a warmer inlet leaves more energy than a full tank holds).
* C58, C60, C61, C62, C77: mixed tank below make-up temperature books nothing; no cap at the outlet temperature;
  `add_to_slug` and the slug temperature are not limited; the average draw temperature ignores growth of the slug.

Simulation and cost
* C39, C41: monthly bills and monthly energy leave out temperature-maintenance power.
* C42: a run that was stopped early can be reported as successful (negative threshold).
* C45: a tankless system is never reported as successful: its usable volume is 0 in every step.
* C97: tankless capacity is sized sixty times too large.
* C98, C99: the peak demand leaves out temperature maintenance; systems made by `from_size` have no electrical power, so their
  energy, peak and cost (beyond base charges) are 0.
* C106, C117: for a building with flat use the sized storage is 0 gallons and its simulation raises ZeroDivisionError, for plain
  and for swing systems.
* C110: the defrost factor enlarges the sized capacity, but in the simulation of the sized system the heater always gives
  the full capacity, so defrost is never simulated there.
* C108: heaters that are on at the end of a simulation are still on at the start of the next, so two simulations of one
  system can differ from the first step.
* C88, C89: a simulated system starts with its ON sensor in cold water, and a sized system can fail its own simulation in
  the first step.

Reports
* C102: the stand-alone curve plot raises IndexError on an empty curve.
* C104: `get_oat_buckets(zone_id=0)` answers for the last zone.
* The docstring of `get_annual_utility_comparison_graph` names the keys `energy`, `demand`, `base` of the returned dicts; the
  code returns `energy_peak`, `energy_off_peak`, `demand_peak`, `demand_off_peak`, `base`.

Recirculation systems
* C120, C121: the trade-off figure can start at 120 percent; with an own element safety factor above the additional one (default
  1) the curve dips: 110 percent is drawn with a smaller element than 100 percent.
* C63: at rest (no load, no loop loss), and with storage at exactly supply temperature, the valve divides by zero. A loop
  with zero flow crashes the parallel-loop sizing in the same way.
* C64: the advice of the error text (raise the safety factor) never helps.
* C65, C78: the loop heater never turns off for OFF at or above the reachable temperature, which includes the engine's
  defaults; the documented defaults (ON = supply-5, OFF = supply, safety 1.2) are not those of the code (supply, supply+8,
  1.75).
* C66, C67: above 480 gallons the California table does not cover the need; equality of volume and demand raises.
* C68, C69, C83, C84: a safety factor below 1 is accepted; the ER curve does not restore the system on an error and can
  name the wrong start point; the enlarged element does not cover the whole run; annual buildings raise IndexError.
* C116: a larger demand can need a smaller ER element, so the ER curve can stop before it reaches the sized point.
* C124: a list of one building type is replaced by the type, but a list of one load shape is not replaced by the shape: the call raises
  a TypeError or ValueError. `annual=True` is silently ignored for a mixed-use building.
* C125: with the default settings of a parallel loop its heater is left on at the end of a simulation, and the next simulation of the same
  object starts with it on: the two runs differ from their first minute. The same can happen to a swing tank.
* C126: the validation and sizing of a parallel loop accept an ON temperature above what the sized heater can hold; the loop tank then falls
  below it within the hour. With a short off time (6 minutes) the ten-minute steps of the annual simulation do the same at their first step.
* C128: sizes are proportional to the building except for the swing tank, which comes from a table of at most 1250 gallons.
* C129: load-shift sizing accepts a shed ON level that is warmer than the load-up OFF level; colder mains can then lead to a smaller storage.
* C129: with load shifting, a less steep temperature gradient leads to a smaller storage, and a higher supply temperature or a lower storage temperature can lead to less heating capacity. A higher normal ON sensor or a colder trigger can lead to a smaller storage.
* C130: a swing sizing that raises late (a schedule that sheds every hour) leaves the swing tank of the failed call next to the primary
  plant of the earlier one; all accessors answer.
* C131: twice the plant for twice the building does not go through exactly the same run when the top of the tank is below outlet temperature: the search in `StratifiedTank.draw` stops at an absolute width of 1e-6 gallons (harmless in size, but visible).
* C132: settings for shed that the schedule never uses switch a simulation from the peak day to the average day (`is_load_shifting` looks at
  the map, not at the schedule) and make the sizing raise an `IndexError`; settings for load-up that the schedule never uses change the storage.
* C133: a map given by one polynomial extrapolates it outside the range that `is_within_operating_bounds` reports, instead of falling back to
  electric resistance.
* C135: the sizing curve of a system made with `from_components` ignores the slope of its tank: `_sizing_strat_slope` is only set by `size`, so
  the default slope 2.8 is used. For a tank with slope 1 the recommended point shows 295 gallons instead of the 583 it was sized for.
* C137: the order of the heaters matters: the tank starts charged to the ON sensor of the first one, so two heaters with sensors at different heights start with hot water in one order and with none in the other.
* C139: a three-day run starts from the coldest mains of the whole year, so weather after the simulated days can decide its
  verdict.
* C141: a simulation of a system with load-shift settings draws the average day in all modes, so its verdict says nothing about the peak day for which the system was sized; sizing takes the larger of both.
* C143: multi-pass sizing depends on the hour at which the load shape starts (1225 or 720 gallons for the same building); so does
  load-shift sizing when a shed block runs over midnight.
* C144: multi-pass storage jumps with the load shape: moving one gallon of 1000 to another hour takes it from 368 to 599 gallons.
* C145: a design temperature of zero for the cold water is taken for unknown: the simulator fills the tank with water of 50 degrees.
* C146: load-shift sizing can ask for more storage for two buildings together than for both apart, and so can multi-pass sizing. The swing tank of a shared plant can be larger than the separate swing tanks together.
* C147: a swing system cannot be sized when its loop loses much heat, because the table of swing-tank volumes ends at 1250 gallons; so sizing a swing system depends on the temperature scale.
* C123: more heating capacity, more storage or less demand can each turn a successful three-day simulation into a failed one, with the
  default controls: the fuller tank switches the heater off, and the aquastat brings it back later than before, too late for the peak.
* C119: a system that delivers at supply temperature throughout is reported as failed when its primary storage is empty, also
  when its electric element is meant to make up for that.
* C82: both swing curves may change the stored effective mix fraction.

Return to primary
* C85: with load shifting the loop loss is counted twice in the capacity.
* C86: the loop volume is not added to the storage (commented out; the docstrings still describe it).
* C87: the reported share of the loop is wrong with load shifting.
* C71: the docstring says the slug is reset at supply temperature; the code resets it at storage temperature.
* C72, C73, C91: a multi-pass simulation can report temperatures that fall with height, records a tank temperature as the
  outdoor temperature, and crashes when the slug has no volume.
* C92, C93: the multi-pass storage can be smaller than the slug it must hold; a high ON sensor ends in ZeroDivisionError.

Noticed while reading, not stated as theorems: `ParallelLoopSystem.simulate_step` prints every step; the swing comment says
loop-tank power is merged into the primary power, but it is not; `get_annual_cost_estimate` returns monthly energy under
a cost name; `num_heaters` and `num_tm_heaters` have no effect on sizing; a trial outage in minute 0 gives no boost in
`MultiPassRTPSystem.from_size`; the temporary `+=`/`-=` on the daily use may leave a floating-point difference.

## Trusted base

* Lean's kernel. Every theorem in `MANIFEST.json` depends at most on `propext`, `Classical.choice` and `Quot.sound`. No axiom
  is added; `sorry`, `native_decide` and `bv_decide` are not used. Examples use `decide +kernel`, which the kernel checks.
* Faithfulness of the model to the Python source, by reading. Every definition cites the lines it mirrors and states its
  simplifications.
* Exact arithmetic instead of IEEE floats. A theorem says what the code computes up to rounding; comparisons for equality
  and loops that stop on a float comparison (`np.arange`, `while x > y`) can differ in the last step.
* Python objects are modelled without aliasing: two components that share one object in Python (a building used by two
  systems, one control map used by several heaters) are passed explicitly.
* Not modelled: file and CSV text I/O, numpy and pandas internals, plotting and HTML (of figures only the plotted values, the
  visibility of traces and the slider steps are modelled), `print` and warnings text, the
  pickled performance grids and polynomial coefficients, weather and load-shape data files, `scipy` interpolation and the
  normal quantile function. These are parameters of the model; what is assumed of them is a hypothesis of the theorem.
