{"id": "C01", "title": "Running volume is exactly the worst shortfall", "statement": "The running volume used by size() equals the largest shortfall (hot water used minus hot water generated) over any stretch of consecutive hours of the endlessly repeated design day: no stretch, from any starting hour and of any length, has a larger shortfall, and some stretch attains it.", "quantifier": "every daily demand, every load shape (any length), every allowed run time whose daily generation covers the daily use, every start hour and every stretch length", "why_tests_cant": "The worst stretch may start at any hour, wrap midnight and span several days; a test checks a few shapes and cannot exclude a longer or differently placed stretch.", "anchors": ["src/ecoengine/objects/dhwsystems/DHWSystem.py::DHWSystem._calc_running_volume_supplyT_gal", "src/ecoengine/objects/dhwsystems/DHWSystem.py::_get_peak_indices"]}
{"id": "C02", "title": "A store of the sized running volume never runs dry, a smaller one does", "statement": "A store that holds the running volume, starts full, is refilled at the sized generation rate, never holds more than it can, and serves the design load shape, has hot water left at the end of every hour of every day; whenever the running volume is positive, any strictly smaller store runs dry within finitely many hours.", "quantifier": "every load shape and run time as in C01, every starting hour, every number of simulated hours", "why_tests_cant": "It is a statement about an unbounded horizon and about every smaller size.", "anchors": ["src/ecoengine/objects/dhwsystems/DHWSystem.py::DHWSystem.size", "src/ecoengine/objects/dhwsystems/DHWSystem.py::DHWSystem._calc_running_volume_supplyT_gal"]}
{"id": "C03", "title": "Sized capacity delivers the design day in the allowed run time", "statement": "Running the sized capacity for max_daily_run_hr hours, derated by the defrost factor, delivers exactly the heat that raises the whole daily use from the design inlet temperature to the supply temperature; the capacity is proportional to daily use and never decreases when run hours, inlet temperature or defrost factor shrink or daily use grows.", "quantifier": "all positive daily uses, run hours, defrost factors and all supply temperatures above the inlet temperature", "why_tests_cant": "Exact identities and monotonicity over a continuum of parameters.", "anchors": ["src/ecoengine/objects/dhwsystems/DHWSystem.py::DHWSystem._calc_required_capacity"]}
{"id": "C04", "title": "Fewer run hours: more capacity, no more storage", "statement": "Lowering the allowed run hours never lowers the sized capacity and never raises the running volume nor, for a fixed aquastat, the storage volume.", "quantifier": "every load shape and every pair of run-hour settings up to 24", "why_tests_cant": "The set of candidate start hours changes with the run hours, so neighbouring samples do not determine the values between them.", "anchors": ["src/ecoengine/objects/dhwsystems/DHWSystem.py::DHWSystem._calc_running_volume_supplyT_gal", "src/ecoengine/objects/dhwsystems/DHWSystem.py::DHWSystem._calc_storage_volume_storageT_gal", "src/ecoengine/objects/dhwsystems/DHWSystem.py::DHWSystem.get_sizing_curve"]}
{"id": "C05", "title": "Stratification factor is the exact yield of the assumed tank profile", "statement": "The supply-temperature gallons per 100-gallon tank used by sizing equals the integral, over the heights at or above supply temperature and above the ON sensor, of the mixing yield (T-inlet)/(supply-inlet) of the profile that passes through the ON trigger at the ON sensor with the stratification slope and is capped at storage temperature; it is zero exactly when no such height exists and positive otherwise.", "quantifier": "all ON sensor heights, ON trigger temperatures up to storage temperature, slopes, and inlet < supply <= storage", "why_tests_cant": "A closed form obtained by integration must agree with the integral for a continuum of parameters and for every arrangement of the three zone boundaries.", "anchors": ["src/ecoengine/objects/dhwsystems/DHWSystem.py::DHWSystem._calc_supply_temp_gal_from_100gal_tank", "src/ecoengine/objects/dhwsystems/DHWSystem.py::DHWSystem._calc_stratification_factor"]}
{"id": "C06", "title": "Load-shift sizing never shrinks the system", "statement": "With a shed schedule, the sized capacity and storage are at least those obtained by normal sizing with run hours capped to the non-shed hours, and the capacity is at least the capacity without load shifting.", "quantifier": "all buildings, schedules, control maps and coverage fractions for which sizing succeeds", "why_tests_cant": "Requires comparison of two sizing paths over all schedules.", "anchors": ["src/ecoengine/objects/dhwsystems/DHWSystem.py::DHWSystem.size", "src/ecoengine/objects/dhwsystems/DHWSystem.py::DHWSystem._calc_gen_rate_ls_gph"]}
{"id": "C07", "title": "size() leaves max_daily_run_hr as it found it", "statement": "Whatever size() does, including raising, the system's max_daily_run_hr afterwards equals the value before the call.", "quantifier": "all inputs and every point at which sizing can raise", "why_tests_cant": "Needs every exception path.", "anchors": ["src/ecoengine/objects/dhwsystems/DHWSystem.py::DHWSystem.size", "src/ecoengine/objects/dhwsystems/recirc_systems/SwingSystem.py::SwingSystem.size"]}
{"id": "C08", "title": "size() leaves the building's load-shape mode as it found it", "statement": "If the building was on the annual shape before size() it is on the annual shape afterwards, also when sizing raises.", "quantifier": "all inputs and every point at which sizing can raise", "why_tests_cant": "Needs every exception path; the restoration is not in the finally block.", "anchors": ["src/ecoengine/objects/dhwsystems/DHWSystem.py::DHWSystem.size", "src/ecoengine/objects/building/Building.py::Building.set_to_daily_load_shape"]}
{"id": "C09", "title": "Sizing results are available exactly after a successful size()", "statement": "The result getters raise until a size() call succeeds; a failing size() call leaves previous results in place; repeating a successful call with the same inputs gives the same results.", "quantifier": "all histories of size() calls with arbitrary inputs", "why_tests_cant": "A statement about every history of calls.", "anchors": ["src/ecoengine/objects/dhwsystems/DHWSystem.py::DHWSystem.get_minimum_capacity_kbtuh", "src/ecoengine/objects/dhwsystems/DHWSystem.py::DHWSystem.get_minimum_storage_storageT_gal", "src/ecoengine/objects/dhwsystems/DHWSystem.py::DHWSystem.size"]}
{"id": "C10", "title": "Sizing curve is consistent with sizing", "statement": "get_sizing_curve returns lists of equal length, strictly decreasing run hours between 24 and the physical minimum, a recommended index inside the lists whenever they are non-empty, points that are exactly what direct sizing gives at those run hours, non-decreasing capacity and non-increasing storage along the list, and it leaves the run-hour setting unchanged.", "quantifier": "all buildings, run-hour settings, step sizes and control maps", "why_tests_cant": "The number of points and the stopping point depend on the inputs.", "anchors": ["src/ecoengine/objects/dhwsystems/DHWSystem.py::DHWSystem.get_sizing_curve"]}
{"id": "C11", "title": "Recommended point of the sizing curve is the sized system", "statement": "When the sweep reaches it, the recommended point has the configured run hours, and the capacity and storage there equal those reported by size() for a system without load shifting.", "quantifier": "all buildings and run-hour settings below 24 for which the sweep reaches the recommended point", "why_tests_cant": "Two code paths must agree for all inputs.", "anchors": ["src/ecoengine/objects/dhwsystems/DHWSystem.py::DHWSystem.get_sizing_curve", "src/ecoengine/objects/dhwsystems/DHWSystem.py::DHWSystem.size"]}
{"id": "C12", "title": "Load-shift curve agrees with load-shift sizing", "statement": "get_ls_sizing_curve returns 76 points for the percentiles 25%..100%; each point equals the capacity and storage size() reports for the corresponding coverage fraction; the recommended index is in range and names the configured percentile when it is one of the swept ones; run hours are restored even if it raises.", "quantifier": "all buildings, schedules and control maps", "why_tests_cant": "Agreement of two code paths over all inputs.", "anchors": ["src/ecoengine/objects/dhwsystems/DHWSystem.py::DHWSystem.get_ls_sizing_curve", "src/ecoengine/objects/dhwsystems/DHWSystem.py::DHWSystem.size"]}
{"id": "C13", "title": "More load-shift coverage never needs less storage", "statement": "Along the load-shift sizing curve, a higher coverage percentile never gives a smaller storage volume or a smaller capacity.", "quantifier": "all buildings, schedules and control maps", "why_tests_cant": "Monotonicity over a sweep for all schedules.", "anchors": ["src/ecoengine/objects/dhwsystems/DHWSystem.py::DHWSystem.get_ls_sizing_curve", "src/ecoengine/objects/dhwsystems/DHWSystem.py::DHWSystem._calc_running_volume_ls_supplyT_gal"]}
{"id": "C14", "title": "First shed block and load-up hours are identified correctly", "statement": "The shed block used by load-shift sizing is the maximal run of consecutive shed hours starting at the earliest shed hour, and the load-up count is the length of the maximal run of loadUp hours ending just before it.", "quantifier": "all 24-hour schedules over arbitrary labels", "why_tests_cant": "3^24 schedules (more with arbitrary labels).", "anchors": ["src/ecoengine/objects/dhwsystems/DHWSystem.py::DHWSystem._get_first_shed_block_and_load_up_hours"]}
{"id": "C15", "title": "Load-shift store survives the shed", "statement": "At full coverage, a store holding the load-shift running volume at the start of the first shed block, with no heating in shed hours and the load-shift generation rate in all others, does not run dry at any hour of any number of days after that.", "quantifier": "all average load shapes and schedules whose daily generation covers the daily use, all horizons", "why_tests_cant": "Unbounded horizon, all schedules.", "anchors": ["src/ecoengine/objects/dhwsystems/DHWSystem.py::DHWSystem._calc_running_volume_ls_supplyT_gal", "src/ecoengine/objects/dhwsystems/DHWSystem.py::DHWSystem._calc_prelim_vols_supplyT_gal"]}
{"id": "C16", "title": "Load-shift store survives every shed block", "statement": "A store that can hold no more than the sized load-shift running volume (or the normal one, if larger) does not run dry in any shed block of the day at full coverage.", "quantifier": "all schedules with any number of shed blocks", "why_tests_cant": "Needs reasoning about a capacity-limited store over all schedules.", "anchors": ["src/ecoengine/objects/dhwsystems/DHWSystem.py::DHWSystem._calc_running_volume_ls_supplyT_gal"]}
{"id": "C17", "title": "Degenerate load-shift schedules are rejected cleanly", "statement": "A shed control map with a schedule that has no shed hour, or only shed hours, makes size() raise a ValueError rather than crash.", "quantifier": "all schedules without shed hours and the all-shed schedule, all buildings", "why_tests_cant": "Ranges over all buildings and maps.", "anchors": ["src/ecoengine/objects/dhwsystems/DHWSystem.py::DHWSystem.size", "src/ecoengine/objects/dhwsystems/DHWSystem.py::DHWSystem._calc_prelim_vols_supplyT_gal", "src/ecoengine/interfaces/EcosizerEngine.py::EcosizerEngine._build_control_map"]}
{"id": "C18", "title": "Control schedule built from the 0/1 list is the documented one", "statement": "For a 24-entry 0/1 list the built schedule has 24 labels: shed exactly at the zeros, loadUp exactly at the non-shed hours among the load_up_hours hours immediately before the first shed hour, normal elsewhere; without a list all hours are normal.", "quantifier": "all 24-entry lists and all load-up hour counts", "why_tests_cant": "2^24 lists times all counts.", "anchors": ["src/ecoengine/interfaces/EcosizerEngine.py::EcosizerEngine._build_control_map"]}
{"id": "C19", "title": "Every scheduled hour has controls", "statement": "Every label in the schedule built by the engine is a key of the control map built with it, so no simulated hour fails for missing controls.", "quantifier": "all engine parameters", "why_tests_cant": "All combinations of optional parameters.", "anchors": ["src/ecoengine/interfaces/EcosizerEngine.py::EcosizerEngine._build_control_map", "src/ecoengine/objects/components/heating/WaterHeater.py::WaterHeater.update_state"]}
{"id": "C20", "title": "Climate argument is resolved as documented", "statement": "A dict gives design conditions, a 5-digit string a zip code, an integer 1-96 a zone id, any other string a weather station; a 5-digit integer is accepted as a zip code; everything else is a ValueError.", "quantifier": "all argument values", "why_tests_cant": "Infinite argument domain.", "anchors": ["src/ecoengine/interfaces/EcosizerEngine.py::EcosizerEngine._build_climate_zone"]}
{"id": "C21", "title": "Schematic selection and required parameters", "statement": "Each schematic name or alias selects one system class; aliases behave identically; recirculation schematics are built only if return temperature and flow are given, otherwise ValueError; an unknown name is a ValueError; a pre-sized build never runs sizing.", "quantifier": "all strings and parameter combinations", "why_tests_cant": "All strings and combinations.", "anchors": ["src/ecoengine/interfaces/EcosizerEngine.py::EcosizerEngine._build_dhw_system", "src/ecoengine/interfaces/EcosizerEngine.py::EcosizerEngine._build_presized_dhw_system"]}
{"id": "C22", "title": "Model listing returns exactly the requested models", "statement": "get_list_of_models returns, in catalogue order, exactly the catalogue entries that are not excluded, match the single/multi-pass request, the residential flag and the SGIP flag; the multi-pass and single-pass listings partition the unrestricted listing.", "quantifier": "all catalogues with model codes of at least four characters and all flag combinations", "why_tests_cant": "All catalogues and flags.", "anchors": ["src/ecoengine/interfaces/EcosizerEngine.py::get_list_of_models"]}
{"id": "C23", "title": "Heater state follows the hysteresis rule over any history", "statement": "After any sequence of control updates the heater is on exactly if the most recent decisive update (turn-on condition while off, or turn-off condition while on) turned it on; it can only change state when the corresponding condition holds at that instant.", "quantifier": "all sequences of tank states and hours", "why_tests_cant": "Histories of unbounded length.", "anchors": ["src/ecoengine/objects/components/heating/WaterHeater.py::WaterHeater.update_state", "src/ecoengine/objects/components/heating/Controls.py::Controls"]}
{"id": "C24", "title": "No heater chatter", "statement": "If the OFF sensor is not above the ON sensor, the OFF trigger is not below the ON trigger and the tank is not colder higher up, then turn-on and turn-off conditions never hold together, so a heater that just turned on stays on until the tank state changes.", "quantifier": "all tanks with height-monotone temperature and all such controls", "why_tests_cant": "Continuum of profiles and settings.", "anchors": ["src/ecoengine/objects/components/heating/Controls.py::Controls.should_turn_on", "src/ecoengine/objects/components/heating/Controls.py::Controls.should_turn_off"]}
{"id": "C25", "title": "Inactive heaters produce and consume nothing; missing controls are an error", "statement": "Output is zero while the heater is off and the performance-map capacity while it is on; a control update for an hour without controls raises and leaves the state unchanged.", "quantifier": "all heaters, hours and states", "why_tests_cant": "All states and schedules.", "anchors": ["src/ecoengine/objects/components/heating/WaterHeater.py::WaterHeater.get_output_kbtuh", "src/ecoengine/objects/components/heating/WaterHeater.py::WaterHeater.update_state"]}
{"id": "C26", "title": "Multi-point performance map interpolates between its data points", "statement": "Between two tabulated outdoor temperatures the reported capacity and power lie between the values of the two neighbouring data points, agree with them at the data points, and are continuous across data points; below the lowest tabulated temperature electric-resistance backup with COP 1 is reported.", "quantifier": "all maps sorted by temperature and all operating conditions", "why_tests_cant": "Continuum of conditions and all maps.", "anchors": ["src/ecoengine/objects/components/heating/PerformanceMap.py::HPWHsimPerformanceMap"]}
{"id": "C27", "title": "Reported COP is output over input", "statement": "Whenever a COP is reported it equals delivered heat divided by electrical input in the same units, it is positive when capacity is, and no COP is reported when power is unknown or not positive; scaling by number of units leaves the COP unchanged.", "quantifier": "all maps and operating conditions", "why_tests_cant": "Continuum of conditions.", "anchors": ["src/ecoengine/objects/components/heating/PerformanceMap.py::PerformanceMap.get_cop"]}
{"id": "C28", "title": "Grid performance map fallback order", "statement": "A grid map lookup always yields a capacity/power pair: at or above the maximum tabulated outdoor temperature the high default, otherwise the interpolated value if defined, otherwise COP-1 electric backup below the minimum temperature, otherwise the closest-point value, otherwise the COP-1.5 default.", "quantifier": "all conditions and all interpolation results, including undefined ones", "why_tests_cant": "All combinations of undefined results.", "anchors": ["src/ecoengine/objects/components/heating/PerformanceMap.py::PklPerformanceMap"]}
{"id": "C29", "title": "Timestep demands add up to the daily use", "statement": "For every day, the demands returned for the timesteps of that day add up to the daily use times the sum of the load shape (to the daily use if it is normalised), for every interval that divides an hour; the same holds for each single hour with that hour's fraction.", "quantifier": "all load shapes, daily uses, days and intervals dividing 60 minutes", "why_tests_cant": "All shapes, days and intervals.", "anchors": ["src/ecoengine/objects/building/Building.py::Building.get_dhw_load_supplyT_gal"]}
{"id": "C30", "title": "Load-shape validation accepts exactly valid shapes", "statement": "A custom load shape is accepted exactly if it has 24 non-negative entries whose sum is within 0.001 of 1, and otherwise a ValueError is raised.", "quantifier": "all numeric lists", "why_tests_cant": "All lists.", "anchors": ["src/ecoengine/objects/building/Building.py::_validate_load_shape"]}
{"id": "C31", "title": "Mixed-use building is the sum of its parts", "statement": "A mixed-use building uses the sum of the parts' daily uses, its hourly demand is the sum of the parts' hourly demands at every hour, and its shape sums to 1.", "quantifier": "any number of parts with any magnitudes with positive total and shapes summing to 1", "why_tests_cant": "Any number of parts.", "anchors": ["src/ecoengine/objects/building/Building.py::Building"]}
{"id": "C32", "title": "Switching between annual and daily load shapes is lossless", "statement": "Switching to the annual shape and back (in any order, any number of times) leaves the demands of the daily mode unchanged.", "quantifier": "all multi-family buildings including ones with custom shapes, all switch histories", "why_tests_cant": "All histories and shapes.", "anchors": ["src/ecoengine/objects/building/Building.py::Building.set_to_daily_load_shape", "src/ecoengine/objects/building/Building.py::Building.set_to_annual_load_shape"]}
{"id": "C33", "title": "Hour-to-month mapping follows the 365-day calendar", "statement": "Every hour of the year is assigned the month that contains its day in a 365-day year; every month gets exactly its number of days times 24 hours.", "quantifier": "all hours of the year", "why_tests_cant": "The rate and cost code relies on it for each of 8760 hours.", "anchors": ["src/ecoengine/objects/building/UtilityCostTracker.py::_hour_to_month"]}
{"id": "C34", "title": "Rate validation accepts exactly well-formed rate structures", "statement": "from_params accepts a rate structure exactly when list lengths agree, peak (and discount) windows are ordered and the seasons form a partition of months 0..12 in order; otherwise it raises ValueError.", "quantifier": "all parameter lists of any length", "why_tests_cant": "All lists.", "anchors": ["src/ecoengine/objects/building/UtilityCostTracker.py::UtilityCostTracker._validate_params"]}
{"id": "C35", "title": "Every hour of the year is billed in the right period", "statement": "For an accepted rate structure each hour belongs to the season covering its month; it is peak exactly if its hour of day is in that season's peak window, discount exactly if it is in the discount window (which may wrap midnight) and not in the peak window, off-peak otherwise, and its energy rate is that season's rate for that period.", "quantifier": "all accepted rate structures and all hours of the year", "why_tests_cant": "All structures x 8760 hours.", "anchors": ["src/ecoengine/objects/building/UtilityCostTracker.py::UtilityCostTracker._fill_period_maps", "src/ecoengine/objects/building/UtilityCostTracker.py::UtilityCostTracker.get_energy_charge_at_step"]}
{"id": "C36", "title": "Every billed hour and period has a defined charge", "statement": "For an accepted rate structure, energy and demand charge lookups for any simulated step of a year never fail.", "quantifier": "all accepted rate structures, timesteps and steps", "why_tests_cant": "All structures and steps.", "anchors": ["src/ecoengine/objects/building/UtilityCostTracker.py::UtilityCostTracker.get_energy_charge_at_step", "src/ecoengine/objects/building/UtilityCostTracker.py::UtilityCostTracker.get_demand_charge_for_period"]}
{"id": "C37", "title": "Rate structure survives a CSV round trip", "statement": "Writing an accepted rate structure to CSV and reading it back gives the same energy rate, demand rate and period classification at every hour.", "quantifier": "all accepted rate structures", "why_tests_cant": "All structures.", "anchors": ["src/ecoengine/objects/building/UtilityCostTracker.py::UtilityCostTracker.to_csv", "src/ecoengine/objects/building/UtilityCostTracker.py::UtilityCostTracker.from_csv"]}
{"id": "C38", "title": "Annual cost is energy plus demand plus base charges", "statement": "The annual utility cost equals the sum over steps of energy used times the rate of that step, plus for each billing period its demand rate times the highest power drawn in it, plus twelve base charges.", "quantifier": "all recorded runs of any length and all rate structures", "why_tests_cant": "Any length of run.", "anchors": ["src/ecoengine/objects/simulation/SimulationRun.py::SimulationRun.get_annual_utility_cost"]}
{"id": "C39", "title": "Monthly bills add up to the annual bill", "statement": "The monthly cost breakdown (energy plus demand plus base over 12 months) adds up to the annual utility cost of the same run.", "quantifier": "all annual runs, with and without temperature-maintenance heaters, and all rate structures", "why_tests_cant": "All runs.", "anchors": ["src/ecoengine/objects/simulation/SimulationRun.py::SimulationRun.get_monthly_cost_breakdown", "src/ecoengine/objects/simulation/SimulationRun.py::SimulationRun.get_annual_utility_cost"]}
{"id": "C40", "title": "Detailed monthly bill refines the monthly bill", "statement": "The detailed monthly breakdown's peak and off-peak energy and demand parts add up to the annual utility cost.", "quantifier": "all annual runs and rate structures", "why_tests_cant": "All runs.", "anchors": ["src/ecoengine/objects/simulation/SimulationRun.py::SimulationRun.get_monthly_cost_breakdown_detailed"]}
{"id": "C41", "title": "Monthly energy adds up to total energy", "statement": "The twelve monthly energy totals of an annual run add up to the run's total energy.", "quantifier": "all annual runs with and without temperature-maintenance heaters", "why_tests_cant": "All runs.", "anchors": ["src/ecoengine/objects/simulation/SimulationRun.py::SimulationRun.get_monthly_energy_kwh", "src/ecoengine/objects/simulation/SimulationRun.py::SimulationRun.get_total_energy_kwh"]}
{"id": "C42", "title": "Outage accounting is exact", "statement": "The reported outage minutes are the timestep length times the number of recorded steps with no usable hot water, and the run is successful exactly if there is none and it was not stopped early.", "quantifier": "all step sequences", "why_tests_cant": "All sequences.", "anchors": ["src/ecoengine/objects/simulation/SimulationRun.py::SimulationRun.record_outage", "src/ecoengine/objects/simulation/SimulationRun.py::SimulationRun.is_successful", "src/ecoengine/interfaces/Simulator.py::simulate"]}
{"id": "C43", "title": "Early stop happens exactly when the delivery deficit lasts too long", "statement": "A simulation stops before its full length exactly when the delivery temperature has been below the deficit threshold for more than the allowed number of consecutive minutes, at the first such step; otherwise every step is recorded.", "quantifier": "all delivery temperature sequences, thresholds and limits", "why_tests_cant": "All sequences.", "anchors": ["src/ecoengine/objects/simulation/SimulationRun.py::SimulationRun.check_outlet_deficit", "src/ecoengine/interfaces/Simulator.py::simulate"]}
{"id": "C44", "title": "Recorded series are complete and aligned", "statement": "All recorded series have the same length, equal to the number of simulated steps, which is at most duration/interval.", "quantifier": "all systems and simulations", "why_tests_cant": "All systems.", "anchors": ["src/ecoengine/objects/simulation/SimulationRun.py::SimulationRun.record_timestep", "src/ecoengine/interfaces/Simulator.py::simulate"]}
{"id": "C45", "title": "A tankless system that meets demand is reported successful", "statement": "Simulating an instantaneous water heater sized for the building reports success.", "quantifier": "all buildings", "why_tests_cant": "All buildings.", "anchors": ["src/ecoengine/objects/dhwsystems/InstantWHSystem.py::InstantWHSystem", "src/ecoengine/objects/simulation/SimulationRun.py::SimulationRun.is_successful"]}
{"id": "C46", "title": "Climate queries are periodic over the year", "statement": "Outdoor temperature and inlet water temperature depend only on the position in the year: advancing by one year returns the same values; hourly data are constant within the hour and monthly data within the calendar month.", "quantifier": "all steps and intervals", "why_tests_cant": "Unbounded steps.", "anchors": ["src/ecoengine/objects/building/ClimateZone.py::ClimateZone.get_oat_f", "src/ecoengine/objects/building/ClimateZone.py::ClimateZone.get_inlet_water_temp_f"]}
{"id": "C47", "title": "Design temperatures bound every hour", "statement": "The design outdoor and inlet temperatures are the minimum over the year: no query returns a lower value and some query attains it.", "quantifier": "all climate data sets and all steps", "why_tests_cant": "All data sets.", "anchors": ["src/ecoengine/objects/building/ClimateZone.py::ClimateZone.get_design_oat_f", "src/ecoengine/objects/building/ClimateZone.py::ClimateZone.get_design_inlet_water_temp_f"]}
{"id": "C48", "title": "Temperature buckets count every day once", "statement": "The bucket counts add up to 365 and each day is counted in the 5-degree bucket with lower edge b, b <= average < b+5.", "quantifier": "all climate data sets", "why_tests_cant": "All data sets.", "anchors": ["src/ecoengine/objects/building/ClimateZone.py::ClimateZone.get_oat_buckets"]}
{"id": "C49", "title": "Stratified tank is never colder higher up and stays within its limits", "statement": "After any history of operations, temperature does not decrease with height, and lies between the current inlet and outlet temperatures whenever inlet <= outlet.", "quantifier": "all tanks with positive slope and volume, all operation histories, all heights", "why_tests_cant": "Unbounded histories and a continuum of heights.", "anchors": ["src/ecoengine/objects/components/storage/StratifiedTank.py::StratifiedTank.get_temperature_at_fraction"]}
{"id": "C50", "title": "Usable volume is the volume at or above supply temperature", "statement": "The reported usable volume is between 0 and the tank volume, and equals the tank volume times the length of the set of heights whose temperature is at or above the supply temperature, for supply temperatures above inlet and up to outlet; it does not increase with the requested temperature.", "quantifier": "all tanks, histories, supply temperatures", "why_tests_cant": "Continuum.", "anchors": ["src/ecoengine/objects/components/storage/StratifiedTank.py::StratifiedTank.get_usable_volume_supplyT_gal"]}
{"id": "C51", "title": "Drawing never adds and heating never removes usable hot water (stratified tank)", "statement": "A draw never increases the usable volume and a heating step at an unchanged or higher outlet temperature never decreases it.", "quantifier": "all reachable tank states and all amounts", "why_tests_cant": "Continuum of states.", "anchors": ["src/ecoengine/objects/components/storage/StratifiedTank.py::StratifiedTank.draw", "src/ecoengine/objects/components/storage/StratifiedTank.py::StratifiedTank.draw_physical_gal", "src/ecoengine/objects/components/storage/StratifiedTank.py::StratifiedTank.heat"]}
{"id": "C52", "title": "Average draw temperature is the mean of the profile", "statement": "The average temperature of a drawn block equals the integral mean of the temperature profile over the drawn top part of the tank and lies between inlet and outlet.", "quantifier": "all states and draw volumes up to the tank volume", "why_tests_cant": "Continuum.", "anchors": ["src/ecoengine/objects/components/storage/StratifiedTank.py::StratifiedTank.get_average_draw_temp_f"]}
{"id": "C53", "title": "Stratified draw delivers the demanded heat", "statement": "If the tank can cover the demand, the physical volume drawn carries the demanded heat content to within the search tolerance.", "quantifier": "all states and demands", "why_tests_cant": "Iterative search over a continuum.", "anchors": ["src/ecoengine/objects/components/storage/StratifiedTank.py::StratifiedTank.draw"]}
{"id": "C54", "title": "Heating a stratified tank stores the supplied heat", "statement": "Unless the tank becomes full, the hot volume added times the temperature rise equals the heat supplied.", "quantifier": "all states and heating rates", "why_tests_cant": "Continuum.", "anchors": ["src/ecoengine/objects/components/storage/StratifiedTank.py::StratifiedTank.heat"]}
{"id": "C55", "title": "Energy tank never holds negative energy or more than a full tank", "statement": "After any history of operations the stored energy is between 0 and the fully charged energy.", "quantifier": "all histories", "why_tests_cant": "Unbounded histories with changing inlet temperatures.", "anchors": ["src/ecoengine/objects/components/storage/EnergyTank.py::EnergyTank"]}
{"id": "C56", "title": "Energy tank books exactly the heat moved", "statement": "Draws remove and heating adds exactly the stated heat, limited only by empty and full; total stored equals initial plus added minus removed as long as no limit is hit.", "quantifier": "all histories", "why_tests_cant": "Unbounded histories.", "anchors": ["src/ecoengine/objects/components/storage/EnergyTank.py::EnergyTank.draw", "src/ecoengine/objects/components/storage/EnergyTank.py::EnergyTank.heat"]}
{"id": "C57", "title": "Energy and thermocline position determine each other", "statement": "The energy of a thermocline position equals the heat content (integral) of the corresponding temperature profile, increases with the position, and the position found from the stored energy reproduces it to within the search accuracy.", "quantifier": "all tanks and energies", "why_tests_cant": "Continuum and iterative search.", "anchors": ["src/ecoengine/objects/components/storage/EnergyTank.py::EnergyTank._energy_at_shift_pct", "src/ecoengine/objects/components/storage/EnergyTank.py::EnergyTank._shift_pct_from_energy"]}
{"id": "C58", "title": "Mixed tank keeps an exact heat balance", "statement": "Each operation of the mixed tank changes its heat content by exactly the heat brought in minus the heat taken out.", "quantifier": "all states and amounts within the tank volume", "why_tests_cant": "Continuum.", "anchors": ["src/ecoengine/objects/components/storage/MixedStorageTank.py::MixedStorageTank"]}
{"id": "C59", "title": "Mixed tank temperature stays within the range of its inputs", "statement": "Draws, inflows and recirculation return never push the tank temperature outside the range spanned by the previous temperature and the incoming water temperatures.", "quantifier": "all histories of such operations with volumes up to the tank volume", "why_tests_cant": "Unbounded histories.", "anchors": ["src/ecoengine/objects/components/storage/MixedStorageTank.py::MixedStorageTank"]}
{"id": "C60", "title": "Mixed tank heating is capped at the outlet temperature", "statement": "Heating never raises the tank above the heater's outlet temperature.", "quantifier": "all states and heating rates", "why_tests_cant": "Continuum.", "anchors": ["src/ecoengine/objects/components/storage/MixedStorageTank.py::MixedStorageTank.heat"]}
{"id": "C61", "title": "Slug tank usable volume stays within the usable tank", "statement": "After any history of heating cycles, draws and heat additions through the tank's draw interface the usable volume is between 0 and the usable tank volume.", "quantifier": "all histories", "why_tests_cant": "Unbounded histories.", "anchors": ["src/ecoengine/objects/components/storage/SlugOverlayTank.py::SlugOverlayTank"]}
{"id": "C62", "title": "Slug heat balance", "statement": "Adding water and heat to the slug changes its heat content by exactly what was added, and its temperature never exceeds the storage temperature.", "quantifier": "all histories", "why_tests_cant": "Unbounded histories.", "anchors": ["src/ecoengine/objects/components/storage/SlugOverlayTank.py::SlugOverlayTank.add_to_slug", "src/ecoengine/objects/components/storage/SlugOverlayTank.py::SlugOverlayTank.heat_slug"]}
{"id": "C63", "title": "Mixing valve conserves mass and heat", "statement": "For any draw the valve's storage draw, cold addition and return mix balance mass and heat exactly in both operating regimes, the regimes agree at the switch-over point, and the water returned to the tank is between cold and return temperature.", "quantifier": "all demands, flows and temperatures with cold < return <= supply < storage", "why_tests_cant": "Continuum.", "anchors": ["src/ecoengine/objects/dhwsystems/utils.py::mixing_valve_behavior"]}
{"id": "C64", "title": "Temperature-maintenance sizing meets the off-time and recovers", "statement": "The sized TM tank cools from OFF to ON temperature in exactly the configured off time under the design loss, and the sized heater brings it back in off time/(safety-1); invalid parameters are rejected exactly as documented.", "quantifier": "all valid parameters", "why_tests_cant": "Continuum.", "anchors": ["src/ecoengine/objects/dhwsystems/recirc_systems/ParallelLoopSystem.py::ParallelLoopSystem.size_tm_system", "src/ecoengine/objects/dhwsystems/recirc_systems/ParallelLoopSystem.py::ParallelLoopSystem._validate_tm_inputs"]}
{"id": "C65", "title": "Temperature-maintenance heater cycles off in simulation", "statement": "In the simulated parallel loop a sized TM heater that turned on eventually reaches its OFF temperature and turns off.", "quantifier": "all valid parameters and all horizons", "why_tests_cant": "Unbounded horizon.", "anchors": ["src/ecoengine/objects/dhwsystems/recirc_systems/ParallelLoopSystem.py::ParallelLoopSystem.simulate_step", "src/ecoengine/objects/components/storage/MixedStorageTank.py::MixedStorageTank.add_recirc_return"]}
{"id": "C66", "title": "Swing tank volume comes from the table and is large enough", "statement": "The swing tank volume is the smallest table size that covers both the recirculation requirement and the peak minute draw; a larger requirement is a ValueError; the CA size covers the requirement whenever it does not exceed 480 gallons.", "quantifier": "all losses and peak draws", "why_tests_cant": "Continuum.", "anchors": ["src/ecoengine/objects/dhwsystems/recirc_systems/SwingSystem.py::SwingSystem._size_tm_system"]}
{"id": "C67", "title": "Swing sizing never fails for a feasible system", "statement": "For a swing tank chosen strictly larger than the peak minute draw, with positive recirculation loss, storage >= supply > inlet, the sizing simulation keeps the swing tank at or above supply temperature for every demand sequence and never raises, and the effective primary demand never exceeds the actual demand.", "quantifier": "all demand sequences of any length", "why_tests_cant": "Sequences of any length.", "anchors": ["src/ecoengine/objects/dhwsystems/recirc_systems/SwingSystem.py::SwingSystem._sim_just_swing", "src/ecoengine/objects/dhwsystems/recirc_systems/SwingSystem.py::SwingSystem._run_one_swing_step"]}
{"id": "C68", "title": "ER element covers the worst deficit", "statement": "The added ER capacity is non-negative, zero exactly if the base element alone holds supply temperature throughout the sizing simulation, and for every simulated state the enlarged element holds supply temperature in that minute.", "quantifier": "all demand sequences", "why_tests_cant": "Sequences of any length.", "anchors": ["src/ecoengine/objects/dhwsystems/recirc_systems/SwingERTrdOffSystem.py::SwingERTrdOffSystem._size_er_element", "src/ecoengine/objects/dhwsystems/recirc_systems/SwingERTrdOffSystem.py::SwingERTrdOffSystem._run_one_swing_step_er"]}
{"id": "C69", "title": "ER trade-off query leaves system and building unchanged", "statement": "get_er_sized_points leaves the building's daily use and the system's capacities and safety factor as before, whether it returns or raises, and the reported start index names the 100% point.", "quantifier": "all systems, all points at which it can raise", "why_tests_cant": "Every exception point.", "anchors": ["src/ecoengine/objects/dhwsystems/recirc_systems/SwingERTrdOffSystem.py::SwingERTrdOffSystem.get_er_sized_points"]}
{"id": "C70", "title": "Return-to-primary capacity covers demand and loop losses", "statement": "The RTP capacity run for max_daily_run_hr hours delivers the daily use plus 24 hours of loop losses; sizing leaves the building's daily use unchanged on every path.", "quantifier": "all valid parameters, every exception point", "why_tests_cant": "Continuum and every exception point.", "anchors": ["src/ecoengine/objects/dhwsystems/rtp_systems/RTPSystem.py::RTPSystem._calc_required_capacity", "src/ecoengine/objects/dhwsystems/rtp_systems/SinglePassRTPSystem.py::SinglePassRTPSystem"]}
{"id": "C71", "title": "Multi-pass sizing volume bounds every growing slug", "statement": "The multi-pass running volume is the largest slug volume reached at the end of any minute of the two-day sizing run, it is non-negative and bounded by the total water drawn.", "quantifier": "all demand sequences", "why_tests_cant": "All sequences.", "anchors": ["src/ecoengine/objects/dhwsystems/rtp_systems/MultiPassRTPSystem.py::MultiPassRTPSystem._calc_running_volume_supplyT_gal"]}
{"id": "C72", "title": "Simulated primary system stays physical", "statement": "In a simulation of a sized primary system of any length, reported usable volume is within [0, tank volume], reported tank temperatures do not decrease with height and lie between inlet and outlet temperature, and heater output is zero whenever all heaters are off.", "quantifier": "all buildings, climates, control schedules and numbers of steps", "why_tests_cant": "Unbounded number of steps.", "anchors": ["src/ecoengine/objects/dhwsystems/DHWSystem.py::DHWSystem.simulate_step", "src/ecoengine/interfaces/Simulator.py::simulate"]}
{"id": "C73", "title": "Recorded outdoor temperature is the climate's outdoor temperature", "statement": "The oat_f value recorded at each step is the building's outdoor air temperature at that step, for every system type.", "quantifier": "all system types and steps", "why_tests_cant": "All system types and steps.", "anchors": ["src/ecoengine/objects/dhwsystems/DHWSystem.py::DHWSystem.simulate_step", "src/ecoengine/objects/dhwsystems/rtp_systems/MultiPassRTPSystem.py::MultiPassRTPSystem.simulate_step"]}
{"id": "C74", "title": "Engine falls back to default per-person use", "statement": "Without gpdpp the engine uses the default daily use of the building type, as documented, for every named building type.", "quantifier": "all building types and magnitudes", "why_tests_cant": "All parameter combinations.", "anchors": ["src/ecoengine/interfaces/EcosizerEngine.py::EcosizerEngine._build_building", "src/ecoengine/objects/building/Building.py"]}
{"id": "C75", "title": "Listed weather stations can be used", "statement": "get_weather_stations lists exactly the stations of the zones not excluded, in file order, and each listed name, given to the engine, selects the listed climate zone (for distinct names).", "quantifier": "all station files", "why_tests_cant": "All files.", "anchors": ["src/ecoengine/interfaces/EcosizerEngine.py::get_weather_stations", "src/ecoengine/objects/building/ClimateZone.py"]}
{"id": "C76", "title": "Output capacity of a catalogue model", "statement": "get_hpwh_output_capacity returns the model's capacity times the number of heaters times one minus the defrost derate, in kBTU/hr or kW as asked, and raises ValueError exactly for a derate outside [0,1] or fewer than one heater.", "quantifier": "all maps, conditions, counts and derates", "why_tests_cant": "Continuum of inputs.", "anchors": ["src/ecoengine/interfaces/EcosizerEngine.py::get_hpwh_output_capacity"]}
{"id": "C77", "title": "A heating cycle of the slug tank conserves heat", "statement": "After a whole heating cycle (start, any sequence of heating steps and draws, end) the stored energy equals the heat content of the tank before the cycle plus the heat supplied plus the heat of the make-up water minus the heat of the water drawn, as long as the slug stays at or below storage temperature and draws fit the usable tank.", "quantifier": "all tanks, all cycles of any length", "why_tests_cant": "The conservation must hold for every sequence of heating steps and draws; the repository's tests try three.", "anchors": ["src/ecoengine/objects/components/storage/SlugOverlayTank.py::SlugOverlayTank"]}
{"id": "C78", "title": "Temperature-maintenance off cycles are no longer than configured", "statement": "In the simulated parallel loop a sized TM tank that starts an off cycle at its OFF temperature has its heater on again within the configured off time.", "quantifier": "all valid parameters, step lengths and horizons", "why_tests_cant": "The simulated loss depends on the tank temperature while the sizing uses a constant loss; whether the configured maximum holds depends on all of ON, OFF, supply and return temperature.", "anchors": ["src/ecoengine/objects/dhwsystems/recirc_systems/ParallelLoopSystem.py::ParallelLoopSystem.size_tm_system", "src/ecoengine/objects/dhwsystems/recirc_systems/ParallelLoopSystem.py::ParallelLoopSystem.simulate_step"]}
{"id": "C79", "title": "Swing sizing simulation conserves heat", "statement": "Over any horizon of the swing tank's sizing simulation, the heat sent by the primary plus the heat of the element equals the heat delivered to the building plus the loop losses plus the change of the swing tank's heat.", "quantifier": "all demand sequences of any length and all tank parameters", "why_tests_cant": "Must hold over every demand sequence; tests look at a few sized results.", "anchors": ["src/ecoengine/objects/dhwsystems/recirc_systems/SwingSystem.py::SwingSystem._sim_just_swing", "src/ecoengine/objects/dhwsystems/recirc_systems/SwingSystem.py::SwingSystem._run_one_swing_step"]}
{"id": "C80", "title": "Swing running volume is the worst shortfall of the tried days", "statement": "The primary running volume of a swing system (in storage-temperature gallons) is at least the shortfall after any number of minutes of the day simulated from every peak hour and the hour after it, and is one of those shortfalls or zero; the effective mix fraction kept is that day's.", "quantifier": "all buildings, run hours and swing systems", "why_tests_cant": "Quantifies over all load shapes and every minute of the simulated days.", "anchors": ["src/ecoengine/objects/dhwsystems/recirc_systems/SwingSystem.py::SwingSystem._calc_running_volume_supplyT_gal"]}
{"id": "C81", "title": "Sized swing plant balances the day's heat", "statement": "The primary capacity sized for a swing system, over its run hours and after defrost, makes exactly the heat of the day that set its volume: demand plus loop loss plus the change of the swing tank's heat, less the element's heat.", "quantifier": "all buildings and swing systems without load shifting", "why_tests_cant": "An energy balance over every load shape; tests compare numbers for a few buildings.", "anchors": ["src/ecoengine/objects/dhwsystems/recirc_systems/SwingSystem.py::SwingSystem.size", "src/ecoengine/objects/dhwsystems/recirc_systems/SwingSystem.py::SwingSystem._calc_required_capacity"]}
{"id": "C82", "title": "Curves of a swing system agree with its sizing", "statement": "Each point of a swing system's sizing curve equals what size() reports for those run hours; each point of its load-shift curve equals what size() reports for that coverage; asking for a curve changes no later answer.", "quantifier": "all swing systems sized for the building, all schedules and control maps", "why_tests_cant": "Depends on hidden state (the effective mix fraction) left by earlier calls, for every history of calls.", "anchors": ["src/ecoengine/objects/dhwsystems/recirc_systems/SwingSystem.py::SwingSystem.get_sizing_curve", "src/ecoengine/objects/dhwsystems/DHWSystem.py::DHWSystem.get_ls_sizing_curve"]}
{"id": "C83", "title": "Sized ER element holds supply in its own sizing run", "statement": "A swing system with its sized ER addition keeps the swing tank at or above supply temperature when the very demand it was sized for is simulated with the enlarged element.", "quantifier": "all demand sequences, primary outputs and storage levels", "why_tests_cant": "The enlarged element changes the whole later history of the tank; tests check the sized number only.", "anchors": ["src/ecoengine/objects/dhwsystems/recirc_systems/SwingERTrdOffSystem.py::SwingERTrdOffSystem._size_er_element"]}
{"id": "C84", "title": "ER sizing accepts every building the swing sizing accepts", "statement": "A building that can be sized with a swing tank can be sized with a swing tank and ER addition, whether its load shape is daily or annual.", "quantifier": "all buildings, daily and annual", "why_tests_cant": "Quantifies over all buildings and both load shape modes.", "anchors": ["src/ecoengine/objects/dhwsystems/recirc_systems/SwingERTrdOffSystem.py::SwingERTrdOffSystem.size", "src/ecoengine/objects/dhwsystems/recirc_systems/SwingERTrdOffSystem.py::SwingERTrdOffSystem._size_er_element"]}
{"id": "C85", "title": "Load-shift sizing counts the recirculation loop once", "statement": "When a single-pass return-to-primary system is sized with load shifting and no load-up hours, the sized capacity run for the hours it may run delivers exactly the daily use plus 24 hours of loop losses.", "quantifier": "all buildings, loops, schedules without load-up hours", "why_tests_cant": "Quantifies over all schedules and parameters; an over-sized result looks plausible in a test.", "anchors": ["src/ecoengine/objects/dhwsystems/rtp_systems/SinglePassRTPSystem.py::SinglePassRTPSystem._calc_gen_rate_ls_gph", "src/ecoengine/objects/dhwsystems/rtp_systems/RTPSystem.py::RTPSystem._calc_required_capacity_ls_kbtuh"]}
{"id": "C86", "title": "Single-pass storage allows for the recirculation loop", "statement": "The storage volume of a single-pass return-to-primary system grows with the heat loss of its loop, as the class documentation says.", "quantifier": "all buildings and loops", "why_tests_cant": "A comparison between all pairs of loops.", "anchors": ["src/ecoengine/objects/dhwsystems/rtp_systems/SinglePassRTPSystem.py::SinglePassRTPSystem._calc_running_volume_supplyT_gal"]}
{"id": "C87", "title": "Reported recirculation capacity is the loop's share of the sized capacity", "statement": "After sizing, the sized capacity minus get_recirc_capacity_kbtuh() is the capacity that the daily use alone needs.", "quantifier": "all buildings, loops and schedules", "why_tests_cant": "Ranges over all schedules, including those that cap the run hours.", "anchors": ["src/ecoengine/objects/dhwsystems/rtp_systems/SinglePassRTPSystem.py::SinglePassRTPSystem.size", "src/ecoengine/objects/dhwsystems/rtp_systems/SinglePassRTPSystem.py::SinglePassRTPSystem.get_recirc_capacity_kbtuh"]}
{"id": "C88", "title": "A simulation starts with the tank charged to the ON trigger", "statement": "simulate() starts with the storage tank charged so that the water at the ON sensor is at its trigger temperature, so the first heating cycle begins only after hot water has been drawn.", "quantifier": "all sized systems, sensor heights and temperatures", "why_tests_cant": "The initial charge is a formula in the sensor height; whether it meets the trigger depends on all temperatures and the slope.", "anchors": ["src/ecoengine/interfaces/Simulator.py::simulate", "src/ecoengine/interfaces/Simulator.py::_initial_percent_useable"]}
{"id": "C89", "title": "A sized system passes its own simulation", "statement": "A system sized by from_size for a building completes the three-day simulation of that building without an outage.", "quantifier": "all buildings, control maps, slopes and run hours", "why_tests_cant": "Quantifies over every combination the sizing accepts.", "anchors": ["src/ecoengine/objects/dhwsystems/DHWSystem.py::DHWSystem.from_size", "src/ecoengine/interfaces/Simulator.py::simulate"]}
{"id": "C90", "title": "The simulation draws the building's demand", "statement": "In every recorded step the demand is the building's load at that time: from the average profile if some heater has load-up or shed controls, from the peak profile otherwise.", "quantifier": "all systems, buildings and run lengths", "why_tests_cant": "Must hold at each of up to 525600 steps for every configuration.", "anchors": ["src/ecoengine/objects/dhwsystems/DHWSystem.py::DHWSystem.simulate_step", "src/ecoengine/objects/building/Building.py::Building.get_dhw_load_supplyT_gal"]}
{"id": "C91", "title": "A simulation of a well-formed system completes", "statement": "When every query to the building has an answer and every heater has controls and a rating for every hour, simulate() returns a run and raises no exception, whatever the demand.", "quantifier": "all systems, buildings, durations and outage limits", "why_tests_cant": "Absence of exceptions over all histories.", "anchors": ["src/ecoengine/interfaces/Simulator.py::simulate", "src/ecoengine/objects/dhwsystems/DHWSystem.py::DHWSystem.simulate_step"]}
{"id": "C92", "title": "The storage that multi-pass sizing asks for holds its largest slug", "statement": "When a multi-pass return-to-primary system is sized without load shifting, the storage volume it reports is at least the largest volume of water (at the assumed outlet temperature) the heat pump has to bring up to temperature in one run.", "quantifier": "every building, loop, recovery settings, control sensors and stratification slope for which sizing completes", "why_tests_cant": "the volume comes out of a two-day minute loop and a division by a stratification factor; whether the factor can exceed one depends on sensor position, slope and temperatures together", "anchors": ["src/ecoengine/objects/dhwsystems/rtp_systems/MultiPassRTPSystem.py::MultiPassRTPSystem.size", "src/ecoengine/objects/dhwsystems/rtp_systems/MultiPassRTPSystem.py::MultiPassRTPSystem._calc_running_volume_supplyT_gal"]}
{"id": "C93", "title": "Multi-pass sizing answers for every sensor position", "statement": "For every building with demand and every ON sensor height between the bottom and the top of the tank, sizing a multi-pass system either reports a capacity and a storage volume or rejects the input with a ValueError that says why.", "quantifier": "every building, loop and control map with sensor heights in [0,1]", "why_tests_cant": "the failing combinations are a region of sensor height, slope and temperatures, not single inputs", "anchors": ["src/ecoengine/objects/dhwsystems/rtp_systems/MultiPassRTPSystem.py::MultiPassRTPSystem.size", "src/ecoengine/objects/dhwsystems/DHWSystem.py::DHWSystem._calc_avg_hot_temp_at_on_trigger"]}
{"id": "C94", "title": "The assumed outlet temperature is the mean temperature of the hot water at the ON trigger", "statement": "The delivery temperature that multi-pass sizing assumes is, for each set of controls, the mean over the tank above the supply temperature of the linear temperature profile at the moment the ON sensor triggers, and the sizing uses the least such mean over the user's controls.", "quantifier": "every control map, storage, supply and inlet temperature and slope", "why_tests_cant": "it equates a closed formula with an integral of the profile for all parameters", "anchors": ["src/ecoengine/objects/dhwsystems/DHWSystem.py::DHWSystem._calc_avg_hot_temp_at_on_trigger", "src/ecoengine/objects/dhwsystems/rtp_systems/MultiPassRTPSystem.py::MultiPassRTPSystem.size"]}
{"id": "C95", "title": "The capacity boost of multi-pass sizing only raises the capacity", "statement": "A multi-pass system created by from_size reports at least the capacity that size reports, exactly the storage volume that size reports, and simulates with one heater of exactly the reported capacity, the user's schedule and controls, and a tank of exactly the reported volume, however many trial days and iterations are used.", "quantifier": "every building, loop, control map, number of trial days and iterations", "why_tests_cant": "the boost repeats whole simulations; a test checks only the deficits that its example produces", "anchors": ["src/ecoengine/objects/dhwsystems/rtp_systems/MultiPassRTPSystem.py::MultiPassRTPSystem.from_size"]}
{"id": "C96", "title": "The multi-pass sizing curve starts at the sized system and trades run hours for capacity", "statement": "The curve of a sized multi-pass system starts, as its recommended point (index 0), with the capacity and storage the system reports. Every later point has strictly fewer run hours and a strictly larger capacity and is what from_size reports for some run-hour value between 9 hours and the system's own; the listed run hours are, to one decimal, those in which the point's capacity delivers the heat of a day. The building is left in its load-shape mode however the call ends, and a system that was never sized raises an error instead of returning a curve.", "quantifier": "every building, loop, control map, schedule, run-hour limit and positive step", "why_tests_cant": "the points come from whole sizings and trial simulations; the order of the points and the recommended index must hold for every outcome of the boost", "anchors": ["src/ecoengine/objects/dhwsystems/rtp_systems/MultiPassRTPSystem.py::MultiPassRTPSystem.get_sizing_curve", "src/ecoengine/objects/dhwsystems/rtp_systems/MultiPassRTPSystem.py::MultiPassRTPSystem.from_size"]}
{"id": "C97", "title": "Tankless sizing meets the busiest step", "statement": "The sized capacity of a tankless system is the largest output any step of its simulation asks for, as long as the cold water is at design temperature.", "quantifier": "every building, supply temperature, defrost factor, every step and every step length that divides an hour", "why_tests_cant": "the busiest hour can be any hour of any load shape, and equality must hold for all parameters", "anchors": ["src/ecoengine/objects/dhwsystems/InstantWHSystem.py::InstantWHSystem.size", "src/ecoengine/objects/dhwsystems/InstantWHSystem.py::InstantWHSystem.simulate_step"]}
{"id": "C98", "title": "The summary of a run agrees with its recorded series", "statement": "The simulation summary reports success exactly if no recorded step is without hot water, the minutes of those that are, the energy of all recorded steps, the number of recorded steps (the whole duration unless stopped), and the highest recorded power.", "quantifier": "every system, building and duration, every run, stopped early or not", "why_tests_cant": "the summary is computed incrementally during thousands of steps; it must agree with the series for every history", "anchors": ["src/ecoengine/objects/simulation/SimulationRun.py::SimulationRun.get_summary", "src/ecoengine/interfaces/EcosizerEngine.py::EcosizerEngine.get_simulation_summary"]}
{"id": "C99", "title": "A run that heats reports the power it takes", "statement": "In a simulation every step whose heater is on records the electrical power of the active heaters at that step's conditions, and the run's energy, peak demand and cost account for it.", "quantifier": "every system and building, every step of every simulation", "why_tests_cant": "it ranges over all steps of all runs; the existing tests look at the heat, not at the power, of sized systems", "anchors": ["src/ecoengine/objects/components/heating/PerformanceMap.py::PerformanceMap.get_power_in_kw", "src/ecoengine/objects/dhwsystems/DHWSystem.py::DHWSystem.simulate_step", "src/ecoengine/objects/dhwsystems/DHWSystem.py::DHWSystem.from_size"]}
{"id": "C100", "title": "The exported file is the run", "statement": "The CSV export of a run has exactly one row per recorded step, in order, at minute (step number times step length), and each row holds what the system reported at that step: demand, usable volume, output, power, temperatures. Writing it never fails.", "quantifier": "every system and building, every run of any length", "why_tests_cant": "the series are filled separately; that they stay aligned is an invariant over all steps", "anchors": ["src/ecoengine/objects/simulation/SimulationRun.py::SimulationRun.to_csv"]}
{"id": "C101", "title": "The plot shades exactly the load-shift minutes", "statement": "In the plot of a run a minute is shaded as shed or as load-up exactly if that is the mode recorded for its step; shaded ranges are in order, do not overlap and are maximal.", "quantifier": "every sequence of recorded modes and every step length", "why_tests_cant": "the blocks are found by two nested loops; the claim is about every possible sequence of modes", "anchors": ["src/ecoengine/objects/simulation/SimulationRun.py::SimulationRun.to_plotly"]}
{"id": "C102", "title": "The plotted sizing curve shows the sized system", "statement": "The points that the engine returns beside the sizing-curve figure are those of the figure, and asking for them changes neither system nor building. Without load shifting storage increases from left to right while capacity decreases, and the highlighted point is the sized storage and capacity; with load shifting there is a point for every percent from 25 to 100 and the configured one is highlighted.", "quantifier": "every system, building, control map and coverage percentage", "why_tests_cant": "it relates two separate computations of the curve and the sizing for all inputs", "anchors": ["src/ecoengine/objects/dhwsystems/DHWSystem.py::DHWSystem.plot_sizing_curve", "src/ecoengine/interfaces/EcosizerEngine.py::EcosizerEngine.plot_sizing_curve", "src/ecoengine/interfaces/EcosizerEngine.py::get_sizing_curve_plot"]}
{"id": "C103", "title": "The utility comparison shows both bills", "statement": "The comparison chart rejects runs that are not annual. The two stacked bars of each month are the month's bill of the heat-pump run and of the resistance run, and the bars of a run add up to its annual cost.", "quantifier": "every pair of runs and every rate structure built from documented parameters", "why_tests_cant": "bars of two runs are interleaved in ten series; the sums must be right for all runs and all rates", "anchors": ["src/ecoengine/interfaces/EcosizerEngine.py::get_annual_utility_comparison_graph"]}
{"id": "C104", "title": "Temperature buckets of a location", "statement": "get_oat_buckets raises ValueError unless exactly one location argument is given. For a zone, or the zone of a zip code or weather station, it counts every day of the year once, in the 5-degree bucket of its average temperature; zone numbers outside the documented range are rejected.", "quantifier": "every table of weather data and every combination of arguments", "why_tests_cant": "all combinations of arguments and all weather data", "anchors": ["src/ecoengine/interfaces/EcosizerEngine.py::get_oat_buckets", "src/ecoengine/objects/building/ClimateZone.py::ClimateZone.from_zone_id"]}
{"id": "C105", "title": "Loading a catalogue model", "statement": "A model name is accepted exactly if it is registered with performance data, otherwise ValueError; the loaded performance map has the given number of units, design temperature and nominal capacity and is single- or multi-pass as the catalogue lists it.", "quantifier": "every registry, every name and every set of arguments", "why_tests_cant": "the name is classified by three separate text tests that must agree for every name", "anchors": ["src/ecoengine/objects/components/heating/PerformanceMap.py::PerformanceMap.from_model_name", "src/ecoengine/interfaces/EcosizerEngine.py::get_list_of_models"]}
{"id": "C106", "title": "A system the engine sizes can be simulated", "statement": "A primary system sized by the engine can be simulated for three days and for a year without an exception.", "quantifier": "every building with weather data, every engine configuration", "why_tests_cant": "it connects sizing, control maps and thousands of simulation steps for all inputs", "anchors": ["src/ecoengine/objects/dhwsystems/DHWSystem.py::DHWSystem.from_size", "src/ecoengine/interfaces/Simulator.py::simulate", "src/ecoengine/interfaces/EcosizerEngine.py::EcosizerEngine.simulate_3day"]}
{"id": "C107", "title": "The load-shift tank lasts from the load-up level down to the shed level", "statement": "Let the tank of the reported storage hold, when the first shed block of the day starts, the hot water of the load-up OFF level, and let the heaters run at the reported capacity in all hours but the shed ones. Then at full coverage the tank never, over any number of days, holds less than the hot water of the shed ON level. This is claimed whenever the load-up OFF level holds more than the shed ON level.", "quantifier": "every building with a daily shape, every schedule with a shed hour, every control map, every number of hours", "why_tests_cant": "it combines capacity, storage and the two aquastat levels over an unbounded horizon, for every configuration", "anchors": ["src/ecoengine/objects/dhwsystems/DHWSystem.py::DHWSystem.size", "src/ecoengine/objects/dhwsystems/DHWSystem.py::DHWSystem._calc_storage_volume_ls_storageT_gal", "src/ecoengine/objects/dhwsystems/DHWSystem.py::DHWSystem._calc_running_volume_ls_supplyT_gal"]}
{"id": "C108", "title": "Simulating a system again gives the same run", "statement": "Calling the simulation twice on the same system, with the same building and the same settings, gives the same recorded run, whatever state the first simulation left behind.", "quantifier": "every primary system, building, stop setting and duration", "why_tests_cant": "the second run starts from whatever state thousands of steps have left behind", "anchors": ["src/ecoengine/objects/dhwsystems/DHWSystem.py::DHWSystem.simulate_step", "src/ecoengine/interfaces/Simulator.py::simulate"]}
{"id": "C109", "title": "Plots show rates in gallons per hour", "statement": "In the plot of a run the demand of every step is a rate which, kept up for the length of the step, gives the recorded demand, and the generation of every step is the flow that the recorded heater output raises from the recorded inlet temperature to the supply temperature.", "quantifier": "every run of every system, of any length and step", "why_tests_cant": "it must hold at every step of every run for both step lengths", "anchors": ["src/ecoengine/objects/simulation/SimulationRun.py::SimulationRun.to_plotly"]}
{"id": "C110", "title": "The system built after sizing is the reported one", "statement": "The system that sizing hands back has the requested temperatures, one tank of the reported storage and one heater of the reported capacity with the requested controls. In a simulation its heater gives the reported capacity or nothing at every step. Without shed hours the capacity, derated for defrost, gives in the maximum run hours (24 if none are given) exactly the heat of the design day.", "quantifier": "every building, every size request of a primary system, every simulation step", "why_tests_cant": "it connects the sizing result with every step of every simulation", "anchors": ["src/ecoengine/objects/dhwsystems/DHWSystem.py::DHWSystem.from_size", "src/ecoengine/interfaces/EcosizerEngine.py::EcosizerEngine.get_sizing_results", "src/ecoengine/objects/components/heating/WaterHeater.py::WaterHeater.from_nominal_capacity"]}
{"id": "C111", "title": "A mixed tank is usable as a whole or not at all", "statement": "The usable volume of a mixed tank is exactly the part of the tank that is at least as warm as asked for.", "quantifier": "every tank state, temperature and height", "why_tests_cant": "Continuum.", "anchors": ["src/ecoengine/objects/components/storage/MixedStorageTank.py::MixedStorageTank.get_usable_volume_supplyT_gal"]}
{"id": "C112", "title": "The failure message names the first day without hot water", "statement": "The failure message of a run is the success message exactly if every recorded step had usable hot water. Otherwise it names the outage minutes, the day of the first step without usable hot water, counted from 1, and the mean delivered temperature over the steps without.", "quantifier": "all runs of all systems with a primary tank, with and without a shown temperature-maintenance tank", "why_tests_cant": "All possible runs.", "anchors": ["src/ecoengine/objects/simulation/SimulationRun.py::SimulationRun.get_failure_message"]}
{"id": "C113", "title": "The heat balance of a run closes", "statement": "Between any two recorded steps of a run, while the cold-water and outlet temperatures do not change, the top of the tank is at outlet temperature and the tank is not full, the hot water gained is exactly the heat the heaters gave less the heat of the demand and of the recirculation loop. In any stretch without outage it is never more.", "quantifier": "all runs, all pairs of steps, all demands and heater outputs", "why_tests_cant": "It is a sum over arbitrarily many steps.", "anchors": ["src/ecoengine/objects/components/storage/StratifiedTank.py::StratifiedTank.heat", "src/ecoengine/objects/components/storage/StratifiedTank.py::StratifiedTank.draw", "src/ecoengine/objects/dhwsystems/DHWSystem.py::DHWSystem.simulate_step", "src/ecoengine/objects/dhwsystems/rtp_systems/SinglePassRTPSystem.py::SinglePassRTPSystem.simulate_step"]}
{"id": "C114", "title": "A pre-sized system carries the equipment that was given", "statement": "When the engine is given a storage volume and capacities instead of a sizing request, the system it builds has the given number of primary heaters, all off and on the given schedule, with capacities that add up to the given one; the run hours asked for; the stratification slope of its class; and temperature-maintenance heaters of the given total capacity, switched at the given temperatures or at supply temperature and 8 F above it. A swing tank always gets one resistance element.", "quantifier": "all engine parameters, buildings and schematics", "why_tests_cant": "The combinations of schematic, counts, capacities and optional temperatures are unbounded.", "anchors": ["src/ecoengine/interfaces/EcosizerEngine.py::EcosizerEngine._build_presized_dhw_system", "src/ecoengine/interfaces/EcosizerEngine.py::EcosizerEngine._build_tm_water_heater", "src/ecoengine/objects/dhwsystems/recirc_systems/SwingERTrdOffSystem.py::SwingERTrdOffSystem.from_components"]}
{"id": "C115", "title": "The load-shift sizing of a swing system carries it through the shed", "statement": "With the storage, capacity and swing tank that load-shift sizing of a swing system reports, a primary tank at the load-up level when the first shed block starts serves the covered share of the block and then a whole day, unheated in its shed hours, without falling below the shed level. The running volume is the least one that does so and the generation rate the least that makes the day's primary draw and refills during load-up.", "quantifier": "all swing systems, buildings, schedules, control maps, coverage fractions and minutes of the day", "why_tests_cant": "The demand of every minute passes through a simulated tank, and the schedule and the shape are arbitrary.", "anchors": ["src/ecoengine/objects/dhwsystems/recirc_systems/SwingSystem.py::SwingSystem._calc_prelim_vols_supplyT_gal", "src/ecoengine/objects/dhwsystems/recirc_systems/SwingSystem.py::SwingSystem._calc_gen_rate_ls_gph", "src/ecoengine/objects/dhwsystems/recirc_systems/SwingSystem.py::SwingSystem._calc_running_volume_ls_swing", "src/ecoengine/objects/dhwsystems/recirc_systems/SwingSystem.py::SwingSystem.size"]}
{"id": "C116", "title": "More coverage never needs a smaller electric element", "statement": "For a swing tank with an electric resistance addition, a larger demand never gives a smaller addition, so that the trade-off curve rises with the coverage and no percentage below one without addition needs one. The addition is the safety factor times the heat that the busiest hour and the loop take beyond what the primary and the base element give.", "quantifier": "every swing system, building and pair of daily uses", "why_tests_cant": "the addition comes out of two simulations of 2880 minutes with a hysteresis, and must be compared over all demands", "anchors": ["src/ecoengine/objects/dhwsystems/recirc_systems/SwingERTrdOffSystem.py::SwingERTrdOffSystem._size_er_element", "src/ecoengine/objects/dhwsystems/recirc_systems/SwingERTrdOffSystem.py::SwingERTrdOffSystem.get_er_sized_points"]}
{"id": "C117", "title": "A sized recirculation system is built as reported and can be simulated", "statement": "The system that sizing a swing, swing trade-off or parallel-loop system returns has the reported capacity in one primary heater on the given schedule, the reported storage in its primary tank, the reported volume in its loop tank and the reported power in its loop heater, which works between the stated temperatures. Its simulation over three days or a year completes.", "quantifier": "all swing, swing trade-off and parallel-loop systems, buildings, schedules and control maps", "why_tests_cant": "The building, the schedule and the sizing parameters are arbitrary, and a simulation has up to 52560 steps.", "anchors": ["src/ecoengine/objects/dhwsystems/recirc_systems/SwingSystem.py::SwingSystem.from_size", "src/ecoengine/objects/dhwsystems/recirc_systems/SwingERTrdOffSystem.py::SwingERTrdOffSystem.from_size", "src/ecoengine/objects/dhwsystems/recirc_systems/ParallelLoopSystem.py::ParallelLoopSystem.from_size", "src/ecoengine/interfaces/EcosizerEngine.py::EcosizerEngine.get_sizing_results"]}
{"id": "C118", "title": "A swing system delivers at supply temperature until the primary storage runs out", "statement": "In a simulation of a sized swing system, or one with an electric resistance addition, the swing tank is at or above supply temperature in every step up to the first one that reports no usable hot water. A run that is reported as successful was not stopped early.", "quantifier": "all sized swing systems, buildings, schedules and numbers of steps", "why_tests_cant": "Arbitrary demands over arbitrarily many steps with a switching element.", "anchors": ["src/ecoengine/objects/dhwsystems/recirc_systems/SwingSystem.py::SwingSystem.simulate_step", "src/ecoengine/interfaces/Simulator.py::simulate", "src/ecoengine/objects/simulation/SimulationRun.py::SimulationRun.is_successful"]}
{"id": "C119", "title": "A simulated swing system is reported as failed only if it failed to deliver", "statement": "If in a simulation of a swing system, or of one with an electric resistance addition, the water delivered was at supply temperature in every step, the run is reported as successful. In particular so is the run of a system whose element covers the loop and the busiest hour alone.", "quantifier": "all swing systems, buildings, schedules and numbers of steps", "why_tests_cant": "Arbitrary demands over arbitrarily many steps.", "anchors": ["src/ecoengine/objects/dhwsystems/recirc_systems/SwingSystem.py::SwingSystem.simulate_step", "src/ecoengine/objects/dhwsystems/recirc_systems/SwingERTrdOffSystem.py::SwingERTrdOffSystem.from_components", "src/ecoengine/objects/simulation/SimulationRun.py::SimulationRun.is_successful"]}
{"id": "C120", "title": "A figure with a slider shows the selected size, and starts at the size of the system", "statement": "The figure of a sizing curve, and the trade-off figure of the electric resistance element, can be drawn whenever the curve can be computed. At first and after every move of its slider it shows the whole curve and exactly one marker, at the point that is selected and named by the slider's label. It starts at the size of the system: the recommended point of the sizing curve, and 100 percent coverage with the sized element in the trade-off figure.", "quantifier": "every curve with or without load shifting, every trade-off curve, every slider position", "why_tests_cant": "visibility lists, labels and start indices are built in separate loops over reversed and unreversed lists of any length", "anchors": ["src/ecoengine/objects/dhwsystems/DHWSystem.py::DHWSystem.plot_sizing_curve", "src/ecoengine/objects/dhwsystems/recirc_systems/SwingERTrdOffSystem.py::SwingERTrdOffSystem.get_er_sizing_curve"]}
{"id": "C121", "title": "The electric resistance trade-off curve rises and contains the sized system", "statement": "When a swing system with electric resistance addition has been sized and needs an addition, its trade-off curve can be computed, contains 100 percent coverage, and each point is the base element plus the safety factor times the heat that the busiest hour needs, at that share of the daily use, beyond the primary heater and the base element. The element never gets smaller as the coverage grows.", "quantifier": "every sized swing system with an addition, every building and additional safety factor", "why_tests_cant": "twelve sizing runs of 2880 minutes each must be compared for all demands", "anchors": ["src/ecoengine/objects/dhwsystems/recirc_systems/SwingERTrdOffSystem.py::SwingERTrdOffSystem.get_er_sized_points", "src/ecoengine/objects/dhwsystems/recirc_systems/SwingERTrdOffSystem.py::SwingERTrdOffSystem._size_er_element"]}
{"id": "C122", "title": "The answers of an engine do not depend on the calls made before", "statement": "An engine for a system without recirculation, once constructed, gives to each call (sizing results, hot water magnitude, sizing curve, three-day or annual simulation) the answer it would have given as the first call, whatever calls were made before, in any number and order, whether or not they raised.", "quantifier": "every engine, every history of calls and every further call", "why_tests_cant": "histories of any length, with calls that raise half-way, must all lead to the same answer", "anchors": ["src/ecoengine/interfaces/EcosizerEngine.py::EcosizerEngine.simulate_3day", "src/ecoengine/interfaces/EcosizerEngine.py::EcosizerEngine.simulate_annual", "src/ecoengine/interfaces/EcosizerEngine.py::EcosizerEngine.get_sizing_results", "src/ecoengine/interfaces/EcosizerEngine.py::EcosizerEngine.get_hw_magnitude", "src/ecoengine/interfaces/EcosizerEngine.py::EcosizerEngine.plot_sizing_curve", "src/ecoengine/interfaces/EcosizerEngine.py::EcosizerEngine.plot_simulation"]}
{"id": "C123", "title": "A larger system never does worse", "statement": "If an engine with given equipment gets through its three-day simulation, so does the same engine with a heater of higher capacity, with a larger storage tank, or for a building that uses less hot water.", "quantifier": "every engine with given equipment and every larger capacity, volume or smaller daily use", "why_tests_cant": "the on/off decisions of the heater depend on the whole history, so every pair of histories has to be compared", "anchors": ["src/ecoengine/interfaces/EcosizerEngine.py::EcosizerEngine.simulate_3day", "src/ecoengine/objects/dhwsystems/DHWSystem.py::DHWSystem.simulate_step", "src/ecoengine/objects/simulation/SimulationRun.py::SimulationRun.is_successful"]}
{"id": "C124", "title": "A building is the one its lists of parts describe", "statement": "A building built from lists of types, magnitudes and load shapes is the mixed-use building of the parts they describe, one part for each position, and lists that do not match are rejected with a ValueError. The order of the parts does not matter, dividing a building into parts of the same kind does not change its demand, and a list of one part is that part.", "quantifier": "all lists of types, magnitudes and load shapes of any length, and all orders and divisions", "why_tests_cant": "lists of any length in any order, with every mixture of named and custom parts", "anchors": ["src/ecoengine/objects/building/Building.py::Building.from_building_type", "src/ecoengine/objects/building/Building.py::Building._from_multi_use", "src/ecoengine/objects/building/Building.py::Building._normalize_multi_use_shapes"]}
{"id": "C125", "title": "Simulating a system with a recirculation loop again gives the same run", "statement": "After a system with a recirculation loop (single-pass return to primary, parallel loop or swing tank) has been simulated, simulating the same object again for the same building with the same settings gives the same recorded run and leaves the same state.", "quantifier": "every system with a loop, building, stop setting and duration, and whatever the first run does", "why_tests_cant": "A run has thousands of steps, and whether the next run differs depends on the state in which the last step leaves each heater; a test sees one history.", "anchors": ["src/ecoengine/interfaces/Simulator.py::simulate", "src/ecoengine/objects/dhwsystems/recirc_systems/ParallelLoopSystem.py::ParallelLoopSystem.simulate_step", "src/ecoengine/objects/dhwsystems/recirc_systems/SwingSystem.py::SwingSystem.simulate_step", "src/ecoengine/objects/dhwsystems/rtp_systems/SinglePassRTPSystem.py::SinglePassRTPSystem.simulate_step", "src/ecoengine/objects/components/heating/WaterHeater.py::WaterHeater.update_state"]}
{"id": "C126", "title": "A parallel loop is kept at its ON temperature", "statement": "In every simulation of a parallel-loop system that was sized for its loop, the recorded temperature of the loop tank never falls below the temperature at which its heater turns on, and never rises above the larger of the OFF temperature and the temperature at which the loop takes all that the heater gives.", "quantifier": "every sized parallel-loop system, building, stop setting and duration, and every recorded step", "why_tests_cant": "The heater switches with a hysteresis over thousands of steps, and loop flow, temperatures, off time, safety factor and step length are free; a test sees one choice of them.", "anchors": ["src/ecoengine/objects/dhwsystems/recirc_systems/ParallelLoopSystem.py::ParallelLoopSystem.simulate_step", "src/ecoengine/objects/dhwsystems/recirc_systems/ParallelLoopSystem.py::ParallelLoopSystem.size_tm_system", "src/ecoengine/objects/dhwsystems/recirc_systems/ParallelLoopSystem.py::ParallelLoopSystem.from_size", "src/ecoengine/objects/components/storage/MixedStorageTank.py::MixedStorageTank.add_recirc_return"]}
{"id": "C127", "title": "The heat for a parallel loop is what the loop takes plus what its tank gains", "statement": "Over any simulation of a sized parallel-loop system, the recorded heat output of the loop heaters adds up to the loop's loss at the recorded tank temperatures, plus the heat that the tank has gained since the start. Over a long run it is therefore at least the loss at the ON temperature and at most the loss at the hottest tank temperature, up to one tank content.", "quantifier": "every sized parallel-loop system, building, stop setting, duration and length of run", "why_tests_cant": "An energy balance over thousands of steps with a switching heater has to hold exactly for all settings; a test can compare one run within a tolerance.", "anchors": ["src/ecoengine/objects/dhwsystems/recirc_systems/ParallelLoopSystem.py::ParallelLoopSystem.simulate_step", "src/ecoengine/objects/components/storage/MixedStorageTank.py::MixedStorageTank.add_recirc_return", "src/ecoengine/objects/components/storage/MixedStorageTank.py::MixedStorageTank.heat", "src/ecoengine/objects/simulation/SimulationRun.py::SimulationRun.record_timestep"]}
{"id": "C128", "title": "A building k times as large needs a system k times as large", "statement": "For every positive k: sizing for the same building with k times the daily hot water use (and, where there is a loop, k times the loop flow) has the same outcome, with the same warnings or the same exception, and a sizing that succeeds gives k times the heating capacity and k times the storage, with and without load shifting; the same holds for the temperature maintenance tank and heater of a parallel loop, for the recirculation share of a return-to-primary system, and for every point of the sizing curves, whose run hours and recommended point stay the same. It is false for swing systems: the swing tank comes from a table, so three times the building gets a tank that is not three times as large, and a large enough building cannot be sized at all.", "quantifier": "every positive factor, building, load shape (daily or annual), control schedule, control map and load-shift fraction; systems without a loop, parallel loops, single- and multi-pass return to primary; every demand for the swing refutation", "why_tests_cant": "Proportionality relates two runs of the sizing for every real factor; thresholds, tables, rounding or an absolute tolerance anywhere in the calculation would break it for some sizes only.", "anchors": ["src/ecoengine/objects/dhwsystems/DHWSystem.py::DHWSystem.size", "src/ecoengine/objects/dhwsystems/DHWSystem.py::DHWSystem.get_sizing_curve", "src/ecoengine/objects/dhwsystems/DHWSystem.py::DHWSystem.get_ls_sizing_curve", "src/ecoengine/objects/dhwsystems/recirc_systems/ParallelLoopSystem.py::ParallelLoopSystem.size", "src/ecoengine/objects/dhwsystems/recirc_systems/ParallelLoopSystem.py::ParallelLoopSystem.size_tm_system", "src/ecoengine/objects/dhwsystems/recirc_systems/SwingSystem.py::SwingSystem._size_tm_system", "src/ecoengine/objects/dhwsystems/rtp_systems/MultiPassRTPSystem.py::MultiPassRTPSystem.size"]}
{"id": "C129", "title": "Harder conditions never lead to a smaller system", "statement": "Take two sizings that succeed for the same load shape and run hours, without load shifting. If in the second one the building uses at least as much water, the mains are at most as warm, the supply temperature at least as high, the storage temperature and the defrost factor at most as high, the ON sensor at least as high in the tank with a trigger at most as warm, and the tank's temperature gradient at most as steep, then both its heating capacity and its storage are at least as large. With load shifting, more use, colder mains and a lower defrost factor never lead to a smaller capacity or storage, provided the profile at the load-up OFF level is nowhere colder than the one at the shed ON level; with contradictory controls, which the sizing accepts, colder mains can lead to a smaller storage, and a harder supply temperature, storage temperature or gradient can lead to a smaller system with sensible controls too. A higher normal ON sensor or a colder trigger never leads to a smaller capacity then, but can lead to a smaller storage.", "quantifier": "all pairs of climates, daily uses, temperatures, defrost factors, sensor positions, triggers and gradients in the sensible range, and all load shapes, control maps and schedules", "why_tests_cant": "A monotonicity statement over eight real parameters at once, through piecewise formulas with different branches for where the profile crosses supply and storage temperature.", "anchors": ["src/ecoengine/objects/dhwsystems/DHWSystem.py::DHWSystem.size", "src/ecoengine/objects/dhwsystems/DHWSystem.py::DHWSystem._calc_stratification_factor", "src/ecoengine/objects/dhwsystems/DHWSystem.py::DHWSystem._calc_supply_temp_gal_from_100gal_tank", "src/ecoengine/objects/dhwsystems/DHWSystem.py::DHWSystem._calc_storage_volume_ls_storageT_gal"]}
{"id": "C130", "title": "The reported sizes of a loop system all belong to the last successful sizing", "statement": "After any sequence of sizing calls on one system with a recirculation loop, the accessors for the primary capacity and storage, for the loop tank and its heater, and for the added capacity of an enlarged element raise RuntimeError until a call has succeeded; afterwards all of them answer what a new system sized by the last successful call alone would answer. True for parallel loops (unless a call computes a capacity of exactly zero) and for the primary plant of a swing system. False for the swing tank: a sizing that raises after the tank has been chosen leaves the tank of the failed call next to the primary plant of an earlier one; with an enlarged element the added capacity of the earlier call stays but is no longer part of the reported element.", "quantifier": "every sequence of sizing calls (buildings, schedules, control maps, slopes, fractions), every configuration", "why_tests_cant": "The statement is about all histories of succeeding and failing calls; tests size a new object once.", "anchors": ["src/ecoengine/objects/dhwsystems/recirc_systems/ParallelLoopSystem.py::ParallelLoopSystem.size", "src/ecoengine/objects/dhwsystems/recirc_systems/ParallelLoopSystem.py::ParallelLoopSystem.get_minimum_tm_volume_gal", "src/ecoengine/objects/dhwsystems/recirc_systems/ParallelLoopSystem.py::ParallelLoopSystem.get_minimum_tm_capacity_kbtuh", "src/ecoengine/objects/dhwsystems/recirc_systems/SwingSystem.py::SwingSystem.size", "src/ecoengine/objects/dhwsystems/recirc_systems/SwingSystem.py::SwingSystem.get_minimum_tm_volume_gal", "src/ecoengine/objects/dhwsystems/recirc_systems/SwingSystem.py::SwingSystem.get_minimum_tm_ca_volume_gal", "src/ecoengine/objects/dhwsystems/recirc_systems/SwingSystem.py::SwingSystem.get_minimum_tm_capacity_kbtuh", "src/ecoengine/objects/dhwsystems/recirc_systems/SwingERTrdOffSystem.py::SwingERTrdOffSystem.get_er_capacity_kbtuh", "src/ecoengine/objects/dhwsystems/recirc_systems/SwingERTrdOffSystem.py::SwingERTrdOffSystem.get_er_capacity_kw"]}
{"id": "C131", "title": "A plant k times as large behaves the same for a building k times as large", "statement": "Multiply the heaters (capacity and power under all conditions, for example by the number of identical units), the tanks and the loop flow by a positive k, and simulate for the same building with k times the hot water use: the recorded temperatures, operating modes, outage minutes and the verdict are the same, and the volumes, heat and power are k times as large. Exactly true for swing systems, whatever happens in the run, including the exceptions raised. True for primary and parallel-loop systems as long as the top of the tank is at the outlet temperature of the hour at every step. False otherwise: below that the drawn volume is found by a search that stops at a fixed width of a millionth of a gallon, so that the result depends on the size of the plant.", "quantifier": "every positive factor, plant, heater map, building, stop setting and duration", "why_tests_cant": "The statement relates two whole simulations for every real factor; an absolute tolerance or a fixed constant anywhere in a step breaks it, and a test with rounded comparison does not see it.", "anchors": ["src/ecoengine/objects/dhwsystems/DHWSystem.py::DHWSystem.simulate_step", "src/ecoengine/objects/dhwsystems/recirc_systems/SwingSystem.py::SwingSystem.simulate_step", "src/ecoengine/objects/dhwsystems/recirc_systems/ParallelLoopSystem.py::ParallelLoopSystem.simulate_step", "src/ecoengine/objects/components/storage/StratifiedTank.py::StratifiedTank.draw", "src/ecoengine/objects/components/heating/PerformanceMap.py::PklPerformanceMap.get_capacity_kbtuh"]}
{"id": "C132", "title": "Control settings that no hour of the schedule uses have no effect", "statement": "Add, remove or change settings in the control map for modes that no hour of the schedule names: the simulation is the same run, and the sizing gives the same capacity and storage. True for every simulation (primary, single-pass, parallel-loop and swing), including the exceptions raised, if the normal settings stay in both maps and both or neither map has settings for load-up or shed. True for the sizing if normal, load-up and shed settings are the same. False in general: unused shed settings make the simulation use the average day instead of the peak day and turn a sizing that succeeds into an IndexError; unused load-up settings change the storage.", "quantifier": "every plant, heater, schedule, pair of control maps, building, stop setting and duration", "why_tests_cant": "The statement relates two whole runs for all pairs of maps that agree on the scheduled modes; a test compares one pair.", "anchors": ["src/ecoengine/objects/components/heating/WaterHeater.py::WaterHeater.is_load_shifting", "src/ecoengine/objects/components/heating/WaterHeater.py::WaterHeater.get_controls_for_hour", "src/ecoengine/objects/dhwsystems/DHWSystem.py::DHWSystem.size", "src/ecoengine/objects/dhwsystems/DHWSystem.py::DHWSystem.simulate_step", "src/ecoengine/interfaces/Simulator.py::_initial_percent_useable"]}
{"id": "C133", "title": "Outside its operating range a heat pump is an electric element of its nominal capacity", "statement": "is_within_operating_bounds says yes exactly from the lowest tabulated outdoor temperature on. Where it says no, the reported capacity is the nominal capacity and all of the power becomes heat (COP 1); where it says yes, capacity and power come from the data of the map, whatever the nominal capacity. True for multi-point maps. True for grid maps where the interpolation has a value exactly inside the range. False for maps given by a single polynomial, which is evaluated outside its range as well, and for grid maps with gaps, which report the nominal capacity with COP 1.5 inside the range.", "quantifier": "every performance map, nominal capacity, number of units, outdoor, inlet and outlet temperature", "why_tests_cant": "The query and the reports are separate code that must draw the same line for every map and temperature; tests try a few temperatures on one map.", "anchors": ["src/ecoengine/objects/components/heating/PerformanceMap.py::PklPerformanceMap.is_within_operating_bounds", "src/ecoengine/objects/components/heating/PerformanceMap.py::HPWHsimPerformanceMap.is_within_operating_bounds", "src/ecoengine/objects/components/heating/PerformanceMap.py::PklPerformanceMap.get_capacity_kbtuh", "src/ecoengine/objects/components/heating/PerformanceMap.py::HPWHsimPerformanceMap.get_power_in_kw"]}
{"id": "C134", "title": "Splitting the heating capacity over several heaters changes nothing", "statement": "If each heater of a system is replaced by several heaters with the same schedule and controls whose capacities and powers add up to its own, every simulation gives the same run (every recorded value, and the verdict), or raises the same exception. Heaters of fixed capacity add up to one of the sum; m heaters of a catalogue model add up to one with m times the units.", "quantifier": "every primary, single-pass, parallel-loop, swing and multi-pass system, every way of splitting its heaters, every building, threshold and duration", "why_tests_cant": "The heaters decide one after the other and their outputs, powers, outlet temperatures and modes are collected by different rules; tests use one heater, and equality of whole runs must hold for all systems.", "anchors": ["src/ecoengine/objects/dhwsystems/DHWSystem.py::DHWSystem.simulate_step", "src/ecoengine/objects/dhwsystems/DHWSystem.py::DHWSystem._get_outlet_temp_f", "src/ecoengine/objects/components/heating/WaterHeater.py::WaterHeater.update_state", "src/ecoengine/objects/components/heating/WaterHeater.py::WaterHeater.get_output_kbtuh", "src/ecoengine/objects/components/heating/WaterHeater.py::WaterHeater.turn_on", "src/ecoengine/interfaces/Simulator.py::_initial_percent_useable"]}
{"id": "C135", "title": "A system put together from the reported sizes is the sized system", "statement": "from_components with the capacity and storage that a sized system reports, and the same temperatures, controls and slope, makes the plant that from_size built, so every simulation gives the same run. It reports no sizes of its own until size() is called (RuntimeError), and sizing it later gives the outcome and sizes of from_size whatever its components are. Its sizing curve is that of the sized system. False for the curve: unless the slope is given again, the curve uses the default slope, not the slope of the tank, and its recommended point can have half of the storage.", "quantifier": "every configuration, building, schedule, control map, slope, list of components", "why_tests_cant": "It relates two constructors and all later calls for every sizing; the tests check the attributes of one object.", "anchors": ["src/ecoengine/objects/dhwsystems/DHWSystem.py::DHWSystem.from_components", "src/ecoengine/objects/dhwsystems/DHWSystem.py::DHWSystem.from_size", "src/ecoengine/objects/dhwsystems/DHWSystem.py::DHWSystem.get_minimum_capacity_kbtuh", "src/ecoengine/objects/dhwsystems/DHWSystem.py::DHWSystem.get_minimum_storage_storageT_gal", "src/ecoengine/objects/dhwsystems/DHWSystem.py::DHWSystem.get_sizing_curve"]}
{"id": "C136", "title": "How the annual bill depends on power and rates", "statement": "Take accepted rate structures and runs of at most a year. (1) The bill depends on a structure only through its base charge and, for every month and hour of the day, the period in force and its rates: two structures that agree there, for example because one writes a season as two, give every run the same bill. (2) a times the power (a at least 0) at c times the rates gives a*c times the bill beyond the base charges. (3) With rates that are not negative, more power, higher rates, a higher base charge or a division into more periods never lower the bill; in particular a peak window with the off-peak rates never lowers it. (4) With one energy rate at all hours and no demand rate the bill is the reported total energy times the rate plus twelve base charges.", "quantifier": "every pair of accepted rate structures with at least one season and numbers as discount rates, every pair of simulation runs over the same steps within a year, every non-negative factor of the power and every factor of the rates", "why_tests_cant": "tests evaluate single bills of single structures; these are relations between all pairs of bills", "anchors": ["src/ecoengine/objects/building/UtilityCostTracker.py::UtilityCostTracker.from_params", "src/ecoengine/objects/building/UtilityCostTracker.py::UtilityCostTracker.get_energy_charge_at_step", "src/ecoengine/objects/building/UtilityCostTracker.py::UtilityCostTracker.get_demand_period_at_step", "src/ecoengine/objects/building/UtilityCostTracker.py::UtilityCostTracker.get_demand_charge_for_period", "src/ecoengine/objects/simulation/SimulationRun.py::SimulationRun.get_annual_utility_cost", "src/ecoengine/objects/simulation/SimulationRun.py::SimulationRun.get_total_energy_kwh"]}
{"id": "C137", "title": "The order in which the heaters are listed does not matter", "statement": "Two systems that differ only in the order of their water heaters give the same simulated run: the same recorded series, outage and verdict.", "quantifier": "every simulated system (primary, parallel loop, swing tank, single-pass and multi-pass return to primary), every list of heaters with any performance maps, every permutation of it, every building and duration", "why_tests_cant": "tests list one or two equal heaters; this is about all permutations of all lists over whole runs", "anchors": ["src/ecoengine/objects/dhwsystems/DHWSystem.py::DHWSystem.simulate_step", "src/ecoengine/objects/dhwsystems/DHWSystem.py::DHWSystem._get_outlet_temp_f", "src/ecoengine/interfaces/Simulator.py::_initial_percent_useable", "src/ecoengine/interfaces/Simulator.py::simulate", "src/ecoengine/objects/dhwsystems/recirc_systems/SwingSystem.py::SwingSystem.simulate_step", "src/ecoengine/objects/dhwsystems/rtp_systems/MultiPassRTPSystem.py::MultiPassRTPSystem.simulate_step"]}
{"id": "C138", "title": "The stop rule only cuts a run short", "statement": "Simulate a system with two rules for giving up (how far the delivered water may be below supply temperature, and for how many minutes), the second tolerating at least as much in both respects. If the run with the laxer rule completes without an exception, so does the run with the stricter rule; its recorded series are initial parts of those of the laxer run, its outage minutes are no more, it is stopped if the laxer run is, and if it is not stopped the series are all the same.", "quantifier": "all systems, buildings, durations and pairs of rules, the second at least as lax as the first", "why_tests_cant": "The rule interacts with the whole history of a run; a test fixes one rule and one history.", "anchors": ["src/ecoengine/interfaces/Simulator.py::simulate", "src/ecoengine/objects/simulation/SimulationRun.py::SimulationRun.check_outlet_deficit", "src/ecoengine/objects/simulation/SimulationRun.py::SimulationRun.record_timestep", "src/ecoengine/objects/simulation/SimulationRun.py::SimulationRun.record_outage"]}
{"id": "C139", "title": "A simulation looks neither ahead nor beyond its end", "statement": "Take two buildings that give the same hot water use, outdoor temperature and mains temperature for all steps before some minute. The runs of one system for the two buildings are the same records up to that minute, or the same run; and if the runs end before that minute the outcome is the same, including exceptions.", "quantifier": "all systems, durations, minutes, and pairs of buildings that agree until that minute", "why_tests_cant": "The weather of a year has 8760 values; a test compares two particular years.", "anchors": ["src/ecoengine/interfaces/Simulator.py::simulate", "src/ecoengine/objects/dhwsystems/DHWSystem.py::DHWSystem.simulate_step", "src/ecoengine/objects/dhwsystems/recirc_systems/SwingSystem.py::SwingSystem.simulate_step", "src/ecoengine/objects/dhwsystems/recirc_systems/ParallelLoopSystem.py::ParallelLoopSystem.simulate_step", "src/ecoengine/objects/building/Building.py::Building.get_design_inlet_water_temp_f"]}
{"id": "C140", "title": "Sizing depends on the climate only through the design inlet water temperature", "statement": "Move a building to another place with the same design inlet water temperature, keeping its use, load shapes and type. Every sizing call (size, the sizing curve, the load-shift sizing curve) has the same outcome, including warnings and exceptions, and leaves the same system; outdoor temperatures and the other months of the mains temperature do not matter.", "quantifier": "all buildings, pairs of climates with the same design inlet temperature, systems (primary, single-pass, multi-pass, parallel loop, swing tank, swing tank with trade-off), controls, schedules, slopes and load-shift fractions", "why_tests_cant": "The climate has thousands of numbers that sizing must ignore; a test compares two particular climates.", "anchors": ["src/ecoengine/objects/dhwsystems/DHWSystem.py::DHWSystem.size", "src/ecoengine/objects/dhwsystems/DHWSystem.py::DHWSystem.get_sizing_curve", "src/ecoengine/objects/dhwsystems/DHWSystem.py::DHWSystem.get_ls_sizing_curve", "src/ecoengine/objects/dhwsystems/recirc_systems/SwingSystem.py::SwingSystem.size", "src/ecoengine/objects/dhwsystems/recirc_systems/SwingERTrdOffSystem.py::SwingERTrdOffSystem.size", "src/ecoengine/objects/dhwsystems/rtp_systems/MultiPassRTPSystem.py::MultiPassRTPSystem.size", "src/ecoengine/objects/dhwsystems/rtp_systems/MultiPassRTPSystem.py::MultiPassRTPSystem.from_size", "src/ecoengine/objects/dhwsystems/rtp_systems/SinglePassRTPSystem.py::SinglePassRTPSystem.size", "src/ecoengine/objects/dhwsystems/recirc_systems/ParallelLoopSystem.py::ParallelLoopSystem.size", "src/ecoengine/objects/building/ClimateZone.py::ClimateZone.get_design_inlet_water_temp_f"]}
{"id": "C141", "title": "The average day counts for load shifting only, and a load-shifting run follows it alone", "statement": "Without load shifting, the average-day load shape of a building has no influence on sizing, on the sizing curve or on a simulation: results, warnings and exceptions are the same for any average day. If some heater can shift load, the peak-day load shape has no influence on a simulation: the run and its verdict are the same for any peak day. Multi-pass and tankless systems follow the peak day at all times.", "quantifier": "all buildings, all pairs of average-day shapes and of peak-day shapes, all systems, controls and durations", "why_tests_cant": "A test uses a building whose two shapes are fixed (often equal), so it cannot tell which one was read, nor in which of the steps.", "anchors": ["src/ecoengine/objects/dhwsystems/DHWSystem.py::DHWSystem.size", "src/ecoengine/objects/dhwsystems/DHWSystem.py::DHWSystem.get_sizing_curve", "src/ecoengine/objects/dhwsystems/DHWSystem.py::DHWSystem.simulate_step", "src/ecoengine/objects/dhwsystems/recirc_systems/SwingSystem.py::SwingSystem.size", "src/ecoengine/objects/dhwsystems/recirc_systems/SwingSystem.py::SwingSystem.simulate_step", "src/ecoengine/objects/dhwsystems/recirc_systems/SwingERTrdOffSystem.py::SwingERTrdOffSystem.size", "src/ecoengine/objects/dhwsystems/rtp_systems/MultiPassRTPSystem.py::MultiPassRTPSystem.size", "src/ecoengine/objects/dhwsystems/rtp_systems/MultiPassRTPSystem.py::MultiPassRTPSystem.simulate_step", "src/ecoengine/objects/dhwsystems/rtp_systems/SinglePassRTPSystem.py::SinglePassRTPSystem.size", "src/ecoengine/objects/dhwsystems/rtp_systems/SinglePassRTPSystem.py::SinglePassRTPSystem.simulate_step", "src/ecoengine/objects/dhwsystems/recirc_systems/ParallelLoopSystem.py::ParallelLoopSystem.size", "src/ecoengine/objects/dhwsystems/recirc_systems/ParallelLoopSystem.py::ParallelLoopSystem.simulate_step", "src/ecoengine/objects/building/Building.py::Building.get_dhw_load_supplyT_gal"]}
{"id": "C142", "title": "The efficiency of a run lies between the lowest and the highest COP of its heaters", "statement": "If under all outdoor and inlet temperatures of the building's climate every heater reports a COP between two bounds, the heat that the run's heaters gave off lies between the two bounds times the electrical energy that the run reports. For a swing system this holds for the primary heaters, and the element of the swing tank takes exactly what it gives off.", "quantifier": "all systems, buildings, durations, stop rules and pairs of bounds", "why_tests_cant": "The ratio is formed over thousands of steps with changing weather, several heaters and steps without power data; a test checks the COP at one point.", "anchors": ["src/ecoengine/objects/simulation/SimulationRun.py::SimulationRun.get_total_energy_kwh", "src/ecoengine/objects/components/heating/PerformanceMap.py::PerformanceMap.get_cop", "src/ecoengine/objects/dhwsystems/DHWSystem.py::DHWSystem.simulate_step", "src/ecoengine/objects/dhwsystems/recirc_systems/SwingSystem.py::SwingSystem.simulate_step", "src/ecoengine/objects/dhwsystems/rtp_systems/MultiPassRTPSystem.py::MultiPassRTPSystem.simulate_step", "src/ecoengine/objects/dhwsystems/rtp_systems/SinglePassRTPSystem.py::SinglePassRTPSystem.simulate_step", "src/ecoengine/objects/dhwsystems/recirc_systems/ParallelLoopSystem.py::ParallelLoopSystem.simulate_step"]}
{"id": "C143", "title": "Sizing does not depend on the hour from which the day is counted", "statement": "If the hours of the load shape are counted from another hour of the day (the list is rotated), sizing without load shifting gives the same capacity, storage, warnings and sizing curve, for every schematic.", "quantifier": "all buildings with a 24-hour load shape, all hours, all schematics, run hours up to 24, all settings", "why_tests_cant": "Quantifies over all load shapes and all rotations; the peak may be cut by midnight anywhere.", "anchors": ["src/ecoengine/objects/dhwsystems/DHWSystem.py::DHWSystem.size", "src/ecoengine/objects/dhwsystems/DHWSystem.py::DHWSystem._calc_running_volume_supplyT_gal", "src/ecoengine/objects/dhwsystems/DHWSystem.py::DHWSystem.get_sizing_curve", "src/ecoengine/objects/dhwsystems/recirc_systems/SwingSystem.py::SwingSystem._calc_running_volume_supplyT_gal", "src/ecoengine/objects/dhwsystems/rtp_systems/MultiPassRTPSystem.py::MultiPassRTPSystem._calc_running_volume_supplyT_gal"]}
{"id": "C144", "title": "A small change of the load shape changes the sized system only a little", "statement": "For two 24-hour load shapes of the same building that each use at most the daily use, sized without load shifting and with at most 24 run hours: the heating capacities of a primary system, a single-pass return-to-primary system and a system with a parallel loop are the same, and the storage volumes differ, relative to either of them, by at most the water by which the two days differ (summed over the hours) divided by the greatest shortfall of that day. For a tankless system the capacity changes, relative to either value, by at most the difference of the days divided by the busiest hour. The same bound on the storage volume holds for multi-pass return-to-primary systems and swing tanks.", "quantifier": "all pairs of load shapes, buildings, systems, control settings and slopes for which both sizings succeed", "why_tests_cant": "A jump shows only between two particular shapes next to each other; tests size single shapes.", "anchors": ["src/ecoengine/objects/dhwsystems/DHWSystem.py::DHWSystem.size", "src/ecoengine/objects/dhwsystems/DHWSystem.py::DHWSystem._calc_running_volume_supplyT_gal", "src/ecoengine/objects/dhwsystems/rtp_systems/MultiPassRTPSystem.py::MultiPassRTPSystem.size", "src/ecoengine/objects/dhwsystems/rtp_systems/SinglePassRTPSystem.py::SinglePassRTPSystem.size", "src/ecoengine/objects/dhwsystems/InstantWHSystem.py::InstantWHSystem.size"]}
{"id": "C145", "title": "Only differences of temperature count", "statement": "If every water temperature of a plant (supply, storage, loop return, the settings of the controls and of the loop heater, and the cold water of all months) is raised by the same number of degrees, the sizes, the sizing curve, the warnings and the exceptions stay the same, and a simulation gives the same run with the recorded water temperatures raised by that number.", "quantifier": "all plants, buildings, schedules, control settings and raises", "why_tests_cant": "A test runs at the usual temperatures; a formula that reads a temperature where a difference is meant agrees there.", "anchors": ["src/ecoengine/objects/dhwsystems/DHWSystem.py::DHWSystem.size", "src/ecoengine/objects/dhwsystems/DHWSystem.py::DHWSystem.get_sizing_curve", "src/ecoengine/objects/dhwsystems/DHWSystem.py::DHWSystem.simulate_step", "src/ecoengine/objects/dhwsystems/recirc_systems/SwingSystem.py::SwingSystem.size", "src/ecoengine/objects/dhwsystems/rtp_systems/MultiPassRTPSystem.py::MultiPassRTPSystem.size", "src/ecoengine/objects/dhwsystems/recirc_systems/ParallelLoopSystem.py::ParallelLoopSystem.size", "src/ecoengine/objects/dhwsystems/rtp_systems/SinglePassRTPSystem.py::SinglePassRTPSystem.size", "src/ecoengine/objects/dhwsystems/InstantWHSystem.py::InstantWHSystem.size", "src/ecoengine/interfaces/Simulator.py::simulate"]}
{"id": "C146", "title": "One plant for several buildings is no larger than separate plants together", "statement": "Size the same kind of system for several buildings in one place, and for one building that uses in every hour the hot water of all of them, such as a mixed-use building of these parts. The shared system needs no more heating capacity and no more storage than the separate systems together; without load shifting and loop its capacity is exactly their sum.", "quantifier": "any number of buildings with any daily uses and load shapes, any climate, temperatures, controls and run hours up to 24 a day, all systems that size", "why_tests_cant": "Subadditivity over all load shapes and any number of buildings: the worst stretch of hours of the whole is a different one from those of the parts.", "anchors": ["src/ecoengine/objects/dhwsystems/DHWSystem.py::DHWSystem.size", "src/ecoengine/objects/dhwsystems/DHWSystem.py::DHWSystem._calc_running_volume_supplyT_gal", "src/ecoengine/objects/dhwsystems/DHWSystem.py::DHWSystem._calc_gen_rate_ls_gph", "src/ecoengine/objects/building/Building.py::Building._from_multi_use", "src/ecoengine/objects/dhwsystems/InstantWHSystem.py::InstantWHSystem.size"]}
{"id": "C147", "title": "Heating capacities are proportional to the spread of the temperatures, volumes depend on their ratios only", "statement": "If every water temperature of a plant (supply, storage, loop return, the settings of the controls and of the loop heater, the cold water of all months) and the temperature gradient of the tank are multiplied by the same positive number, sizing multiplies every heating capacity by that number and leaves every storage volume, every warning, every exception and the recommended point of the sizing curve as they were. Together with the statement on differences (C145) this makes sizing independent of the temperature scale.", "quantifier": "all positive factors, buildings, climates, systems, control maps, schedules, run hours, gradients and earlier states of the system object", "why_tests_cant": "A constant in degrees hidden in one branch (a tolerance, a cap, a default) breaks the proportion only for the inputs that reach that branch; a test uses one set of temperatures.", "anchors": ["src/ecoengine/objects/dhwsystems/DHWSystem.py::DHWSystem.size", "src/ecoengine/objects/dhwsystems/DHWSystem.py::DHWSystem.get_sizing_curve", "src/ecoengine/objects/dhwsystems/recirc_systems/ParallelLoopSystem.py::ParallelLoopSystem.size", "src/ecoengine/objects/dhwsystems/rtp_systems/MultiPassRTPSystem.py::MultiPassRTPSystem.size", "src/ecoengine/objects/dhwsystems/recirc_systems/SwingSystem.py::SwingSystem.size", "src/ecoengine/objects/dhwsystems/rtp_systems/SinglePassRTPSystem.py::SinglePassRTPSystem.size", "src/ecoengine/objects/dhwsystems/InstantWHSystem.py::InstantWHSystem.size"]}
