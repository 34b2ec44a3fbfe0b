{
 "claims": [
  {
   "property": "C01",
   "status": "proved",
   "theorems": [
    "Eco.C01_running_volume_isGreatest",
    "Eco.C01_no_surplus_hour",
    "Eco.C01_zero_iff"
   ],
   "note": "Exact arithmetic. Needs daily generation >= daily use; C01_no_surplus_hour shows what the code does without it."
  },
  {
   "property": "C02",
   "status": "proved",
   "theorems": [
    "Eco.C02_running_volume_suffices",
    "Eco.C02_smaller_runs_dry"
   ],
   "note": ""
  },
  {
   "property": "C03",
   "status": "proved",
   "theorems": [
    "Eco.C03_capacity_delivers_daily_heat",
    "Eco.C03_capacity_errors",
    "Eco.C03_capacity_mono"
   ],
   "note": ""
  },
  {
   "property": "C04",
   "status": "proved",
   "theorems": [
    "Eco.C04_running_volume_mono",
    "Eco.C04_run_hours_tradeoff"
   ],
   "note": ""
  },
  {
   "property": "C05",
   "status": "proved",
   "theorems": [
    "Eco.C05_supply_gallons_is_integral",
    "Eco.C05_supply_gallons_bounds",
    "Eco.C05_supply_gallons_zero_iff",
    "Eco.C05_storage_volume_ok"
   ],
   "note": "Over the reals, as a Lebesgue integral of the assumed profile; the trigger must not exceed storage temperature (an example shows the code miscounts otherwise)."
  },
  {
   "property": "C06",
   "status": "proved",
   "theorems": [
    "Eco.C06_load_shift_never_shrinks",
    "Eco.C06_capacity_ge_without_shed"
   ],
   "note": "For every class that inherits size(); the comparison with uncapped run hours is for the base class."
  },
  {
   "property": "C07",
   "status": "proved",
   "theorems": [
    "Eco.C07_size_restores_run_hours",
    "Eco.C07_swing_size_restores_run_hours"
   ],
   "note": "Every outcome, every class that inherits size()."
  },
  {
   "property": "C08",
   "status": "partial",
   "theorems": [
    "Eco.C08_not_restored_on_error",
    "Eco.C08_mode_restored_partial",
    "Eco.C08_swing_not_restored_on_error",
    "Eco.C08_swing_mode_restored_partial"
   ],
   "note": "False of the code: C08_not_restored_on_error (an exception leaves an annual building on the daily shape). Proved for successful calls and for daily buildings."
  },
  {
   "property": "C09",
   "status": "partial",
   "theorems": [
    "Eco.C09_results_of_last_success_partial",
    "Eco.C09_size_idempotent",
    "Eco.C09_failed_call_stores_results"
   ],
   "note": "False of the code when a zero capacity is computed: C09_failed_call_stores_results. Proved for all other histories; idempotence proved."
  },
  {
   "property": "C10",
   "status": "proved",
   "theorems": [
    "Eco.C10_curve_leaves_system",
    "Eco.C10_points_are_direct_sizing",
    "Eco.C10_run_hours_decrease",
    "Eco.C10_capacity_up_storage_down"
   ],
   "note": "Order of capacity and storage for the base class on a normalised day; the rest for every class that inherits the method. Exact arithmetic for np.arange."
  },
  {
   "property": "C11",
   "status": "proved",
   "theorems": [
    "Eco.C11_recommended_point_is_sized_system",
    "Eco.C11_sweep_reaches_recommended_point"
   ],
   "note": "C11_sweep_reaches_recommended_point gives conditions under which the sweep reaches the point (run hours above 1.001 times the physical minimum)."
  },
  {
   "property": "C12",
   "status": "proved",
   "theorems": [
    "Eco.C12_recommended_index",
    "Eco.C12_curve_leaves_system",
    "Eco.C12_requires_shed",
    "Eco.C12_points_are_ls_sizing"
   ],
   "note": "The normal quantile function is a parameter."
  },
  {
   "property": "C13",
   "status": "partial",
   "theorems": [
    "Eco.C13_storage_can_shrink",
    "Eco.C13_capacity_mono",
    "Eco.C13_storage_mono_partial",
    "Eco.C13_rate_without_load_up",
    "Eco.C13_fract_mono"
   ],
   "note": "False of the code for storage when the schedule has load-up hours: C13_storage_can_shrink. Capacity is monotone; storage is monotone when the rate does not change."
  },
  {
   "property": "C14",
   "status": "proved",
   "theorems": [
    "Eco.C14_first_shed_block",
    "Eco.C14_no_shed_hour"
   ],
   "note": ""
  },
  {
   "property": "C15",
   "status": "proved",
   "theorems": [
    "Eco.C15_ls_store_never_dry",
    "Eco.C15_sized_rate_covers"
   ],
   "note": "C15_sized_rate_covers shows that the sized rate meets the covering hypothesis."
  },
  {
   "property": "C16",
   "status": "partial",
   "theorems": [
    "Eco.C16_second_block_runs_dry",
    "Eco.C16_second_day_runs_dry",
    "Eco.C16_single_block_partial",
    "Eco.C16_margin_suffices"
   ],
   "note": "False of the code for several blocks (C16_second_block_runs_dry) and on the block of the next day (C16_second_day_runs_dry). Proved for one block and a store that is full when it starts, up to the next block; C16_margin_suffices gives a volume that never runs dry, whatever the blocks."
  },
  {
   "property": "C17",
   "status": "partial",
   "theorems": [
    "Eco.C17_degenerate_schedule_raises_partial",
    "Eco.C17_not_value_error"
   ],
   "note": "size always raises, but not a ValueError: C17_not_value_error."
  },
  {
   "property": "C18",
   "status": "proved",
   "theorems": [
    "Eco.C18_schedule",
    "Eco.C18_no_list",
    "Eco.C18_controls"
   ],
   "note": "The 24-entry list as documented, the empty or absent list, and the controls attached to each label."
  },
  {
   "property": "C19",
   "status": "partial",
   "theorems": [
    "Eco.C19_all_hours_have_controls_partial",
    "Eco.C19_exact",
    "Eco.C19_load_up_without_controls"
   ],
   "note": "False in general: load_up_hours > 0 without load_up_aquastat_fract labels hours loadUp that have no controls (C19_load_up_without_controls). Exact characterisation C19_exact; all hours have controls otherwise."
  },
  {
   "property": "C20",
   "status": "partial",
   "theorems": [
    "Eco.C20_climate_argument_partial",
    "Eco.C20_lookup",
    "Eco.C20_integer_zip_rejected",
    "Eco.C20_zone_data"
   ],
   "note": "All documented forms except five-digit integers, which are documented as zip codes but always rejected (C20_integer_zip_rejected). C20_zone_data: the zone's data are its columns of the two tables."
  },
  {
   "property": "C21",
   "status": "proved",
   "theorems": [
    "Eco.C21_aliases",
    "Eco.C21_sized",
    "Eco.C21_missing_recirc",
    "Eco.C21_unknown",
    "Eco.C21_presized_never_sizes",
    "Eco.C21_presized_class",
    "Eco.C21_tm_equipment",
    "Eco.C21_errors_before_dispatch"
   ],
   "note": "Aliases equal, class and arguments passed to from_size or the constructor, ValueError for missing loop data or unknown names (provided the control list and given heaters are usable, which is needed: C21_errors_before_dispatch), pre-sized builds independent of from_size."
  },
  {
   "property": "C22",
   "status": "proved",
   "theorems": [
    "Eco.C22_listing",
    "Eco.C22_partition"
   ],
   "note": "Exactly the requested entries in catalogue order; MP and SP listings partition the requested entries."
  },
  {
   "property": "C23",
   "status": "proved",
   "theorems": [
    "Eco.C23_changes_only_on_condition",
    "Eco.C23_most_recent_decision",
    "Eco.C23_closed_form"
   ],
   "note": ""
  },
  {
   "property": "C24",
   "status": "proved",
   "theorems": [
    "Eco.C24_never_both",
    "Eco.C24_no_chatter",
    "Eco.C24_needs_sensor_order"
   ],
   "note": "Under the sensor order stated in the property; C24_needs_sensor_order shows it is needed."
  },
  {
   "property": "C25",
   "status": "proved",
   "theorems": [
    "Eco.C25_output",
    "Eco.C25_missing_controls",
    "Eco.C25_failed_update_keeps_state"
   ],
   "note": ""
  },
  {
   "property": "C26",
   "status": "partial",
   "theorems": [
    "Eco.C26_interpolates",
    "Eco.C26_agrees_at_points",
    "Eco.C26_power_between",
    "Eco.C26_capacity_between_partial",
    "Eco.C26_backup_below",
    "Eco.C26_continuous",
    "Eco.C26_capacity_above_both_points",
    "Eco.C26_extrapolates_negative"
   ],
   "note": "Interpolation, agreement at points, power betweenness, continuity, backup. Capacity betweenness is false in general (C26_capacity_above_both_points), proved when COP and power move together; extrapolated power can be negative (C26_extrapolates_negative)."
  },
  {
   "property": "C27",
   "status": "proved",
   "theorems": [
    "Eco.C27_cop",
    "Eco.C27_units_irrelevant"
   ],
   "note": ""
  },
  {
   "property": "C28",
   "status": "proved",
   "theorems": [
    "Eco.C28_fallback_order",
    "Eco.C28_total",
    "Eco.C28_outlet_not_nearest"
   ],
   "note": "The fallback order is proved; C28_outlet_not_nearest records that the outlet chosen is not always the numerically nearest."
  },
  {
   "property": "C29",
   "status": "proved",
   "theorems": [
    "Eco.C29_hour_sum",
    "Eco.C29_hours_sum",
    "Eco.C29_day_sum",
    "Eco.C29_year_sum",
    "Eco.C29_needs_divisor"
   ],
   "note": "For every interval dividing the hour: per hour, per any number of hours, per day (24-hour shape) and per year (8760-hour shape). C29_needs_divisor: a 90-minute interval breaks the sum promised by the docstring."
  },
  {
   "property": "C30",
   "status": "partial",
   "theorems": [
    "Eco.C30_validator_exact",
    "Eco.C30_named_type_partial",
    "Eco.C30_custom_type_not_validated",
    "Eco.C30_custom_average"
   ],
   "note": "The validator is exact and named types with custom shapes are accepted exactly for valid shapes; without a type a custom average day is scaled and then validated (C30_custom_average). The property is false for building_type=None (C30_custom_type_not_validated): unnormalised shapes are scaled and never checked."
  },
  {
   "property": "C31",
   "status": "proved",
   "theorems": [
    "Eco.C31_sum_of_parts",
    "Eco.C31_normalised"
   ],
   "note": "Daily use and demand at every timestep are the sums over the stand-alone parts; shapes stay normalised."
  },
  {
   "property": "C32",
   "status": "partial",
   "theorems": [
    "Eco.C32_switching_lossless_partial",
    "Eco.C32_switching_total",
    "Eco.C32_custom_shape_lost"
   ],
   "note": "Lossless for every switch history for buildings with stored shapes; false for custom shapes (C32_custom_shape_lost): the custom day is replaced by the stored one."
  },
  {
   "property": "C33",
   "status": "proved",
   "theorems": [
    "Eco.C33_month_of_hour",
    "Eco.C33_hours_per_month"
   ],
   "note": "Hour to month is exact for all 8760 hours and each month gets 24 times its days."
  },
  {
   "property": "C34",
   "status": "partial",
   "theorems": [
    "Eco.C34_validator_exact_partial",
    "Eco.C34_empty_accepted",
    "Eco.C34_discount_not_validated"
   ],
   "note": "The validator accepts exactly the structures of Spec.ValidRates and rejects all others with ValueError. The property fails in two ways, both proved: empty lists are accepted, and the discount arguments are not validated."
  },
  {
   "property": "C35",
   "status": "proved",
   "theorems": [
    "Eco.C35_right_period",
    "Eco.C35_same_period"
   ],
   "note": "For every accepted structure with at least one season (the empty one is C34/C36)."
  },
  {
   "property": "C36",
   "status": "partial",
   "theorems": [
    "Eco.C36_charges_defined_partial",
    "Eco.C36_empty_fails",
    "Eco.C36_discount_none"
   ],
   "note": "Proved for structures with a season and numeric discount charges; the empty structure and missing discount charges are proved counterexamples."
  },
  {
   "property": "C37",
   "status": "partial",
   "theorems": [
    "Eco.C37_rates_survive",
    "Eco.C37_round_trip_partial",
    "Eco.C37_classification_lost"
   ],
   "note": "Exact round trip without a discount period; rates survive with one; the peak and discount classification does not (proved for every off-peak hour of an odd month)."
  },
  {
   "property": "C38",
   "status": "proved",
   "theorems": [
    "Eco.C38_annual_cost",
    "Eco.C38_only_priced"
   ],
   "note": "For every priced run; C38_only_priced shows a cost is only reported if every step has a rate and a period."
  },
  {
   "property": "C39",
   "status": "partial",
   "theorems": [
    "Eco.C39_monthly_lists",
    "Eco.C39_monthly_sum_partial",
    "Eco.C39_built_partial",
    "Eco.C39_tm_ignored",
    "Eco.C39_csv_periods_dropped"
   ],
   "note": "True without temperature-maintenance power for every accepted rate structure (C39_built_partial); false with it (C39_tm_ignored: the monthly bills leave its power out) and for rate files with free period numbers (C39_csv_periods_dropped)."
  },
  {
   "property": "C40",
   "status": "proved",
   "theorems": [
    "Eco.C40_detailed_lists",
    "Eco.C40_detailed_sum",
    "Eco.C40_refines_monthly"
   ],
   "note": "For every accepted rate structure, with and without temperature maintenance; C40_refines_monthly compares it with the plain breakdown month by month."
  },
  {
   "property": "C41",
   "status": "partial",
   "theorems": [
    "Eco.C41_monthly_energy_exact",
    "Eco.C41_month_energy",
    "Eco.C41_total",
    "Eco.C41_monthly_energy_partial",
    "Eco.C41_tm_gap"
   ],
   "note": "True without temperature maintenance; with it the monthly totals fall short by exactly its energy (C41_monthly_energy_exact, C41_tm_gap)."
  },
  {
   "property": "C42",
   "status": "partial",
   "theorems": [
    "Eco.C42_outage_partial",
    "Eco.C42_stopped_not_successful",
    "Eco.C42_stopped_but_successful"
   ],
   "note": "Outage minutes exact. Success ignores the early stop: C42_stopped_but_successful is a stopped run reported successful (negative threshold); C42_stopped_not_successful gives the conditions under which this cannot happen."
  },
  {
   "property": "C43",
   "status": "proved",
   "theorems": [
    "Eco.C43_early_stop"
   ],
   "note": "For every system with a step function, both durations."
  },
  {
   "property": "C44",
   "status": "proved",
   "theorems": [
    "Eco.C44_series_aligned"
   ],
   "note": "For every system whose steps report six node temperatures."
  },
  {
   "property": "C45",
   "status": "partial",
   "theorems": [
    "Eco.C45_instant_never_successful",
    "Eco.C45_completes_partial"
   ],
   "note": "False for every building: C45_instant_never_successful (usable volume is reported as zero, so every minute is an outage); C45_completes_partial shows the simulation does finish."
  },
  {
   "property": "C46",
   "status": "proved",
   "theorems": [
    "Eco.C46_oat_by_hour",
    "Eco.C46_inlet_by_month",
    "Eco.C46_periodic",
    "Eco.C46_constant"
   ],
   "note": "OAT depends only on the hour of the year and inlet temperature only on the month of the day; both repeat every year; constant climates are constant."
  },
  {
   "property": "C47",
   "status": "proved",
   "theorems": [
    "Eco.C47_design_oat_is_min",
    "Eco.C47_design_inlet_is_min"
   ],
   "note": "Design temperatures are the least of the hourly / monthly values when no design value is given."
  },
  {
   "property": "C48",
   "status": "proved",
   "theorems": [
    "Eco.C48_buckets_partition_year",
    "Eco.C48_needs_hourly_data"
   ],
   "note": "The buckets partition the 365 days by their mean temperature and the counts add up to 365; without hourly data a ValueError is raised."
  },
  {
   "property": "C49",
   "status": "proved",
   "theorems": [
    "Eco.C49_profile",
    "Eco.C49_limits",
    "Eco.C49_start"
   ],
   "note": "For every history of calls."
  },
  {
   "property": "C50",
   "status": "proved",
   "theorems": [
    "Eco.C50_usable_exact",
    "Eco.C50_antitone",
    "Eco.C50_above_outlet"
   ],
   "note": "The usable volume is the volume of the part at or above the supply temperature, for supply between inlet and outlet; C50_above_outlet records what happens above the outlet temperature."
  },
  {
   "property": "C51",
   "status": "proved",
   "theorems": [
    "Eco.C51_draw",
    "Eco.C51_draw_physical",
    "Eco.C51_heat",
    "Eco.C51_draw_adds_lukewarm"
   ],
   "note": "For the temperature of the call; C51_draw_adds_lukewarm shows a draw can raise the usable volume at a lower temperature."
  },
  {
   "property": "C52",
   "status": "proved",
   "theorems": [
    "Eco.C52_mean",
    "Eco.C52_bounds"
   ],
   "note": ""
  },
  {
   "property": "C53",
   "status": "partial",
   "theorems": [
    "Eco.C53_draw_partial",
    "Eco.C53_floor",
    "Eco.C53_heat_balance",
    "Eco.C53_full_draw_leaves_hot_water"
   ],
   "note": "Heat balance and returned volume within the search tolerance whenever the tank can deliver the draw. False when the whole tank is drawn (C53_full_draw_leaves_hot_water)."
  },
  {
   "property": "C54",
   "status": "proved",
   "theorems": [
    "Eco.C54_heat_stored",
    "Eco.C54_heat_content"
   ],
   "note": ""
  },
  {
   "property": "C55",
   "status": "partial",
   "theorems": [
    "Eco.C55_init",
    "Eco.C55_nonneg",
    "Eco.C55_bounds_partial",
    "Eco.C55_rising_inlet"
   ],
   "note": "Proved for every history at a constant inlet temperature; false when the inlet gets warmer (C55_rising_inlet)."
  },
  {
   "property": "C56",
   "status": "proved",
   "theorems": [
    "Eco.C56_one",
    "Eco.C56_total",
    "Eco.C56_physical_draw"
   ],
   "note": "For every history of sensible calls whose running total stays between empty and full; C56_one gives the cut-off otherwise."
  },
  {
   "property": "C57",
   "status": "proved",
   "theorems": [
    "Eco.C57_energy_is_integral",
    "Eco.C57_mono",
    "Eco.C57_inverse",
    "Eco.C57_profile_energy"
   ],
   "note": "Over the reals: energy is the integral of the profile, monotone, and the position found reproduces the stored energy within the stated tolerance."
  },
  {
   "property": "C58",
   "status": "proved",
   "theorems": [
    "Eco.C58_draw",
    "Eco.C58_draw_empty",
    "Eco.C58_heat",
    "Eco.C58_recirc",
    "Eco.C58_loss",
    "Eco.C58_mix",
    "Eco.C58_draw_physical",
    "Eco.C58_cold_tank_unchanged"
   ],
   "note": "For every operation; a draw needs the tank at least a millionth of a degree above the make-up water (below that it books nothing, C58_cold_tank_unchanged)."
  },
  {
   "property": "C59",
   "status": "proved",
   "theorems": [
    "Eco.C59_range",
    "Eco.C59_needs_volume"
   ],
   "note": "For every history; C59_needs_volume shows the volume limit is needed."
  },
  {
   "property": "C60",
   "status": "partial",
   "theorems": [
    "Eco.C60_cap_partial",
    "Eco.C60_exceeds_outlet"
   ],
   "note": "False for every tank (C60_exceeds_outlet: the cap is commented out in the code); C60_cap_partial gives the exact condition."
  },
  {
   "property": "C61",
   "status": "proved",
   "theorems": [
    "Eco.C61_usable_bounds",
    "Eco.C61_add_to_slug_uncapped",
    "Eco.C61_inactive_exact",
    "Eco.C61_cycle_exact"
   ],
   "note": "For every history with any arguments; exactness in and out of heating cycles. C61_add_to_slug_uncapped shows the direct call is not limited, contrary to its description."
  },
  {
   "property": "C62",
   "status": "partial",
   "theorems": [
    "Eco.C62_add_water",
    "Eco.C62_add_heat",
    "Eco.C62_reported_partial",
    "Eco.C62_slug_overheats",
    "Eco.C62_overheated_energy"
   ],
   "note": "Heat balances exact and reported temperatures at most storage; the slug's own temperature is not capped (C62_slug_overheats for every tank, C62_overheated_energy)."
  },
  {
   "property": "C63",
   "status": "partial",
   "theorems": [
    "Eco.C63_balanced_partial",
    "Eco.C63_unique",
    "Eco.C63_switch",
    "Eco.C63_heat",
    "Eco.C63_idle_raises",
    "Eco.C63_storage_at_supply_raises"
   ],
   "note": "For cold < return <= supply < storage and any load/flow with something to move, the answer is the unique balanced distribution of its regime; regimes agree at the switch-over. False at rest: no load and no loop loss raises ZeroDivisionError (C63_idle_raises); storage at exactly supply temperature also raises."
  },
  {
   "property": "C64",
   "status": "proved",
   "theorems": [
    "Eco.C64_loss_is_loop_heat",
    "Eco.C64_validation",
    "Eco.C64_advice_never_helps",
    "Eco.C64_cools_in_off_time",
    "Eco.C64_recovers",
    "Eco.C64_size_reports"
   ],
   "note": "Validation is characterised exactly, cooling and recovery times are exact through the tank API, and size reports these values. The advice in the error text (raise the safety factor) never helps (C64_advice_never_helps)."
  },
  {
   "property": "C65",
   "status": "partial",
   "theorems": [
    "Eco.C65_never_off",
    "Eco.C65_turns_off_partial",
    "Eco.C65_cycles_iff_partial",
    "Eco.C65_default_settings_never_off",
    "Eco.C65_zero_flow_raises",
    "Eco.C65_full_turnover"
   ],
   "note": "False in general: with OFF at or above tmLimit (which includes the engine's default settings on loops with a drop up to 32/3 F) the heater never turns off. Exact criterion proved for from_size systems: C65_cycles_iff_partial when less than the tank volume circulates per step, C65_full_turnover for all longer steps (the 10-minute steps of a year for a loop with a small drop)."
  },
  {
   "property": "C66",
   "status": "proved",
   "theorems": [
    "Eco.C66_safety_factor",
    "Eco.C66_volume",
    "Eco.C66_ca_volume"
   ],
   "note": "The California size is 480, which may not cover the need, above 480 gallons."
  },
  {
   "property": "C67",
   "status": "proved",
   "theorems": [
    "Eco.C67_simulation_never_fails",
    "Eco.C67_equal_volume_raises",
    "Eco.C67_running_volume_never_fails",
    "Eco.C67_size_never_fails"
   ],
   "note": "Simulation, running volume and the whole size call; C67_equal_volume_raises shows why the volume must be strictly larger although the table lookup accepts equality."
  },
  {
   "property": "C68",
   "status": "proved",
   "theorems": [
    "Eco.C68_sizing_run",
    "Eco.C68_er_covers_every_minute",
    "Eco.C68_small_safety_factor_fails",
    "Eco.C68_demand"
   ],
   "note": "For er_safety_factor at least 1; it is not checked, and C68_small_safety_factor_fails shows that below 1 the enlarged element falls short in the worst minute. Holding is per simulated state, as the property says; see C83 for the whole run."
  },
  {
   "property": "C69",
   "status": "partial",
   "theorems": [
    "Eco.C69_returns_unchanged",
    "Eco.C69_points",
    "Eco.C69_start_names_100_partial",
    "Eco.C69_start_reached_iff",
    "Eco.C69_start_can_name_120",
    "Eco.C69_error_leaves_changes",
    "Eco.C69_not_needed_unchanged",
    "Eco.C69_raises_and_leaves_changes",
    "Eco.C69_start_names_120_witness"
   ],
   "note": "Unchanged on return and the points are proved. False on error (C69_raises_and_leaves_changes: no try/finally) and the start index names 120 percent when 120 percent needs no addition (C69_start_names_120_witness, and with the default safety factor C116_more_coverage_smaller_element). Proved: the start index is right exactly when 120 and 110 percent need an addition."
  },
  {
   "property": "C70",
   "status": "proved",
   "theorems": [
    "Eco.C70_multi_pass_building",
    "Eco.C70_multi_pass_capacity",
    "Eco.C70_calculation_restores_building",
    "Eco.C70_daily_use_unchanged",
    "Eco.C70_capacity_exact",
    "Eco.C70_capacity_load_shift"
   ],
   "note": "Exact without load shifting, at least with it, within the hours that are not shed; multi-pass systems cannot be load shifted and the capacity is exact. The building is unchanged on every path (the += and -= cancel in exact arithmetic; floating point may leave a rounding difference)."
  },
  {
   "property": "C71",
   "status": "proved",
   "theorems": [
    "Eco.C71_running_volume"
   ],
   "note": "The slug is reset when it reaches the storage temperature, as in the code; the docstring says supply temperature."
  },
  {
   "property": "C72",
   "status": "partial",
   "theorems": [
    "Eco.C72_multi_pass_partial",
    "Eco.C72_multi_pass_no_output_when_off",
    "Eco.C72_multi_pass_not_rising",
    "Eco.C72_physical",
    "Eco.C72_no_output_when_off",
    "Eco.C72_physical_single_pass",
    "Eco.C72_physical_parallel_loop",
    "Eco.C72_physical_swing"
   ],
   "note": "Proved for plain primary, single-pass, parallel-loop and swing systems. For multi-pass systems the bounds on volume and temperature and the zero output are proved (C72_multi_pass_partial), but temperatures that do not decrease with height is false: C72_multi_pass_not_rising."
  },
  {
   "property": "C73",
   "status": "partial",
   "theorems": [
    "Eco.C73_multi_pass_records_tank",
    "Eco.C73_primary_partial",
    "Eco.C73_single_pass",
    "Eco.C73_parallel_loop",
    "Eco.C73_swing"
   ],
   "note": "Proved for every system but multi-pass. There it is false: C73_multi_pass_records_tank shows that the recorded outdoor temperature is a tank temperature, never below that of the cold water."
  },
  {
   "property": "C74",
   "status": "partial",
   "theorems": [
    "Eco.C74_multi_family_without_gpdpp",
    "Eco.C74_other_types_use_default_partial"
   ],
   "note": "False for multi_family: without gpdpp the engine always raises ValueError (C74_multi_family_without_gpdpp); true for the other types."
  },
  {
   "property": "C75",
   "status": "proved",
   "theorems": [
    "Eco.C75_weather_stations"
   ],
   "note": ""
  },
  {
   "property": "C76",
   "status": "proved",
   "theorems": [
    "Eco.C76_output_capacity"
   ],
   "note": ""
  },
  {
   "property": "C77",
   "status": "proved",
   "theorems": [
    "Eco.C77_activate",
    "Eco.C77_heat",
    "Eco.C77_draw",
    "Eco.C77_deactivate",
    "Eco.C77_cycle",
    "Eco.C77_empty_slug_loses_heat",
    "Eco.C77_average_partial",
    "Eco.C77_average_ignores_growth"
   ],
   "note": "Over the reals, for every cycle; C77_average_ignores_growth records that the reported average draw temperature is wrong once the slug has grown."
  },
  {
   "property": "C78",
   "status": "partial",
   "theorems": [
    "Eco.C78_off_cycle_partial",
    "Eco.C78_longer_off_cycle"
   ],
   "note": "Holds when ON is not below supply; false in general (C78_longer_off_cycle)."
  },
  {
   "property": "C79",
   "status": "proved",
   "theorems": [
    "Eco.C79_heat_conserved"
   ],
   "note": ""
  },
  {
   "property": "C80",
   "status": "proved",
   "theorems": [
    "Eco.C80_running_volume"
   ],
   "note": "For the start hours the code tries."
  },
  {
   "property": "C81",
   "status": "proved",
   "theorems": [
    "Eco.C81_capacity_balances_day"
   ],
   "note": ""
  },
  {
   "property": "C82",
   "status": "partial",
   "theorems": [
    "Eco.C82_sizing_curve_keeps_results",
    "Eco.C82_ls_curve_keeps_results",
    "Eco.C82_points_are_direct_sizing",
    "Eco.C82_ls_points_are_ls_sizing_partial",
    "Eco.C82_ls_curve_below_sizing"
   ],
   "note": "Points of the sizing curve agree. False for the load-shift curve: C82_ls_curve_below_sizing, a curve asked for right after a load-shift sizing lies below it. Agreement is proved, and that the system is left unchanged, when the stored effective mix fraction is that of the normal sizing; both curves may change that stored fraction."
  },
  {
   "property": "C83",
   "status": "partial",
   "theorems": [
    "Eco.C83_enlarged_run_falls_short",
    "Eco.C83_holds_when_primary_keeps_up_partial"
   ],
   "note": "False: C83_enlarged_run_falls_short. Proved for a primary that generates every minute's demand."
  },
  {
   "property": "C84",
   "status": "partial",
   "theorems": [
    "Eco.C84_er_sizing_never_fails_partial",
    "Eco.C84_annual_building_raises"
   ],
   "note": "False for annual buildings (C84_annual_building_raises: the ER step reads the 8760-entry shape). Proved for daily shapes whose busiest minute is below the tank volume."
  },
  {
   "property": "C85",
   "status": "partial",
   "theorems": [
    "Eco.C85_loop_loss_counted_twice"
   ],
   "note": "False: C85_loop_loss_counted_twice shows the capacity covers the loop loss exactly twice. C70_capacity_load_shift is the direction that holds."
  },
  {
   "property": "C86",
   "status": "partial",
   "theorems": [
    "Eco.C86_storage_of_plain_system",
    "Eco.C86_storage_ignores_loop"
   ],
   "note": "False: C86_storage_ignores_loop. The line that adds the loop is commented out in the code; the docstrings still describe it. What is reported instead: C86_storage_of_plain_system."
  },
  {
   "property": "C87",
   "status": "partial",
   "theorems": [
    "Eco.C87_reported_share_partial",
    "Eco.C87_share_wrong_when_shifting"
   ],
   "note": "Proved without load shifting. With load shifting it is false (C87_share_wrong_when_shifting gives the exact difference)."
  },
  {
   "property": "C88",
   "status": "partial",
   "theorems": [
    "Eco.C88_starts_cold",
    "Eco.C88_fires_at_once_partial"
   ],
   "note": "False: C88_starts_cold shows the ON sensor reads cold water at the start. C88_fires_at_once_partial is what happens instead."
  },
  {
   "property": "C89",
   "status": "partial",
   "theorems": [
    "Eco.C89_sized_system_fails_own_simulation"
   ],
   "note": "False: C89_sized_system_fails_own_simulation is a sized system whose own simulation reports an outage in its first step."
  },
  {
   "property": "C90",
   "status": "proved",
   "theorems": [
    "Eco.C90_multi_pass_demand",
    "Eco.C90_demand"
   ],
   "note": ""
  },
  {
   "property": "C91",
   "status": "partial",
   "theorems": [
    "Eco.C91_grid_heater",
    "Eco.C91_table_heater",
    "Eco.C91_formula_heater",
    "Eco.C91_multi_pass_raises",
    "Eco.C91_completes_partial",
    "Eco.C91_completes_single_pass",
    "Eco.C91_completes_parallel_loop",
    "Eco.C91_completes_swing"
   ],
   "note": "Proved for plain primary, single-pass, parallel-loop and swing systems; the swing case also assumes the inlet water is no warmer than supply. C91_grid_heater, C91_table_heater and C91_formula_heater: heaters with a well-formed map of the catalogue meet the condition on heaters. False for multi-pass: C91_multi_pass_raises."
  },
  {
   "property": "C92",
   "status": "partial",
   "theorems": [
    "Eco.C92_storage_vs_slug_partial",
    "Eco.C92_tank_smaller_than_slug"
   ],
   "note": "False: C92_tank_smaller_than_slug. C92_storage_vs_slug_partial says by which factor the reported storage differs from the slug."
  },
  {
   "property": "C93",
   "status": "partial",
   "theorems": [
    "Eco.C93_completes_partial",
    "Eco.C93_load_shift_rejected",
    "Eco.C93_high_sensor_raises"
   ],
   "note": "False: C93_high_sensor_raises. C93_completes_partial says for which sensors sizing completes."
  },
  {
   "property": "C94",
   "status": "proved",
   "theorems": [
    "Eco.C94_outlet_is_mean",
    "Eco.C94_least_over_modes"
   ],
   "note": ""
  },
  {
   "property": "C95",
   "status": "proved",
   "theorems": [
    "Eco.C95_boost"
   ],
   "note": ""
  },
  {
   "property": "C96",
   "status": "proved",
   "theorems": [
    "Eco.C96_curve_leaves_building",
    "Eco.C96_curve",
    "Eco.C96_unsized_raises"
   ],
   "note": "For positive capacity, defrost factor and daily heat, a storage other than 0 and a sweep that has at least one value. The annual building returns to the annual shape of its file (see C32)."
  },
  {
   "property": "C97",
   "status": "partial",
   "theorems": [
    "Eco.C97_covers_partial",
    "Eco.C97_sixty_times"
   ],
   "note": "C97_covers_partial: the capacity covers every step whose cold water is not below design. False as stated: C97_sixty_times, the sized capacity is sixty times the largest need (a rate per hour is multiplied by 60 as if it were per minute)."
  },
  {
   "property": "C98",
   "status": "partial",
   "theorems": [
    "Eco.C98_summary_partial",
    "Eco.C98_peak_ignores_tm"
   ],
   "note": "False for the peak: C98_peak_ignores_tm, power of temperature maintenance is in the energy but not in the peak."
  },
  {
   "property": "C99",
   "status": "partial",
   "theorems": [
    "Eco.C99_sized_system_reports_no_energy",
    "Eco.C99_sized_single_pass_reports_no_energy",
    "Eco.C99_only_base_charges",
    "Eco.C99_power_partial"
   ],
   "note": "False for every system that from_size builds, plain or single-pass (C99_sized_system_reports_no_energy, C99_sized_single_pass_reports_no_energy): energy and peak are 0 and the cost is the base charges (C99_only_base_charges). Proved for heaters whose performance map knows the power (C99_power_partial)."
  },
  {
   "property": "C100",
   "status": "proved",
   "theorems": [
    "Eco.C100_rows"
   ],
   "note": "Assumes that the system reports six temperatures in every step, as all modelled systems do."
  },
  {
   "property": "C101",
   "status": "proved",
   "theorems": [
    "Eco.C101_shading"
   ],
   "note": ""
  },
  {
   "property": "C102",
   "status": "proved",
   "theorems": [
    "Eco.C102_returned_points_are_plotted",
    "Eco.C102_marker_is_sized_system",
    "Eco.C102_storage_ascending",
    "Eco.C102_load_shift_plot",
    "Eco.C102_empty_curve"
   ],
   "note": "The marker theorem assumes that the curve reaches the system's own run hours (proved in C11 for a non-flat day); C102_empty_curve: without any point the stand-alone plot function raises IndexError."
  },
  {
   "property": "C103",
   "status": "proved",
   "theorems": [
    "Eco.C103_bars",
    "Eco.C103_totals"
   ],
   "note": ""
  },
  {
   "property": "C104",
   "status": "partial",
   "theorems": [
    "Eco.C104_exactly_one_partial",
    "Eco.C104_answer",
    "Eco.C104_zone_zero"
   ],
   "note": "C104_zone_zero: zone 0 is not rejected but silently answered with the last zone."
  },
  {
   "property": "C105",
   "status": "partial",
   "theorems": [
    "Eco.C105_known_models",
    "Eco.C105_loaded",
    "Eco.C105_pass_type_partial",
    "Eco.C105_listed_single_loaded_multi"
   ],
   "note": "The pass type agrees for codes ending in _SP or _MP; C105_listed_single_loaded_multi for others (none in the shipped registry)."
  },
  {
   "property": "C106",
   "status": "partial",
   "theorems": [
    "Eco.C106_sized_can_be_simulated_partial",
    "Eco.C106_flat_use_crashes"
   ],
   "note": "Proved for a non-zero sized storage and controls for every load-up hour. False for a building with flat use: C106_flat_use_crashes."
  },
  {
   "property": "C107",
   "status": "proved",
   "theorems": [
    "Eco.C107_lasts_through_shed",
    "Eco.C107_inverted_levels_ignored"
   ],
   "note": "Stated for levels in the right order; C107_inverted_levels_ignored shows that for inverted levels the negative load-shift storage is dropped silently. A store that keeps more than it can hold is not excluded here; see C16."
  },
  {
   "property": "C108",
   "status": "partial",
   "theorems": [
    "Eco.C108_repeatable_partial",
    "Eco.C108_second_run_differs"
   ],
   "note": "False in general: the set-up of a simulation resets the tanks but not the heaters' on/off flags (`C108_second_run_differs`, a year-long run that starts with the heater off the first time and on the second time, for every stop setting from ten minutes on). Proved: run and final state are equal if the first decision turns every heater on, i.e. the sensors of the first hour lie no higher than the start level and the cold water is below the triggers."
  },
  {
   "property": "C109",
   "status": "proved",
   "theorems": [
    "Eco.C109_demand",
    "Eco.C109_generation"
   ],
   "note": ""
  },
  {
   "property": "C110",
   "status": "proved",
   "theorems": [
    "Eco.C110_built_as_reported",
    "Eco.C110_day",
    "Eco.C110_output"
   ],
   "note": ""
  },
  {
   "property": "C111",
   "status": "proved",
   "theorems": [
    "Eco.C111_usable_exact"
   ],
   "note": ""
  },
  {
   "property": "C112",
   "status": "proved",
   "theorems": [
    "Eco.C112_message",
    "Eco.C112_primary",
    "Eco.C112_swing"
   ],
   "note": "For runs of any step function whose reports have six tank temperatures and deliver from the top of the tank or the shown temperature-maintenance tank (C112_primary and C112_swing: the modelled systems do)."
  },
  {
   "property": "C113",
   "status": "proved",
   "theorems": [
    "Eco.C113_balance",
    "Eco.C113_bound",
    "Eco.C113_balance_loop"
   ],
   "note": "Exact balance for primary systems and for single-pass return-to-primary, and the bound for primary systems, in usable gallons."
  },
  {
   "property": "C114",
   "status": "proved",
   "theorems": [
    "Eco.C114_primary",
    "Eco.C114_parallel",
    "Eco.C114_swing",
    "Eco.C114_trade_off"
   ],
   "note": "With a heater model instead of a capacity the primary heaters come from the performance tables, which are not modelled."
  },
  {
   "property": "C115",
   "status": "proved",
   "theorems": [
    "Eco.C115_volume_carries_shed",
    "Eco.C115_rate",
    "Eco.C115_sized_lasts_day"
   ],
   "note": "The draws of the shed block and of the day after it come from two simulations of the swing tank that both start just above supply temperature, as in the code; the second day is not covered."
  },
  {
   "property": "C116",
   "status": "partial",
   "theorems": [
    "Eco.C116_bounds",
    "Eco.C116_peak_first_partial",
    "Eco.C116_monotone_partial",
    "Eco.C116_more_coverage_smaller_element"
   ],
   "note": "False in general: C116_more_coverage_smaller_element, a system that needs an addition at 100 percent but none at 120. Proved: upper and lower bound for every system (C116_bounds), the exact addition and monotonicity when the sizing run starts with the busiest hour of the day."
  },
  {
   "property": "C117",
   "status": "partial",
   "theorems": [
    "Eco.C117_swing_built",
    "Eco.C117_er_built",
    "Eco.C117_parallel_loop_built",
    "Eco.C117_swing_simulates_partial",
    "Eco.C117_er_simulates_partial",
    "Eco.C117_parallel_loop_simulates_partial",
    "Eco.C117_flat_use_crashes"
   ],
   "note": "Built as reported: proved (C117_swing_built, C117_er_built, C117_parallel_loop_built). Simulation: proved for a sized storage other than 0; false in general (C117_flat_use_crashes: flat use is sized with 0 gallons and its simulation divides by zero)."
  },
  {
   "property": "C118",
   "status": "proved",
   "theorems": [
    "Eco.C118_sized",
    "Eco.C118_sized_er",
    "Eco.C118_supply_until_outage"
   ],
   "note": "For positive loop flow, return below supply, supply at or below storage and outlet temperatures and cold water at or below supply temperature."
  },
  {
   "property": "C119",
   "status": "partial",
   "theorems": [
    "Eco.C119_element_alone_partial",
    "Eco.C119_delivers_but_reported_failed"
   ],
   "note": "False: C119_delivers_but_reported_failed, a trade-off system with an addition sized by the code delivers at supply temperature in all 4320 steps and is reported as failed, since the report looks at the primary storage only. C119_element_alone_partial: with an element that covers loop and busiest hour every step delivers at supply temperature and the run is not stopped. The other direction is C118."
  },
  {
   "property": "C120",
   "status": "partial",
   "theorems": [
    "Eco.C120_sizing_figure",
    "Eco.C120_curve",
    "Eco.C120_ls_curve",
    "Eco.C120_er_figure",
    "Eco.C120_starts_at_sized",
    "Eco.C120_er_starts_at_sized_partial",
    "Eco.C120_er_starts_elsewhere"
   ],
   "note": "Proved for every curve with an inside recommended index: figure drawable, exactly the curve and the selected marker visible, label of that point, at first and after every move. Starts at the sized system for the sizing curve. False for the trade-off figure (C120_er_starts_elsewhere: it can start at 120 percent); proved when 110 and 120 percent need an addition. Colours and texts are not modelled."
  },
  {
   "property": "C121",
   "status": "partial",
   "theorems": [
    "Eco.C121_curve_partial",
    "Eco.C121_safety_factor_dip"
   ],
   "note": "Proved when the sizing run starts with the busiest hour, which the tank takes at 120 percent. The rise needs the same safety factor throughout: with an own factor of 2 and the default additional factor of 1 the element drawn for 110 percent (367 kW) is smaller than the one for 100 percent (635 kW), C121_safety_factor_dip. Without the busiest hour first it is false (C116_more_coverage_smaller_element)."
  },
  {
   "property": "C122",
   "status": "partial",
   "theorems": [
    "Eco.C122_history",
    "Eco.C122_same_answer",
    "Eco.C122_same_simulation_partial",
    "Eco.C122_simulations_differ"
   ],
   "note": "Sizing results, magnitude and sizing curve: full. Simulations: proved if the day starts with normal controls, the off sensor is no higher than the on sensor and the incoming water is below the triggers; refuted in general (C122_simulations_differ), because simulate does not reset which heaters are on."
  },
  {
   "property": "C123",
   "status": "partial",
   "theorems": [
    "Eco.C123_ample_partial",
    "Eco.C123_more_capacity_fails",
    "Eco.C123_more_storage_fails",
    "Eco.C123_less_demand_fails"
   ],
   "note": "refuted for capacity, storage and demand: a heater that fills the tank earlier switches off and comes back later; proved for equipment that keeps up with every minute of demand"
  },
  {
   "property": "C124",
   "status": "partial",
   "theorems": [
    "Eco.C124_one",
    "Eco.C124_parts",
    "Eco.C124_mismatch",
    "Eco.C124_order",
    "Eco.C124_split",
    "Eco.C124_one_shape_fails"
   ],
   "note": "refuted for a list of one type with a list of one load shape, which raises; everything else proved. For a mixed-use building the argument annual is ignored"
  },
  {
   "property": "C125",
   "status": "partial",
   "theorems": [
    "Eco.C125_single_pass_partial",
    "Eco.C125_parallel_loop_partial",
    "Eco.C125_swing_partial",
    "Eco.C125_parallel_loop_differs",
    "Eco.C125_swing_differs"
   ],
   "note": "False as stated. Proved: for single-pass systems under the condition of C108; for parallel loops and swing tanks under that condition, the second run is the same exactly if the record does not show that the first left the temperature-maintenance heater on. Refuted otherwise: for parallel loops whose OFF temperature is out of reach, the engine's defaults among them, every long enough run leaves the heater on and the next run differs (`C125_parallel_loop_differs`); a swing witness is computed (`C125_swing_differs`). Missing: single-pass systems outside the condition of C108."
  },
  {
   "property": "C126",
   "status": "partial",
   "theorems": [
    "Eco.C126_holds_partial",
    "Eco.C126_sized_partial",
    "Eco.C126_falls",
    "Eco.C126_long_step_falls",
    "Eco.C126_weather_partial"
   ],
   "note": "Missing: ON above the balance temperature ret + sf*(supply-ret), or steps in which more than one tank of water goes round the loop. In both cases the property is false: C126_falls and C126_long_step_falls, with valid, sized example systems (ON 130 F at supply 120 F; the ten-minute steps of the annual simulation with a short off time). C126_weather_partial is the same for loop heaters whose capacity depends on the weather."
  },
  {
   "property": "C127",
   "status": "proved",
   "theorems": [
    "Eco.C127_balance",
    "Eco.C127_sized",
    "Eco.C127_bounds_partial",
    "Eco.C127_any_heater"
   ],
   "note": "C127_sized is the balance for every sized system; C127_balance is the same for any system with a fixed loop heater, and C127_any_heater for every loop heater that never cools, whatever the weather does to it. C127_bounds_partial adds the bounds where C126 holds."
  },
  {
   "property": "C128",
   "status": "partial",
   "theorems": [
    "Eco.C128_size_partial",
    "Eco.C128_sizing_curve",
    "Eco.C128_ls_curve",
    "Eco.C128_single_pass",
    "Eco.C128_single_pass_curve",
    "Eco.C128_parallel",
    "Eco.C128_multi_pass",
    "Eco.C128_swing_not_proportional",
    "Eco.C128_swing_too_large"
   ],
   "note": "Proved for systems without a loop, parallel loops, single-pass and multi-pass return to primary, and the sizing curves of the first and third (C128_size_partial, _sizing_curve, _ls_curve, _parallel, _single_pass, _single_pass_curve, _multi_pass). False for swing systems (C128_swing_not_proportional, C128_swing_too_large). The multi-pass theorem is about size; the trial simulation of from_size is not covered."
  },
  {
   "property": "C129",
   "status": "partial",
   "theorems": [
    "Eco.C129_harder",
    "Eco.C129_colder_load_shift_partial",
    "Eco.C129_contradictory_controls_smaller",
    "Eco.C129_load_shift_partial",
    "Eco.C129_load_shift_other_settings_smaller",
    "Eco.C129_load_shift_sensor_partial",
    "Eco.C129_load_shift_sensor_smaller"
   ],
   "note": "C129_harder proves the property without load shifting, for all parameters at once. With load shifting it is proved for more use, colder mains and a lower defrost factor together when the load-up profile lies above the shed profile (C129_load_shift_partial), false for colder mains otherwise (C129_contradictory_controls_smaller), and false for the supply temperature, the storage temperature and the gradient (C129_load_shift_other_settings_smaller). For the normal ON sensor and its trigger the capacity is proved to grow (C129_load_shift_sensor_partial); the storage can shrink (C129_load_shift_sensor_smaller). The sensors of load-up and shed, which have no harder direction, are not covered."
  },
  {
   "property": "C130",
   "status": "partial",
   "theorems": [
    "Eco.C130_parallel_partial",
    "Eco.C130_swing_primary",
    "Eco.C130_swing_partial",
    "Eco.C130_swing_mixed",
    "Eco.C130_swing_reports_two_buildings",
    "Eco.C130_er_partial",
    "Eco.C130_er_units",
    "Eco.C130_er_mixed"
   ],
   "note": "False for swing tanks (C130_swing_mixed, C130_er_mixed, witness C130_swing_reports_two_buildings): a sizing that raises late leaves its loop sizes behind. Proved for the primary plant of swing systems in full, for parallel loops without calls that compute a zero capacity (C09), and for swing systems (also with an enlarged element) when failing calls store nothing."
  },
  {
   "property": "C131",
   "status": "partial",
   "theorems": [
    "Eco.C131_swing",
    "Eco.C131_units",
    "Eco.C131_primary_partial",
    "Eco.C131_parallel_partial",
    "Eco.C131_primary_not_exact"
   ],
   "note": "exact for swing systems, including exceptions, and for the heater maps; primary and parallel-loop systems only while the top of the tank is at outlet temperature, because the search for the drawn volume stops at an absolute width, which refutes exact proportionality"
  },
  {
   "property": "C132",
   "status": "partial",
   "theorems": [
    "Eco.C132_primary_partial",
    "Eco.C132_single_pass_partial",
    "Eco.C132_parallel_partial",
    "Eco.C132_swing_partial",
    "Eco.C132_sizing_partial",
    "Eco.C132_simulation_fails",
    "Eco.C132_sizing_fails"
   ],
   "note": "Proved for all simulations (primary, single-pass, parallel loop, swing) when the normal settings stay and both or neither map can shift load, and for the sizing when normal, load-up and shed are the same. The general statement is false and its negation is proved (C132_simulation_fails, C132_sizing_fails)."
  },
  {
   "property": "C133",
   "status": "partial",
   "theorems": [
    "Eco.C133_query",
    "Eco.C133_points",
    "Eco.C133_grid_partial",
    "Eco.C133_polynomial_fails",
    "Eco.C133_grid_fails"
   ],
   "note": "Proved for multi-point maps (C133_points), and for grid maps where the interpolation is defined exactly inside the range (C133_grid_partial). False otherwise: C133_polynomial_fails, C133_grid_fails."
  },
  {
   "property": "C134",
   "status": "proved",
   "theorems": [
    "Eco.C134_primary",
    "Eco.C134_single_pass",
    "Eco.C134_parallel",
    "Eco.C134_swing",
    "Eco.C134_multi_pass",
    "Eco.C134_nominal",
    "Eco.C134_units"
   ],
   "note": "Proved for all five kinds of system, exceptions included."
  },
  {
   "property": "C135",
   "status": "partial",
   "theorems": [
    "Eco.C135_unsized",
    "Eco.C135_same_plant",
    "Eco.C135_size_later",
    "Eco.C135_curve_partial",
    "Eco.C135_curve_fails"
   ],
   "note": "The plant, the sizes and later sizing are proved. The curve is the same only if the slope is given again; otherwise it is refuted."
  },
  {
   "property": "C136",
   "status": "proved",
   "theorems": [
    "Eco.C136_scaled",
    "Eco.C136_same_tariff",
    "Eco.C136_monotone",
    "Eco.C136_flat"
   ],
   "note": "Equality, scaling, monotonicity and the flat case are proved for accepted structures; DiscountPriced (numbers as discount rates) is needed because the validator does not check them (C34, C36)."
  },
  {
   "property": "C137",
   "status": "partial",
   "theorems": [
    "Eco.C137_primary_partial",
    "Eco.C137_single_pass_partial",
    "Eco.C137_parallel_partial",
    "Eco.C137_swing_partial",
    "Eco.C137_multi_pass_partial",
    "Eco.C137_order_matters"
   ],
   "note": "False as stated: the tank starts charged to the ON sensor of the heater listed first, so with sensors at different heights the order decides how much hot water the run starts with (C137_order_matters: hot water in one order, none and a failed run in the other); the reported mode is also that of the first heater. Proved for all five kinds of system if the heaters follow one schedule and have their normal ON sensors at one height; capacities, maps and the other settings may differ."
  },
  {
   "property": "C138",
   "status": "proved",
   "theorems": [
    "Eco.C138_primary",
    "Eco.C138_single_pass",
    "Eco.C138_parallel",
    "Eco.C138_swing",
    "Eco.C138_multi_pass",
    "Eco.C138_tankless"
   ],
   "note": "Proved for the five tank systems and the tankless system, from one theorem about the simulation loop. Note what this means together with C42: a stricter rule never turns a successful run into a failed one, because the verdict counts only the outage minutes recorded before the stop."
  },
  {
   "property": "C139",
   "status": "partial",
   "theorems": [
    "Eco.C139_primary_partial",
    "Eco.C139_single_pass_partial",
    "Eco.C139_parallel_partial",
    "Eco.C139_swing_partial",
    "Eco.C139_multi_pass_partial",
    "Eco.C139_tankless",
    "Eco.C139_later_weather_matters"
   ],
   "note": "False as stated: the tank starts with the design inlet temperature, the coldest mains of the whole year, at its bottom. Colder mains in months after the simulated days change the first minute of a three-day run, from hot water to none, and the verdict (C139_later_weather_matters). Proved for the five tank systems if the two buildings have the same design inlet temperature, and for the tankless system without that condition (for runs that complete)."
  },
  {
   "property": "C140",
   "status": "partial",
   "theorems": [
    "Eco.C140_primary",
    "Eco.C140_single_pass",
    "Eco.C140_parallel",
    "Eco.C140_curves",
    "Eco.C140_curves_single_pass",
    "Eco.C140_swing",
    "Eco.C140_curves_swing",
    "Eco.C140_trade_off",
    "Eco.C140_multi_pass",
    "Eco.C140_multi_pass_built_partial"
   ],
   "note": "Proved for size of all six systems and for both curves of the primary, single-pass and swing systems. Missing: from_size of the multi-pass system runs trial simulations, which read the weather of the first days; proved for places with the same weather in those days."
  },
  {
   "property": "C141",
   "status": "proved",
   "theorems": [
    "Eco.C141_size_primary",
    "Eco.C141_size_single_pass",
    "Eco.C141_size_parallel",
    "Eco.C141_size_swing",
    "Eco.C141_size_trade_off",
    "Eco.C141_size_multi_pass",
    "Eco.C141_curve",
    "Eco.C141_normal_runs",
    "Eco.C141_shifting_runs",
    "Eco.C141_peak_runs"
   ],
   "note": ""
  },
  {
   "property": "C142",
   "status": "proved",
   "theorems": [
    "Eco.C142_primary",
    "Eco.C142_single_pass",
    "Eco.C142_parallel",
    "Eco.C142_swing",
    "Eco.C142_multi_pass"
   ],
   "note": ""
  },
  {
   "property": "C143",
   "status": "partial",
   "theorems": [
    "Eco.C143_primary",
    "Eco.C143_single_pass",
    "Eco.C143_parallel",
    "Eco.C143_tankless",
    "Eco.C143_curve",
    "Eco.C143_swing_partial",
    "Eco.C143_multi_pass_fails",
    "Eco.C143_load_shift_fails"
   ],
   "note": "Proved for primary systems, single-pass return to primary, parallel loops, tankless systems and the sizing curves. False for multi-pass systems (C143_multi_pass_fails: 1225 gallons or 720 gallons for the same building) and for load shifting, even with the schedule counted from the same hour (C143_load_shift_fails). For swing tanks C143_swing_partial gives the same storage and swing tank if no deficit begins in the last hour of the day; missing: the other days, and the heating capacity when two starts are equally bad."
  },
  {
   "property": "C144",
   "status": "partial",
   "theorems": [
    "Eco.C144_primary",
    "Eco.C144_single_pass",
    "Eco.C144_parallel",
    "Eco.C144_tankless",
    "Eco.C144_multi_pass_fails",
    "Eco.C144_load_shift",
    "Eco.C144_load_shift_single_pass",
    "Eco.C144_load_shift_parallel"
   ],
   "note": "Proved for primary systems, single-pass return to primary, parallel loops and tankless systems. False for multi-pass systems (C144_multi_pass_fails: one gallon of 1000 moved from hour 2 to hour 8 enlarges the storage from less than 368 to more than 599 gallons). With load shifting a bound is proved whose factor does not depend on the days (C144_load_shift and its variants). Missing: swing tanks."
  },
  {
   "property": "C145",
   "status": "partial",
   "theorems": [
    "Eco.C145_primary",
    "Eco.C145_single_pass",
    "Eco.C145_parallel",
    "Eco.C145_tankless",
    "Eco.C145_primary_curve",
    "Eco.C145_single_pass_curve",
    "Eco.C145_swing",
    "Eco.C145_multi_pass",
    "Eco.C145_primary_shift_curve",
    "Eco.C145_single_pass_shift_curve",
    "Eco.C145_multi_pass_simulation_partial",
    "Eco.C145_simulation_partial",
    "Eco.C145_single_pass_simulation_partial",
    "Eco.C145_parallel_simulation_partial",
    "Eco.C145_tankless_simulation",
    "Eco.C145_swing_simulation_partial",
    "Eco.C145_simulation_fails"
   ],
   "note": "Sizing is proved for all schematics, load shifting included, and the sizing curve and load-shift sizing curve for primary and single-pass systems. Simulations are proved for all schematics with heaters whose answers do not depend on the raise, if the design temperature of the cold water is known and not zero before and after. Without that the claim is false (C145_simulation_fails: the simulator takes zero for unknown). For swing tanks the heaters are assumed never to aim below the temperature of the cold water, for multi-pass systems the tank to be consistent (SlugTank.Ok, as built by the constructor)."
  },
  {
   "property": "C146",
   "status": "partial",
   "theorems": [
    "Eco.C146_primary",
    "Eco.C146_single_pass",
    "Eco.C146_load_shift_capacity",
    "Eco.C146_tankless",
    "Eco.C146_mixed_use",
    "Eco.C146_load_shift_storage_fails",
    "Eco.C146_multi_pass_fails",
    "Eco.C146_parallel_loop",
    "Eco.C146_parallel_loop_shift_capacity",
    "Eco.C146_single_pass_shift_capacity",
    "Eco.C146_swing_tank_partial",
    "Eco.C146_swing_fails"
   ],
   "note": "Proved without load shifting for primary systems, systems with a parallel loop and single-pass return to primary, for tankless systems, and with load shifting for the heating capacity of primary systems, single-pass systems and systems with a parallel loop; C146_mixed_use shows that mixed-use buildings are such buildings. False for the storage with load shifting (C146_load_shift_storage_fails), for multi-pass systems (C146_multi_pass_fails) and for swing tanks, whose volume is rounded up to a table (C146_swing_fails: 240 gallons instead of twice 100). C146_swing_tank_partial bounds the swing tank by 8/5 of the sum and gives its heating capacity as the sum. Missing: the primary storage in front of a swing tank."
  },
  {
   "property": "C147",
   "status": "partial",
   "theorems": [
    "Eco.C147_any_scale",
    "Eco.C147_any_scale_single_pass",
    "Eco.C147_any_scale_parallel",
    "Eco.C147_any_scale_multi_pass",
    "Eco.C147_any_scale_tankless",
    "Eco.C147_primary",
    "Eco.C147_single_pass",
    "Eco.C147_parallel",
    "Eco.C147_tankless",
    "Eco.C147_primary_curve",
    "Eco.C147_single_pass_curve",
    "Eco.C147_primary_shift_curve",
    "Eco.C147_single_pass_shift_curve",
    "Eco.C147_multi_pass",
    "Eco.C147_swing_fails"
   ],
   "note": "Proved for size of primary, single-pass, parallel-loop, multi-pass and tankless systems, load shifting included, and for the sizing curve and the load-shift sizing curve of primary and single-pass systems. C147_any_scale and its variants for the other schematics join it with C145: sizing in Celsius gives the storage of Fahrenheit and 5/9 of the capacity. C147_swing_fails: false of swing tanks, whose volume is read from a table of gallons by the heat lost in the loop. The sizing curve of multi-pass systems is not covered: its trial runs solve for the tank profile up to an absolute tolerance of one millionth of a Btu when less than one Btu is stored."
  }
 ]
}