{
 "claims": [
  {
   "property": "C01",
   "status": "proved",
   "theorems": [
    "S2E.RingBuffer.C01_ring_fifo",
    "S2E.RingBuffer.C01_capacity_tight"
   ],
   "note": ""
  },
  {
   "property": "C02",
   "status": "proved",
   "theorems": [
    "S2E.RingBuffer.C02_ring_history"
   ],
   "note": ""
  },
  {
   "property": "C03",
   "status": "proved",
   "theorems": [
    "S2E.RingBuffer.C03_ring_safe",
    "S2E.RingBuffer.C03_ring_zero_diverges"
   ],
   "note": ""
  },
  {
   "property": "C04",
   "status": "proved",
   "theorems": [
    "S2E.ObcUart.C04_uart_streams",
    "S2E.ObcUart.C04_uart_noninterference"
   ],
   "note": ""
  },
  {
   "property": "C05",
   "status": "proved",
   "theorems": [
    "S2E.ObcUart.C05_uart_lifecycle"
   ],
   "note": ""
  },
  {
   "property": "C06",
   "status": "partial",
   "theorems": [
    "S2E.ObcUart.C06_requested_sizes_fail",
    "S2E.ObcUart.C06_sizes_partial",
    "S2E.UartComm.C06_component_sizes"
   ],
   "note": "The documented order is false (C06_requested_sizes_fail); proved with the two sizes exchanged, and for the sizes a component requests, which come out right."
  },
  {
   "property": "C07",
   "status": "partial",
   "theorems": [
    "S2E.UartComm.C07_receive_exact",
    "S2E.UartComm.C07_receive_overflow",
    "S2E.UartComm.C07_receive_partial"
   ],
   "note": "False for offset>0 (C07_receive_overflow, exact condition in C07_receive_exact); proved for offset=0."
  },
  {
   "property": "C08",
   "status": "partial",
   "theorems": [
    "S2E.UartComm.C08_send_partial",
    "S2E.UartComm.C08_send_overread"
   ],
   "note": "False when the receive buffer is larger than the transmit buffer (C08_send_overread); proved otherwise."
  },
  {
   "property": "C09",
   "status": "proved",
   "theorems": [
    "S2E.I2cPort.C09_i2c_map"
   ],
   "note": ""
  },
  {
   "property": "C10",
   "status": "proved",
   "theorems": [
    "S2E.I2cPort.C10_i2c_sequential"
   ],
   "note": ""
  },
  {
   "property": "C11",
   "status": "proved",
   "theorems": [
    "S2E.I2cPort.C11_i2c_command_buffer",
    "S2E.I2cPort.C11_i2c_command_effects"
   ],
   "note": ""
  },
  {
   "property": "C12",
   "status": "partial",
   "theorems": [
    "S2E.ObcI2c.C12_block_roundtrip_partial",
    "S2E.ObcI2c.C12_plain_read_exact",
    "S2E.ObcI2c.C12_plain_fails",
    "S2E.ObcI2c.C12_obc_to_component"
   ],
   "note": "Proved for ObcWithC2a (component and OBC side); false for the plain OnBoardComputer (C12_plain_fails, exact behaviour in C12_plain_read_exact)."
  },
  {
   "property": "C13",
   "status": "proved",
   "theorems": [
    "S2E.GpioPort.C13_gpio",
    "S2E.ObcGpio.C13_obc_gpio"
   ],
   "note": ""
  },
  {
   "property": "C14",
   "status": "proved",
   "theorems": [
    "S2E.Slip.C14_slip_roundtrip"
   ],
   "note": ""
  },
  {
   "property": "C15",
   "status": "proved",
   "theorems": [
    "S2E.Slip.C15_slip_self_delimiting"
   ],
   "note": ""
  },
  {
   "property": "C16",
   "status": "proved",
   "theorems": [
    "S2E.Slip.C16_slip_length"
   ],
   "note": ""
  },
  {
   "property": "C17",
   "status": "proved",
   "theorems": [
    "S2E.Slip.C17_slip_decode_safety"
   ],
   "note": ""
  },
  {
   "property": "C18",
   "status": "partial",
   "theorems": [
    "S2E.Endian.C18_endian_reverse_partial",
    "S2E.Endian.C18_endian_involution",
    "S2E.Endian.C18_endian_zero"
   ],
   "note": "Proved for n>=1; for n=0 one byte is copied (C18_endian_zero)."
  },
  {
   "property": "C19",
   "status": "proved",
   "theorems": [
    "S2E.C19_quantization_grid",
    "S2E.C19_quantization_structure"
   ],
   "note": ""
  },
  {
   "property": "C20",
   "status": "proved",
   "theorems": [
    "S2E.Clock.C20_prescaled_rate"
   ],
   "note": ""
  },
  {
   "property": "C21",
   "status": "proved",
   "theorems": [
    "S2E.Clock.C21_tick_order",
    "S2E.Clock.C21_registration"
   ],
   "note": ""
  },
  {
   "property": "C22",
   "status": "proved",
   "theorems": [
    "S2E.Clock.C22_power_gating",
    "S2E.Clock.C22_off_instants"
   ],
   "note": ""
  },
  {
   "property": "C23",
   "status": "proved",
   "theorems": [
    "S2E.C23_update",
    "S2E.C23_trip_latches",
    "S2E.C23_set_voltage",
    "S2E.C23_zero_minimum_unspecified"
   ],
   "note": ""
  },
  {
   "property": "C24",
   "status": "proved",
   "theorems": [
    "S2E.C24_nonneg",
    "S2E.C24_exact_balance"
   ],
   "note": ""
  },
  {
   "property": "C25",
   "status": "proved",
   "theorems": [
    "S2E.C25_pcu_lifecycle",
    "S2E.C25_pcu_independent"
   ],
   "note": ""
  },
  {
   "property": "C26",
   "status": "proved",
   "theorems": [
    "S2E.C26_flags_periodic",
    "S2E.C26_spacing"
   ],
   "note": ""
  },
  {
   "property": "C27",
   "status": "proved",
   "theorems": [
    "S2E.C27_log_periodic"
   ],
   "note": ""
  },
  {
   "property": "C28",
   "status": "proved",
   "theorems": [
    "S2E.C28_stops_at_first_excess",
    "S2E.C28_terminates"
   ],
   "note": ""
  },
  {
   "property": "C29",
   "status": "proved",
   "theorems": [
    "S2E.C29_uniform_clocks"
   ],
   "note": ""
  },
  {
   "property": "C30",
   "status": "proved",
   "theorems": [
    "S2E.C30_log_rows"
   ],
   "note": ""
  },
  {
   "property": "C31",
   "status": "proved",
   "theorems": [
    "S2E.C31_display",
    "S2E.C31_display_short"
   ],
   "note": ""
  },
  {
   "property": "C32",
   "status": "proved",
   "theorems": [
    "S2E.C32_pacing",
    "S2E.C32_short_overrun_tolerated",
    "S2E.C32_first_step_unprotected"
   ],
   "note": ""
  },
  {
   "property": "C33",
   "status": "proved",
   "theorems": [
    "S2E.MonteCarlo.C33_runs_requested_cases",
    "S2E.MonteCarlo.C33_fresh",
    "S2E.MonteCarlo.C33_save_log"
   ],
   "note": ""
  },
  {
   "property": "C34",
   "status": "proved",
   "theorems": [
    "S2E.MonteCarlo.C34_untouched",
    "S2E.MonteCarlo.C34_no_randomization",
    "S2E.MonteCarlo.C34_last_draw"
   ],
   "note": ""
  },
  {
   "property": "C35",
   "status": "proved",
   "theorems": [
    "S2E.MonteCarlo.C35_parameters",
    "S2E.MonteCarlo.C35_key_injective",
    "S2E.MonteCarlo.C35_key_collision",
    "S2E.MonteCarlo.C35_objects"
   ],
   "note": ""
  },
  {
   "property": "C36",
   "status": "proved",
   "theorems": [
    "S2E.MonteCarlo.C36_cartesian_uniform",
    "S2E.MonteCarlo.C36_cartesian_short",
    "S2E.MonteCarlo.C36_circular",
    "S2E.MonteCarlo.C36_spherical_uniform",
    "S2E.MonteCarlo.C36_spherical_normal",
    "S2E.MonteCarlo.C36_quaternion_unit",
    "S2E.MonteCarlo.C36_uniform_doubles_angle"
   ],
   "note": ""
  },
  {
   "property": "C37",
   "status": "proved",
   "theorems": [
    "S2E.Time.C37_epoch_roundtrip",
    "S2E.Time.C37_calendar_roundtrip",
    "S2E.Time.C37_beyond_int_range"
   ],
   "note": ""
  },
  {
   "property": "C38",
   "status": "proved",
   "theorems": [
    "S2E.Time.C38_gregorian",
    "S2E.Time.C38_wrong_from_2100"
   ],
   "note": ""
  },
  {
   "property": "C39",
   "status": "proved",
   "theorems": [
    "S2E.Time.C39_order",
    "S2E.Time.C39_total_order",
    "S2E.Time.C39_needs_normal"
   ],
   "note": ""
  },
  {
   "property": "C40",
   "status": "proved",
   "theorems": [
    "S2E.Time.C40_add",
    "S2E.Time.C40_add_not_normalised",
    "S2E.Time.C40_sub",
    "S2E.Time.C40_add_sub",
    "S2E.Time.C40_sub_wraps"
   ],
   "note": ""
  },
  {
   "property": "C41",
   "status": "proved",
   "theorems": [
    "S2E.Time.C41_invalid",
    "S2E.Time.C41_spill"
   ],
   "note": ""
  },
  {
   "property": "C42",
   "status": "proved",
   "theorems": [
    "S2E.Time.C42_week",
    "S2E.Time.C42_roundtrip",
    "S2E.Time.C42_from_week",
    "S2E.Time.C42_utc",
    "S2E.Time.C42_before_epoch"
   ],
   "note": ""
  },
  {
   "property": "C43",
   "status": "proved",
   "theorems": [
    "S2E.Random.C43_recurrence",
    "S2E.Random.C43_no_overflow",
    "S2E.Random.C43_degenerate",
    "S2E.Random.C43_large_seed",
    "S2E.Random.C43_park_miller_check"
   ],
   "note": ""
  },
  {
   "property": "C44",
   "status": "proved",
   "theorems": [
    "S2E.Random.C44_period",
    "S2E.Random.C44_all_states"
   ],
   "note": ""
  },
  {
   "property": "C45",
   "status": "proved",
   "theorems": [
    "S2E.Random.C45_stream",
    "S2E.Random.C45_reseed"
   ],
   "note": ""
  },
  {
   "property": "C46",
   "status": "proved",
   "theorems": [
    "S2E.Random.C46_seeds",
    "S2E.Random.C46_all_seeds"
   ],
   "note": ""
  },
  {
   "property": "C47",
   "status": "proved",
   "theorems": [
    "S2E.Random.C47_std_zero",
    "S2E.Random.C47_pairs",
    "S2E.Random.C47_affine",
    "S2E.Random.C47_terminates",
    "S2E.Random.C47_degenerate_hangs",
    "S2E.Random.C47_reseed_keeps_held",
    "S2E.Random.C47_reseed_differs"
   ],
   "note": ""
  },
  {
   "property": "C48",
   "status": "proved",
   "theorems": [
    "S2E.Random.C48_rate",
    "S2E.Random.C48_inward",
    "S2E.Random.C48_zero_noise",
    "S2E.Random.C48_step_weight"
   ],
   "note": ""
  },
  {
   "property": "C49",
   "status": "proved",
   "theorems": [
    "S2E.SensorBase.C49_range_check",
    "S2E.SensorBase.C49_clip",
    "S2E.SensorBase.C49_output"
   ],
   "note": ""
  },
  {
   "property": "C50",
   "status": "proved",
   "theorems": [
    "S2E.SensorBase.C50_measure",
    "S2E.SensorBase.C50_noise_free",
    "S2E.SensorBase.C50_bias",
    "S2E.SensorBase.C50_ideal_frame_sensor"
   ],
   "note": ""
  },
  {
   "property": "C51",
   "status": "proved",
   "theorems": [
    "S2E.LogProps.C51_scalar",
    "S2E.LogProps.C51_vector",
    "S2E.LogProps.C51_matrix",
    "S2E.LogProps.C51_quaternion",
    "S2E.LogProps.C51_file",
    "S2E.LogProps.C51_disabled",
    "S2E.LogProps.C51_relative",
    "S2E.LogProps.C51_temperature",
    "S2E.LogProps.C51_ground_station",
    "S2E.LogProps.C51_telescope",
    "S2E.LogProps.C51_celestial",
    "S2E.LogProps.C51_gnss",
    "S2E.LogProps.C51_reaction_wheel"
   ],
   "note": ""
  },
  {
   "property": "C52",
   "status": "proved",
   "theorems": [
    "S2E.IniRead.C52_plain",
    "S2E.IniRead.C52_comment",
    "S2E.IniRead.C52_settings_dir",
    "S2E.IniRead.C52_missing",
    "S2E.IniRead.C52_enable",
    "S2E.IniRead.C52_enable_plain",
    "S2E.IniRead.C52_keys_distinct",
    "S2E.IniRead.C52_vector",
    "S2E.IniRead.C52_double_array",
    "S2E.IniRead.C52_list",
    "S2E.IniRead.C52_list_null",
    "S2E.IniRead.C52_quaternion",
    "S2E.IniRead.C52_char_buffer"
   ],
   "note": ""
  },
  {
   "property": "C53",
   "status": "proved",
   "theorems": [
    "S2E.Csv.C53_split_join",
    "S2E.Csv.C53_trailing_empty",
    "S2E.Csv.C53_split_terminated",
    "S2E.Csv.C53_join_split",
    "S2E.Csv.C53_csv",
    "S2E.Csv.C53_csv_plain",
    "S2E.Csv.C53_csv_bad_cell"
   ],
   "note": ""
  },
  {
   "property": "C54",
   "status": "proved",
   "theorems": [
    "S2E.C2a.C54_unsigned",
    "S2E.C2a.C54_signed",
    "S2E.C2a.C54_decode",
    "S2E.C2a.C54_raw",
    "S2E.C2a.C54_float",
    "S2E.C2a.C54_hex_is_zero"
   ],
   "note": ""
  },
  {
   "property": "C55",
   "status": "proved",
   "theorems": [
    "S2E.C2a.C55_schedule",
    "S2E.C2a.C55_disabled",
    "S2E.C2a.C55_load",
    "S2E.C2a.C55_wait_line",
    "S2E.C2a.C55_other_lines",
    "S2E.C2a.C55_indented_comment_ub",
    "S2E.C2a.C55_wait_without_time_ub",
    "S2E.C2a.C55_eol_line"
   ],
   "note": ""
  },
  {
   "property": "C56",
   "status": "proved",
   "theorems": [
    "S2E.Gnss.C56_index_to_number",
    "S2E.Gnss.C56_roundtrip",
    "S2E.Gnss.C56_number_to_index",
    "S2E.Gnss.C56_invalid_numbers"
   ],
   "note": ""
  },
  {
   "property": "C57",
   "status": "proved",
   "theorems": [
    "S2E.Gnss.C57_merge_parse",
    "S2E.Gnss.C57_increment",
    "S2E.Gnss.C57_iterate",
    "S2E.Gnss.C57_gregorian",
    "S2E.Gnss.C57_file_names"
   ],
   "note": ""
  },
  {
   "property": "C58",
   "status": "proved",
   "theorems": [
    "S2E.Eps.C58_step",
    "S2E.Eps.C58_history",
    "S2E.Eps.C58_setters_unchecked"
   ],
   "note": ""
  },
  {
   "property": "C59",
   "status": "proved",
   "theorems": [
    "S2E.Eps.C59_history",
    "S2E.Eps.C59_restores",
    "S2E.Eps.C59_full_discharge",
    "S2E.Eps.C59_initialisation"
   ],
   "note": ""
  },
  {
   "property": "C60",
   "status": "proved",
   "theorems": [
    "S2E.Eps.C60_exact",
    "S2E.Eps.C60_limits",
    "S2E.Eps.C60_overload",
    "S2E.Eps.C60_overload_witness"
   ],
   "note": ""
  },
  {
   "property": "C61",
   "status": "proved",
   "theorems": [
    "S2E.Eps.C61_power",
    "S2E.Eps.C61_scenario",
    "S2E.Eps.C61_no_local"
   ],
   "note": ""
  },
  {
   "property": "C62",
   "status": "proved",
   "theorems": [
    "S2E.Eps.C62_lookup",
    "S2E.Eps.C62_initialize",
    "S2E.Eps.C62_short_row"
   ],
   "note": ""
  },
  {
   "property": "C63",
   "status": "proved",
   "theorems": [
    "S2E.HilsI2c.C63_pointer_and_registers",
    "S2E.HilsI2c.C63_counter_step",
    "S2E.HilsI2c.C63_counter",
    "S2E.HilsI2c.C63_send",
    "S2E.HilsI2c.C63_store_telemetry",
    "S2E.HilsI2c.C63_example_sends_wrong_window"
   ],
   "note": ""
  },
  {
   "property": "C64",
   "status": "proved",
   "theorems": [
    "S2E.C64_inverse",
    "S2E.C64_isometry",
    "S2E.C64_linear"
   ],
   "note": ""
  },
  {
   "property": "C65",
   "status": "proved",
   "theorems": [
    "S2E.C65_composition",
    "S2E.C65_group"
   ],
   "note": ""
  },
  {
   "property": "C66",
   "status": "proved",
   "theorems": [
    "S2E.C66_dcm_rotation",
    "S2E.C66_dcm_acts",
    "S2E.C66_dcm_product"
   ],
   "note": ""
  },
  {
   "property": "C67",
   "status": "proved",
   "theorems": [
    "S2E.C67_dcm_roundtrip",
    "S2E.C67_quaternion_roundtrip"
   ],
   "note": ""
  },
  {
   "property": "C68",
   "status": "proved",
   "theorems": [
    "S2E.C68_from_euler",
    "S2E.C68_euler_roundtrip",
    "S2E.C68_quaternion_roundtrip",
    "S2E.C68_gimbal_lock"
   ],
   "note": ""
  },
  {
   "property": "C69",
   "status": "proved",
   "theorems": [
    "S2E.C69_normalize",
    "S2E.C69_axis_angle"
   ],
   "note": ""
  },
  {
   "property": "C70",
   "status": "proved",
   "theorems": [
    "S2E.C70_two_vectors",
    "S2E.C70_short_vector_aborts"
   ],
   "note": ""
  },
  {
   "property": "C71",
   "status": "proved",
   "theorems": [
    "S2E.C71_normalized_vector",
    "S2E.C71_angle",
    "S2E.C71_outer_product",
    "S2E.C71_orthogonal_unit"
   ],
   "note": ""
  },
  {
   "property": "C72",
   "status": "proved",
   "theorems": [
    "S2E.C72_polar"
   ],
   "note": ""
  },
  {
   "property": "C73",
   "status": "proved",
   "theorems": [
    "S2E.Lu.C73_inverse"
   ],
   "note": ""
  },
  {
   "property": "C74",
   "status": "partial",
   "theorems": [
    "S2E.LogProps.C74_vector_names",
    "S2E.LogProps.C74_matrix_names_partial",
    "S2E.LogProps.C74_matrix_names_collide",
    "S2E.LogProps.C74_ground_station_names_collide",
    "S2E.LogProps.C74_relative_names"
   ],
   "note": "Vector and relative-information columns proved distinct for all sizes; matrix columns only for indices below ten (C74_matrix_names_collide is the counterexample beyond), ground-station position columns collide (C74_ground_station_names_collide)."
  },
  {
   "property": "C75",
   "status": "proved",
   "theorems": [
    "S2E.C2a.C75_rt",
    "S2E.C2a.C75_tl",
    "S2E.C2a.C75_unknown_sends_zero",
    "S2E.C2a.C75_other",
    "S2E.C2a.C75_encodes"
   ],
   "note": ""
  },
  {
   "property": "C76",
   "status": "proved",
   "theorems": [
    "S2E.C2a.C76_line",
    "S2E.C2a.C76_other_lines",
    "S2E.C2a.C76_lookup",
    "S2E.C2a.C76_short_line_ub"
   ],
   "note": ""
  },
  {
   "property": "C77",
   "status": "proved",
   "theorems": [
    "S2E.Thermal.C77_any_history",
    "S2E.Thermal.C77_first_period",
    "S2E.Thermal.C77_second_period_wrong",
    "S2E.Thermal.C77_single_entry"
   ],
   "note": ""
  },
  {
   "property": "C78",
   "status": "proved",
   "theorems": [
    "S2E.Thermal.C78_step",
    "S2E.Thermal.C78_constant_loads",
    "S2E.Thermal.C78_one_node_euler",
    "S2E.Thermal.C78_energy_step",
    "S2E.Thermal.C78_equilibrium",
    "S2E.Thermal.C78_maximum_principle",
    "S2E.Thermal.C78_disabled",
    "S2E.Thermal.C78_propagate",
    "S2E.Thermal.C78_energy",
    "S2E.Thermal.C78_zero_step_never_returns"
   ],
   "note": ""
  },
  {
   "property": "C79",
   "status": "proved",
   "theorems": [
    "S2E.Thermal.C79_parameters",
    "S2E.Thermal.C79_solar",
    "S2E.Thermal.C79_heaters",
    "S2E.Thermal.C79_missing_heater"
   ],
   "note": ""
  },
  {
   "property": "C80",
   "status": "proved",
   "theorems": [
    "S2E.Thermal.C80_low_altitude",
    "S2E.Thermal.C80_high_altitude",
    "S2E.Thermal.C80_power_bounds",
    "S2E.Thermal.C80_albedo_half_angle"
   ],
   "note": ""
  },
  {
   "property": "C81",
   "status": "proved",
   "theorems": [
    "S2E.Integ.C81_rk4_order",
    "S2E.Integ.C81_rkf_order",
    "S2E.Integ.C81_dp5_order",
    "S2E.Integ.C81_bookkeeping",
    "S2E.Integ.C81_time_after",
    "S2E.Integ.C81_ode_update"
   ],
   "note": ""
  },
  {
   "property": "C82",
   "status": "proved",
   "theorems": [
    "S2E.Integ.C82_rkf_dense",
    "S2E.Integ.C82_dp5_dense",
    "S2E.Integ.C82_endpoints",
    "S2E.Integ.C82_rk4_ignores_sigma",
    "S2E.Integ.C82_after_control",
    "S2E.Integ.C82_stale_after_setState"
   ],
   "note": ""
  },
  {
   "property": "C83",
   "status": "proved",
   "theorems": [
    "S2E.Integ.C83_rkf_estimate",
    "S2E.Integ.C83_dp5_estimate",
    "S2E.Integ.C83_control",
    "S2E.Integ.C83_rkf_controller_exact",
    "S2E.Integ.C83_dp5_controller_misses"
   ],
   "note": ""
  },
  {
   "property": "C84",
   "status": "proved",
   "theorems": [
    "S2E.Integ.C84_rk4_converges",
    "S2E.Integ.C84_rkf_converges",
    "S2E.Integ.C84_dp5_converges",
    "S2E.Integ.C84_ode_converges"
   ],
   "note": ""
  },
  {
   "property": "C85",
   "status": "proved",
   "theorems": [
    "S2E.Integ.C85_linear_invariant",
    "S2E.Integ.C85_polynomial_exact"
   ],
   "note": ""
  },
  {
   "property": "C86",
   "status": "proved",
   "theorems": [
    "S2E.Interp.C86_nearest",
    "S2E.Interp.C86_polynomial",
    "S2E.Interp.C86_reproduces",
    "S2E.Interp.C86_at_nodes",
    "S2E.Interp.C86_duplicate",
    "S2E.Interp.C86_ub"
   ],
   "note": ""
  },
  {
   "property": "C87",
   "status": "proved",
   "theorems": [
    "S2E.Interp.C87_reproduces",
    "S2E.Interp.C87_at_nodes",
    "S2E.Interp.C87_odd",
    "S2E.Interp.C87_even",
    "S2E.Interp.C87_zero_frequency"
   ],
   "note": ""
  },
  {
   "property": "C88",
   "status": "proved",
   "theorems": [
    "S2E.Interp.C88_push",
    "S2E.Interp.C88_window",
    "S2E.Interp.C88_increasing",
    "S2E.Interp.C88_orbit_push",
    "S2E.Interp.C88_orbit_window",
    "S2E.Interp.C88_orbit_warm_up",
    "S2E.Interp.C88_orbit_position",
    "S2E.Interp.C88_position_list"
   ],
   "note": ""
  },
  {
   "property": "C89",
   "status": "proved",
   "theorems": [
    "S2E.GnssSat.C89_file",
    "S2E.GnssSat.C89_nearest",
    "S2E.GnssSat.C89_initialise",
    "S2E.GnssSat.C89_update",
    "S2E.GnssSat.C89_tracking",
    "S2E.GnssSat.C89_lag",
    "S2E.GnssSat.C89_outside",
    "S2E.GnssSat.C89_clock",
    "S2E.GnssSat.C89_accessors",
    "S2E.GnssSat.C89_position",
    "S2E.GnssSat.C89_log"
   ],
   "note": ""
  },
  {
   "property": "C90",
   "status": "proved",
   "theorems": [
    "S2E.Kepler.C90_wrap",
    "S2E.Kepler.C90_wrap_ends",
    "S2E.Kepler.C90_kepler_unique",
    "S2E.Kepler.C90_solver",
    "S2E.Kepler.C90_solver_fails"
   ],
   "note": ""
  },
  {
   "property": "C91",
   "status": "proved",
   "theorems": [
    "S2E.Kepler.C91_shape",
    "S2E.Kepler.C91_motion",
    "S2E.Kepler.C91_follows",
    "S2E.Kepler.C91_follows_fails"
   ],
   "note": ""
  },
  {
   "property": "C92",
   "status": "proved",
   "theorems": [
    "S2E.Kepler.C92_elements",
    "S2E.Kepler.C92_round_trip",
    "S2E.Kepler.C92_wrong_plane",
    "S2E.Kepler.C92_circular_gets_two"
   ],
   "note": ""
  },
  {
   "property": "C93",
   "status": "proved",
   "theorems": [
    "S2E.OrbitProp.C93_derivative",
    "S2E.OrbitProp.C93_steps",
    "S2E.OrbitProp.C93_whole_steps",
    "S2E.OrbitProp.C93_stuck",
    "S2E.OrbitProp.C93_disabled",
    "S2E.OrbitProp.C93_converges",
    "S2E.OrbitProp.C93_forces"
   ],
   "note": ""
  },
  {
   "property": "C94",
   "status": "proved",
   "theorems": [
    "S2E.OrbitProp.C94_q_function",
    "S2E.OrbitProp.C94_derivative",
    "S2E.OrbitProp.C94_undisturbed",
    "S2E.OrbitProp.C94_undisturbed_motion",
    "S2E.OrbitProp.C94_rectification_freezes",
    "S2E.OrbitProp.C94_rectification_reached"
   ],
   "note": ""
  },
  {
   "property": "C95",
   "status": "proved",
   "theorems": [
    "S2E.OrbitProp.C95_lvlh",
    "S2E.OrbitProp.C95_lvlh_degenerate",
    "S2E.OrbitProp.C95_ecef_velocity",
    "S2E.OrbitProp.C95_geostationary"
   ],
   "note": ""
  },
  {
   "property": "C96",
   "status": "proved",
   "theorems": [
    "S2E.OrbitProp.C96_stm_solution",
    "S2E.OrbitProp.C96_transition",
    "S2E.OrbitProp.C96_system_matrix",
    "S2E.OrbitProp.C96_linearisation"
   ],
   "note": ""
  },
  {
   "property": "C97",
   "status": "proved",
   "theorems": [
    "S2E.OrbitProp.C97_stm",
    "S2E.OrbitProp.C97_rk4",
    "S2E.OrbitProp.C97_position",
    "S2E.OrbitProp.C97_velocity",
    "S2E.OrbitProp.C97_velocity_wrong"
   ],
   "note": ""
  },
  {
   "property": "C98",
   "status": "proved",
   "theorems": [
    "S2E.Geodetic.C98_to_ecef",
    "S2E.Geodetic.C98_round_trip",
    "S2E.Geodetic.C98_accuracy",
    "S2E.Geodetic.C98_pole",
    "S2E.Geodetic.C98_ltc"
   ],
   "note": ""
  },
  {
   "property": "C99",
   "status": "proved",
   "theorems": [
    "S2E.TimeSeries.C99_search",
    "S2E.TimeSeries.C99_too_few",
    "S2E.TimeSeries.C99_construct",
    "S2E.TimeSeries.C99_propagate",
    "S2E.TimeSeries.C99_start",
    "S2E.TimeSeries.C99_start_after_end",
    "S2E.TimeSeries.C99_tracking",
    "S2E.TimeSeries.C99_curve",
    "S2E.TimeSeries.C99_end_jump"
   ],
   "note": ""
  },
  {
   "property": "C100",
   "status": "proved",
   "theorems": [
    "S2E.Dist.C100_totals",
    "S2E.Dist.C100_disabled",
    "S2E.Dist.C100_held",
    "S2E.Dist.C100_latest",
    "S2E.Dist.C100_instances",
    "S2E.Dist.C100_spacecraft"
   ],
   "note": ""
  },
  {
   "property": "C101",
   "status": "proved",
   "theorems": [
    "S2E.Dist.C101_newton",
    "S2E.Dist.C101_shape"
   ],
   "note": ""
  },
  {
   "property": "C102",
   "status": "proved",
   "theorems": [
    "S2E.Dist.C102_list",
    "S2E.Dist.C102_acceleration",
    "S2E.Dist.C102_relative"
   ],
   "note": ""
  },
  {
   "property": "C103",
   "status": "proved",
   "theorems": [
    "S2E.Dist.C103_torque",
    "S2E.Dist.C103_constant",
    "S2E.Dist.C103_first_decides",
    "S2E.Dist.C103_shared_walk"
   ],
   "note": ""
  },
  {
   "property": "C104",
   "status": "proved",
   "theorems": [
    "S2E.Dist.C104_sums",
    "S2E.Dist.C104_momentum",
    "S2E.Dist.C104_push",
    "S2E.Dist.C104_direction",
    "S2E.Dist.C104_surfaces",
    "S2E.Dist.C104_short_normal"
   ],
   "note": ""
  },
  {
   "property": "C105",
   "status": "proved",
   "theorems": [
    "S2E.Dist.C105_free_molecular",
    "S2E.Dist.C105_brakes",
    "S2E.Dist.C105_thermal_speed",
    "S2E.Dist.C105_velocity"
   ],
   "note": ""
  },
  {
   "property": "C106",
   "status": "proved",
   "theorems": [
    "S2E.Env.C106_selected_body",
    "S2E.Env.C106_ephemeris_name",
    "S2E.Env.C106_unselected_body",
    "S2E.Env.C106_undefined",
    "S2E.Env.C106_mean_radius"
   ],
   "note": ""
  },
  {
   "property": "C107",
   "status": "proved",
   "theorems": [
    "S2E.Env.C107_velocity",
    "S2E.Env.C107_velocity_wrong",
    "S2E.Env.C107_entry"
   ],
   "note": ""
  },
  {
   "property": "C108",
   "status": "proved",
   "theorems": [
    "S2E.Env.C108_separation",
    "S2E.Env.C108_one_body",
    "S2E.Env.C108_update",
    "S2E.Env.C108_one_sided",
    "S2E.Env.C108_light_in_umbra",
    "S2E.Env.C108_inside",
    "S2E.Env.C108_equal_discs"
   ],
   "note": ""
  },
  {
   "property": "C109",
   "status": "proved",
   "theorems": [
    "S2E.Env.C109_pressure",
    "S2E.Env.C109_sources",
    "S2E.Env.C109_sun_not_selected",
    "S2E.Env.C109_disabled"
   ],
   "note": ""
  },
  {
   "property": "C110",
   "status": "proved",
   "theorems": [
    "S2E.Att.C110_derivative",
    "S2E.Att.C110_converges",
    "S2E.Att.C110_outputs",
    "S2E.Att.C110_termination",
    "S2E.Att.C110_changed_inertia"
   ],
   "note": ""
  },
  {
   "property": "C111",
   "status": "proved",
   "theorems": [
    "S2E.Att.C111_laws",
    "S2E.Att.C111_conserved"
   ],
   "note": ""
  },
  {
   "property": "C112",
   "status": "proved",
   "theorems": [
    "S2E.Att.C112_pointing",
    "S2E.Att.C112_new",
    "S2E.Att.C112_outcomes",
    "S2E.Att.C112_mode_names",
    "S2E.Att.C112_targets",
    "S2E.Att.C112_degenerate"
   ],
   "note": ""
  },
  {
   "property": "C113",
   "status": "proved",
   "theorems": [
    "S2E.Att.C113_rate",
    "S2E.Att.C113_limit",
    "S2E.Att.C113_wrong_sign",
    "S2E.Att.C113_torque"
   ],
   "note": ""
  },
  {
   "property": "C114",
   "status": "proved",
   "theorems": [
    "S2E.Att.C114_derivative",
    "S2E.Att.C114_whole_steps",
    "S2E.Att.C114_last_step_not_shortened",
    "S2E.Att.C114_converges",
    "S2E.Att.C114_outcomes",
    "S2E.Att.C114_outputs",
    "S2E.Att.C114_stale",
    "S2E.Att.C114_stale_witness",
    "S2E.Att.C114_last_step_witness"
   ],
   "note": ""
  },
  {
   "property": "C115",
   "status": "proved",
   "theorems": [
    "S2E.Att.C115_energy",
    "S2E.Att.C115_dissipation",
    "S2E.Att.C115_momentum",
    "S2E.Att.C115_momentum_not_conserved"
   ],
   "note": ""
  },
  {
   "property": "C116",
   "status": "proved",
   "theorems": [
    "S2E.Wheel.C116_response",
    "S2E.Wheel.C116_step_response",
    "S2E.Wheel.C116_body_torque",
    "S2E.Wheel.C116_residual",
    "S2E.Wheel.C116_axis"
   ],
   "note": ""
  },
  {
   "property": "C117",
   "status": "proved",
   "theorems": [
    "S2E.Wheel.C117_step",
    "S2E.Wheel.C117_step_down",
    "S2E.Wheel.C117_negative_limit",
    "S2E.Wheel.C117_speed_limit",
    "S2E.Wheel.C117_overshoot"
   ],
   "note": ""
  },
  {
   "property": "C118",
   "status": "proved",
   "theorems": [
    "S2E.Wheel.C118_stops",
    "S2E.Wheel.C118_oscillates",
    "S2E.Wheel.C118_rest"
   ],
   "note": ""
  },
  {
   "property": "C119",
   "status": "proved",
   "theorems": [
    "S2E.Wheel.C119_momentum",
    "S2E.Wheel.C119_power_off_stale",
    "S2E.Wheel.C119_stale_witness"
   ],
   "note": ""
  },
  {
   "property": "C120",
   "status": "proved",
   "theorems": [
    "S2E.Wheel.C120_harmonics",
    "S2E.Wheel.C120_amplitude",
    "S2E.Wheel.C120_incomplete"
   ],
   "note": ""
  },
  {
   "property": "C121",
   "status": "proved",
   "theorems": [
    "S2E.Wheel.C121_steady",
    "S2E.Wheel.C121_gain"
   ],
   "note": ""
  },
  {
   "property": "C122",
   "status": "proved",
   "theorems": [
    "S2E.Wheel.C122_last_jitter",
    "S2E.Wheel.C122_torque_sign",
    "S2E.Wheel.C122_shared_phase"
   ],
   "note": ""
  },
  {
   "property": "C123",
   "status": "proved",
   "theorems": [
    "S2E.Mtq.C123_output",
    "S2E.Mtq.C123_ideal",
    "S2E.Mtq.C123_bias_accumulates",
    "S2E.Mtq.C123_scale_decays",
    "S2E.Mtq.C123_power_off",
    "S2E.Mtq.C123_same_noise",
    "S2E.Mtq.C123_normal_scaled"
   ],
   "note": ""
  },
  {
   "property": "C124",
   "status": "proved",
   "theorems": [
    "S2E.Mtq.C124_net_bias",
    "S2E.Mtq.C124_set_bias"
   ],
   "note": ""
  },
  {
   "property": "C125",
   "status": "proved",
   "theorems": [
    "S2E.Thruster.C125_thrust",
    "S2E.Thruster.C125_step_response",
    "S2E.Thruster.C125_no_error_along_x",
    "S2E.Thruster.C125_power_off",
    "S2E.Thruster.C125_same_noise"
   ],
   "note": ""
  },
  {
   "property": "C126",
   "status": "proved",
   "theorems": [
    "S2E.Rel.C126_update",
    "S2E.Rel.C126_removal_gap",
    "S2E.Rel.C126_reset",
    "S2E.Rel.C126_position",
    "S2E.Rel.C126_exchange",
    "S2E.Rel.C126_velocity",
    "S2E.Rel.C126_velocity_central",
    "S2E.Rel.C126_attitude",
    "S2E.Rel.C126_attitude_conversion",
    "S2E.Rel.C126_attitude_conversion_fails"
   ],
   "note": ""
  },
  {
   "property": "C127",
   "status": "proved",
   "theorems": [
    "S2E.Ground.C127_station",
    "S2E.Ground.C127_visible",
    "S2E.Ground.C127_initial",
    "S2E.Ground.C127_sine"
   ],
   "note": ""
  },
  {
   "property": "C128",
   "status": "proved",
   "theorems": [
    "S2E.Comm.C128_cn0",
    "S2E.Comm.C128_bitrate",
    "S2E.Comm.C128_update",
    "S2E.Comm.C128_downlink_bitrate_ignored",
    "S2E.Comm.C128_directions",
    "S2E.Comm.C128_direction_wrong"
   ],
   "note": ""
  },
  {
   "property": "C129",
   "status": "proved",
   "theorems": [
    "S2E.Comm.C129_gain",
    "S2E.Comm.C129_negative_azimuth",
    "S2E.Comm.C129_default_grid"
   ],
   "note": ""
  },
  {
   "property": "C130",
   "status": "proved",
   "theorems": [
    "S2E.Gravity.C130_acceleration",
    "S2E.Gravity.C130_oblateness",
    "S2E.Gravity.C130_low_degree",
    "S2E.Gravity.C130_missing",
    "S2E.Gravity.C130_partial_derivatives"
   ],
   "note": ""
  },
  {
   "property": "C131",
   "status": "proved",
   "theorems": [
    "S2E.Gravity.C131_geopotential",
    "S2E.Gravity.C131_short_file",
    "S2E.Gravity.C131_degree_not_limited",
    "S2E.Gravity.C131_negative_degree",
    "S2E.Gravity.C131_no_field"
   ],
   "note": ""
  },
  {
   "property": "C132",
   "status": "proved",
   "theorems": [
    "S2E.Gravity.C132_lunar",
    "S2E.Gravity.C132_update_undefined",
    "S2E.Gravity.C132_uninitialised",
    "S2E.Gravity.C132_degree_not_limited"
   ],
   "note": ""
  },
  {
   "property": "C133",
   "status": "proved",
   "theorems": [
    "S2E.Star.C133_measurement"
   ],
   "note": ""
  },
  {
   "property": "C134",
   "status": "proved",
   "theorems": [
    "S2E.Star.C134_delay",
    "S2E.Star.C134_delay_not_kept"
   ],
   "note": ""
  },
  {
   "property": "C135",
   "status": "proved",
   "theorems": [
    "S2E.Star.C135_error_flag",
    "S2E.Star.C135_earth_limb"
   ],
   "note": ""
  },
  {
   "property": "C136",
   "status": "proved",
   "theorems": [
    "S2E.Sun.C136_detection",
    "S2E.Sun.C136_late",
    "S2E.Sun.C136_direction",
    "S2E.Sun.C136_noise"
   ],
   "note": ""
  },
  {
   "property": "C137",
   "status": "proved",
   "theorems": [
    "S2E.Hip.C137_read",
    "S2E.Hip.C137_sorted",
    "S2E.Hip.C137_none",
    "S2E.Hip.C137_direction"
   ],
   "note": ""
  },
  {
   "property": "C138",
   "status": "proved",
   "theorems": [
    "S2E.Telescope.C138_new",
    "S2E.Telescope.C138_forbidden",
    "S2E.Telescope.C138_image",
    "S2E.Telescope.C138_field",
    "S2E.Telescope.C138_history"
   ],
   "note": ""
  },
  {
   "property": "C139",
   "status": "proved",
   "theorems": [
    "S2E.Telescope.C139_stars",
    "S2E.Telescope.C139_brightest"
   ],
   "note": ""
  },
  {
   "property": "C140",
   "status": "proved",
   "theorems": [
    "S2E.Telescope.C140_direction",
    "S2E.Telescope.C140_beyond",
    "S2E.Telescope.C140_initial"
   ],
   "note": ""
  },
  {
   "property": "C141",
   "status": "proved",
   "theorems": [
    "S2E.GnssRx.C141_far",
    "S2E.GnssRx.C141_near",
    "S2E.GnssRx.C141_wrong"
   ],
   "note": ""
  },
  {
   "property": "C142",
   "status": "proved",
   "theorems": [
    "S2E.GnssRx.C142_cone",
    "S2E.GnssRx.C142_info"
   ],
   "note": ""
  },
  {
   "property": "C143",
   "status": "proved",
   "theorems": [
    "S2E.GnssRx.C143_simple",
    "S2E.GnssRx.C143_time",
    "S2E.GnssRx.C143_reports",
    "S2E.GnssRx.C143_nothing",
    "S2E.GnssRx.C143_model"
   ],
   "note": ""
  },
  {
   "property": "C144",
   "status": "proved",
   "theorems": [
    "S2E.Atmosphere.C144_table",
    "S2E.Atmosphere.C144_sign",
    "S2E.Atmosphere.C144_decreasing",
    "S2E.Atmosphere.C144_jumps"
   ],
   "note": ""
  },
  {
   "property": "C145",
   "status": "proved",
   "theorems": [
    "S2E.Atmosphere.C145_density",
    "S2E.Atmosphere.C145_profiles",
    "S2E.Atmosphere.C145_outside",
    "S2E.Atmosphere.C145_rotation"
   ],
   "note": ""
  },
  {
   "property": "C146",
   "status": "proved",
   "theorems": [
    "S2E.Atmosphere.C146_noise",
    "S2E.Atmosphere.C146_returned",
    "S2E.Atmosphere.C146_last",
    "S2E.Atmosphere.C146_off",
    "S2E.Atmosphere.C146_models",
    "S2E.Atmosphere.C146_harris_priester_high",
    "S2E.Atmosphere.C146_f107"
   ],
   "note": ""
  },
  {
   "property": "C147",
   "status": "proved",
   "theorems": [
    "S2E.Ideal.C147_noise",
    "S2E.Ideal.C147_weak",
    "S2E.Ideal.C147_exact",
    "S2E.Ideal.C147_frames",
    "S2E.Ideal.C147_inertial",
    "S2E.Ideal.C147_off",
    "S2E.Ideal.C147_torque"
   ],
   "note": ""
  },
  {
   "property": "C148",
   "status": "proved",
   "theorems": [
    "S2E.Ideal.C148_attitude",
    "S2E.Ideal.C148_orbit",
    "S2E.Ideal.C148_frame"
   ],
   "note": ""
  },
  {
   "property": "C149",
   "status": "proved",
   "theorems": [
    "S2E.Env.C149_values",
    "S2E.Env.C149_srp_disabled",
    "S2E.Env.C149_off"
   ],
   "note": ""
  },
  {
   "property": "C150",
   "status": "proved",
   "theorems": [
    "S2E.Sp3.C150_read",
    "S2E.Sp3.C150_position_line",
    "S2E.Sp3.C150_one_epoch",
    "S2E.Sp3.C150_velocity",
    "S2E.Sp3.C150_truncated"
   ],
   "note": ""
  },
  {
   "property": "C151",
   "status": "proved",
   "theorems": [
    "S2E.Julian.C151_jday",
    "S2E.Julian.C151_calendar",
    "S2E.Julian.C151_decimal_value",
    "S2E.Julian.C151_end_of_year",
    "S2E.Julian.C151_day32",
    "S2E.Julian.C151_utc",
    "S2E.Julian.C151_decimal_year"
   ],
   "note": ""
  },
  {
   "property": "C152",
   "status": "proved",
   "theorems": [
    "S2E.Rotation.C152_full",
    "S2E.Rotation.C152_nutation",
    "S2E.Rotation.C152_simple",
    "S2E.Rotation.C152_rotation"
   ],
   "note": ""
  },
  {
   "property": "C153",
   "status": "proved",
   "theorems": [
    "S2E.Rotation.C153_mean_earth",
    "S2E.Rotation.C153_simple",
    "S2E.Rotation.C153_parallel",
    "S2E.Rotation.C153_other"
   ],
   "note": ""
  },
  {
   "property": "C154",
   "status": "proved",
   "theorems": [
    "S2E.Igrf.C154_field"
   ],
   "note": ""
  },
  {
   "property": "C155",
   "status": "proved",
   "theorems": [
    "S2E.Igrf.C155_history",
    "S2E.Igrf.C155_frozen",
    "S2E.Igrf.C155_zonal",
    "S2E.Igrf.C155_exit",
    "S2E.Igrf.C155_long"
   ],
   "note": ""
  },
  {
   "property": "C156",
   "status": "proved",
   "theorems": [
    "S2E.Geomag.C156_noise",
    "S2E.Geomag.C156_exact",
    "S2E.Geomag.C156_shared",
    "S2E.Geomag.C156_disabled",
    "S2E.Geomag.C156_enabled",
    "S2E.Geomag.C156_new"
   ],
   "note": ""
  },
  {
   "property": "C157",
   "status": "proved",
   "theorems": [
    "S2E.InitOrbit.C157_state",
    "S2E.InitOrbit.C157_elements",
    "S2E.InitOrbit.C157_kepler_state",
    "S2E.InitOrbit.C157_default",
    "S2E.InitOrbit.C157_section",
    "S2E.InitOrbit.C157_relative",
    "S2E.InitOrbit.C157_sgp4",
    "S2E.InitOrbit.C157_parameters",
    "S2E.InitOrbit.C157_flags"
   ],
   "note": ""
  },
  {
   "property": "C158",
   "status": "proved",
   "theorems": [
    "S2E.InitOrbit.C158_history"
   ],
   "note": ""
  },
  {
   "property": "C159",
   "status": "proved",
   "theorems": [
    "S2E.InitOrbit.C159_returns",
    "S2E.InitOrbit.C159_disabled",
    "S2E.InitOrbit.C159_kepler"
   ],
   "note": ""
  },
  {
   "property": "C160",
   "status": "proved",
   "theorems": [
    "S2E.InitOrbit.C160_consistent"
   ],
   "note": ""
  },
  {
   "property": "C161",
   "status": "proved",
   "theorems": [
    "S2E.Beam.C161_settings",
    "S2E.Beam.C161_width",
    "S2E.Beam.C161_total",
    "S2E.Beam.C161_encircled",
    "S2E.Beam.C161_intensity",
    "S2E.Beam.C161_wave"
   ],
   "note": ""
  },
  {
   "property": "C162",
   "status": "proved",
   "theorems": [
    "S2E.Bias.C162_line",
    "S2E.Bias.C162_complete",
    "S2E.Bias.C162_cut_skipped",
    "S2E.Bias.C162_cut_solution"
   ],
   "note": ""
  },
  {
   "property": "C163",
   "status": "proved",
   "theorems": [
    "S2E.Antex.C163_complete",
    "S2E.Antex.C163_cut",
    "S2E.Antex.C163_announced"
   ],
   "note": ""
  },
  {
   "property": "C164",
   "status": "proved",
   "theorems": [
    "S2E.Antex.C164_nodes",
    "S2E.Antex.C164_zenith",
    "S2E.Antex.C164_whole",
    "S2E.Antex.C164_default",
    "S2E.Antex.C164_outside",
    "S2E.Antex.C164_azimuth",
    "S2E.Antex.C164_noAzimuth"
   ],
   "note": ""
  },
  {
   "property": "C165",
   "status": "proved",
   "theorems": [
    "S2E.SpaceWeather.C165_date",
    "S2E.SpaceWeather.C165_decimal",
    "S2E.SpaceWeather.C165_order",
    "S2E.SpaceWeather.C165_back",
    "S2E.SpaceWeather.C165_month"
   ],
   "note": ""
  },
  {
   "property": "C166",
   "status": "proved",
   "theorems": [
    "S2E.SpaceWeather.C166_manual",
    "S2E.SpaceWeather.C166_table",
    "S2E.SpaceWeather.C166_total"
   ],
   "note": ""
  },
  {
   "property": "C167",
   "status": "proved",
   "theorems": [
    "S2E.SpaceWeather.C167_table",
    "S2E.SpaceWeather.C167_stops",
    "S2E.SpaceWeather.C167_missing"
   ],
   "note": ""
  },
  {
   "property": "C168",
   "status": "proved",
   "theorems": [
    "S2E.SpaceWeather.C168_kept",
    "S2E.SpaceWeather.C168_found"
   ],
   "note": ""
  },
  {
   "property": "C169",
   "status": "proved",
   "theorems": [
    "S2E.SpaceWeather.C169_date",
    "S2E.SpaceWeather.C169_day",
    "S2E.SpaceWeather.C169_end",
    "S2E.SpaceWeather.C169_time",
    "S2E.SpaceWeather.C169_gap"
   ],
   "note": ""
  },
  {
   "property": "C170",
   "status": "proved",
   "theorems": [
    "S2E.InitAttitude.C170_given",
    "S2E.InitAttitude.C170_controlled_start",
    "S2E.InitAttitude.C170_controlled_motion",
    "S2E.InitAttitude.C170_undefined",
    "S2E.InitAttitude.C170_kind"
   ],
   "note": ""
  },
  {
   "property": "C171",
   "status": "proved",
   "theorems": [
    "S2E.InitMonteCarlo.C171_parameters",
    "S2E.InitMonteCarlo.C171_drawn",
    "S2E.InitMonteCarlo.C171_draws",
    "S2E.InitMonteCarlo.C171_cases"
   ],
   "note": ""
  },
  {
   "property": "C172",
   "status": "proved",
   "theorems": [
    "S2E.Tle.C172_elements",
    "S2E.Tle.C172_settings",
    "S2E.Tle.C172_columns",
    "S2E.Tle.C172_alpha"
   ],
   "note": ""
  },
  {
   "property": "C173",
   "status": "proved",
   "theorems": [
    "S2E.Sgp4.C173_history",
    "S2E.Sgp4.C173_fresh"
   ],
   "note": ""
  },
  {
   "property": "C174",
   "status": "proved",
   "theorems": [
    "S2E.Sgp4.C174_returns",
    "S2E.Sgp4.C174_init_returns",
    "S2E.Sgp4.C174_resonance",
    "S2E.Sgp4.C174_continuous",
    "S2E.Sgp4.C174_no_resonance"
   ],
   "note": ""
  },
  {
   "property": "C175",
   "status": "proved",
   "theorems": [
    "S2E.Sgp4.C175_report",
    "S2E.Sgp4.C175_init"
   ],
   "note": ""
  },
  {
   "property": "C176",
   "status": "proved",
   "theorems": [
    "S2E.Sgp4.C176_codes"
   ],
   "note": ""
  },
  {
   "property": "C177",
   "status": "proved",
   "theorems": [
    "S2E.Sgp4.C177_epoch"
   ],
   "note": ""
  },
  {
   "property": "C178",
   "status": "proved",
   "theorems": [
    "S2E.Sgp4.C178_history",
    "S2E.Sgp4.C178_disabled",
    "S2E.Sgp4.C178_report",
    "S2E.Sgp4.C178_deep"
   ],
   "note": ""
  },
  {
   "property": "C179",
   "status": "proved",
   "theorems": [
    "S2E.Sgp4.C179_kepler",
    "S2E.Sgp4.C179_near"
   ],
   "note": ""
  },
  {
   "property": "C180",
   "status": "proved",
   "theorems": [
    "S2E.Sgp4.C180_deep",
    "S2E.Sgp4.C180_init",
    "S2E.Sgp4.C180_unique"
   ],
   "note": ""
  },
  {
   "property": "C181",
   "status": "proved",
   "theorems": [
    "S2E.SerialExample.C181_serial",
    "S2E.SerialExample.C181_standard"
   ],
   "note": ""
  },
  {
   "property": "C182",
   "status": "proved",
   "theorems": [
    "S2E.SerialHils.C182_serial",
    "S2E.SerialHils.C182_echo",
    "S2E.SerialHils.C182_sender"
   ],
   "note": ""
  },
  {
   "property": "C183",
   "status": "proved",
   "theorems": [
    "S2E.Struct.C183_defined",
    "S2E.Struct.C183_history",
    "S2E.Struct.C183_physical",
    "S2E.Struct.C183_settings",
    "S2E.Struct.C183_change",
    "S2E.Struct.C183_change_without_surfaces"
   ],
   "note": ""
  },
  {
   "property": "C184",
   "status": "proved",
   "theorems": [
    "S2E.InitAocs.C184_sections",
    "S2E.InitAocs.C184_magnetometer",
    "S2E.InitAocs.C184_gyro",
    "S2E.InitAocs.C184_rate_observer",
    "S2E.InitAocs.C184_no_range",
    "S2E.InitAocs.C184_port",
    "S2E.InitAocs.C184_magnetorquer",
    "S2E.InitAocs.C184_interference",
    "S2E.InitAocs.C184_star",
    "S2E.InitAocs.C184_sun",
    "S2E.InitAocs.C184_gnss",
    "S2E.InitAocs.C184_independent"
   ],
   "note": ""
  },
  {
   "property": "C185",
   "status": "proved",
   "theorems": [
    "S2E.InitOthers.C185_antenna",
    "S2E.InitOthers.C185_antenna_table",
    "S2E.InitOthers.C185_calculator",
    "S2E.InitOthers.C185_link",
    "S2E.InitOthers.C185_battery",
    "S2E.InitOthers.C185_battery_no_curve",
    "S2E.InitOthers.C185_panel",
    "S2E.InitOthers.C185_panel_no_local",
    "S2E.InitOthers.C185_pcu",
    "S2E.InitOthers.C185_thruster",
    "S2E.InitOthers.C185_telescope",
    "S2E.InitOthers.C185_generators",
    "S2E.InitOthers.C185_observers",
    "S2E.InitOthers.C185_independent"
   ],
   "note": ""
  },
  {
   "property": "C186",
   "status": "proved",
   "theorems": [
    "S2E.InitWheel.C186_wheel",
    "S2E.InitWheel.C186_axis",
    "S2E.InitWheel.C186_response",
    "S2E.InitWheel.C186_jitter_lost",
    "S2E.InitWheel.C186_refused",
    "S2E.InitWheel.C186_independent"
   ],
   "note": ""
  },
  {
   "property": "C187",
   "status": "proved",
   "theorems": [
    "S2E.InitTime.C187_settings",
    "S2E.InitTime.C187_time",
    "S2E.InitTime.C187_log",
    "S2E.InitTime.C187_incomplete",
    "S2E.InitTime.C187_no_component_period",
    "S2E.InitTime.C187_independent"
   ],
   "note": ""
  },
  {
   "property": "C188",
   "status": "proved",
   "theorems": [
    "S2E.InitDisturbance.C188_totals",
    "S2E.InitDisturbance.C188_earth",
    "S2E.InitDisturbance.C188_refused",
    "S2E.InitDisturbance.C188_moon_uninitialised",
    "S2E.InitDisturbance.C188_moon_update"
   ],
   "note": ""
  },
  {
   "property": "C189",
   "status": "proved",
   "theorems": [
    "S2E.InitThermal.C189_settings",
    "S2E.InitThermal.C189_propagate",
    "S2E.InitThermal.C189_energy",
    "S2E.InitThermal.C189_count",
    "S2E.InitThermal.C189_matrix",
    "S2E.InitThermal.C189_short_row",
    "S2E.InitThermal.C189_missing",
    "S2E.InitThermal.C189_missing_table",
    "S2E.InitThermal.C189_cells",
    "S2E.InitThermal.C189_disabled",
    "S2E.InitThermal.C189_independent"
   ],
   "note": ""
  },
  {
   "property": "C190",
   "status": "proved",
   "theorems": [
    "S2E.InitGnss.C190_settings",
    "S2E.InitGnss.C190_disabled",
    "S2E.InitGnss.C190_reversed",
    "S2E.InitGnss.C190_missing",
    "S2E.InitGnss.C190_footer",
    "S2E.InitGnss.C190_endless"
   ],
   "note": ""
  },
  {
   "property": "C191",
   "status": "proved",
   "theorems": [
    "S2E.HilsUart.C191_ports",
    "S2E.HilsUart.C191_received",
    "S2E.HilsUart.C191_offset",
    "S2E.HilsUart.C191_sent",
    "S2E.HilsUart.C191_stale",
    "S2E.HilsUart.C191_shared",
    "S2E.HilsUart.C191_closes",
    "S2E.HilsUart.C191_no_data",
    "S2E.HilsUart.C191_controller"
   ],
   "note": ""
  },
  {
   "property": "C192",
   "status": "proved",
   "theorems": [
    "S2E.InitGlobal.C192_settings",
    "S2E.InitGlobal.C192_global",
    "S2E.InitGlobal.C192_unselected",
    "S2E.InitGlobal.C192_no_bodies",
    "S2E.InitGlobal.C192_names",
    "S2E.InitGlobal.C192_negative",
    "S2E.InitGlobal.C192_catalogue"
   ],
   "note": ""
  },
  {
   "property": "C193",
   "status": "proved",
   "theorems": [
    "S2E.LogFiles.C193_paths",
    "S2E.LogFiles.C193_csv",
    "S2E.LogFiles.C193_same_second",
    "S2E.LogFiles.C193_copies",
    "S2E.LogFiles.C193_missing",
    "S2E.LogFiles.C193_silent",
    "S2E.LogFiles.C193_disabled",
    "S2E.LogFiles.C193_refused",
    "S2E.LogFiles.C193_settings",
    "S2E.LogFiles.C193_monte_carlo"
   ],
   "note": ""
  },
  {
   "property": "C194",
   "status": "proved",
   "theorems": [
    "S2E.InitLocal.C194_made",
    "S2E.InitLocal.C194_not_earth",
    "S2E.InitLocal.C194_radiation",
    "S2E.InitLocal.C194_air",
    "S2E.InitLocal.C194_magnetic",
    "S2E.InitLocal.C194_rejected"
   ],
   "note": ""
  },
  {
   "property": "C195",
   "status": "proved",
   "theorems": [
    "S2E.LogColumns.C195_by_name",
    "S2E.LogColumns.C195_names",
    "S2E.LogColumns.C195_second",
    "S2E.LogColumns.C195_date",
    "S2E.LogColumns.C195_fits"
   ],
   "note": ""
  },
  {
   "property": "C196",
   "status": "proved",
   "theorems": [
    "S2E.InitCase.C196_configuration",
    "S2E.InitCase.C196_station",
    "S2E.InitCase.C196_visible",
    "S2E.InitCase.C196_no_file",
    "S2E.InitCase.C196_negative"
   ],
   "note": ""
  },
  {
   "property": "C197",
   "status": "proved",
   "theorems": [
    "S2E.SampleCase.C197_lines"
   ],
   "note": ""
  },
  {
   "property": "C198",
   "status": "proved",
   "theorems": [
    "S2E.SampleInterference.C198_delay",
    "S2E.SampleInterference.C198_value",
    "S2E.SampleInterference.C198_same_step",
    "S2E.SampleInterference.C198_no_turn",
    "S2E.SampleInterference.C198_noise"
   ],
   "note": ""
  },
  {
   "property": "C199",
   "status": "proved",
   "theorems": [
    "S2E.LogComponents.C199_columns",
    "S2E.LogComponents.C199_names",
    "S2E.LogComponents.C199_by_name"
   ],
   "note": ""
  }
 ]
}