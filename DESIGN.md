# Formal model of s2e-core in Lean 4 — design

## Layout

* `lean/Verif/Model/*.lean` — the model: one definition per modelled C++ function, each with a comment citing the
  file and lines in `/repo` it models and any simplification made.
* `lean/Verif/Spec/*.lean` — small specifications, independent of the model's helpers, against which properties are stated.
* `lean/Verif/Proofs/*.lean` — helper lemmas.
* `lean/Verif/Props/*.lean` — the property theorems only (names `C<nn>_...`), each followed by an `example`
  showing that a concrete non-trivial case meets its hypotheses.

`MANIFEST.json` maps every property of `properties.jsonl` to its theorems and status; `seeded/LOG.jsonl` records the
mutation experiments (realistic bugs put into a scratch copy of the model, and which theorems then failed).

## Modelling conventions

* **Loops.** A C++ loop becomes a fold or structural recursion. Where termination is not obvious (ring buffer `while`,
  `do/while` rejection sampling) the loop takes a fuel argument and returns `none` when the fuel runs out; the theorems
  then show that some fuel suffices (termination), or that no fuel does (divergence).
* **Undefined behaviour** is a distinct outcome (`none`, or a constructor such as `Outcome.ub`), never a default value.
  Exceptions and rejected calls are distinct outcomes as well.
* **Pointers/mutation.** A method that mutates becomes `State → Args → State × Result`. A caller-supplied buffer is a
  list of bytes; an access outside it is UB.
* **Machine integers.** `UInt8`/`BitVec`-like wrap-around is modelled where the code can reach it (I2C register
  addresses, 32-bit tick counter, C2A argument narrowing, 64-bit epoch seconds). Elsewhere `Nat`/`Int` are used and a
  theorem or the comment states why no wrap occurs.
* **Floating point.** `double` is modelled by an arbitrary linearly ordered field `K` when the code uses only
  `+ - * /` and comparisons (instances: `ℚ`, `ℝ`), and by `ℝ` when `sqrt`, `exp`, trigonometry occur. Rounding, NaN and
  infinities are therefore *not* modelled unless stated; a division by zero that the code can reach is made an explicit
  outcome or excluded by an explicit hypothesis. For the scheduler (`SimulationTime`) the product is passed through an
  arbitrary rounding function, so those results do hold for IEEE doubles.
* **External code** (CSPICE, libnrlmsise00, sgp4 internals, iostream formatting, OS clock, C2A flight software, .NET
  serial port) is a parameter of the model, and its assumed behaviour is stated at the parameter.

## Trusted base

* Lean's kernel (4.33.0) and the standard axioms `propext`, `Classical.choice`, `Quot.sound`. No other axioms, no
  `native_decide`/`bv_decide`. The gate prints the axioms of every theorem.
* The faithfulness of the model to `/repo`, established by reading only (the code cannot be run here).
* The assumptions listed under *Modelling conventions* (real arithmetic for doubles; 64-bit `long`, 32-bit `int`).

## Which code is modelled

Per source directory of `/repo`: the files (without extension; a `.cpp`/`.hpp` pair counts as one) that definitions of the model cite, and in brackets the modules of `lean/Verif/Model` that do. What is simplified or left out inside a file (screen output, comments on doubles, destructors, printing of numbers, getters that only return a member) is said in the comments of those modules.

* `example/src/simulation/case`: sample_case [SampleCase]
* `example/src/simulation/ground_station`: sample_ground_station [SampleCase]
* `example/src/simulation/spacecraft`: sample_components [SampleInterference]
* `src/components/base`: component [Clock, Eps, InitAocs, SampleInterference, Structure]; gpio_connection_with_obc [I2c]; i2c_controller [HilsUart]; i2c_target_communication_with_obc [HilsI2c, I2c]; interface_tickable [Clock]; sensor [Sensor]; sensor_template_functions [InitAocs, Sensor]; uart_communication_with_obc [HilsUart, SerialExample, SerialHils, Uart]
* `src/components/examples`: example_change_structure [Structure]; example_i2c_controller_for_hils [HilsUart]; example_i2c_target_for_hils [HilsI2c]; example_serial_communication_for_hils [SerialHils]; example_serial_communication_with_obc [SerialExample]
* `src/components/ideal`: angular_velocity_observer [InitAocs, LogComponents, Sensor]; attitude_observer [Ideal, InitOthers, LogComponents]; force_generator [Ideal, InitOthers, LogComponents]; orbit_observer [Ideal, InitOthers, LogComponents]; torque_generator [Ideal, InitOthers, LogComponents]
* `src/components/ports`: gpio_port [I2c]; hils_i2c_target_port [HilsI2c]; hils_uart_port [HilsI2c, HilsUart]; i2c_port [I2c]; power_port [InitAocs, Power, Structure]; uart_port [Uart]
* `src/components/real/aocs`: gnss_receiver [GnssReceiver, InitAocs, LogComponents]; gyro_sensor [InitAocs, LogComponents, Sensor]; magnetometer [InitAocs, LogComponents, Magnetorquer, SampleInterference, Sensor]; magnetorquer [InitAocs, LogComponents, Magnetorquer, SampleInterference]; mtq_magnetometer_interference [InitAocs, Magnetorquer]; reaction_wheel [InitWheel, Log, LogComponents, ReactionWheel, WheelJitter]; reaction_wheel_jitter [WheelJitter]; reaction_wheel_ode [ReactionWheel]; star_sensor [InitAocs, LogComponents, StarSensor]; sun_sensor [InitAocs, LogComponents, SunSensor]
* `src/components/real/cdh`: on_board_computer [I2c, Uart]; on_board_computer_with_c2a [I2c, Uart]
* `src/components/real/communication`: antenna [Communication, InitOthers]; antenna_radiation_pattern [Communication, InitOthers]; ground_station_calculator [Communication, InitOthers, LogComponents]; wings_command_sender_to_c2a [C2a]
* `src/components/real/mission`: telescope [InitOthers, Log, Telescope]
* `src/components/real/power`: battery [Eps, InitOthers, LogComponents]; csv_scenario_interface [Eps]; pcu_initial_study [Eps, InitOthers, LogComponents]; power_control_unit [Power]; solar_array_panel [Eps, InitOthers, LogComponents]
* `src/components/real/propulsion`: simple_thruster [InitOthers, LogComponents, Thruster]
* `src/disturbances`: air_drag [Disturbance, InitDisturbance, LogColumns]; disturbance [Disturbance, InitDisturbance]; disturbances [Disturbance, InitDisturbance, LogColumns]; geopotential [Disturbance, Geopotential, InitDisturbance, LogColumns]; gravity_gradient [Disturbance, InitDisturbance, LogColumns]; lunar_gravity_field [Disturbance, Geopotential, InitDisturbance, LogColumns]; magnetic_disturbance [Disturbance, InitDisturbance, LogColumns]; solar_radiation_pressure_disturbance [Disturbance, InitDisturbance, LogColumns]; surface_force [Disturbance]; third_body_gravity [Disturbance, InitDisturbance, LogColumns]
* `src/dynamics`: dynamics [Attitude, Cantilever, Disturbance, InitOrbit, LogColumns]
* `src/dynamics/attitude`: attitude [Attitude, Cantilever, ControlledAttitude, Disturbance, InitAttitude, LogColumns]; attitude_rk4 [Attitude]; attitude_with_cantilever_vibration [Cantilever, LogColumns]; controlled_attitude [ControlledAttitude, InitAttitude]; initialize_attitude [InitAttitude]; ode_attitude_with_cantilever_vibration [Cantilever]
* `src/dynamics/orbit`: encke_orbit_propagation [InitOrbit, OrbitProp]; initialize_orbit [InitOrbit]; kepler_orbit_propagation [InitOrbit]; orbit [Disturbance, InitOrbit, LogColumns, OrbitProp, SampleCase, Sgp4Orbit, TimeSeriesOrbit]; relative_orbit [InitOrbit, OrbitProp]; rk4_orbit_propagation [InitOrbit, OrbitProp]; sgp4_orbit_propagation [InitOrbit, Sgp4Orbit, Tle]; time_series_file_orbit_propagation [InitOrbit, TimeSeriesOrbit]
* `src/dynamics/thermal`: heater [Eps, InitThermal]; heater_controller [Eps, InitThermal]; heatload [InitThermal, Thermal]; node [InitThermal, Thermal]; temperature [InitThermal, Log, LogColumns, Thermal]
* `src/environment/global`: celestial_information [Celestial, Geopotential, InitGlobal, Log]; clock_generator [Clock, SampleInterference, Structure]; earth_rotation [CelestialRotation, InitGlobal]; global_environment [InitGlobal, LogColumns, SimTime]; gnss_satellites [GnssSat, InitGnss, Log]; hipparcos_catalogue [Hipparcos, InitGlobal]; moon_rotation [CelestialRotation, InitGlobal]; physical_constants [Celestial, Communication, Disturbance, EarthRadiation, Geodetic, Geopotential, OrbitProp, StarSensor, Telescope, Thermal]; simulation_time [InitTime, Julian, LogColumns, SampleCase, SimTime]
* `src/environment/local`: atmosphere [Atmosphere, InitLocal, LogColumns]; earth_albedo [EarthRadiation, InitLocal, LogColumns]; earth_infrared [EarthRadiation, InitLocal, LogColumns]; geomagnetic_field [GeomagneticField, InitLocal, LogColumns]; local_celestial_information [Celestial, InitLocal, Log]; local_environment [Atmosphere, EarthRadiation, GeomagneticField, InitLocal, LogColumns]; solar_radiation_pressure_environment [Celestial, InitLocal, LogColumns]
* `src/logger`: initialize_log [LogFiles]; log_utility [Log, LogColumns, LogComponents]; loggable [Log]; logger [Log, LogComponents, LogFiles]
* `src/math_physics/atmosphere`: harris_priester_coefficients [Atmosphere]; harris_priester_model [Atmosphere]; simple_air_density_model [Atmosphere]; wrapper_nrlmsise00 [SpaceWeather]
* `src/math_physics/control_utilities`: first_order_lag [ReactionWheel]
* `src/math_physics/geodesy`: geodetic_position [Geodetic, GnssReceiver]
* `src/math_physics/geomagnetic`: igrf [GeomagneticField, Igrf, InitLocal]
* `src/math_physics/gnss`: antex_file_reader [Antex]; bias_sinex_file_reader [BiasSinex]; gnss_satellite_number [Gnss, Log]; igs_product_name_handling [Gnss]; sp3_file_reader [GnssSat, Sp3]
* `src/math_physics/gravity`: gravity_potential [Geopotential, GravityPotential]
* `src/math_physics/math`: constants [CelestialRotation, GroundStation, Hipparcos, LinAlg, ReactionWheel]; interpolation [Interpolation]; matrix [LinAlg]; matrix_template_functions [LinAlg]; matrix_vector_template_functions [LinAlg, Lu]; ordinary_differential_equation [ReactionWheel, Sensor]; ordinary_differential_equation_template_functions [Integrator, Random, ReactionWheel, Sensor]; quaternion [Quaternion]; s2e_math [Kepler]; vector [LinAlg]; vector_template_functions [LinAlg]
* `src/math_physics/numerical_integration`: dormand_prince_5_implementation [Integrator]; embedded_runge_kutta [Integrator]; embedded_runge_kutta_implementation [Integrator]; numerical_integrator [Integrator]; runge_kutta [Integrator]; runge_kutta_4 [Integrator]; runge_kutta_fehlberg_implementation [Integrator]; runge_kutta_template [Integrator]
* `src/math_physics/optics`: gaussian_beam_base [GaussianBeam]
* `src/math_physics/orbit`: interpolation_orbit [Interpolation]; kepler_orbit [InitOrbit, Kepler]; orbital_elements [Kepler]; relative_orbit_models [OrbitProp]
* `src/math_physics/orbit/sgp4`: sgp4ext [Geodetic, Igrf, InitTime, Julian]; sgp4io [Sgp4Orbit, Tle]; sgp4unit [InitOrbit, Julian, Sgp4]
* `src/math_physics/planet_rotation`: moon_rotation_utilities [CelestialRotation]
* `src/math_physics/randomization`: global_randomization [Random]; minimal_standard_linear_congruential_generator [Random]; minimal_standard_linear_congruential_generator_with_shuffle [Random]; normal_randomization [Random]; random_walk [Sensor]; random_walk_template_functions [InitAocs, Random]
* `src/math_physics/time_system`: date_time_format [TimeSystem]; epoch_time [InitGnss, TimeSystem]; gps_time [TimeSystem]
* `src/setting_file_reader`: c2a_command_database [C2a]; initialize_file_access [Ini, InitAttitude, InitDisturbance, InitOrbit, InitOthers]; wings_operation_file [C2a]
* `src/simulation`: simulation_configuration [InitCase]
* `src/simulation/case`: simulation_case [InitCase, LogColumns, LogFiles, SimTime]
* `src/simulation/ground_station`: ground_station [GroundStation, InitCase, Log, SampleCase]
* `src/simulation/hils`: hils_port_manager [HilsI2c, HilsUart]
* `src/simulation/monte_carlo_simulation`: initialize_monte_carlo_parameters [MonteCarlo]; initialize_monte_carlo_simulation [InitMonteCarlo]; monte_carlo_simulation_executor [MonteCarlo]; simulation_object [MonteCarlo]
* `src/simulation/multiple_spacecraft`: relative_information [Log, RelativeInformation]
* `src/simulation/spacecraft`: spacecraft [Disturbance, LogColumns, SampleInterference]
* `src/simulation/spacecraft/structure`: initialize_structure [Disturbance, Structure]; kinematics_parameters [Structure]; residual_magnetic_moment [Disturbance, Structure]; structure [Structure]; surface [Disturbance, Structure]
* `src/utilities`: endian [Slip]; quantization [Quantization]; ring_buffer [RingBuffer]; slip [Slip]

## Which code is not modelled

No definition cites these files (the classes of the headers in `numerical_integration` are modelled from their `*_implementation.hpp`):

* `example/src`: s2e.cpp
* `example/src/simulation/ground_station`: sample_ground_station_components.cpp, sample_ground_station_components.hpp
* `example/src/simulation/spacecraft`: sample_port_configuration.hpp, sample_spacecraft.cpp, sample_spacecraft.hpp
* `src/components/base`: interface_gpio_component.hpp
* `src/components/real/cdh`: c2a_communication.hpp
* `src/math_physics/math`: matrix_vector.hpp
* `src/math_physics/numerical_integration`: dormand_prince_5.hpp, interface_ode.hpp, numerical_integrator_manager.hpp, ode_examples.hpp, runge_kutta_fehlberg.hpp
* `src/simulation/multiple_spacecraft`: inter_spacecraft_communication.cpp, inter_spacecraft_communication.hpp
* `src/simulation/spacecraft`: installed_components.cpp, installed_components.hpp
* `src/utilities`: com_port_interface.cpp, com_port_interface.hpp, endian_define.hpp, macros.hpp

Not modelled at all, whatever the file: rounding of doubles (except in the scheduler and where a comment says so), NaN and infinities, memory allocation and lifetime (`new`/`delete`, dangling pointers) except where an outcome `ub` says so, threads (the program has none of its own), the Windows serial port code (`com_port_interface.*`), C2A flight software, CSPICE and libnrlmsise00 (parameters), `iostream` number formatting and parsing (parameters, with the hypotheses stated in the theorems), the tests in `/repo`, and everything under `scripts`, `settings`, `docs` and `ExtLibraries` (of inih only the behaviour of `INIReader::Get*` that `Model/Ini` states).

## Axioms of each theorem

`#print axioms` for the 820 theorems named in `MANIFEST.json`:

* `propext, Classical.choice, Quot.sound`: all that are not listed below (768).
* `propext, Quot.sound` (42): RingBuffer.C03_ring_zero_diverges, I2cPort.C11_i2c_command_effects, ObcI2c.C12_plain_read_exact, ObcGpio.C13_obc_gpio, Slip.C14_slip_roundtrip, Slip.C15_slip_self_delimiting, Slip.C16_slip_length, Clock.C20_prescaled_rate, Clock.C21_tick_order, Clock.C22_power_gating, C24_nonneg, C25_pcu_lifecycle, C25_pcu_independent, C26_flags_periodic, C26_spacing, C27_log_periodic, MonteCarlo.C33_fresh, MonteCarlo.C35_objects, Time.C41_spill, Random.C43_degenerate, Csv.C53_split_join, Csv.C53_trailing_empty, Csv.C53_split_terminated, Csv.C53_csv_plain, Csv.C53_csv_bad_cell, C2a.C54_decode, C2a.C55_load, Gnss.C57_merge_parse, Gnss.C57_increment, Gnss.C57_gregorian, Eps.C58_step, HilsI2c.C63_store_telemetry, Thermal.C77_single_entry, Interp.C86_ub, Interp.C88_push, Interp.C88_window, Interp.C88_increasing, Interp.C88_position_list, GnssSat.C89_outside, GnssSat.C89_accessors, HilsUart.C191_offset, HilsUart.C191_no_data.
* `propext` (9): GpioPort.C13_gpio, MonteCarlo.C33_save_log, MonteCarlo.C35_key_collision, C2a.C54_raw, Eps.C62_short_row, HilsI2c.C63_example_sends_wrong_window, Dist.C100_instances, Env.C106_ephemeris_name, HilsUart.C191_closes.
* `(none)` (1): HilsUart.C191_stale.

## Per-property plan

| Property | What is modelled | How it is proved |
|---|---|---|
| C01–C03 | `RingBuffer::Write/Read` with memcpy on a byte list, fuelled loops | history invariant: pointers are totals mod N, cells hold the latest byte of their residue; refinement to a log |
| C04–C06 | `UartPort`, OBC port table | per-stream refinement to the log specification, by induction over operations |
| C07–C08 | `UartCommunicationWithObc` receive/send with UB outcome | case analysis; counterexamples for the false parts |
| C09–C12 | `I2cPort`, OBC and ObcWithC2a block access, 8-bit addresses | refinement to a map; counterexample for plain OBC |
| C13 | `GpioPort`, OBC GPIO table | induction over writes |
| C14–C17 | `slip.cpp` as iterator loops over lists, UB outcome | loops proved equal to recursive encoders; induction |
| C18 | `endian_memcpy` | induction on the copy loop |
| C19 | `quantization` with truncation and int-range guard | floor/ceil lemmas |
| C20–C22 | `ClockGenerator`, `Component::Tick/FastTick` | counting lemma, trace induction |
| C23–C25 | `PowerPort`, `PowerControlUnit` | case analysis and invariants over setter histories |
| C26–C32 | `SimulationTime::UpdateTime`, `SimulationCase::Main` | counter invariant, loop characterisation |
| C33–C36 | Monte-Carlo executor, parameters, object registry | induction, real analysis for norms |
| C37–C42 | `EpochTime`, `DateTime`, `GpsTime` with 64-bit wrap | arithmetic with `omega`, calendar specification by day counting |
| C43–C48 | LCG, shuffle, MakeSeed, NormalRand, RandomWalk | Schrage identity, Lucas primality, stream induction |
| C49–C50 | `Sensor<N>` | case analysis |
| C51–C53 | log writers, `Logger`, `IniAccess` reading and `Split` | induction over lists/characters |
| C54–C55 | C2A argument encoder, WINGS sender | base-256 arithmetic, trace induction |
| C56–C57 | GNSS numbering, year/day-of-year | arithmetic, string round trip |
| C58–C62 | heater, battery, PCU, solar array, scenario table | invariants over histories, real arithmetic |
| C63 | HILS I2C target port over an abstract serial port | induction over operations |
| C64–C70 | `quaternion.cpp` over ℝ (`Quat`), all constructors and conversions | polynomial identities, `Complex.arg` for `atan2`, branch analysis |
| C71–C72 | vector templates (`Fin n → ℝ`), polar coordinates, orthogonal unit vector | finite sums, Cauchy–Schwarz, trigonometry |
| C73 | LU decomposition, triangular solves, inverse as loops over `ℕ → ℕ → K` | loop invariants (packed factors, row permutation); kernel vector when it throws |
| C74 | column-name part of the log writers | decimal rendering is injective and delimiter-free |
| C75–C76 | `AnalyzeC2aCommand`, command database | list induction, `findIdx` positions; counterexamples by evaluation |
| C77 | `Heatload` table lookup | induction over the evaluation history (furthest interval reached); counterexample by evaluation |
| C78–C79 | `Temperature::Propagate`, one step, heater switching; environment constant during a call; zero capacity excluded (division by it) | state relation per node evaluation, loop invariant lemma, sums over `Fin n` |
| C80 | view factor and albedo formulas over ℝ | derivative of the middle formula is non-positive, joints evaluated exactly |
| C81–C82 | Butcher tableaux, `CalcSlope`, `Integrate`, interpolation as list loops over ℝ; right-hand side any function | Butcher's theorem proved from scratch (rooted trees, elementary weights, Taylor expansion), order conditions of the rational tableaux by kernel evaluation over all trees of the order |
| C83 | embedded error estimate and `ControlStepWidth` | order conditions of both weight rows; exact evaluation for a quartic right-hand side |
| C84 | iterated steps | uniform local error over a compact interval, discrete Gronwall |
| C85 | iterated steps | linearity of the weighted sum; quadrature conditions |
| C86 | `Interpolation`: lists of points, Neville tableau as the C++ loops over d_up/d_down | invariant of the column loop: entries are differences of the Lagrange interpolants of sub-windows; uniqueness from Mathlib `Polynomial.eq_of_degrees_lt_of_eval_index_eq` |
| C87 | same, product of sine quotients, parity branch | trigonometric polynomials as Laurent polynomials in exp(i w x / 2), root counting |
| C88 | same, push/pop over lists, three axes | induction over histories of pushes |
| C89 | `GnssSat`: SP3 data as list of epochs per file, window of nine, update by one | invariant "window k of the concatenated epochs", induction over updates |
| C90 | `Kepler`: WrapTo2Pi as well-founded recursion, Newton loop with fuel = iteration limit | Newton error recursion |E'-E| ≤ (e/2(1-e))|E-E*|² from Taylor bounds; premature stop by evaluation of the first iterate |
| C91 | `Kepler`: constructor constants, CalcOrbit | vector identities for all anomalies; two-body motion `Spec/TwoBody`, uniqueness by ODE uniqueness (Mathlib), implicit Kepler equation differentiated |
| C92 | `Kepler.calcOeFromPosVel` | inverse formulas case by case (arcsin/atan2), combined with uniqueness of the motion |
| C93 | `OrbitProp.Rk4Orbit`: Initialize, Propagate loop with fuel (`stuck` = never returns), DerivativeFunction | loop spec by induction on ⌈remaining/step⌉; order-4 convergence from `Proofs/OneStepVar` (variable steps, inexact start) composed over arcs by induction on the `Flight` derivation |
| C94 | `OrbitProp.Encke` | algebra of the q function with rpow; invariant "difference is zero" under updates; rectification from C91/C92 |
| C95 | `OrbitProp.calcQuaternionI2Lvlh`, `ecefVelocity` | LVLH matrix is a rotation (grind over the vector identities), then C66/C67/C69; derivative of the rotation matrix |
| C96 | `OrbitProp.calcHillSystemMatrix`, `calcHcwStm` | derivative entry by entry, uniqueness of linear ODEs; relative two-body motion in `Spec/Hill`, its derivative at 0, Gronwall with first-exit argument (`Proofs/Linearization`) |
| C97 | `OrbitProp.Relative` | induction over update histories; transport term from constancy of angular momentum |
| C98 | `Geodetic` (fuel-bounded loop), spec `Geodesy.HasGeodetic` | contraction (factor 1/50) of the latitude iteration; Lipschitz bounds |
| C99 | `TimeSeries`, reusing `Interp` | invariant `At` (window position) over construction and update histories; C86/C87/C88 |
| C100 | `Dist.Disturbances`, `Craft.update` (propagators abstract) | induction over call histories, case analysis |
| C101 | `gravityGradient`; spec: mass points under Newton's law | second order Taylor bound of the inverse cube, sum over points |
| C102 | `thirdBodyList`, `thirdBodyUpdate`; spec `pull` | list invariant; algebra |
| C103 | `calcRmm` with the function-local statics as shared state | induction over the sequence of updates of all spacecraft |
| C104 | `calcTorqueForce`, `srpCoefficients`, `initSurfaces`; spec `Surf.lightForce` | vector identities, Lambert integral |
| C105 | `AirDrag`; spec `Surf.gasPressure` (Maxwellian half-space integrals) | Gaussian moment integrals over a half line |
| C106 | `Celestial`, lookups by SPICE name, `Local` update; SPICE is a parameter | first-index search; explicit UB cases |
| C107 | `convertVelocity`; spec derivative of a body-frame position under a rotating matrix | error term computed with the isometry lemmas of C64 |
| C108 | `shadowCases`, `shadowStep`, `Srp.update`, NaN as `none`; spec `Shadow.litFraction` (Lebesgue area of discs) | overlap area by integration; exterior angle theorem; fold induction over sources |
| C109 | `Srp.update`, `Srp.init`, getters | fold invariants |
| C110 | `Model/Attitude.lean` (`AttitudeRk4`), `Spec/RigidBody.lean` (Euler's equation, quaternion kinematics, schedules) | quaternion scaling commutes with the derivative, so the per-step normalisation can be postponed; order-4 convergence of C93 plus a Lipschitz bound for normalisation; induction over the schedule |
| C111 | the same | derivative of the inertial momentum and of the energy along exact motions; Lipschitz transfer to the program |
| C112 | `Model/ControlledAttitude.lean`; spec `Points` | triad algebra, C67 round trip, uniqueness from isometry |
| C113 | `calcAngularVelocity` | quaternion algebra, derivative of the difference quaternion, concrete witnesses of the wrong sign |
| C114 | `Model/Cantilever.lean`; spec `Spec/Cantilever.lean` | exact count of steps, one-step convergence theorem, witnesses for the unshortened last step and the stale total inertia |
| C115 | spec `FlexOn` | derivatives along exact motions, explicit motion with changing momentum |
| C116 | `Model/ReactionWheel.lean`; spec `Spec/ReactionWheel.lean` (`clamp`, `delayed`, `lagged`) | invariant relating buffer and lag to the list of commands, induction over updates |
| C117 | the same | closed form of one Runge–Kutta step with the limiter, invariant over call histories, witness of the overshoot |
| C118 | the same | decreasing speed, bounded number of updates; two-cycle witness; stop limit zero |
| C119 | the same | invariant over call histories; witness of the stale torque |
| C120 | `Model/WheelJitter.lean`; spec `harmonicSum` | induction over speeds and rows |
| C121 | spec `transfer` | complex exponentials solve the recursion; free solutions decay (discriminant cases); gain by algebra |
| C122 | `Fleet` | induction over fast updates |
| C123 | `Model/Magnetorquer.lean`; spec `nearest` | invariant over call histories, induction over updates without command, generator states as iterates |
| C124 | `Interference`, `biasRun`; spec `polynomial`, last moments | induction over the history from the end |
| C125 | `Model/Thruster.lean`; `delayed`, `lagged` | as C116; Rodrigues formula for the direction error |
| C126 | `Model/RelativeInformation.lean`: map as association list, loops with `at` that may throw; spec `registered`, `Gapless` | loop invariants, cardinality of ids; derivatives of the RTN axes; `C65`, `C95` |
| C127 | `Model/GroundStation.lean`; spec `elevation` (angle to the ellipsoid normal) | `C98_ltc`, `C98_to_ecef`, monotonicity of sine, induction over updates |
| C128 | `Model/Communication.lean`; spec `friis`, `ratio` | laws of logarithms; quaternion composition; witness |
| C129 | `Pattern.getGain` | floor bounds; witness over the default grid for every degree |
| C130 | `Potential.calcAcceleration`, `calcPartialDerivative` (recursion of v/w, both loops) | polynomials in x,y,z,1/r for solid harmonics, Legendre derivatives as polynomials, gradient calculus (`IsGradient`), induction on degree and order |
| C131 | `geopotentialNew`, `geopotentialUpdate`, `readLines` | file loop invariant (`Square` tables hold what the lines state), then C130 |
| C132 | `lunarNew`, `lunarUpdate`, copy of the rotation pointers | same; the copy has no rotations, so every update is `ub` |
| C133 | `Star.raw` | quaternion algebra (C64, C65, C69) |
| C134 | `Star.Sensor` (buffer, counter, unsigned index arithmetic) | invariant over updates; exact age of the output |
| C135 | `Star.allJudgement` | case analysis; geometry of the limb |
| C136 | `Sun.Sensor.measure`, histories | exact characterisation per update, induction over histories |
| C137 | `Hip.readContents` on characters, `Hip.directionI`, `directionB` | well-founded loop against `takeWhile`; trigonometry |
| C138 | `Telescope.new`, `judge`, `observe`, `update`, `run` | geometry of `atan2`; invariant over updates |
| C139 | `Telescope.starLoop` | induction on the loop, equality with filter, take and padding |
| C140 | `Telescope.observeGround` | case analysis; scaling of `atan2` |
| C141 | `GnssRx.fromReceiver` | line-sphere geometry (discriminant), concrete counterexample |
| C142 | `GnssRx.checkCone`, `step`, `info` | fold equals filter-map; angles of unit quaternion images |
| C143 | `GnssRx.update`, `gpsTime`, `run` | induction over histories |
| C144 | `Atmosphere.simpleDensity` | case analysis over the layers, limits, rational bounds of `exp` |
| C145 | `Atmosphere.harrisPriester`, `upperBound`, `apexDensity` | sorted-table lemmas, half-angle formula |
| C146 | `Atmo.calc`, `Atmo.update`, `Atmo.run` | induction over histories |
| C147 | `Ideal.withNoise`, `noiseQuaternion`, `Force.step`, `Torque.step` | rotation about a non-unit axis, induction over histories |
| C148 | `observeAttitude`, `observeOrbit`, `noiseFrame` | quaternion algebra (C64, C65, C69), RTN frame (C95) |
| C149 | `EarthRad.step`, `EarthRad.run` on top of `Srp.update` | C108, C109, induction over histories |
| C150 | `Model/Sp3`: streams with eof/fail bits, header, epoch and satellite loops, decoding by columns; `stoi`, `stod`, `sscanf` are arbitrary partial functions | specification by columns (`HeaderOk`, `EpochOk`, `SatOk`); induction over lines, satellites and epochs; stale line at the end of the file |
| C151 | `Model/Julian`: `jday`, `days2mdhms`, `invjday`, `JdToDecyear`, `gstime` over the reals (floor for the conversions to integers) | specification by the proleptic Gregorian day count; case analysis by year modulo 4, month table; exact error sets |
| C152 | `Model/CelestialRotation`: coefficient tables, accumulation loops, matrix products | independent formulas with Mathlib matrices; sidereal time modulo 2π; bounds on the rate from bounds on π |
| C153 | `Model/CelestialRotation` (Moon): `sxform_c` is an arbitrary function | matrix identities, orthonormal frames |
| C154 | `Model/Igrf` (statics as a state, arrays as functions, coefficient file as numbers), spec `Spec/Geomagnetic` (potential with Schmidt's factors, histories `Before`, `After`) | loop invariants for the Legendre table, the angles and powers; gradient of solid harmonics (`Proofs/SolidHarmonics`); cache invariant `Ready` over histories |
| C155 | the same | uniqueness of gradients; a concrete file for the frozen segment; `Marked` invariant of the degree search for the read of unwritten memory |
| C156 | `Model/GeomagneticField`: world shared by all objects, noise sources arbitrary | induction over the reachable worlds (`Ran`), independent walk and draw numbering |
| C157 | `Model/InitOrbit`: settings as a function of section and key, every propagator behind `Motor`, SGP4 code and number parsing arbitrary | case analysis of the mode, C91/C92/C97 for the accuracy, geodetic conversion of the centre of the Earth for a missing `[ORBIT]` |
| C158 | `Model/InitOrbit` (`KeplerProp`) | invariant over histories (`kepler_calls`), C91 |
| C159 | `Model/InitOrbit` (`transform`, `finish`, `Motor.propagate`) | every propagator ends in `transform`; C98 for the altitude |
| C160 | `Model/InitOrbit` (`Dynamics`), any attitude object | induction over the states that occur |
| C161 | `Model/GaussianBeam` | Gaussian integral, polar coordinates and the fundamental theorem for the disc; an explicit complex field for the wave equation |
| C162 | `Model/BiasSinex`: streams with eof/fail bits, endless loops with a fuel, `std::stod` arbitrary | `Spec/BiasSinex` gives the layout; induction over the layout in one direction and over the fuel in the other; cut files by induction over the fuel |
| C163 | `Model/Antex`: streams, endless loops with a fuel, the map as a list of entries, conversions of text arbitrary | `Spec/Antex` gives the layout; induction over the layout and over the fuel; "last line of a kind" by induction over the lines |
| C164 | `Model/Antex` (grid): reals, conversion to `size_t` undefined outside of its range | floor inequalities; concrete grids for the out-of-table index |
| C165 | `Model/SpaceWeather`: reals, conversions to `int` undefined outside of their range, month and day not written are undefined | `Spec/SpaceWeather` on `Spec/Calendar`; branch by branch with the sums of month lengths; uniqueness of the date of a day number |
| C166 | same model, `gtd7` an arbitrary function of its input | `findIdx` against "first row with the date" |
| C167 | same model, streams of `Model/Sp3`, `atoi` and `atof` arbitrary | induction over the lines; the first line that is not good decides |
| C168 | same model | monotonicity of dates in the decimal year; 30 days are less than 31/365 of a year |
| C169 | same model and `Model/Julian` | C151 gives the decimal year; floor inequalities; concrete instants and a run over the end of each common year |
| C170 | `Model/InitAttitude` on `Model/Ini`, `Model/Attitude`: settings are read through an arbitrary reader of numbers | case split on the modes; pointing from C112; inverse from C73 |
| C171 | `Model/InitMonteCarlo` on `Model/MonteCarlo` | induction over the listed lines; splitting at dots against an explicit form of the line; C33, C35 |
| C172 | `Model/Tle`: the corrections of the lines, `sscanf` for the conversions used, units and epoch of `twoline2rv` (inf, nan and hexadecimal numbers of `%lf` not modelled) | `Spec/Tle` gives the format by columns; lemmas on the conversions of a field; corrections step by step |
| C173 | `Model/Sgp4`: `sgp4unit.cpp` (`gstime` is in `Model/Julian`) over real numbers | relation between the record before and after a call, preserved by every call; quantifies over all records and lists of times |
| C174 | `Model/Sgp4`, `dspace` | `Spec/Sgp4Resonance`: the equations of the resonance and their Taylor steps, without the control flow of the code; induction over the number of whole steps; continuity by gluing the pieces |
| C175 | `Model/Sgp4`, near-Earth part of `sgp4init`, `initl` and `sgp4`, over real numbers | `Spec/Sgp4Report` has the equations in the notation of the report; every coefficient of the record is shown equal to the report's expression, then secular, drag, Kepler and short-period parts one after the other; the state after any calls agrees with the initialised one by C173 |
| C176 | the whole of `sgp4`, any record | case analysis of the returns; geometry of the orientation vectors |
| C177 | as C175 | both runs are brought to the same mean elements by the linear secular terms |
| C178 | `Model/Sgp4Orbit`: `Sgp4OrbitPropagation` over `Model/Tle` and `Model/Sgp4`; unwritten local arrays are undefined behaviour | composition of C172, C173, C175 (near-Earth) and C180 (deep-space); induction over the list of calls |
| C179 | as C175 | `Proofs/KeplerNewton`: error of a Newton step is at most 0.783 times its square for eccentricities up to 0.55, no correction is limited; six steps reach the tolerance; bounds of semi-major axis and eccentricity from the period |
| C180 | `Model/Sgp4` (`dscom`, `dsinit`, `dspace`, `dpper`, `deepSpace`, `sgp4init`, `sgp4`), `Spec/ThirdBody` (averaged potential of Sun and Moon as an integral, Lagrange's equations with `deriv`), `Spec/Sgp4Deep` | closed forms of the two averages (`Proofs/ThirdBody`), matching with the coefficients of the code (`Sgp4Body`, `Sgp4Dscom`, `Sgp4Dsinit`), resonance integrator by induction on the steps (`Sgp4Resonance`, `Sgp4DeepRecord`), corrections (`Sgp4Dpper`), whole call (`Sgp4DeepTime`); whole call with the code 0 as a worked case |
| C181 | `SerialExample`: constructor, `ParseCommand`, `GenerateTelemetry` (with `sizeof(vector)` and the self-assignment as parameters), `MainRoutine`, over `UartComm`, `ObcUart` and the ring buffers | refinement of a queue specification: relation between ports (ring invariants), memory and specified state, preserved by each action; induction over histories |
| C182 | `SerialHils`: the HILS serial example in SILS mode over `UartComm`, `ObcUart` and the ring buffers | refinement of a queue specification, induction over histories; corollaries for an unbounded number of echo rounds and for the cyclic alphabet of the sender |
| C183 | `Struct`: `Structure` with all setters, `InitKinematicsParameters`, `InitSurfaces`, `InitResidualMagneticMoment`, `Structure::Initialize`, `ExampleChangeStructure::MainRoutine` under the clock | induction over setter histories against "last accepted value" specifications; reading a described structure gives it back (accepted surfaces are kept, C104); induction over ticks with idempotence of the change |
| C184 | `Model/InitAocs`: the `Init…` functions of magnetometer, gyro, rate observer, magnetorquer, its interference, star sensor, sun sensor, GNSS receiver, `ReadSensorInformation`, `PowerPort::InitializeWithInitializeFile`, on top of the ini reader and of the component models; seeds as an abstract generator by number and standard deviation | `Spec/Settings` and `Spec/InitAocs` say what it means that a data sheet is written in a file; each made component is given explicitly in terms of the sheet; section names injective by `dec_inj`; histories of measurements by the invariant of C-Sensor |
| C185 | `Model/InitOthers`: the `Init…` functions of antenna (with the pattern tables), link calculator, battery (with and without the elided copy), solar panel, power control unit, thruster, telescope, torque/force generator, orbit/attitude observer; `INIReader::GetBoolean` and the parsed CSV table are inputs | `Spec/InitOthers` says what a written data sheet is; the components are computed from it and composed with C59, C61, C125, C128 to behaviour in terms of the sheet |
| C186 | `InitParams`, `InitReactionWheel` (`Model/InitWheel`): reading of the two sections, mounting, friction, harmonics tables (through `Extra.table`), the shared jitter object as part of the fleet. | Composition of the readings of the settings sheet with C116 (response, axis), C70 (short direction) and C52 (vectors); case analysis for the refusals. |
| C187 | `InitSimulationTime`, the constructor of `SimulationTime` with its `sscanf`, `AssertTimeStepParams` (`Model/InitTime`); SPICE's ephemeris time is a parameter; uninitialised members are the outcome `ub`. | Parsing lemmas of the TLE reader for unlimited width; remainders are suffixes, so a missing separator cannot be matched; composition with C151, C29 and C30. |
| C188 | The constructor of `Disturbances`, the `Init…` functions of the seven disturbances and `Update` (`Model/InitDisturbance`); surroundings of a step are a parameter; coefficient files are lists of lines, uninitialised coefficients the outcome `ub`. | Induction over the steps with the invariant "every disturbance shows its latest recalculation"; composition with C102, C131, C132. |
| C189 | `InitTemperature`, `InitNode`, `InitHeater`, `InitHeaterController`, `InitHeatload` (`Model/InitThermal`); `stoi`/`stod` arbitrary partial functions, files arbitrary texts; reads beyond a short matrix row are `ub`. | The tables are read back with C53; the made network is described by a sheet (`Spec/InitThermal`); composition with C78 and C79 on the described network. |
| C190 | `InitGnssSatellites` (`Model/InitGnss`) on top of the SP3 reader, product names, date conversion and the interpolation window; all epoch dates are converted, in the code only those used | product → reader columns → one stream of epochs (stronger form of C150), induction over the days, then C89; negative cases by the scan over the files |
| C191 | the UART part of `HilsPortManager`, `HilsUartPort`, the component base class in HILS mode and the I2C controller (`Model/HilsUart`); the .NET `SerialPort` and the lines are the environment (documented behaviour as listed in the model's header) | invariant relating each port to the record of calls, kept by every call (induction over histories); counterexamples for stale bytes and the closed port |
| C192 | `InitCelestialInformation` with the constructors of the rotation models, `UpdateAllObjectsInformation`, `MoonRotation::Update`, `InitHipparcosCatalogue`, `GlobalEnvironment::Initialize` and `Update` (`Model/InitGlobal`); SPICE is a family of functions of the furnished kernels, the GNSS satellites are left to C190 | the file is read against a sheet (`Spec/InitGlobal`), the state after `n` updates by induction as a function of the last time; composed with C29, C106, C137, C152, C153, C187; counterexample for bodies that are not selected |
| C193 | `Logger` with a disk (regular files, directories, what the operating system allows), its constructor, directory, CSV stream with its position, copies, `InitLog`, `InitMonteCarloLog`, the logger of `SimulationCase` (Model/LogFiles). Paths are compared as text; the stream is not buffered; the clock text is an input | `C193_paths`, `C193_csv` (invariant over all runs of several loggers), `C193_copies` (induction), `C193_missing`, `C193_refused`, `C193_disabled`, `C193_silent`, `C193_same_second`, `C193_settings`, `C193_monte_carlo` |
| C194 | `LocalEnvironment::Initialize` and `Update` with the five Init functions of its parts (`Model/InitLocal`); NRLMSISE-00 external | values of the file (Number/Text/Switch) read; the run is split into the runs of the parts; induction over histories with any flags, then C149, C146, C154/C156 |
| C195 | `GetLogHeader`/`GetLogValue` of all parts of a one-spacecraft simulation, the `LogSetup` functions, headers and values of a run (`Model/LogColumns`); printing a number is arbitrary, debug columns not compiled by default left out | cells of every part against a literal table of (name, value); distinctness: fixed names by evaluation (closed), body and node names by their endings; then C51 and lookup of the first column with a name |
| C196 | `SimulationCase::InitializeSimulationConfiguration` and `GroundStation::Initialize` on settings files (`Model/InitCase`); station as in C127, log file copies as in C193 | lists read up to the first gap (C52), numbers by the Number/Integer relations, then C127 for position and visibility |
| C197 | `Model/SampleCase` (the example case with `caseRun`, `InitCase`, `Ground.Station`), spacecraft arbitrary | induction over steps, C30, C127, C196 |
| C198 | `Model/SampleInterference` (magnetometer, magnetorquer and interference of the example in the order of a step) | invariant over histories against the run without interference |
| C199 | `Model/LogComponents` (header and values of 17 component classes), `Spec/LogComponents` (names with texts) | cell lists of the writers; distinct names by prefixes of the classes and numbers; lookup in the file of a whole run on top of C195 |

Further properties appended to `properties.jsonl` follow the same pattern; the table is extended with the model.
