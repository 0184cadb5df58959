{"id": "C01", "title": "Ring buffer is a FIFO while it is never over-filled", "statement": "For a RingBuffer of capacity N, as long as the number of unread bytes never exceeds N-1, any interleaving of Write and Read calls with any chunk sizes and offsets delivers exactly the written bytes, once each and in order; Write returns the requested length and Read returns min(requested, unread).", "quantifier": "all capacities N>=1, all finite histories of Write/Read calls, all chunk sizes, offsets and byte values", "why_tests_cant": "The wrap-around behaviour depends on the joint history of both pointers; tests sample a few histories.", "anchors": ["src/utilities/ring_buffer.cpp: RingBuffer::Write, RingBuffer::Read"]}
{"id": "C02", "title": "Ring buffer content after any history, including overruns", "statement": "After any history of writes and reads whatsoever, with W the concatenation of all bytes written and r the number of bytes read, the readable bytes are exactly the last ((|W|-r) mod N) bytes of W; an overrun silently drops whole multiples of N bytes and never yields a byte that was not written or yields bytes out of order.", "quantifier": "all N>=1 and all histories without any occupancy bound", "why_tests_cant": "Overrun interacts with every pointer offset; only an invariant over histories covers it.", "anchors": ["src/utilities/ring_buffer.cpp: RingBuffer::Write, RingBuffer::Read"]}
{"id": "C03", "title": "Ring buffer accesses stay in bounds and terminate", "statement": "For N>=1 every Write/Read terminates, never touches memory outside the ring storage, and touches of the caller's buffer only the bytes offset..offset+length-1 (Read: only the first returned-count of them). For N=0 a non-empty Write never terminates.", "quantifier": "all N, all pointer positions reachable, all lengths and offsets", "why_tests_cant": "Memory safety and termination are universal statements over loop iterations.", "anchors": ["src/utilities/ring_buffer.cpp: RingBuffer::Write, RingBuffer::Read"]}
{"id": "C04", "title": "UART ports carry two independent byte streams per port id", "statement": "On an OnBoardComputer, bytes sent from the OBC on port p are received only by the component side of p, and bytes sent by the component on p only by the OBC side of p; traffic on a direction or port never alters what is readable on any other direction or port.", "quantifier": "all histories of connect/close/send/receive calls on any set of integer port ids", "why_tests_cant": "Non-interference quantifies over all pairs of ports and all interleavings.", "anchors": ["src/components/real/cdh/on_board_computer.cpp: ConnectComPort, CloseComPort, SendFromObc, ReceivedByCompo, SendFromCompo, ReceivedByObc", "src/components/ports/uart_port.cpp: UartPort"]}
{"id": "C05", "title": "UART port life cycle", "statement": "Connecting an already connected port returns -1 and leaves its buffered data untouched; connecting a free port returns 0 and starts with both streams empty; closing a connected port returns 0 and frees the id, closing a free one returns -1; every send/receive on a free id returns -1 and has no effect.", "quantifier": "all histories of port operations and all port ids", "why_tests_cant": "Requires reasoning about every reachable port table.", "anchors": ["src/components/real/cdh/on_board_computer.cpp: ConnectComPort, CloseComPort"]}
{"id": "C06", "title": "Requested UART buffer sizes are the ones applied to the named direction", "statement": "A port connected with tx_buffer_size T (OBC to component) and rx_buffer_size R (component to OBC) can hold T-1 unread bytes towards the component and R-1 towards the OBC without loss. (The code passes the two sizes in swapped order, so this is false whenever T and R differ; what holds is the swapped statement.)", "quantifier": "all sizes T,R>0 and all port ids", "why_tests_cant": "The claim is about every pair of sizes; default-size tests (T=R) cannot see it.", "anchors": ["src/components/real/cdh/on_board_computer.cpp:30-37 ConnectComPort", "src/components/real/cdh/on_board_computer_with_c2a.cpp:84-91", "src/components/ports/uart_port.hpp: UartPort(rx_buffer_size, tx_buffer_size)"]}
{"id": "C07", "title": "A component receiving a command never writes outside its receive buffer", "statement": "UartCommunicationWithObc::ReceiveCommand(offset, size), whenever it does not reject the request, writes only inside the component's receive buffer. (False for offset>0: the buffer is resized to `size` before the read at `offset`; it holds for offset=0.)", "quantifier": "all offsets, sizes, configured buffer sizes and amounts of pending data", "why_tests_cant": "Out-of-bounds writes usually go unnoticed in a test run.", "anchors": ["src/components/base/uart_communication_with_obc.cpp: ReceiveCommand"]}
{"id": "C08", "title": "A component sending telemetry never reads outside its transmit buffer", "statement": "UartCommunicationWithObc::SendTelemetry(offset), whenever it does not reject the request, sends only bytes inside the component's transmit buffer. (The bound checked is the receive buffer size, so it holds when rx size <= tx size and fails otherwise.)", "quantifier": "all offsets, telemetry sizes and configured tx/rx buffer sizes", "why_tests_cant": "Same: silent out-of-bounds reads.", "anchors": ["src/components/base/uart_communication_with_obc.cpp: SendTelemetry"]}
{"id": "C09", "title": "I2C registers behave as a per-device map", "statement": "Reading register r of device a through I2cPort::ReadRegister(a,r) returns the value most recently stored in (a,r) by any write path, or 0 if never written since registration; writes to other devices or registers never affect it; out-of-range register addresses are rejected with 0 and change nothing.", "quantifier": "all histories of register/command operations over all 256x256 device/register addresses and all register counts", "why_tests_cant": "Aliasing between devices and the shared address pointer needs all histories.", "anchors": ["src/components/ports/i2c_port.cpp: RegisterDevice, WriteRegister, ReadRegister"]}
{"id": "C10", "title": "I2C sequential read auto-increments and wraps", "statement": "After the register pointer is set to r<max, k consecutive address-less reads of device a return registers r, r+1, ... of that device, wrapping from max-1 to 0.", "quantifier": "all r, max, k (including k>max) and register contents", "why_tests_cant": "Unbounded run length and wrap-around.", "anchors": ["src/components/ports/i2c_port.cpp: RegisterDevice, WriteRegister, ReadRegister"]}
{"id": "C11", "title": "I2C command buffer round trip and command side effects", "statement": "A command of length L<=255 written for device a is read back byte for byte by ReadCommand(a,L); a 1-byte command additionally only moves the register pointer, a 2-byte command additionally stores its second byte in the register named by its first, longer commands touch no register.", "quantifier": "all commands, lengths and devices, all prior states", "why_tests_cant": "Quantifies over all lengths and prior states.", "anchors": ["src/components/ports/i2c_port.cpp: WriteCommand, ReadCommand"]}
{"id": "C12", "title": "Component-side I2C block access on an OBC round-trips", "statement": "A component that writes a block of L bytes at register r of its device with I2cComponentWriteRegister reads the same block back with I2cComponentReadRegister, when r+L does not exceed the register count. (Holds for ObcWithC2a; false for plain OnBoardComputer, which swaps device and register address on read and stores every byte of a block in the same register.)", "quantifier": "all devices, start registers, block lengths and contents", "why_tests_cant": "Single-byte, symmetric-address tests do not expose the swap.", "anchors": ["src/components/real/cdh/on_board_computer.cpp: I2cComponentWriteRegister, I2cComponentReadRegister", "src/components/real/cdh/on_board_computer_with_c2a.cpp: I2cComponentWriteRegister, I2cComponentReadRegister"]}
{"id": "C13", "title": "GPIO line holds the last written level and notifies on edges only", "statement": "DigitalRead returns the last level written (low initially); the attached component is notified exactly once per write that changes the level, with the port id and new level, and never otherwise; on an OBC, reading an unconnected port gives low and writing it returns -1.", "quantifier": "all write/read histories on all ports", "why_tests_cant": "Edge detection is a property of whole histories.", "anchors": ["src/components/ports/gpio_port.cpp", "src/components/real/cdh/on_board_computer.cpp: Gpio*"]}
{"id": "C14", "title": "SLIP decode inverts encode", "statement": "decode_slip(encode_slip(x)) = x and decode_slip_with_header(encode_slip_with_header(x)) = x for every byte string x, and bytes that follow the frame in the input do not change the result.", "quantifier": "all byte strings x and all trailing data", "why_tests_cant": "Escape sequences interact at arbitrary positions.", "anchors": ["src/utilities/slip.cpp"]}
{"id": "C15", "title": "SLIP frames are self-delimiting", "statement": "In encode_slip(x) the frame-end byte 0xC0 occurs exactly once, as the last byte (with header: exactly first and last), so a concatenation of encoded frames splits uniquely at 0xC0 into the frames.", "quantifier": "all lists of byte strings", "why_tests_cant": "Universal over contents.", "anchors": ["src/utilities/slip.cpp"]}
{"id": "C16", "title": "SLIP encoded length", "statement": "encode_slip(x) is |x| + (number of 0xC0 and 0xDB bytes in x) + 1 bytes long, hence at most 2|x|+1; decode_slip never lengthens its input.", "quantifier": "all byte strings", "why_tests_cant": "Universal.", "anchors": ["src/utilities/slip.cpp"]}
{"id": "C17", "title": "SLIP decoding is memory safe exactly on inputs without a dangling escape", "statement": "decode_slip(y) performs no out-of-range access iff, reading y up to its first 0xC0 from the left, the last byte is not an unpaired escape byte 0xDB; decode_slip_with_header is in addition undefined on the empty input.", "quantifier": "all byte strings y, valid or not", "why_tests_cant": "Hostile inputs cannot be enumerated.", "anchors": ["src/utilities/slip.cpp"]}
{"id": "C18", "title": "Endian-aware copy reverses byte order exactly", "statement": "On a little-endian host endian_memcpy(dst,src,n) with n>=1 writes dst[i]=src[n-1-i] for i<n and nothing else; copying twice restores the input. (For n=0 the code still writes one byte, so 'copies exactly n bytes' fails for n=0.)", "quantifier": "all n, contents", "why_tests_cant": "Size zero and arbitrary sizes.", "anchors": ["src/utilities/endian.cpp: endian_memcpy"]}
{"id": "C19", "title": "Quantization rounds toward zero onto the grid", "statement": "For resolution q>0 and |x/q|<2^31, quantization(x,q) is an integer multiple of q, differs from x by less than q, lies between 0 and x, is idempotent, odd and monotone in x; outside that range the integer conversion is undefined.", "quantifier": "all real x and q>0", "why_tests_cant": "Continuous domain.", "anchors": ["src/utilities/quantization.cpp"]}
{"id": "C20", "title": "Components run at their prescaled rate", "statement": "A powered component with prescaler p (0 is treated as 1) registered on a ClockGenerator executes its main routine on tick t iff p divides the clock count, so over any n consecutive ticks starting from count 0 it runs exactly ceil(n/p) times; this holds while the 32-bit count does not wrap.", "quantifier": "all prescalers, all tick counts, all sets of components", "why_tests_cant": "Unbounded run length.", "anchors": ["src/environment/global/clock_generator.cpp", "src/components/base/component.cpp: Tick, FastTick"]}
{"id": "C21", "title": "Every registered component is ticked once per clock, in registration order", "statement": "TickToComponents calls Tick exactly once per registration, in registration order, all with the same count, followed for fast-update components by FastTick with the same count before the next component; RemoveComponent removes one registration (the earliest) and later ticks do not reach it; ticks happen only on component-update steps.", "quantifier": "all register/remove/tick histories", "why_tests_cant": "History-dependent.", "anchors": ["src/environment/global/clock_generator.cpp", "src/components/base/component.cpp: Tick, FastTick"]}
{"id": "C22", "title": "A powered-off component never executes its main or fast routine", "statement": "While its power port is off a component executes only its power-off routine, at the same prescaled instants; main and fast routines never run.", "quantifier": "all prescalers, counts and power histories", "why_tests_cant": "History-dependent.", "anchors": ["src/environment/global/clock_generator.cpp", "src/components/base/component.cpp: Tick, FastTick"]}
{"id": "C23", "title": "Power port switching and current", "statement": "After Update a port is on iff voltage >= minimum voltage - eps and the drawn current P/V is below limit - eps; when on, current*voltage equals the assumed power; when off the current is zero; an over-current trip zeroes the voltage, and the port then stays off under further Updates until a new voltage is set.", "quantifier": "all real voltages, limits, powers, and all histories of setter and Update calls", "why_tests_cant": "Thresholds over a continuous domain and histories.", "anchors": ["src/components/ports/power_port.cpp: Update, SetVoltage_V"]}
{"id": "C24", "title": "Assumed power bookkeeping never goes negative by subtraction", "statement": "SubtractAssumedPowerConsumption_W never leaves a negative power; adding and subtracting loads in any order with the running total staying non-negative yields the exact sum of the connected loads.", "quantifier": "all finite load histories", "why_tests_cant": "Histories.", "anchors": ["src/components/ports/power_port.cpp: SubtractAssumedPowerConsumption_W", "src/components/ports/power_port.hpp: AddAssumedPowerConsumption_W"]}
{"id": "C25", "title": "PCU port table life cycle", "statement": "ConnectPort succeeds (0) exactly on free ids and otherwise returns -1 leaving the existing port unchanged; ClosePort succeeds exactly on connected ids and frees them; ports with different ids are independent.", "quantifier": "all histories", "why_tests_cant": "Histories.", "anchors": ["src/components/real/power/power_control_unit.cpp"]}
{"id": "C26", "title": "Subsystem update flags are strictly periodic", "statement": "With k the least positive count with k*step >= interval, the update flag of a subsystem (attitude, orbit, thermal, component) is raised at UpdateTime call n (n>=1) iff k divides n+1 (so every step if k=1), independently for each subsystem; in particular the spacing is exactly k steps forever.", "quantifier": "all positive steps and intervals, all n, any monotone rounding of the product", "why_tests_cant": "Unbounded run length.", "anchors": ["src/environment/global/simulation_time.cpp: SetParameters, UpdateTime"]}
{"id": "C27", "title": "Log output is strictly periodic starting at time zero", "statement": "A log row is requested at step 0 and at step n iff k divides n, k the least positive count with k*step >= log interval.", "quantifier": "all positive steps/intervals and all n", "why_tests_cant": "Unbounded run length.", "anchors": ["src/environment/global/simulation_time.cpp: SetParameters, UpdateTime"]}
{"id": "C28", "title": "The simulation main loop terminates after the requested duration", "statement": "With exact arithmetic and real-time pacing off, the main loop performs exactly floor(end/step)+1 updates: it stops at the first step whose elapsed time exceeds the end time and not before.", "quantifier": "all end>=0 and step>0", "why_tests_cant": "Unbounded run length.", "anchors": ["src/environment/global/simulation_time.cpp: SetParameters, UpdateTime", "src/simulation/case/simulation_case.cpp: Main"]}
{"id": "C29", "title": "Elapsed time and Julian date advance uniformly", "statement": "After n updates without real-time pacing elapsed time is n*step, Julian date is start + n*step/86400 and ephemeris time start + n*step: no drift between the three clocks.", "quantifier": "all n, step", "why_tests_cant": "Unbounded run length.", "anchors": ["src/environment/global/simulation_time.cpp: SetParameters, UpdateTime"]}
{"id": "C30", "title": "Logged rows carry the state before the update of that step", "statement": "The i-th row written by the main loop (i>=0) shows the state at elapsed time i*k*step, rows are in time order, and the number of rows for a run is floor(floor(end/step)/k)+1; the header line is written once before all rows.", "quantifier": "all configurations", "why_tests_cant": "Run-length dependent.", "anchors": ["src/simulation/case/simulation_case.cpp: Initialize, Main", "src/logger/logger.cpp"]}
{"id": "C31", "title": "Progress display pacing", "statement": "Let D=end/step/100. If D<1 progress is displayed at every step; otherwise it is displayed exactly at updates ceil(D), ceil(D)+floor(D), ceil(D)+2*floor(D), ... (so more often than every 1% when D is not an integer).", "quantifier": "all end, step and n", "why_tests_cant": "Unbounded run length.", "anchors": ["src/environment/global/simulation_time.cpp: SetParameters, UpdateTime"]}
{"id": "C32", "title": "Real-time pacing never lets simulated time stall or silently jump backwards by more than a millisecond", "statement": "With real-time pacing on, for all wall-clock readings that do not run backwards, each UpdateTime either advances elapsed time by exactly one step or resynchronises to the scaled wall clock, which is later than the regular value minus 1 ms; if the last in-time step lies at most the limit (1 s) back, no resynchronisation happens. (Before the first in-time step that protection is missing: the reference time is the clock epoch.)", "quantifier": "all wall-clock traces", "why_tests_cant": "Environment nondeterminism.", "anchors": ["src/environment/global/simulation_time.cpp: SetParameters, UpdateTime"]}
{"id": "C33", "title": "Monte-Carlo executor runs exactly the requested number of cases", "statement": "Driving the executor with WillExecuteNextCase/AtTheEndOfEachCase runs exactly total cases when enabled and exactly one when disabled, and then stops for good.", "quantifier": "all totals and enable flags", "why_tests_cant": "Unbounded.", "anchors": ["src/simulation/monte_carlo_simulation/monte_carlo_simulation_executor.cpp"]}
{"id": "C34", "title": "Monte-Carlo parameters overwrite only what they name", "statement": "Fetching an initialized parameter leaves the destination untouched when Monte-Carlo is disabled, when the name is not registered, or when it is configured as NoRandomization (a quaternion destination is then still normalised); otherwise the destination equals the value drawn by the last Randomize, or an exception is raised when fewer values than elements exist.", "quantifier": "all registries, names, destinations and draws", "why_tests_cant": "Combinatorial.", "anchors": ["src/simulation/monte_carlo_simulation/monte_carlo_simulation_executor.cpp", "src/simulation/monte_carlo_simulation/initialize_monte_carlo_parameters.cpp/.hpp: GetRandomized*"]}
{"id": "C35", "title": "Monte-Carlo names are unique", "statement": "Registering a parameter name or a SimulationObject name twice raises an error and keeps the first registration; destroying an object frees its name for reuse.", "quantifier": "all registration histories", "why_tests_cant": "Histories.", "anchors": ["src/simulation/monte_carlo_simulation/monte_carlo_simulation_executor.cpp", "src/simulation/monte_carlo_simulation/simulation_object.cpp"]}
{"id": "C36", "title": "Monte-Carlo draws stay in the configured set", "statement": "Cartesian-uniform draws lie component-wise between min and max, one value per configured dimension; circular and spherical draws have Euclidean norm |r| for the drawn radius; quaternion draws have unit norm.", "quantifier": "all configurations and all draws of the underlying generators in their range", "why_tests_cant": "Continuous domain.", "anchors": ["src/simulation/monte_carlo_simulation/initialize_monte_carlo_parameters.cpp: Generate*, Calc*"]}
{"id": "C37", "title": "Epoch time to calendar and back is lossless", "statement": "Converting any EpochTime (fraction in [0,1)) to DateTime and back gives the same EpochTime, and converting any valid calendar DateTime from 1970 on (day within its month under the year%4 leap rule, hour<24, minute<60, second in [0,60)) to EpochTime and back gives the same DateTime.", "quantifier": "all epoch seconds below the int range of days and all valid dates", "why_tests_cant": "Calendar edge cases over all days.", "anchors": ["src/math_physics/time_system/epoch_time.cpp", "src/math_physics/time_system/date_time_format.cpp"]}
{"id": "C38", "title": "Epoch time agrees with the Gregorian calendar from 1970 through 2099", "statement": "For every valid Gregorian date in 1970..2099 the EpochTime equals 86400 times the number of days elapsed since 1970-01-01 plus the seconds of day; from 2100-03-01 on the code is one day off (2100 is treated as a leap year).", "quantifier": "all dates in the range", "why_tests_cant": "Whole-calendar statement.", "anchors": ["src/math_physics/time_system/epoch_time.cpp", "src/math_physics/time_system/date_time_format.cpp"]}
{"id": "C39", "title": "Epoch time ordering is a total order consistent with physical time", "statement": "For epoch times with fraction in [0,1): exactly one of <, ==, > holds, the order is transitive, a<=b iff not a>b, and a<b iff seconds+fraction of a is less than that of b.", "quantifier": "all pairs and triples", "why_tests_cant": "Continuous domain.", "anchors": ["src/math_physics/time_system/epoch_time.cpp", "src/math_physics/time_system/date_time_format.cpp"]}
{"id": "C40", "title": "Epoch time arithmetic", "statement": "For normalised operands and no 64-bit overflow, a+b and a-b (a>=b) denote the exact sum and difference of the represented times, subtraction returns a normalised fraction, and (a+b)-b = a as represented time; addition returns a normalised fraction except when the fractions sum to exactly 1 (then the result has fraction 1.0: the documented range [0,1) is violated).", "quantifier": "all operands", "why_tests_cant": "Continuous domain with carry corner cases.", "anchors": ["src/math_physics/time_system/epoch_time.cpp", "src/math_physics/time_system/date_time_format.cpp"]}
{"id": "C41", "title": "Invalid calendar dates are rejected, not converted", "statement": "Constructing an EpochTime from a date with year<1970, month outside 1..12, day outside 1..31, minute>=60 or second>=60 performs no conversion (the value is left unset); hour is not validated and days beyond the month length spill into the following month.", "quantifier": "all field values", "why_tests_cant": "Universal.", "anchors": ["src/math_physics/time_system/epoch_time.cpp", "src/math_physics/time_system/date_time_format.cpp"]}
{"id": "C42", "title": "GPS week time round trip", "statement": "For epoch times at or after 1980-01-06, week and time-of-week satisfy 0<=tow<604800 and week*604800+tow = time since the GPS epoch; building GpsTime from (week,tow) gives back the same epoch time; UTC is 18 s behind.", "quantifier": "all times", "why_tests_cant": "Universal.", "anchors": ["src/math_physics/time_system/gps_time.cpp"]}
{"id": "C43", "title": "LCG computes the exact Park-Miller recurrence without overflow", "statement": "Seeded with any s with 0<|s|<2147483647, every state is 16807*s mod 2147483647, stays in 1..2147483646 and no intermediate exceeds the 32-bit range; outputs lie strictly between 0 and 1. Seed 0 is rejected; a seed that is a multiple of 2147483647 makes the generator return 0 forever.", "quantifier": "all seeds, all numbers of draws", "why_tests_cant": "Two-billion-state space.", "anchors": ["src/math_physics/randomization/minimal_standard_linear_congruential_generator.cpp"]}
{"id": "C44", "title": "LCG has full period", "statement": "From any valid seed the generator visits all 2147483646 states before repeating.", "quantifier": "all seeds", "why_tests_cant": "Needs number theory, not sampling.", "anchors": ["src/math_physics/randomization/minimal_standard_linear_congruential_generator.cpp"]}
{"id": "C45", "title": "Shuffled generator output", "statement": "The table index always stays in range; every output is one of the LCG outputs. (Intended shuffling does not happen: because of a cast the index is always 0, so the output stream is the plain LCG stream after warm-up with one early table element in front.)", "quantifier": "all seeds, all draw counts", "why_tests_cant": "Stream property.", "anchors": ["src/math_physics/randomization/minimal_standard_linear_congruential_generator_with_shuffle.cpp"]}
{"id": "C46", "title": "Derived seeds are always valid", "statement": "GlobalRandomization::MakeSeed never returns 0 nor a multiple of the LCG modulus, so seeding any noise source from it never raises and never produces a degenerate generator.", "quantifier": "all generator states", "why_tests_cant": "All 2^31 states.", "anchors": ["src/math_physics/randomization/global_randomization.cpp: MakeSeed"]}
{"id": "C47", "title": "Normal noise source", "statement": "With standard deviation 0 every draw equals the average exactly; draws come in pairs v2*f, v1*f from one accepted point in the unit disc; scaling and shifting the parameters scales and shifts the draws; re-seeding does not discard a held second value (so two equally re-seeded sources can differ in their next draw).", "quantifier": "all generator streams", "why_tests_cant": "Stream property.", "anchors": ["src/math_physics/randomization/normal_randomization.cpp", "src/math_physics/randomization/normal_randomization.hpp: SetParameters"]}
{"id": "C48", "title": "Random walk is pushed back beyond its limit", "statement": "The random-walk rate is <=0 above +limit, >=0 below -limit, and the unmodified noise in between; with zero noise the walk stays put.", "quantifier": "all states, limits, noise values", "why_tests_cant": "Continuous domain.", "anchors": ["src/math_physics/randomization/random_walk_template_functions.hpp"]}
{"id": "C49", "title": "Sensor output range", "statement": "After construction 0<=range_const<=range_zero for every axis whatever the configuration (assuming range_const>0 or fine if 0), and each measured component c of true input u obeys: |u|<range_const gives u; range_const<=|u|<range_zero gives sign(u)*range_const; |u|>=range_zero gives 0; hence |output|<=range_const.", "quantifier": "all inputs, ranges, dimensions", "why_tests_cant": "Continuous domain.", "anchors": ["src/components/base/sensor_template_functions.hpp: Clip, RangeCheck"]}
{"id": "C50", "title": "Noise-free sensor is an affine map", "statement": "With zero normal noise and zero random walk, Measure(x) = clip(scale*x + bias); in general it is clip(scale*x+bias+walk+noise) and each call advances the walk exactly once.", "quantifier": "all inputs, matrices, biases", "why_tests_cant": "Continuous domain.", "anchors": ["src/components/base/sensor_template_functions.hpp: Measure"]}
{"id": "C51", "title": "CSV log columns line up", "statement": "For every log writer (scalar, vector, matrix, quaternion) the number of comma-terminated fields in the header equals the number in the value row for the same element count, and a log row produced by the logger has exactly as many fields as the header line, in the same order of loggables, provided the enable flags do not change; a disabled logger writes nothing.", "quantifier": "all element counts, all lists of loggables", "why_tests_cant": "Universal.", "anchors": ["src/logger/log_utility.hpp", "src/logger/logger.cpp: WriteHeaders, WriteValues"]}
{"id": "C52", "title": "Ini string lists are read up to the first gap", "statement": "ReadStrVector(key) returns exactly the values of key(0), key(1), ... (inline comments stripped, path keywords replaced) up to the first index that is missing or reads NULL; ReadEnable is true exactly when the processed value is ENABLE or 1; missing keys give 0.0 / false / NULL; an inline comment runs from the white space before the first // to the end; ReadQuaternion prefers key_(i) unless all four are zero; ReadChar writes exactly the buffer size and terminates it only when the value is shorter.", "quantifier": "all ini contents", "why_tests_cant": "Universal.", "anchors": ["src/setting_file_reader/initialize_file_access.cpp"]}
{"id": "C53", "title": "CSV splitting", "statement": "Split is the inverse of joining with the delimiter for any list of delimiter-free fields whose last is non-empty; a trailing empty field is dropped; skipping r header rows and c header columns returns exactly the remaining cells in order.", "quantifier": "all field lists", "why_tests_cant": "Universal.", "anchors": ["src/setting_file_reader/initialize_file_access.cpp: Split, ReadCsvDoubleWithHeader"]}
{"id": "C54", "title": "C2A command argument encoding is big-endian", "statement": "An integer argument of type (u)intN within range is encoded as N/8 bytes, most significant first, two's complement for signed types; decoding those bytes gives the value back; values outside the type but inside the reader's range (64 bit unsigned, 32 bit for int8/16/32, 64 bit for int64) are reduced modulo 2^N and values beyond that throw; hexadecimal text is read as 0; raw and unknown types write nothing.", "quantifier": "all values and types", "why_tests_cant": "2^64 values.", "anchors": ["src/setting_file_reader/c2a_command_database.cpp: DecodeC2aCommandArgument"]}
{"id": "C55", "title": "WINGS operation file lines are executed once each, in order, with waits", "statement": "Each command line of the operation file is executed exactly once and in file order; after a `wait_sec w` line no line is executed for exactly ceil(w/step) calls; after the end of file nothing is executed; lines with fewer than three characters left after removing one leading dot, one leading blank and the # comment are skipped (a longer all-blank line, e.g. a comment indented by four, is not skipped and reads an empty token list; a literal EOL line ends the file).", "quantifier": "all files, waits and step widths", "why_tests_cant": "Histories.", "anchors": ["src/components/real/communication/wings_command_sender_to_c2a.cpp", "src/setting_file_reader/wings_operation_file.cpp"]}
{"id": "C56", "title": "GNSS satellite numbers and indices correspond one to one", "statement": "Index to number and back is the identity for every index below the total; number to index and back is the identity for every valid satellite number; distinct constellations occupy disjoint, contiguous index ranges; out-of-range indices give the error string; numbers outside their constellation's range are not rejected but take the index of a neighbouring constellation (G33 and R01 coincide).", "quantifier": "all indices and all valid numbers", "why_tests_cant": "Whole-table bijection plus all invalid indices.", "anchors": ["src/math_physics/gnss/gnss_satellite_number.cpp"]}
{"id": "C57", "title": "Year/day-of-year stepping follows the calendar", "statement": "IncrementYearDoy advances a yyyyddd value to the next calendar day under the year%4 leap rule, for any number of iterations (the Gregorian rule from 1901 through 2099, one day off after 2100-02-28); merge and parse are inverse for day numbers below 1000; distinct dates give distinct file names.", "quantifier": "all dates and iteration counts", "why_tests_cant": "Unbounded.", "anchors": ["src/math_physics/gnss/igs_product_name_handling.hpp"]}
{"id": "C58", "title": "Heater hysteresis", "statement": "A heater turns on only when the temperature is below the lower threshold and off only when above the upper one, keeps its state in between, outputs its (non-negative) rating exactly when on and 0 when off, and lower<=upper after construction whatever was configured: after a temperature history it is on exactly when some temperature was below the lower threshold and none since was above the upper one. (The threshold setters do not re-check the order, and a crossed pair makes the heater toggle at every update in between.)", "quantifier": "all temperature histories and parameters", "why_tests_cant": "Histories.", "anchors": ["src/dynamics/thermal/heater.cpp", "src/dynamics/thermal/heater_controller.cpp"]}
{"id": "C59", "title": "Battery depth of discharge integrates charge current", "statement": "After any sequence of charge currents i_1..i_n (one per main-routine run) the depth of discharge is the initial value minus sum(i_k)*dt/3600/capacity*100, with capacity = cell capacity * parallel count: charging and discharging by the same amount restores the state, and the voltage is the configured polynomial of the discharged capacity times the series count. A battery that was not copied has no current or voltage until one is set or computed: running it first reads uninitialised members.", "quantifier": "all current histories", "why_tests_cant": "Histories.", "anchors": ["src/components/real/power/battery.cpp"]}
{"id": "C60", "title": "Battery charging respects the CC and CV limits", "statement": "After every power-control update with positive battery resistance the charge current never exceeds the constant-current limit nor the value that would lift the bus above the constant-voltage limit, the bus voltage is battery voltage + R*current and never exceeds the CV limit when the battery voltage is below it; when neither limit is active, bus power balance current*bus voltage = generation - consumption holds. All of this needs the load to be deliverable (V^2 + 4R(generation-consumption) >= 0): in an overload beyond that the square root is NaN and the battery is charged at the CV current instead of discharged.", "quantifier": "all electrical states", "why_tests_cant": "Continuous domain.", "anchors": ["src/components/real/power/pcu_initial_study.cpp: UpdateChargeCurrentAndBusVoltage"]}
{"id": "C61", "title": "Solar array power is never negative and is bounded by the incident power", "statement": "Generated power is >= 0 for every sun direction, zero when the sun is behind the panel or flagged absent, proportional to cell count, and at most efficiency*transmission*power density*area*cells.", "quantifier": "all directions and parameters", "why_tests_cant": "Continuous domain.", "anchors": ["src/components/real/power/solar_array_panel.cpp: MainRoutine"]}
{"id": "C62", "title": "CSV scenario lookup holds the last sample", "statement": "A scenario value queried at time t is the value of the latest row with time <= t; a later row with an equal time replaces an earlier one; a query before the first row has no valid row.", "quantifier": "all tables and query times", "why_tests_cant": "Universal.", "anchors": ["src/components/real/power/csv_scenario_interface.cpp: StoreBuffer, GetValueFromBuffer"]}
{"id": "C63", "title": "HILS I2C target port frame accounting", "statement": "After any history the stored-frame counter equals the largest balance (accepted sends minus one-byte requests) of any tail of the history, so it never underflows; the address pointer is the address selected last by either side and each register holds the last value written; Send is rejected without effect when it would read past the register count; otherwise it transmits the registers from the current pointer on; StoreTelemetry tops the counter up to exactly the requested number when the frame fits behind the pointer. (A component's own register writes move the pointer, so the bundled example component sends a frame starting at its last telemetry byte.)", "quantifier": "all histories", "why_tests_cant": "Histories.", "anchors": ["src/components/ports/hils_i2c_target_port.cpp", "src/components/base/i2c_target_communication_with_obc.cpp: StoreTelemetry"]}
{"id": "C64", "title": "Frame conversion by a unit quaternion is a rotation with an exact inverse", "statement": "For every unit quaternion, FrameConversion and InverseFrameConversion undo each other in both orders, are linear, and preserve inner products and outer products (lengths, angles, handedness), in exact arithmetic.", "quantifier": "all unit quaternions and all vectors", "why_tests_cant": "Holds for a continuum of rotations and vectors; tests sample a few.", "anchors": ["src/math_physics/math/quaternion.cpp: FrameConversion, InverseFrameConversion, operator*"]}
{"id": "C65", "title": "Quaternion product composes frame conversions", "statement": "(p*q).FrameConversion(v) = q.FrameConversion(p.FrameConversion(v)) and the inverse conversions compose in the opposite order; the product is associative, has identity (0,0,0,1), the conjugate of a unit quaternion is its inverse and products of unit quaternions are unit.", "quantifier": "all quaternions p, q, r and all vectors", "why_tests_cant": "Order-of-composition mistakes cancel in symmetric test cases.", "anchors": ["src/math_physics/math/quaternion.cpp: operator*, Conjugate"]}
{"id": "C66", "title": "Direction cosine matrix of a quaternion", "statement": "ConvertToDcm of a unit quaternion is orthogonal with determinant 1; multiplying a vector by it is FrameConversion, by its transpose InverseFrameConversion; the matrix of a product is the product of the matrices in reverse order.", "quantifier": "all (unit) quaternions and vectors", "why_tests_cant": "Universal over the rotation group.", "anchors": ["src/math_physics/math/quaternion.cpp: ConvertToDcm"]}
{"id": "C67", "title": "Quaternion and direction cosine matrix round trips", "statement": "ConvertFromDcm of any rotation matrix is a unit quaternion that converts back to exactly that matrix, whichever of the four elements is largest; and a unit quaternion converted to a matrix and back is itself up to sign.", "quantifier": "all rotation matrices and all unit quaternions", "why_tests_cant": "Four branches, each selected on a whole region of the rotation group; near-degenerate divisions must never be by zero.", "anchors": ["src/math_physics/math/quaternion.cpp: ConvertFromDcm, ConvertToDcm"]}
{"id": "C68", "title": "Euler angle round trips and their singularity", "statement": "The matrix built from Euler angles is Rx*Ry*Rz of the elementary rotations and a rotation; ConvertToEuler(ConvertFromEuler(e)) = e for roll, yaw in (-pi,pi] and |pitch| < pi/2; ConvertFromEuler(ConvertToEuler(q)) = +-q for every unit q away from the singularity; at the singularity the rotation is lost.", "quantifier": "all angle triples / all unit quaternions", "why_tests_cant": "Quadrant and sign mistakes show only in parts of the angle space.", "anchors": ["src/math_physics/math/quaternion.cpp: ConvertFromEuler, ConvertToEuler", "src/math_physics/math/matrix_template_functions.hpp: MakeRotationMatrixX/Y/Z"]}
{"id": "C69", "title": "Quaternion normalisation and axis-angle construction", "statement": "Normalize turns every non-zero quaternion into the unit quaternion in the same direction, leaves the zero quaternion alone and is idempotent; a quaternion from a unit axis and any angle is unit, fixes the axis and turns vectors by Rodrigues' formula (InverseFrameConversion by +angle, FrameConversion by -angle).", "quantifier": "all quaternions, all unit axes, angles and vectors", "why_tests_cant": "Universal over continuous data.", "anchors": ["src/math_physics/math/quaternion.cpp: Normalize, Quaternion(axis, angle)"]}
{"id": "C70", "title": "Quaternion from two vectors turns the first onto the second", "statement": "For any two vectors longer than the threshold the constructor does not abort and gives a unit quaternion whose InverseFrameConversion maps the first direction to the second: exactly when the directions are not within the threshold of parallel/opposite, and to within sqrt(2 eps) otherwise; shorter vectors abort.", "quantifier": "all pairs of vectors, all thresholds eps>0", "why_tests_cant": "The three branches meet at thresholds; the assertion inside the general branch must never fire.", "anchors": ["src/math_physics/math/quaternion.cpp: Quaternion(vector_before, vector_after)"]}
{"id": "C71", "title": "Vector operations", "statement": "CalcNormalizedVector has length 1 and the same direction for every non-zero vector of every dimension and leaves zero alone; the angle between non-zero vectors is in [0,pi] with cosine = inner product / lengths (acos never leaves its domain); the outer product laws hold; GenerateOrthogonalUnitVector gives an orthogonal unit vector for every non-zero vector despite a duplicated branch condition.", "quantifier": "all dimensions and all vectors", "why_tests_cant": "The duplicated condition changes which branch is taken for whole regions of inputs.", "anchors": ["src/math_physics/math/vector_template_functions.hpp", "src/math_physics/math/vector.cpp: GenerateOrthogonalUnitVector"]}
{"id": "C72", "title": "Polar coordinates", "statement": "ConvertFrameOrthogonal2Polar returns r>=0, theta in [0,pi], phi in [0,2pi) and the vector is r(sin theta cos phi, sin theta sin phi, cos theta), for every vector including the axes and zero.", "quantifier": "all vectors", "why_tests_cant": "Branch cuts of acos/atan2 are measure-zero sets tests do not hit.", "anchors": ["src/math_physics/math/vector.cpp: ConvertFrameOrthogonal2Polar"]}
{"id": "C73", "title": "Matrix inverse is the inverse for every size", "statement": "In exact arithmetic CalcInverseMatrix returns the two-sided inverse of every nonsingular N x N matrix and throws exactly for singular ones, for every N (pivoting, permutation bookkeeping and the leading-zero shortcut included).", "quantifier": "all N and all N x N matrices over an ordered field", "why_tests_cant": "Pivoting paths multiply with N; tests cover a few small matrices.", "anchors": ["src/math_physics/math/matrix_vector_template_functions.hpp: CalcInverseMatrix, LuDecomposition, SolveLinearSystemWithLu"]}
{"id": "C74", "title": "Log column names are unambiguous", "statement": "The columns a vector writer produces have pairwise distinct names for every size; those of a matrix writer are distinct while both dimensions are at most ten (for larger ones element (1,11) and (11,1) get the same name); the relative-information columns of different satellite pairs are distinct; the ground-station position columns carry no station id, so two stations produce identical names.", "quantifier": "all names, units and sizes", "why_tests_cant": "Collisions appear only at sizes or configurations no test uses.", "anchors": ["src/logger/log_utility.hpp: WriteVector, WriteMatrix", "src/simulation/ground_station/ground_station.cpp: GetLogHeader", "src/simulation/multiple_spacecraft/relative_information.cpp: GetLogHeader"]}
{"id": "C75", "title": "A WINGS command line becomes exactly one C2A call", "statement": "target_RT.name a1.. registers the command code of that name with the concatenated encodings of the arguments; target_TL.name t a1.. does the same with time t; a name that is not in the database is not rejected but sent as code 0 without parameters; a TL command without arguments reads past its argument list; arguments exceeding the packet buffer are written past its end; words without underscore and lines with {..} are dropped.", "quantifier": "all command words, argument lists and databases", "why_tests_cant": "Error handling is absent in the code (TODO); which inputs are silently mis-sent is a statement over all inputs.", "anchors": ["src/components/real/communication/wings_command_sender_to_c2a.cpp: ExecuteCommandLine, AnalyzeC2aCommand"]}
{"id": "C76", "title": "C2A command database lookup", "statement": "A complete line defines the name, code and argument types written in it; lines not starting with a comma define nothing; a lookup returns the last definition of the name and the default for an unknown one; a line cut off before its code cell is read past its end.", "quantifier": "all database files", "why_tests_cant": "Quantifies over all files, including malformed ones.", "anchors": ["src/setting_file_reader/c2a_command_database.cpp"]}
{"id": "C77", "title": "Internal heat load table lookup", "statement": "For every table with two or more increasing times and every history of evaluation times the lookup terminates inside the table and returns the line through one table interval at the time modulo the period. During the first period, for non-decreasing times, that is the linear interpolation of the table. The interval index is never reset when the period ends, so from the second period on the value is extrapolated from the furthest interval reached (concrete witness). A one-entry table is read out of range.", "quantifier": "all tables and all histories of evaluation times", "why_tests_cant": "The wrong value appears only after the table period has elapsed and depends on the whole history of calls.", "anchors": ["src/dynamics/thermal/heatload.cpp: SetElapsedTime_s, CalcInternalHeatload"]}
{"id": "C78", "title": "Thermal propagation obeys the heat balance", "statement": "One solver step changes a diffusive node by step/C times (conduction + radiation from the other nodes at the temperatures before the step + external power + the 1:2:2:1 mean of its internal load) and leaves boundary and arithmetic nodes unchanged; because the stage temperatures are ignored it is a forward Euler step. With symmetric matrices the energy balance over a whole Propagate is exact for every step size; equal temperatures without loads are stationary; under the stability bound temperatures stay within their initial range. Propagate ends exactly at the requested time and terminates for every positive step; with a zero step it never returns.", "quantifier": "all networks (any number of nodes), all steps and times", "why_tests_cant": "Universal over networks and step sizes; termination and conservation cannot be observed by sampling.", "anchors": ["src/dynamics/thermal/temperature.cpp: Propagate, CalcRungeOneStep, CalcTemperatureDifferentials"]}
{"id": "C79", "title": "Thermal node parameters, sunlight and heater switching", "statement": "Node parameters are forced into their physical ranges; absorbed sunlight follows the cosine law, is never negative and bounded by flux*area*absorptivity; at the end of a Propagate every heater has been switched once per node naming it, in node order, by its own controller with that node's temperature in degC, and other heaters are untouched; a node naming a missing heater is read out of range.", "quantifier": "all parameters, node lists, heaters and controllers", "why_tests_cant": "Order and aliasing of shared heaters and out-of-range identifiers are configuration dependent.", "anchors": ["src/dynamics/thermal/node.cpp: AssertNodeParams, CalcSolarRadiation_W", "src/dynamics/thermal/temperature.cpp: UpdateHeaterStatus, GetHeaterPower_W"]}
{"id": "C80", "title": "Earth view factor", "statement": "Below 1732 km altitude the view factor as a function of the angle between normal and earth is continuous, never increases, equals (R/d)^2 facing the earth, 0 when the earth is below the horizon; above it is (R/d)^2/4 or 0, so it drops by a factor four at 1732 km. Infrared and albedo power are never negative and bounded by (R/d)^2 of the flux. The albedo illumination uses half the sun angle, so it is positive beyond the terminator.", "quantifier": "all angles, distances and node orientations", "why_tests_cant": "Agreement of transcendental formulas at their joints and monotonicity in between are statements over a continuum.", "anchors": ["src/dynamics/thermal/node.cpp: CalcAlbedoRadiation_W, CalcEarthInfraredRadiation_W"]}
{"id": "C81", "title": "Order of accuracy of one integration step", "statement": "One Integrate() of RungeKutta4 from a point of an exact solution misses the solution by O(h^5), of RungeKuttaFehlberg and DormandPrince5 by O(h^6), for every sufficiently smooth differential equation of every dimension and whatever the object's history; a step advances the independent variable by the step width, keeps the step width and remembers the old state, so k steps advance time by k steps; OrdinaryDifferentialEquation::Update takes exactly the RungeKutta4 step.", "quantifier": "all dimensions, all (time-dependent, nonlinear) right-hand sides, all starting points and integrator histories", "why_tests_cant": "A wrong coefficient in a 7-stage tableau lowers the order but still gives plausible numbers on any fixed test problem; order is a limit statement over all right-hand sides (all rooted trees).", "anchors": ["src/math_physics/numerical_integration/runge_kutta_4.hpp", "src/math_physics/numerical_integration/runge_kutta_fehlberg_implementation.hpp", "src/math_physics/numerical_integration/dormand_prince_5_implementation.hpp", "src/math_physics/numerical_integration/runge_kutta_template.hpp: Integrate, CalcSlope", "src/math_physics/numerical_integration/embedded_runge_kutta_implementation.hpp: Integrate", "src/math_physics/math/ordinary_differential_equation_template_functions.hpp: Update"]}
{"id": "C82", "title": "Dense output inside the last step", "statement": "CalcInterpolationState(sigma) of RungeKuttaFehlberg and DormandPrince5 after a step approximates the solution at the fraction sigma of that step to O(h^5) for every sigma, and is the state before (sigma=0) and after (sigma=1) the step exactly. RungeKutta4 ignores sigma and returns the state after the step. Interpolating after ControlStepWidth changed the step width, or after SetState, uses the new step width with the old slopes and no longer joins the two states.", "quantifier": "all right-hand sides, all fractions, all histories of Integrate/ControlStepWidth/SetState", "why_tests_cant": "Coefficient polynomials must satisfy order conditions identically in sigma; misuse depends on call order.", "anchors": ["src/math_physics/numerical_integration/runge_kutta_fehlberg_implementation.hpp: CalcInterpolationState, CalcInterpolationWeights", "src/math_physics/numerical_integration/dormand_prince_5_implementation.hpp: CalcInterpolationState, CalcInterpolationWeights", "src/math_physics/numerical_integration/runge_kutta_4.hpp: CalcInterpolationState"]}
{"id": "C83", "title": "Local error estimate and step width control", "statement": "GetLocalTruncationError() after a step is non-negative, O(h^5) and equals the true error of the embedded lower-order solution up to O(h^6). ControlStepWidth(tol) sets the step width h' with estimate*(h'/h)^(order+1) = tol and nothing else; with a zero estimate or negative tolerance the step width stops being a finite number, before the first Integrate it reads an uninitialised value. For y' = t^4 A the Fehlberg controller meets the tolerance exactly; the Dormand-Prince controller does not (order constant 5, estimate O(h^5)): asking for 1/64 of the error leaves twice the tolerance.", "quantifier": "all right-hand sides, tolerances and step widths", "why_tests_cant": "The exponent mismatch gives plausible step widths on every test; only the asymptotic statement separates it.", "anchors": ["src/math_physics/numerical_integration/embedded_runge_kutta_implementation.hpp: Integrate, ControlStepWidth"]}
{"id": "C84", "title": "Propagation converges to the solution", "statement": "Over any time interval on which the equation has a solution along which the right-hand side is smooth there are C and h0 such that, for every step width h <= h0 and any number of steps inside the interval, every component of the state is within C h^4 (RungeKutta4, OrdinaryDifferentialEquation::Update) or C h^5 (RungeKuttaFehlberg, DormandPrince5 with constant step) of the solution at the integrator's time.", "quantifier": "all right-hand sides smooth along the solution, all intervals, step widths and numbers of steps", "why_tests_cant": "Global error accumulates over arbitrarily many steps; tests look at one problem and a few step widths.", "anchors": ["src/math_physics/numerical_integration/runge_kutta_template.hpp: Integrate", "src/math_physics/numerical_integration/embedded_runge_kutta_implementation.hpp: Integrate", "src/math_physics/math/ordinary_differential_equation_template_functions.hpp: Update"]}
{"id": "C85", "title": "Exactness of the integrators", "statement": "Every linear conserved quantity of the differential equation is conserved exactly by every method, for any step width and number of steps; a right-hand side polynomial in the independent variable of degree at most 3 (RungeKutta4) or 4 (the embedded methods) is integrated without error, in exact arithmetic.", "quantifier": "all right-hand sides with a linear invariant, all polynomials, steps and numbers of steps", "why_tests_cant": "Universal over equations and step counts.", "anchors": ["src/math_physics/numerical_integration/runge_kutta_template.hpp: Integrate", "src/math_physics/numerical_integration/embedded_runge_kutta_implementation.hpp: Integrate"]}
{"id": "C86", "title": "Polynomial interpolation", "statement": "CalcPolynomial(x) returns the value at x of the unique polynomial of degree below the number of points through all stored points, for every number and order of points with distinct independent variables; so it reproduces every such polynomial and every stored point. FindNearestPoint returns the first point of least distance. Two points with the same independent variable make the polynomial undefined (a zero denominator is met); an object with fewer values than its degree is read out of range.", "quantifier": "all point sets of every size, all evaluation points", "why_tests_cant": "Universal over point sets; Neville's scheme walks up or down the tableau depending on the nearest point, so a wrong index shows only for some combinations of size, order and argument.", "anchors": ["src/math_physics/math/interpolation.cpp: CalcPolynomial, FindNearestPoint"]}
{"id": "C87", "title": "Trigonometric interpolation", "statement": "CalcTrigonometric(x, w) through an odd number of points passes through the points and reproduces every trigonometric polynomial in w x of degree (points-1)/2, for all points whose pairwise distances are not multiples of 2 pi / w; with an even number of points the end point farther from x's nearest point is left out and the rest is interpolated. The argument named period is an angular frequency. With the default 0 of InterpolationOrbit every quotient is 0/0 once there are two points.", "quantifier": "all point sets, all arguments and frequencies", "why_tests_cant": "A product formula whose factors cancel only identically; the parity branch and the meaning of the period argument are not visible at a few points.", "anchors": ["src/math_physics/math/interpolation.cpp: CalcTrigonometric"]}
{"id": "C88", "title": "Sliding window of interpolation points", "statement": "PushAndPop accepts a point exactly if its independent variable is larger than the last stored one, then drops the oldest point; otherwise nothing changes. After any history the object holds the last `degree` accepted points in order, strictly increasing. InterpolationOrbit's axes always hold the same times. Until `degree` points have been accepted the window contains the invented starting point at time -1. GetPositionDataList(3) is read out of range.", "quantifier": "all histories of pushes", "why_tests_cant": "Statement over histories; the warm-up content and the all-or-nothing of the three axes depend on the order of pushes.", "anchors": ["src/math_physics/math/interpolation.cpp: PushAndPopData", "src/math_physics/orbit/interpolation_orbit.cpp: PushAndPopData, GetTimeList, GetPositionDataList, CalcPositionWithTrigonometric, CalcPositionWithPolynomial"]}
{"id": "C89", "title": "GNSS satellite positions follow the precise ephemeris", "statement": "After Initialize the satellites hold nine consecutive epochs of the product files (joined across files) around the epoch nearest to the start; every Update moves the window by at most one epoch, and while the update interval does not exceed the epoch gap the query time stays within one gap of the window's middle. Position and clock are the interpolations of exactly those nine epochs; outside 0..1e6 s of the reference time zero is returned. Running past the last file, starting within the last epochs, asking for satellite number n, or logging with fewer than 32 satellites reads out of range; the 'bad clock' marker 999999.999999 is interpolated like a value.", "quantifier": "all file sets, epochs, start times and histories of updates", "why_tests_cant": "Statement over histories of updates across file boundaries.", "anchors": ["src/environment/global/gnss_satellites.cpp: Initialize, Update, UpdateInterpolationInformation, GetCurrentSp3File, GetPosition_ecef_m, GetClock_s, GetLogValue", "src/math_physics/gnss/sp3_file_reader.cpp: SearchNearestEpochId, GetEpochData, GetSatellitePositionClock"]}
{"id": "C90", "title": "Angle wrapping and the Kepler equation solver", "statement": "WrapTo2Pi returns, after finitely many steps for every angle, a value in [0,2pi] differing by a multiple of 2pi and leaves angles in [0,2pi] alone (so 2pi stays 2pi while -2pi becomes 0). For 0 <= e < 1 Kepler's equation has exactly one solution; for e <= 1/4 the solver as called (1e-5, 10 iterations) is within 2e-5 of it for every mean anomaly (2e-10 if the mean anomaly exceeds 1.5e-5). For e = 1/2 and mean anomalies up to 0.01 the loop stops after one iteration, because its accumulator starts at zero instead of at the first guess, and returns about M although the solution exceeds 1.9 M.", "quantifier": "all angles, eccentricities and mean anomalies", "why_tests_cant": "Convergence over the continuum of (e,M), and premature stopping only in a thin region near perigee.", "anchors": ["src/math_physics/orbit/kepler_orbit.cpp: SolveKeplerNewtonMethod", "src/math_physics/math/s2e_math.cpp: WrapTo2Pi"]}
{"id": "C91", "title": "KeplerOrbit follows the two-body motion", "statement": "For every ellipse KeplerOrbit's position and velocity have, at every time and however inaccurate the Kepler solver, the distance range, energy, angular momentum vector and eccentricity vector of the elements. There is exactly one two-body motion with the given perigee state, it is periodic with Kepler's period, and for e <= 1/4 position and velocity stay within 2e-5 a and 6e-5 sqrt(mu/a) of it for all times. For e = 1/2 the position is off by more than a/200 at some time.", "quantifier": "all elements, all times, all two-body motions", "why_tests_cant": "Agreement with the solution of a differential equation at all times.", "anchors": ["src/math_physics/orbit/kepler_orbit.cpp: CalcOrbit, CalcConstKeplerMotion", "src/math_physics/orbit/orbital_elements.cpp"]}
{"id": "C92", "title": "Orbital elements from position and velocity", "statement": "For every bound, non-rectilinear state whose orbit normal has a non-positive y component (ascending node in the half plane the arc sine can represent) the elements computed describe the two-body motion through that state: KeplerOrbit reproduces it at the given time and follows it afterwards. If the normal's y component is positive the computed plane is not the orbit plane (the right ascension is taken by arc sine); a circular polar orbit with node at 180 degrees gets eccentricity 2.", "quantifier": "all positions, velocities, epochs and gravity constants", "why_tests_cant": "The wrong branch concerns half of all orbits but none of the shipped examples.", "anchors": ["src/math_physics/orbit/orbital_elements.cpp: CalcOeFromPosVel"]}
{"id": "C93", "title": "RK4 orbit propagation ends on time and converges", "statement": "Propagate of an orbit in RK4 mode with a positive step width terminates, takes full steps plus one adjusted step that lands exactly on the requested end time, and leaves the propagation time equal to it; whole multiples of the step width take exactly that many full steps. The right-hand side is central gravity plus the disturbance acceleration; forces add up as force/mass in any order. For every flight made of arcs with constant disturbance acceleration there are C and h0 such that for every step width h with h+1e-6 <= h0 the position and velocity after the same schedule of updates are within C (h+1e-6)^4 of the flight. With step width zero or less Propagate never returns.", "quantifier": "all initial states, step widths, update schedules, disturbance histories and motions", "why_tests_cant": "Convergence to the solution of a differential equation over arbitrary schedules.", "anchors": ["src/dynamics/orbit/rk4_orbit_propagation.cpp: DerivativeFunction, Initialize, Propagate", "src/dynamics/orbit/orbit.hpp: AddForce_i_N, AddForce_b_N, SetAcceleration_i_m_s2"]}
{"id": "C94", "title": "Encke orbit propagation", "statement": "Encke's q function equals (|reference|/|position|)^3 - 1 exactly, and if the stored position is reference plus difference the right-hand side of the difference is exactly gravity at the satellite minus gravity at the reference plus the disturbance. Without disturbances the orbit is at every update exactly the Kepler orbit through the initial state. When the difference exceeds the tolerance at the start of an update, the new reference orbit is laid through the old position at the new time: the satellite stays where it was for that update and the update's disturbance acceleration is lost.", "quantifier": "all initial states, step widths, tolerances and histories of updates", "why_tests_cant": "Rectification happens at a data dependent moment of a long history; a stand-still of one update is invisible in a plot.", "anchors": ["src/dynamics/orbit/encke_orbit_propagation.cpp: Propagate, Initialize, UpdateSatOrbit, DerivativeFunction, CalcQFunction"]}
{"id": "C95", "title": "LVLH frame and Earth-fixed state of an orbit", "statement": "For every position and velocity that are not parallel CalcQuaternion_i2lvlh is a unit quaternion turning the position into (distance,0,0), the velocity into (radial speed, positive tangential speed, 0) and the angular momentum into (0,0,its length). For vertical motion an unrelated rotation is returned. If the Earth rotation matrix turns about the inertial z axis at rate w, the reported Earth-fixed velocity differs from the derivative of the reported Earth-fixed position by exactly (mean Earth rate - w) times the rotated z cross r; a satellite turning with the Earth has Earth-fixed velocity zero.", "quantifier": "all positions and velocities, all Earth rotation histories about z", "why_tests_cant": "Continuum of states; derivative statement.", "anchors": ["src/dynamics/orbit/orbit.cpp: CalcQuaternion_i2lvlh, TransformEciToEcef"]}
{"id": "C96", "title": "Hill's equations and their state transition matrix", "statement": "CalcHcwStm(t) applied to a state is the one and only solution of Hill's equations through it; transition matrices multiply as time adds up and the one for time zero is the identity; CalcHillSystemMatrix has the same solutions. Hill's equations are the linearised relative two-body motion: over any time span the prediction is within C times the square of the initial separation of the true relative motion about a circular orbit.", "quantifier": "all radii, gravity constants, times, initial states and two-body motions", "why_tests_cant": "A second order error bound over a time span for all nearby motions cannot be sampled.", "anchors": ["src/math_physics/orbit/relative_orbit_models.cpp: CalcHillSystemMatrix, CalcHcwStm"]}
{"id": "C97", "title": "Relative orbit propagation", "statement": "In state transition mode the relative state after any history is the Hill solution through the initial state at the last end time, for the reference radius at that last moment; in Runge-Kutta mode it converges with order 4, for every schedule, to the Hill solution for the reference radius at construction. The inertial offset from the reference satellite expressed in its LVLH frame is exactly the relative position. The reported inertial velocity lacks the transport term omega x offset, so it is not the rate of change of the reported position whenever there is a radial or along-track offset.", "quantifier": "all initial states, reference motions, histories of updates and step widths", "why_tests_cant": "Statement over histories and a derivative identity along arbitrary reference orbits.", "anchors": ["src/dynamics/orbit/relative_orbit.cpp: InitializeState, Propagate, PropagateRk4, PropagateStm, DerivativeFunction"]}
{"id": "C98", "title": "Geodetic coordinates", "statement": "CalcEcefPosition is the point with the stored geodetic latitude, longitude and altitude over the Earth ellipsoid (surface point with that outward normal plus altitude along it), for every longitude below 2^31 turns. UpdateFromEcef, for every position off the axis and at least half an Earth radius from the centre, ends after at most eight iterations; latitude lies in (-pi/2, pi/2), longitude in [0, 2 pi); converting back returns the position to 10 um, and the latitude is right to 2.1e-12 rad, longitude exactly, altitude to 10 um. On the axis the altitude is about -6399594 m whatever the distance. The local frame quaternion is unit and maps east, north, up to x, y, z.", "quantifier": "all positions, latitudes, longitudes, altitudes", "why_tests_cant": "Termination and accuracy of an iteration over a continuum of positions.", "anchors": ["src/math_physics/geodesy/geodetic_position.cpp: UpdateFromEcef, CalcEcefPosition, CalcQuaternionXcxfToLtc", "src/math_physics/orbit/sgp4/sgp4ext.cpp: AcTan, FMod2p"]}
{"id": "C99", "title": "Orbit from a time series file", "statement": "The window of interpolation rows starts n/2 rows before the first row later than the start; construction reads behind the file if fewer than n rows follow (start within the last n - n/2 rows) or n < 2. Each update moves the window by one row exactly if the time is later than its row number (n+1)/2, and reports the unique polynomial curve (or trigonometric curve of the configured period) through the window's rows; while updates are no further apart than the rows the current time stays next to the window's middle. A start behind the last row extrapolates from rows 1..n; as soon as the window contains the last row the last row is reported instead of the interpolation, and the next move reads behind the file.", "quantifier": "all files with increasing times, interpolation numbers, methods, start times and histories of updates", "why_tests_cant": "Depends on the whole history of update times against an arbitrary file.", "anchors": ["src/dynamics/orbit/time_series_file_orbit_propagation.cpp: constructor, SearchNearestEphemerisTimeId, CalcEphemerisTimeData, Propagate, UpdateInterpolationInformation"]}
{"id": "C100", "title": "Disturbance totals and loads of a step", "statement": "After any history of Disturbances::Update the total force, torque and acceleration are the sums of the values the disturbances hold; every disturbance is recomputed exactly at the calls with the orbit flag, attitude dependent ones also at calls with the attitude flag, and keeps its value otherwise (zero before its first recomputation, always zero when disabled). Gravity gradient, solar pressure and third bodies always exist, the lunar field only around the Moon, air drag, magnetic torque and geopotential only around the Earth. In a spacecraft step the attitude gets disturbance plus component torque, the orbit gets disturbance acceleration plus both forces over mass turned with the attitude before the step; nothing is left of the previous step.", "quantifier": "all sets of disturbances, histories of flags and environments, component loads", "why_tests_cant": "Depends on the interleaving of orbit and attitude flags over the whole history.", "anchors": ["src/disturbances/disturbances.cpp: Update, InitializeInstances", "src/disturbances/disturbance.hpp: UpdateIfEnabled", "src/simulation/spacecraft/spacecraft.cpp: Update", "src/dynamics/dynamics.cpp: Update, ClearForceTorque"]}
{"id": "C101", "title": "Gravity gradient torque", "statement": "For every rigid body of finitely many mass points about its centre of mass and every position of the central body, the torque computed from the inertia tensor is the exact leading term of the torque of Newton's attraction on the points: shrinking the body by eps, the difference is at most a constant times eps^3 while the torque scales with eps^2. The torque is perpendicular to the direction of the centre, zero exactly when that direction is a principal axis, unchanged under mirroring, and falls with the cube of the distance.", "quantifier": "all mass distributions, positions and gravity constants", "why_tests_cant": "An asymptotic statement for all bodies.", "anchors": ["src/disturbances/gravity_gradient.cpp: CalcTorque_b_Nm"]}
{"id": "C102", "title": "Third body gravity", "statement": "With the disturbance enabled the program starts exactly if every listed third body is a selected body other than the centre (otherwise an assertion fails), and each listed name counts once however often listed. The disturbing acceleration is the sum of the attraction at the spacecraft minus the attraction at the centre, which is exactly what has to be added to the central attraction to get the motion relative to the freely falling centre.", "quantifier": "all lists of bodies, positions and gravity constants", "why_tests_cant": "Quantifies over all configurations of bodies.", "anchors": ["src/disturbances/third_body_gravity.cpp: Update, CalcAcceleration_i_m_s2, InitThirdBodyGravity"]}
{"id": "C103", "title": "Magnetic disturbance torque", "statement": "Every reported torque is 1e-9 times moment cross field, perpendicular to both; with zero walk and noise parameters in the first spacecraft updated, each moment is the spacecraft's constant forever. The random walk and noise are shared by all spacecraft of the program: only the random parameters of the spacecraft updated first count, those of all others are ignored, and the walk advances by a fixed 0.1 s at every update of any spacecraft.", "quantifier": "all sequences of updates by any number of spacecraft, parameters and noise sources", "why_tests_cant": "The sharing shows only in multi-spacecraft histories.", "anchors": ["src/disturbances/magnetic_disturbance.cpp: CalcRMM, CalcTorque_b_Nm, Update"]}
{"id": "C104", "title": "Solar radiation pressure force and surfaces", "statement": "Force and torque are the sums over the surfaces (lever arm from the centre of gravity); surfaces facing away contribute nothing. A lit surface with unit normal feels exactly incoming minus outgoing light momentum, the reflected share split into mirror reflection and Lambertian scattering; the force never points towards the Sun, nor out of a surface's front, and depends on the Sun's direction only. Reading surfaces stops silently at the first unacceptable value, dropping that and all later surfaces; normals longer than one are normalised, shorter ones kept, giving a wrong force (1/8 for a normal of length 1/2).", "quantifier": "all surface lists, directions, pressures and optical properties", "why_tests_cant": "Continuum of orientations; the spec is a momentum balance with an integral over emission directions.", "anchors": ["src/disturbances/surface_force.cpp: CalcTorqueForce, CalcTheta", "src/disturbances/solar_radiation_pressure_disturbance.cpp: CalcCoefficients, Update", "src/simulation/spacecraft/structure/initialize_structure.cpp: InitSurfaces"]}
{"id": "C105", "title": "Air drag", "statement": "For every facet with unit normal facing the stream the force is the area times the momentum exchanged per area with a Maxwellian gas in free molecular flow (integrals over the velocity distribution of incoming molecules, diffuse share emitted at wall temperature), so the total force never has a component along the velocity. The velocity used is the Earth-fixed velocity turned into the body frame. The thermal speed is wrong: molecular weight in g/mol is used as kg per molecule and the wall temperature for the gas temperature, which makes the speed ratio too large by sqrt(1000 N_A T_gas/T_wall).", "quantifier": "all velocities, densities, surfaces, temperatures and molecular weights", "why_tests_cant": "The closed formulas have to equal integrals for all speed ratios and angles.", "anchors": ["src/disturbances/air_drag.cpp: CalcCoefficients, CalcFunctionPi, CalcFunctionChi, CalcCnCt, Update"]}
{"id": "C106", "title": "Data of celestial bodies", "statement": "Asked for a selected body, every getter returns that body's ephemeris position (in metres), its position relative to the spacecraft in the inertial and in the body frame, its gravity constant and its volumetric mean radius, wherever it is in the selection. A body known to SPICE but not selected silently answers with the data of the first selected body. An unknown name, an empty selection and body number n of n are undefined behaviour.", "quantifier": "all selections of bodies, names, ephemerides, spacecraft states and attitudes", "why_tests_cant": "Wrong names fail silently; selections and ephemerides are unbounded.", "anchors": ["src/environment/global/celestial_information.cpp: CalcBodyIdFromName, UpdateAllObjectsInformation", "src/environment/global/celestial_information.hpp: GetPositionFromCenter_i_m", "src/environment/local/local_celestial_information.cpp: UpdateAllObjectsInformation, GetPositionFromSpacecraft_i_m"]}
{"id": "C107", "title": "Body frame velocity of celestial bodies", "statement": "The logged body-frame velocity of a body equals q(v) - w x q(r), the rate of change of its body-frame position, plus the error (w - q w) x q(r), because the body-frame angular velocity is multiplied with the inertial position. It is right exactly when that cross product vanishes, in particular without rotation or when the attitude fixes the rotation axis; in general it is wrong.", "quantifier": "all attitudes, angular velocities, positions and velocities", "why_tests_cant": "An error term depending on attitude and rotation together.", "anchors": ["src/environment/local/local_celestial_information.cpp: CalcAllPosVel_b, ConvertVelocityInertialToBody"]}
{"id": "C108", "title": "Eclipse: shadow coefficient", "statement": "For every list of shadow sources with the spacecraft outside of Sun and sources the coefficient is in [0,1] and an eclipse is reported exactly when some source's apparent disc overlaps the solar disc. One source multiplies the coefficient with the uncovered fraction of the area of the solar disc, except that an annular eclipse replaces the coefficient, forgetting all earlier sources (light in the umbra of the Earth). The separation used exceeds the true one by the angle at the Sun, so no shadow is reported where the discs do not overlap and total darkness is never reported wrongly. Equal discs exactly aligned give NaN; below the mean radius no shadow is computed. The calculation never ends the program.", "quantifier": "all positions, radii and lists of sources", "why_tests_cant": "Continuum of geometries; the spec is an area (Lebesgue measure) of overlapping discs.", "anchors": ["src/environment/local/solar_radiation_pressure_environment.cpp: UpdateAllStates, CalcShadowCoefficient"]}
{"id": "C109", "title": "Solar radiation pressure and its sources", "statement": "After an update pressure and power density follow the inverse square law from 1366 W/m2 at 1 au times the shadow coefficient. Of the additional shadow sources in the settings file only the first is used, as often as the list is long. If the Sun is not selected, the first selected body takes its place. A disabled environment keeps its last values.", "quantifier": "all positions, configurations and source lists", "why_tests_cant": "Configuration space is unbounded and the errors are silent.", "anchors": ["src/environment/local/solar_radiation_pressure_environment.cpp: UpdatePressure, InitSolarRadiationPressureEnvironment", "src/environment/local/solar_radiation_pressure_environment.hpp: GetPressure_N_m2, GetPowerDensity_W_m2"]}
{"id": "C110", "title": "Attitude propagation converges to rigid-body dynamics", "statement": "Through any schedule of calls with changing torques and wheel momenta, an AttitudeRk4 with a constant invertible inertia tensor follows the exact solution of Euler's equation and the quaternion kinematics with an error of order step^4, ends at the requested time, and always holds a unit quaternion. The logged momentum is I w + h in inertial components and the logged energy w.Iw/2. It terminates for every positive step and every end time except the current time (NaN); it throws for a singular inertia tensor and loops for ever for a step that is not positive; disabled it changes nothing. When the inertia tensor changes between calls, the old tensor is used in the gyroscopic term.", "quantifier": "all inertia tensors, initial states, schedules of torques, wheel momenta and end times, and step widths", "why_tests_cant": "Convergence is a statement about all small steps; schedules are unbounded.", "anchors": ["src/dynamics/attitude/attitude_rk4.cpp: Propagate, RungeKuttaOneStep, AttitudeDynamicsAndKinematics", "src/dynamics/attitude/attitude.cpp: CalcAngularMomentum"]}
{"id": "C111", "title": "Conservation of angular momentum and energy", "statement": "In every rotation the attitude propagator converges to, the inertial angular momentum (with wheels) changes at the rate of the torque and the kinetic energy at the rate torque times angular velocity. Without torque, the momentum vector and energy logged by the program stay within C step^4 of their initial values over any schedule of calls.", "quantifier": "all torque-free motions, inertia tensors, wheel momenta, schedules and step widths", "why_tests_cant": "Statement about arbitrarily long executions and all step widths.", "anchors": ["src/dynamics/attitude/attitude_rk4.cpp: Propagate", "src/dynamics/attitude/attitude.cpp: CalcAngularMomentum"]}
{"id": "C112", "title": "Controlled attitude points as configured", "statement": "An enabled ControlledAttitude in two different pointing modes holds after every call the unique attitude that turns the main target exactly onto the main body direction and the sub target into the half plane of the sub body direction, for all non-parallel targets; the targets are what the mode names say. The constructor enables exactly the configurations with different modes, none of them NO_CONTROL, and body directions at least 30 degrees apart. INERTIAL_STABILIZE as sub mode is accepted but undefined behaviour; parallel targets give a quaternion that is not of unit length; a second call for the same time gives NaN.", "quantifier": "all modes, body directions, target geometries, inertia tensors and call times", "why_tests_cant": "Continuum of geometries; the attitude is characterised uniquely.", "anchors": ["src/dynamics/attitude/controlled_attitude.cpp: Initialize, Propagate, CalcTargetDirection_i, PointingControl, CalcDcm"]}
{"id": "C113", "title": "Rates and torques of the controlled attitude", "statement": "The reported angular velocity is zero until a call for a positive time was made, and then (2/dt) sin(phi/2) n for a turn by phi about n; it tends to the true rate for short intervals along attitudes with a continuous choice of sign. When the quaternions read off the matrices change sign between two calls, the reported rate has the wrong sign. The torque added is minus the inverse inertia tensor times the rate change instead of the inertia tensor times it.", "quantifier": "all attitude histories, inertia tensors and call times", "why_tests_cant": "Sign conventions and limits cannot be settled by samples.", "anchors": ["src/dynamics/attitude/controlled_attitude.cpp: CalcAngularVelocity"]}
{"id": "C114", "title": "Attitude with a flexible appendage: whole steps and convergence", "statement": "AttitudeWithCantileverVibration integrates the equations of a rigid body with a beam on a damped spring. Every call advances the motion by a whole number of steps of the configured width: the smallest number that reaches the end time up to a microsecond. When all calls are spaced by multiples of the step width the result is within C step^4 of the exact motion (angular velocity, attitude, angle and rate of the beam) through any schedule of torques and wheel momenta. Otherwise the motion runs ahead of the clock: an end time inside the next step gives the state at the end of that step. A change of the inertia tensor after construction is not taken over into the total inertia tensor. A call for a time less than a microsecond ahead aborts; the logged momentum and energy leave the beam out.", "quantifier": "all inertia tensors, damping, frequencies, initial states, schedules and step widths", "why_tests_cant": "Convergence is a statement about all small steps; schedules are unbounded.", "anchors": ["src/dynamics/attitude/attitude_with_cantilever_vibration.cpp: AttitudeWithCantileverVibration, Propagate", "src/dynamics/attitude/ode_attitude_with_cantilever_vibration.hpp: DerivativeFunction", "src/math_physics/numerical_integration/numerical_integrator.hpp: SetState"]}
{"id": "C115", "title": "Energy and angular momentum with a flexible appendage", "statement": "In every motion the propagator with a cantilever converges to, the energy of body, beam and spring changes by the work of the outer torque minus the power of the damper, so that it never grows without outer torque. The total angular momentum of body, beam and wheels in the inertial frame changes by the outer torque and in addition by the gyroscopic torque of the beam, which the equations leave out: it is not conserved without outer torque.", "quantifier": "all motions, symmetric inertia tensors, damping and stiffness", "why_tests_cant": "Statement about all solutions of a differential equation.", "anchors": ["src/dynamics/attitude/ode_attitude_with_cantilever_vibration.hpp: DerivativeFunction"]}
{"id": "C116", "title": "Reaction wheel: dead time, limits and lag of commands", "statement": "A driven wheel answers the command given before update k in the first update N with dead time < N*step <= dead time + step after it: commands (torque on the wheel, limited in size to the maximum torque; the body command has the opposite sign) are delayed by N updates and passed through a first order lag, and inside the speed limits the reported body torque is minus inertia times the lagged acceleration along the wheel axis. The step response is 1-(tau/(tau+h))^k. While the wheel coasts the lag keeps its value, so that a wheel switched on again without command first continues with the rest of the old torque. In DIRECTION mode the axis is the normalised direction given.", "quantifier": "all parameters, command histories and numbers of updates", "why_tests_cant": "Command histories and delays are unbounded.", "anchors": ["src/components/real/aocs/reaction_wheel.cpp: Initialize, CalcTorque, SetTargetTorque_rw_Nm, SetTargetTorque_b_Nm, InitParameters", "src/math_physics/control_utilities/first_order_lag.hpp: Update"]}
{"id": "C117", "title": "Reaction wheel: speed limit", "statement": "In every history of calls (commands, limits, driving, coasting with a friction that takes at most twice the speed in one step, power off) the speed stays at or below the larger of its initial size and the maximum speed plus a third of what the maximum torque adds in one step; that overshoot is attained. An update that starts beyond the limit does not increase the speed. A negative velocity limit L is accepted: then the wheel is not accelerated above L and not decelerated at or below L.", "quantifier": "all parameters, histories of commands, drive flags and limits", "why_tests_cant": "Invariant over unbounded histories; overshoot comes from the integrator's stages.", "anchors": ["src/components/real/aocs/reaction_wheel_ode.cpp: DerivativeFunction", "src/components/real/aocs/reaction_wheel.cpp: SetVelocityLimit_rpm"]}
{"id": "C118", "title": "Reaction wheel: coasting", "statement": "A coasting wheel with non-negative friction coefficients, positive friction at the stop limit and a friction that takes in one step less than the speed plus the stop limit slows down at every update, stands still after a number of updates bounded by speed, step and friction, and from the next update on gives no torque. A constant friction of twice the speed per step reverses the rotation at every update, for ever. With a stop limit of zero a resting wheel with friction starts to turn by itself.", "quantifier": "all friction polynomials, initial speeds, steps and stop limits", "why_tests_cant": "Termination statements about unbounded executions.", "anchors": ["src/components/real/aocs/reaction_wheel.cpp: CalcTorque"]}
{"id": "C119", "title": "Reaction wheel: momentum balance", "statement": "In every history of calls, the summed impulse on the body (reported torque times step at each update) is minus the change of inertia times speed along the axis, and after the first update the reported angular momentum is inertia times speed along the axis; before it is zero whatever the initial speed. Power off does not change the reported torque: it stays at its last value as long as no update runs.", "quantifier": "all histories of calls", "why_tests_cant": "Histories are unbounded.", "anchors": ["src/components/real/aocs/reaction_wheel.cpp: CalcTorque, PowerOffRoutine, GetOutputTorque_b_Nm", "src/components/real/aocs/reaction_wheel.hpp: GetAngularMomentum_b_Nms"]}
{"id": "C120", "title": "Reaction wheel jitter: harmonics", "statement": "Without structural resonance, after any sequence of speeds the jitter force (torque) is the sum over the rows (h, c) of c w^2 (sin, cos, 0) of the initial phase plus h times the angle turned, turned into the body frame; its size is at most the sum of |c| w^2. A coefficient row with fewer than two columns is undefined behaviour.", "quantifier": "all coefficient tables, phases and speed histories", "why_tests_cant": "Histories of speeds are unbounded.", "anchors": ["src/components/real/aocs/reaction_wheel_jitter.cpp: CalcJitter"]}
{"id": "C121", "title": "Reaction wheel jitter: structural resonance", "statement": "At constant speed the filtered jitter converges to the harmonics with each one changed in amplitude and phase by the transfer function of the damped resonator under the bilinear transform; the gain is exactly 1/bandwidth at the configured frequency (the frequency is prewarped) and 1 at zero frequency.", "quantifier": "all coefficient tables, frequencies below Nyquist, dampings, bandwidths, update intervals and speeds", "why_tests_cant": "Limit statement over unbounded executions.", "anchors": ["src/components/real/aocs/reaction_wheel_jitter.cpp: AddStructuralResonance, CalcCoefficients, ShiftTimeStep"]}
{"id": "C122", "title": "Reaction wheels share one jitter", "statement": "All wheels made from settings files use one jitter object: every wheel's jitter is that configured for the wheel made last (its tables, direction and interval), its phases advance with the angles of all wheels with jitter together, and all wheels report the force computed at the last fast update of any of them. The reported torque contains the moment of the opposite of the reported jitter force.", "quantifier": "all fleets of wheels and schedules of fast updates", "why_tests_cant": "Shows only with several wheels; schedules are unbounded.", "anchors": ["src/components/real/aocs/reaction_wheel.cpp: rw_jitter, InitReactionWheel, FastUpdate, GetOutputTorque_b_Nm, GetJitterForce_b_N"]}
{"id": "C123", "title": "Magnetorquer", "statement": "In every history an update after the command m gives the component-frame moment S(limited command + bias + random walk + white noise), and the torque on the body is that moment in the body frame times the magnetic field in tesla, perpendicular to both. Without errors one command lasts. With errors the output of each update is the command of the next: without a new command a bias adds up until limit plus bias, and a scale factor k<1 lets the moment decay as k^n. Power off zeroes moment and torque and loses the command. The white noise of all axes (and all magnetorquers) is the same sequence of values, scaled.", "quantifier": "all parameters, noise sources and histories of commands, updates and power losses", "why_tests_cant": "Histories and noise sequences are unbounded.", "anchors": ["src/components/real/aocs/magnetorquer.cpp: CalcOutputTorque, PowerOffRoutine, Magnetorquer", "src/components/real/aocs/magnetorquer.hpp: SetOutputMagneticMoment_c_Am2"]}
{"id": "C124", "title": "Magnetorquer-magnetometer interference", "statement": "After any interleaving of interference updates (any number of interferences on one magnetometer) and additions to the magnetometer's bias, the bias is the original one plus the additions plus, for each interference, its polynomial in the output moment at its latest update. If the bias is set in between, the next update takes away a contribution that is no longer there.", "quantifier": "all coefficient lists, moments and histories", "why_tests_cant": "Histories are unbounded.", "anchors": ["src/components/real/aocs/mtq_magnetometer_interference.cpp: UpdateInterference", "src/components/real/aocs/magnetometer.hpp: AddConstantBiasNoise_c_nT, SetConstantBiasNoise_c_nT"]}
{"id": "C125", "title": "Thruster: delay, lag, noise and torque", "statement": "The thrust after update n is the maximum thrust times the lagged response to the duty of update n-N (d < N h <= d+h), plus noise if the duty commanded now is positive, along a unit vector; duties are not limited. The direction error of angle e turns the thrust by the angle of cosine x^2+(1-x^2)cos e, where x is the x component of the nominal direction: a thruster along the x axis never shows a direction error. Torque is lever arm from the centre of gravity times thrust. Power off gives zero thrust but keeps duty, buffer and lag, so the thruster resumes where it was. Magnitude and direction errors are the same random values, scaled.", "quantifier": "all parameters, duty histories, random numbers and centres of gravity", "why_tests_cant": "Histories and random numbers are unbounded.", "anchors": ["src/components/real/propulsion/simple_thruster.cpp: CalcThrust, CalcThrustMagnitude, CalcThrustDirection, CalcTorque, PowerOffRoutine"]}
{"id": "C126", "title": "Relative information of spacecraft", "statement": "After any history of registrations, removals and updates: an update succeeds exactly when the registered ids are 0, 1, ... without a gap (otherwise it throws, e.g. after removing spacecraft 0 of two), a second registration under an id is ignored, and each registration or removal resets all relative values to zero (identity attitude). Inertial relative position and velocity are target minus reference, the distance is its length, the RTN position has the components along the reference's position, transverse direction and angular momentum. The RTN velocity is the rate of change of the RTN position up to k(0, rho_N, -rho_T), k = |r| a_N/|h|; exact when the reference is accelerated within its orbital plane only. The relative attitude quaternion rotates, in inertial components, directions fixed in the reference body to those fixed in the target body; as a conversion from reference to target body components it is right exactly when the two attitudes commute.", "quantifier": "all histories, all motions of target and reference with non-degenerate orbital plane, all unit attitudes", "why_tests_cant": "Histories and motions are unbounded; exactness of a rate of change is a statement about all nearby times.", "anchors": ["src/simulation/multiple_spacecraft/relative_information.cpp: RelativeInformation::Update, RegisterDynamicsInfo, RemoveDynamicsInfo, CalcRelativePosition_rtn_m, CalcRelativeVelocity_rtn_m_s, CalcRelativeAttitudeQuaternion, ResizeLists", "src/simulation/multiple_spacecraft/relative_information.hpp"]}
{"id": "C127", "title": "Ground station visibility", "statement": "A station configured by geodetic latitude, longitude and height has the Earth-fixed position with these coordinates, and after each update the inertial position that the Earth rotation turns into it. After any history of updates a spacecraft is reported visible exactly when its elevation above the station's geodetic horizon at its last update exceeds the limit angle (limits in [-90,90] degrees; beyond, the sines are compared); a spacecraft never updated is not visible, an unknown number throws.", "quantifier": "all stations, limits, spacecraft positions (including the station itself), rotations and update histories", "why_tests_cant": "The equivalence must hold at every position, including at the limit; histories are unbounded.", "anchors": ["src/simulation/ground_station/ground_station.cpp: GroundStation::Initialize, Update, CalcIsVisible", "src/simulation/ground_station/ground_station.hpp: IsVisible"]}
{"id": "C128", "title": "Link budget of a ground station", "statement": "For a transmitting and a receiving antenna the carrier-to-noise-density ratio is the one of Friis' formula with wavelength 3e8/f, all losses added in decibels. The reported maximum bit rate is the rate at which Eb/N0 meets the requirement with the required margin (0 if not above 1 bps), and the margin is at least the required one exactly when the antenna's bit rate is at most the maximum. Without visibility the results are 0 and -10000. The downlink bit rate setting has no effect. The antenna directions are converted by mounting first and attitude second: right for antennas aligned with the body, otherwise an antenna pointing at the station can be taken as pointing away from it.", "quantifier": "all positions, powers, gains, losses, frequencies, temperatures and attitudes", "why_tests_cant": "Equivalences over real-valued parameters cannot be sampled exhaustively.", "anchors": ["src/components/real/communication/ground_station_calculator.cpp: Update, CalcMaxBitrate, CalcReceiveMarginOnGs, CalcCn0OnGs", "src/components/real/communication/antenna.cpp: Antenna, CalcTxEirp_dBW, CalcRxGt_dB_K"]}
{"id": "C129", "title": "Antenna radiation pattern lookup", "statement": "The gain is the table entry nearest to length*angle/max in each direction, angles clipped to [0,max], last entry beyond; entries missing in the file are accessed out of range. All directions with negative y in the antenna frame read the cut at azimuth 0. With the default 181 columns on [0,pi], the column for m degrees is m below 90 and m+1 from 90 to 179.", "quantifier": "all tables, lengths, maxima and directions", "why_tests_cant": "Rounding and clipping must be right at every real angle.", "anchors": ["src/components/real/communication/antenna_radiation_pattern.cpp: GetGain_dBi", "src/components/real/communication/antenna.cpp: CalcAntennaGain"]}
{"id": "C130", "title": "Spherical harmonic gravity field", "statement": "For every maximum degree from 2 on, all normalised coefficients and every position other than the centre, the acceleration is exactly the gradient of the potential mu/r sum (R/r)^n P_nm(sin lat)(C_nm cos m lon + S_nm sin m lon) with fully normalised Legendre functions, at the poles too; with C20 only it is the textbook oblateness acceleration. The matrix of partial derivatives is the Jacobian of that acceleration, symmetric with trace zero. Degrees 0 and 1 give zero. A coefficient missing in the tables is undefined behaviour.", "quantifier": "all degrees, coefficient tables, gravity constants, radii and positions", "why_tests_cant": "Infinitely many degrees and a continuum of positions; the recursion must be right for every degree and order.", "anchors": ["src/math_physics/gravity/gravity_potential.cpp: CalcAcceleration_xcxf_m_s2, CalcPartialDerivative_xcxf_s2, v_w_nn_update, v_w_nm_update"]}
{"id": "C131", "title": "Earth gravity field disturbance", "statement": "With a degree N from 2 to 360 and a file with (N+1)(N+2)/2-3 coefficient lines of degree and order up to N, in any order (the last line for a pair counts), the disturbance is the gradient of the potential of exactly these coefficients, in Earth-fixed and in inertial components. A shorter file or a malformed line is undefined behaviour. A degree above 360 is not limited as announced: every update reads out of range. A negative degree is undefined (-1,-2) or throws. Without a readable file, or with degree 0 or 1, the acceleration is zero.", "quantifier": "all degrees, coefficient files, positions and rotation matrices", "why_tests_cant": "Ranges over all files and degrees.", "anchors": ["src/disturbances/geopotential.cpp: Geopotential, ReadCoefficientsEgm96, Update"]}
{"id": "C132", "title": "Moon gravity field disturbance", "statement": "Every update of LunarGravityField, in every environment, dereferences the Moon rotation pointer of a copy of the celestial information whose copy constructor leaves it without value: undefined behaviour. Given the rotation matrix, the remaining computation is right: for a degree N from 2 to 1200 and a file with (N+1)(N+2)/2-1 lines the acceleration is the gradient of the potential with the file's coefficients, radius and gravity constant. With degree 0 or 1, or without a readable file, the constructor uses radius and gravity constant without value; a degree above 1200 is not limited.", "quantifier": "all degrees, coefficient files, environments and positions", "why_tests_cant": "Ranges over all files, degrees and environments.", "anchors": ["src/disturbances/lunar_gravity_field.cpp: LunarGravityField, ReadCoefficientsGrgm1200a, Update", "src/environment/global/celestial_information.cpp: copy constructor"]}
{"id": "C133", "title": "Star sensor: measured attitude and noise", "statement": "Every measurement is a unit quaternion; without noise it converts inertial components to component-frame components (attitude, then mounting). The stated sight direction deviates from the true one by exactly the size of the drawn cross-boresight angle, whatever the other draws; without cross-boresight error the sight is exact and the other axes are turned about it by the drawn boresight angle.", "quantifier": "all attitudes, mountings and noise values", "why_tests_cant": "Continuum of attitudes and noise.", "anchors": ["src/components/real/aocs/star_sensor.cpp: update"]}
{"id": "C134", "title": "Star sensor: delay and output interval", "statement": "After any number of updates the sensor shows the measurement of a known earlier update: output happens at multiples of the interval (0 acts as 2^64), and what is output is the measurement of the configured delay ago only while the write position in the buffer is beyond the delay; whenever the buffer (2*delay/step time in seconds) is full the current measurement is output without delay, then the age grows by one per update until it reaches the delay. When the buffer is not longer than the delay (steps of 2 s or more) the delay is never attained. The error flag always judges the current update.", "quantifier": "all delays, intervals, step times and histories of updates", "why_tests_cant": "Histories are unbounded; the wrap-around of the buffer matters.", "anchors": ["src/components/real/aocs/star_sensor.cpp: Measure, update, Initialize"]}
{"id": "C135", "title": "Star sensor: error flag", "statement": "The error flag is set exactly when the sight direction is closer than the limits to the Sun, the Moon or the Earth's limb estimated as arctan(R/d), or the body rate exceeds its limit. The true limb is at arcsin(R/d): at every altitude there are sight directions that hit the Earth without setting the flag even for a limit of 0.", "quantifier": "all geometries, limits and rates", "why_tests_cant": "Continuum of geometries including the boundaries.", "anchors": ["src/components/real/aocs/star_sensor.cpp: AllJudgement, SunJudgement, EarthJudgement, MoonJudgement, CaptureRateJudgement"]}
{"id": "C136", "title": "Sun sensor", "statement": "After any history the Sun is reported exactly when it is within the configured angle (a half angle) of the sight direction and the light received at the previous update reached the threshold; so with a positive threshold never at the first update, and still once after the light is gone. Without noise the measured direction is the true unit vector for a Sun in front and its mirror image for one behind the sensor; with noise the projected angles are true + bias + noise, folded back beyond 90 degrees, and the direction is the unit vector with these angles. Not reported: zero vector.", "quantifier": "all mountings, Sun positions, noise values and histories", "why_tests_cant": "Histories and geometries are unbounded.", "anchors": ["src/components/real/aocs/sun_sensor.cpp: Measure, SunDetectionJudgement, CalcSolarIlluminance, TanRange"]}
{"id": "C137", "title": "Star catalogue", "statement": "A catalogue file with a title and one line per star gives the stars before the first one darker than the limit (for a file sorted by magnitude: all not darker than the limit) if there is a darker star or the file ends with its last line; with a newline at the end and no darker star a line that does not exist is evaluated: undefined behaviour. Disabled or without file the catalogue is empty. The direction of a star is the unit vector at its right ascension and declination, in the body frame the one that the attitude turns back to it; a rank beyond the size is undefined.", "quantifier": "all files, limits, star values, attitudes", "why_tests_cant": "Ranges over all files, including their endings.", "anchors": ["src/environment/global/hipparcos_catalogue.cpp: ReadContents, GetStarDirection_i, GetStarDirection_b"]}
{"id": "C138", "title": "Telescope: exclusion flags and image positions", "statement": "After any history of updates the flag of Sun, Earth or Moon is set exactly when its centre is closer to the sight direction than the limit, and its image position is that of the central projection if it is in front and within pixels times angle per pixel on each side (so the image spans twice that), strictly inside the image; otherwise (-1,-1). The centre of the image is at half the number of pixels rounded down. Construction aborts when pixels times angle is a right angle or more.", "quantifier": "all mountings, body positions, pixel numbers and histories", "why_tests_cant": "Continuum of geometries including the boundaries; histories are unbounded.", "anchors": ["src/components/real/mission/telescope.cpp: Telescope, MainRoutine, JudgeForbiddenAngle, Observe"]}
{"id": "C139", "title": "Telescope: logged stars", "statement": "The logged stars are the first ones of the catalogue that are in the field, edge included, in catalogue order (so the brightest, for a catalogue sorted by magnitude) with their image positions, filled up with -1 to the configured number. With an empty catalogue that is enabled, an update with at least one logged star is undefined behaviour.", "quantifier": "all catalogues, attitudes, mountings, fields and numbers of logged stars", "why_tests_cant": "Catalogues are unbounded.", "anchors": ["src/components/real/mission/telescope.cpp: ObserveStars"]}
{"id": "C140", "title": "Telescope: initial ground position", "statement": "The reported position of the initial ground point is its two angles off the sight direction divided by the angle per pixel, 0 when the telescope points at it. After a report beyond the number of pixels the next one is (-1,-1) whatever the geometry and the one after is computed again, so the reports alternate; negative positions are never replaced. Without an orbit the values stay 0.", "quantifier": "all geometries and histories", "why_tests_cant": "Behaviour over sequences of updates.", "anchors": ["src/components/real/mission/telescope.cpp: ObserveGroundPositionDeviation"]}
{"id": "C141", "title": "GNSS receiver: occultation by the Earth", "statement": "For a receiver outside the sphere of the Earth's equatorial radius, a GNSS satellite in the opposite half space (angle of 90 degrees or more at the Earth's centre) is treated as in sight exactly when the straight line between them does not meet that sphere. A satellite in the receiver's own half space is always treated as in sight: right when R^2(a^2+g^2) < a^2 g^2 (a, g the distances from the centre), but e.g. at 150 km altitude there are satellites on GPS-like distances that are hidden by the Earth and reported in sight.", "quantifier": "all receiver and satellite positions", "why_tests_cant": "Continuum of geometries including grazing lines.", "anchors": ["src/components/real/aocs/gnss_receiver.cpp: CheckAntennaCone"]}
{"id": "C142", "title": "GNSS receiver: visible satellites and their data", "statement": "With the cone antenna, after each update the satellites listed are exactly those in sight of the Earth test whose direction from the antenna is strictly within the half width of the antenna axis, in the order of the constellation; their number is reported and the receiver is visible exactly when there are four or more. For each the list gives the distance, and the latitude and longitude of its direction in the antenna frame; the longitude lies in (0, 2 pi].", "quantifier": "all constellations, mountings, attitudes, half widths and earlier states", "why_tests_cant": "Constellations and geometries are unbounded.", "anchors": ["src/components/real/aocs/gnss_receiver.cpp: CheckAntennaCone, SetGnssInfo"]}
{"id": "C143", "title": "GNSS receiver: reported values", "statement": "With the simple antenna the receiver is visible exactly when the antenna axis points strictly away from the centre of the Earth (positive component along the position). After any history of updates, position, velocity and geodetic position are those of the last update that was visible, plus the noise drawn there (geodetic position from the noisy position); before any they keep their initial values. GPS week and seconds count from 1980-01-06 without leap seconds; a time a week or more before that is undefined behaviour. The antenna model CONE falls back to the simple one when no GNSS satellites are simulated.", "quantifier": "all histories, antennas, times and noises", "why_tests_cant": "Histories are unbounded.", "anchors": ["src/components/real/aocs/gnss_receiver.cpp: MainRoutine, CheckAntenna, CheckAntennaSimple, AddNoise, ConvertJulianDayToGpsTime, SetAntennaModel"]}
{"id": "C144", "title": "Simple air density model", "statement": "The density is that of Vallado's exponential atmosphere at every altitude from 0 on, except between 350 and 400 km, where it is smaller by the factor 9.158/9.518 (transposed digits in the base density), and at exactly 1000 km, where it is 0; below 0 it is 0. It is positive otherwise, at most 1.225, and decreases strictly inside each layer. At the boundaries of the layers it jumps by less than 0.14 percent, except at 350 km (drop of more than 3.7 percent) and at 400 km (rise of more than 3.9 percent with altitude).", "quantifier": "all altitudes", "why_tests_cant": "Continuum of altitudes; limits at the layer boundaries.", "anchors": ["src/math_physics/atmosphere/simple_air_density_model.cpp: CalcAirDensityWithSimpleModel"]}
{"id": "C145", "title": "Harris-Priester air density model", "statement": "From 100 km to below 1000 km the density is the mean of the minimum and maximum profile, weighted by the n-th power of the cosine of half the angle between the Earth-fixed position and the direction to the Sun turned east by 30 degrees; hence between the two profiles. Both profiles interpolate the table linearly in the logarithm, are continuous and fall strictly. Below 100 km the result is 497400 kg/m3 (no conversion of the unit); from 1000 km on the result is undefined behaviour. The inertial Sun direction is compared with the Earth-fixed position, so at the apex of the bulge the minimum density is given when the Earth has made half a turn.", "quantifier": "all positions, Sun directions and exponents", "why_tests_cant": "Continuum of positions and directions.", "anchors": ["src/math_physics/atmosphere/harris_priester_model.cpp: CalcAirDensityWithHarrisPriester_kg_m3, CalcScaleHeight_km, CalcApexDensity_g_km3", "src/math_physics/atmosphere/harris_priester_coefficients.hpp"]}
{"id": "C146", "title": "Air density used by the simulation", "statement": "After any history of updates the density read by the air drag and written to the log is that of the selected model at the last update with propagation of the orbit; the configured noise never enters it (only the value returned, which the simulation drops). Switched off, or with a centre body other than the Earth, it stays 0. An unknown model gives 0; NRLMSISE-00 without manual parameters and without table becomes the standard model. With Harris-Priester the first orbit update at 1000 km or higher is undefined behaviour.", "quantifier": "all histories, models, noise rates and random values", "why_tests_cant": "Histories and random values are unbounded.", "anchors": ["src/environment/local/atmosphere.cpp: Atmosphere, CalcAirDensity_kg_m3, AddNoise, InitAtmosphere", "src/environment/local/local_environment.cpp: Update, Initialize"]}
{"id": "C147", "title": "Ideal force and torque generators", "statement": "After any history the force generated at the last update is the last command (given in body, inertial or RTN components and converted with the attitude and orbit at the time of the command) with the noise drawn at the update; the inertial and RTN components are those of the same vector at the update. Without power it is zero and the command is kept. The direction noise is not a pure turn: with e the drawn angle and alpha the angle between the command and the random direction, the length is the disturbed magnitude times cos^2(e/2) + sin^2 alpha sin^2(e/2), so the force is too weak unless e is a multiple of a whole turn or alpha is 90 degrees. The torque generator does the same in body components.", "quantifier": "all commands, random values, attitudes, orbits and histories", "why_tests_cant": "Random values form a continuum, histories are unbounded.", "anchors": ["src/components/ideal/force_generator.cpp: MainRoutine, PowerOffRoutine, SetForce_i_N, SetForce_rtn_N, GenerateDirectionNoiseQuaternion", "src/components/ideal/torque_generator.cpp: MainRoutine, GenerateDirectionNoiseQuaternion"]}
{"id": "C148", "title": "Attitude and orbit observers", "statement": "The observed attitude is a unit quaternion that differs from the true attitude by a turn of exactly the drawn angle about the drawn direction (in inertial components), and equals it for angle 0. The observed position and velocity are the true ones plus the drawn values, in inertial components or along the radial, transverse and normal directions; every noise frame name other than RTN means inertial.", "quantifier": "all attitudes, orbits and random values", "why_tests_cant": "Continuum of attitudes and random values.", "anchors": ["src/components/ideal/attitude_observer.cpp: MainRoutine", "src/components/ideal/orbit_observer.cpp: MainRoutine, SetNoiseFrame"]}
{"id": "C149", "title": "Earth albedo and infrared radiation", "statement": "After any history of updates the albedo is the albedo factor times the solar power density at the last orbit update (1366 W/m2 at one astronomical unit, inverse square, times the shadow coefficient), and the infrared radiation is that of the cold side as soon as a shadow source hides any part of the Sun, otherwise that of the hot side; the distance to the Earth enters neither. With the solar radiation environment switched off both are those of full sunlight at one astronomical unit, in any shadow. Switched off they are 0.", "quantifier": "all geometries, settings and histories", "why_tests_cant": "Continuum of geometries, unbounded histories.", "anchors": ["src/environment/local/earth_albedo.cpp: UpdateAllStates, CalcEarthAlbedo", "src/environment/local/earth_infrared.cpp: UpdateAllStates, CalcEarthInfrared", "src/environment/local/local_environment.cpp: Update"]}
{"id": "C150", "title": "SP3 orbit files", "statement": "A file in SP3-d layout with positions and at least two epochs is read completely, whatever follows the last epoch: the header fields are those at their columns, epoch i has the time of its line, and satellite j of epoch i has position, clock, standard deviations and flags at their columns of the j-th position line of that epoch (0 for deviations that are no numbers; correlation lines are skipped). Position lines can have 46-61, 70-73 or at least 79 characters; all other lengths throw an exception. A file with a single epoch is undefined behaviour after reading. The mode letter V is looked for in the wrong column, so reading a file with velocities fails after the first position line. When the file ends with an unfinished position line in its last epoch, reading succeeds and all missing satellites have the data of that line.", "quantifier": "all files of this layout, any number of epochs, satellites and comments", "why_tests_cant": "Files are unbounded; truncation points.", "anchors": ["src/math_physics/gnss/sp3_file_reader.cpp: ReadFile, ReadHeader, DecodePositionClockData, DecodePositionClockCorrelation, GetEpochData, GetPositionClock"]}
{"id": "C151", "title": "Julian date and calendar", "statement": "From 1900-03-01 to 2100-02-28 the Julian date of the start date is the Gregorian one, and the date shown t seconds after the start is the date and time that lie t seconds after it, with these exceptions: in the last 18, 12 or 6 hours of the years that are 0, 1 or 2 modulo 4 the seconds are 0.864 microseconds too small (negative at full minutes, -0.001 in the log); the last 0.864 microseconds of a minute are shown as negative seconds of the next, and those before a leap year as 32 December. The decimal year (from 1901 to 2099, outside the exceptions) is the year plus the day of the year, counted from 1, over 365.25; it steps back at the end of each leap year.", "quantifier": "all dates from 1900-03-01 to 2100-02-28, times and elapsed times", "why_tests_cant": "Every second of two centuries, on exact boundaries of days and years.", "anchors": ["src/math_physics/orbit/sgp4/sgp4ext.cpp: jday, days2mdhms, invjday, JdToDecyear", "src/environment/global/simulation_time.cpp: ConvJDtoCalendarDay, GetLogValue"]}
{"id": "C152", "title": "Rotation of the Earth", "statement": "After any history of updates the matrix from J2000 to Earth-fixed components is that of the last date: in the mode FULL precession (IAU 1976), nutation (nine largest terms) and apparent sidereal time (IAU 1982 mean sidereal time and equation of the equinoxes), with polar motion zero and the time argument 32.184 s after UTC; in the mode SIMPLE a turn about the third axis by the mean sidereal time, with a rate of 7.292115855(5)e-5 rad/s within a century of J2000; in the mode IDLE, also used for unknown names, the identity. It is always a rotation. The matrix from TEME to Earth-fixed components is the identity in every mode.", "quantifier": "all dates, modes and histories of updates", "why_tests_cant": "Continuum of dates; unbounded histories.", "anchors": ["src/environment/global/earth_rotation.cpp: Update, Nutation, Precession, PolarMotion, ConvertEarthRotationMode", "src/math_physics/orbit/sgp4/sgp4unit.cpp: gstime"]}
{"id": "C153", "title": "Rotation of the Moon", "statement": "In the mode SIMPLE, if the Moon's position and velocity relative to the Earth are not parallel, the matrix from J2000 to the Moon's principal axes is a rotation: the constant rotation of 0.285, 78.580 and 67.573 arc seconds after the rotation to the axes with the Earth on the first axis and the normal of the Moon's orbit as third. The direction to the Earth is therefore constant in these axes (no libration). With parallel position and velocity (e.g. zero velocity) the matrix is singular. IAU_MOON gives the rotation block of the SPICE state transformation, IDLE and unknown names the identity.", "quantifier": "all positions and velocities of the Moon, all modes", "why_tests_cant": "Continuum of states.", "anchors": ["src/environment/global/moon_rotation.cpp: Update, ConvertMoonRotationMode", "src/math_physics/planet_rotation/moon_rotation_utilities.cpp: CalcDcmEciToPrincipalAxis, CalcDcmEciToMeanEarth, CalcDcmMeanEarthToPrincipalAxis"]}
{"id": "C154", "title": "Geomagnetic field model", "statement": "After any history of path settings and evaluations, the vector returned for a year, a place and a sidereal time is, in the inertial frame turned by the sidereal time, minus the gradient of the potential of all Gauss coefficients of the file (Schmidt semi-normalised, reference radius 6371.2 km) at that place, with the coefficients on the straight line of the table column of the year of the first evaluation. The place is that of the given geodetic coordinates on the ellipsoid 6378.137 km, 1/298.25722, the angles scaled by 3.14159265359/pi, more than 1.5e-7 rad off the poles. (Files whose last nonzero coefficient is of order 0 excepted, see the next property.)", "quantifier": "all coefficient files with 8 to 18 degrees, all years, places, sidereal times and histories", "why_tests_cant": "Continuum of places and years, arbitrary files, caches kept between calls.", "anchors": ["src/math_physics/geomagnetic/igrf.cpp: IgrfCalc, gigrf, field, tcoef, tyear, mfldg, fcalc, TransMagaxisToECI", "src/math_physics/orbit/sgp4/sgp4ext.cpp: RotationY, RotationZ"]}
{"id": "C155", "title": "History of the geomagnetic field model", "statement": "The result depends on the history only through the path set last before the first evaluation and the year of the first evaluation; places, years, sidereal times and paths in between have no effect. The year of the first evaluation fixes the segment of the table for the whole run: a run from 2000 to 2010 can give twice the field of a run that starts in 2010. With a file in which only g(1,0) differs from 0 the field is zero or right according to the value of memory never written. The first evaluation ends the program if the last path does not contain 13, the file is missing or its first line is out of range; a path of 256 characters is undefined behaviour.", "quantifier": "all histories of settings and evaluations, all contents of uninitialised memory", "why_tests_cant": "Histories are unbounded; uninitialised memory is arbitrary.", "anchors": ["src/math_physics/geomagnetic/igrf.cpp: IgrfCalc, gigrf, set_file_path"]}
{"id": "C156", "title": "Geomagnetic field of a spacecraft", "statement": "The n-th evaluation of the field in a program (counted over all spacecraft) gives the model's field plus the state after n steps of a random walk of step 0.1 and three draws of white noise, all shared by all spacecraft and with the standard deviations and limit of the spacecraft that made the first evaluation; if that one has no noise, none has. The body components are those of the noisy inertial vector. A spacecraft's field is evaluated only in steps that propagate the attitude, with the Earth as centre body and the calculation enabled; otherwise its values stay as they are, initially zero.", "quantifier": "all numbers of spacecraft, noise parameters, histories and random values", "why_tests_cant": "Unbounded histories and random values, interleavings of spacecraft.", "anchors": ["src/environment/local/geomagnetic_field.cpp: GeomagneticField, CalcMagneticField, AddNoise", "src/environment/local/local_environment.cpp: Initialize, Update"]}
{"id": "C157", "title": "Start of an orbit from the settings", "statement": "With the propagation modes RK4 and ENCKE, and with every text that is not a mode (then RK4), the spacecraft starts at the inertial position and velocity of the section [ORBIT], or on the two-body motion with the elements of [ORBIT] if initialize_mode says ORBITAL_ELEMENTS; the section name passed is used for neither, and without a section [ORBIT] the program ends. KEPLER uses the named section: elements unless initialize_mode says POSITION_VELOCITY_I (so DEFAULT means the opposite of what it means for RK4), accurate to 2e-5 semi-major axes up to eccentricity 1/4. RELATIVE starts at the reference spacecraft plus the given radial, along-track and normal components; a missing reference throws. SGP4 starts at the result of the SGP4 code in metres at the minutes since the epoch; a wgs_setting other than 0, 1, 2 is undefined behaviour. Calculation and logging are on exactly for ENABLE or 1.", "quantifier": "all settings files, section names, dates and surroundings", "why_tests_cant": "Arbitrary files and numbers; combination of every mode with every initialize mode.", "anchors": ["src/dynamics/orbit/initialize_orbit.cpp: InitOrbit, InitializePosVel", "src/dynamics/orbit/orbit.cpp: SetOrbitInitializeMode", "src/dynamics/orbit/kepler_orbit_propagation.cpp: KeplerOrbitPropagation", "src/dynamics/orbit/sgp4_orbit_propagation.cpp: Sgp4OrbitPropagation", "src/dynamics/orbit/relative_orbit.cpp: RelativeOrbit"]}
{"id": "C158", "title": "Kepler propagation over a history", "statement": "After any history of propagations, enabling, disabling and accelerations, position and velocity of a Kepler orbit are those of the two-body motion with the elements of the settings at the date of the last propagation with the calculation enabled (the start if there is none); other calls, end times and forces have no effect and no error accumulates: up to eccentricity 1/4 the position is within 2e-5 semi-major axes of the exact motion after any number of calls.", "quantifier": "all histories of calls, dates and elements", "why_tests_cant": "Unbounded histories; continuum of dates.", "anchors": ["src/dynamics/orbit/kepler_orbit_propagation.cpp: Propagate, UpdateState", "src/dynamics/orbit/orbit.hpp: SetIsCalcEnabled, SetAcceleration_i_m_s2"]}
{"id": "C159", "title": "Orbit and the surface of the Earth", "statement": "With every propagator, a construction and an enabled propagation that return leave an altitude that is not negative (true altitude above -10 micrometres) and a position off the Earth's axis; a new position more than 10 micrometres below the ellipsoid, or exactly on the Earth's axis at any height, ends the program; one more than 10 micrometres above and off the axis does not. A disabled propagation changes nothing.", "quantifier": "all propagators, states, dates and Earth rotations", "why_tests_cant": "Continuum of states; all propagators.", "anchors": ["src/dynamics/orbit/orbit.cpp: TransformEciToEcef, TransformEcefToGeodetic", "src/dynamics/orbit/kepler_orbit_propagation.cpp: Propagate", "src/dynamics/orbit/rk4_orbit_propagation.cpp: Propagate", "src/math_physics/geodesy/geodetic_position.cpp: UpdateFromEcef"]}
{"id": "C160", "title": "State of a spacecraft after each dynamics step", "statement": "After construction and after every update of a spacecraft's dynamics, whichever of attitude and orbit are due, the velocity in the body frame is the inertial velocity of that moment in the attitude of that moment, and the Earth-fixed position and velocity belong to the inertial state and to the Earth rotation of the last enabled orbit propagation.", "quantifier": "all propagators, attitudes, flags and histories of updates", "why_tests_cant": "Unbounded histories with all combinations of flags.", "anchors": ["src/dynamics/dynamics.cpp: Initialize, Update", "src/dynamics/orbit/orbit.hpp: UpdateByAttitude", "src/dynamics/orbit/orbit.cpp: TransformEciToEcef"]}
{"id": "C161", "title": "Gaussian beam", "statement": "The power through the whole plane at any distance from the waist is the total power, that through a disc of radius R about the axis the total power times 1 - exp(-2 R^2/w^2). The radius is a hyperbola with its minimum, the waist radius, only at the waist, symmetric, with half angle lambda/(pi w0); the intensity falls strictly with the distance from the axis and is nowhere greater than 2P/(pi w0^2). The intensity is the squared modulus of a solution of the paraxial wave equation for the wavelength. A history of settings ends the program exactly if a wavelength or waist is not positive or a power negative; otherwise the last values hold.", "quantifier": "all wavelengths, waists, powers, places and histories of settings", "why_tests_cant": "Integrals over the plane, continuum of parameters.", "anchors": ["src/math_physics/optics/gaussian_beam_base.cpp: CalcBeamWidthRadius_m, CalcIntensity_W_m2, SetWaveLength_m, SetBeamWaistRadius_m, SetTotalPower_W"]}
{"id": "C162", "title": "Bias-SINEX files", "statement": "For every text file, reading it returns exactly if the file has the layout of complete blocks up to the line that begins with %=ENDBIA (or the end of the file), and gives the biases of all solution blocks in their order; success says only that the file could be opened. A line gives the fields of its columns; the slope is read only if the line goes on after its columns (127 characters), its deviation only from 140 characters on, and in lines of 118 to 126 characters the deviation of the slope is taken from the slope's columns; a line that is too short or has a number that cannot be read raises an exception. A file cut in a block without biases is read for ever; a file cut after a complete bias raises an exception if the last line is ended, and otherwise never ends and stores the last bias again and again.", "quantifier": "all files and all conversions of numbers", "why_tests_cant": "All texts; non-termination cannot be tested.", "anchors": ["src/math_physics/gnss/bias_sinex_file_reader.cpp: ReadFile, ReadFileReference, ReadBiasSolution, SetIdentifier, SetUnit, SetTargetSignal"]}
{"id": "C163", "title": "ANTEX files", "statement": "For every text file, reading it returns exactly if the file has the layout of complete antennas, and then the data of a satellite index are those of all its antennas in the file in their order, any other index throws, and each index is counted once. Of a satellite antenna the last values of its fields outside of the frequencies hold, each frequency has its name, the last offset (0 for numbers that are missing), the last azimuth-independent variations and the grid given last before it; the announced number of frequencies is not checked against those that are there, so that asking for an announced one can be undefined. Antennas that are not of satellites are skipped. A file that ends in the antenna of a satellite or before the type of an antenna is read for ever.", "quantifier": "all files and all conversions of numbers", "why_tests_cant": "All texts; non-termination cannot be tested.", "anchors": ["src/math_physics/gnss/antex_file_reader.cpp: ReadFile, ReadAntexData, ReadAntexSatelliteData, ReadPhaseCenterData, ReadDateTime", "src/math_physics/gnss/antex_file_reader.hpp: AntexSatelliteData, AntexFileReader"]}
{"id": "C164", "title": "Grid of phase centre variations", "statement": "With a positive step and ends in order the nodes of the grid are exactly the multiples of the step from the start up to the end. The index of a zenith angle is that of the nearest node, and always in the table, if the range is a whole number of steps; otherwise it is one too high exactly for the angles before the end that lie half a step or more after the last node. With an azimuth step that divides 360 degrees the index of an azimuth from 0 to 360 degrees is that of the nearest node; in every grid read from a file the index of an azimuth between 0 and 360 degrees is undefined. A grid whose end lies a step or more before its start is undefined.", "quantifier": "all grids and angles", "why_tests_cant": "Continuum of grids and angles.", "anchors": ["src/math_physics/gnss/antex_file_reader.cpp: AntexGridDefinition, CalcClosestZenithIndex, CalcClosestAzimuthIndex"]}
{"id": "C165", "title": "Dates of decimal years", "statement": "A decimal year from 0 on stands for the date whose number in its Gregorian year is the whole part of the days passed (a 365th or 366th part of the year each), with 0 counted as day 1, and for the time of day that is left, cut to seconds. A date has the decimal year of its end, so that these are in the order of the dates, and comes back as itself with time 0, except that 31 December comes back as 1 January of the next year. A month outside 1 to 12 is undefined behaviour.", "quantifier": "all decimal years and dates", "why_tests_cant": "Continuum of years; every day of every year.", "anchors": ["src/math_physics/atmosphere/wrapper_nrlmsise00.cpp: ConvertDecyearToDate, ConvertDateToDecyear, ConvertDaysToMonthDay, LeapYear"]}
{"id": "C166", "title": "Input of the NRLMSISE-00 model", "statement": "The density is that of the external model for the height in km, latitude and longitude in degrees, the time of the date that stands for the decimal year, the local time, and F10.7, its 81-day average and Ap (in all seven places): the manual values, or those of the first row of the table for the day (from the monthly part on: for the month), and those of the first row of the table if there is none. An empty table gives 0. There is a density for every decimal year, table and place: a missing row is never reported.", "quantifier": "all decimal years, places, tables and external models", "why_tests_cant": "All tables; the external model is arbitrary.", "anchors": ["src/math_physics/atmosphere/wrapper_nrlmsise00.cpp: CalcNRLMSISE00"]}
{"id": "C167", "title": "Space weather files", "statement": "For every text file, reading it returns exactly if each line is long enough and each month exists; then the rows from 31/365 years before the first date up to the last date of the run are in the table in their order, and the monthly part begins 14 days plus the length of the following month after the date of the last update line. The first line that is too short raises an exception; a month that does not exist, and a last update in December, are undefined behaviour. A file that cannot be opened gives an empty table.", "quantifier": "all files, runs and conversions of numbers", "why_tests_cant": "All texts.", "anchors": ["src/math_physics/atmosphere/wrapper_nrlmsise00.cpp: GetSpaceWeatherTable_, ConvertMonthStrToMonthNum"]}
{"id": "C168", "title": "Space weather during a run", "statement": "For every decimal year between start and end of the run, the lines of the file for its day, and those for its month up to that day, are in the table; so if the file has one the row used is of that day (in the monthly part of that month).", "quantifier": "all files, runs and decimal years within the run", "why_tests_cant": "Interplay of two conversions of dates for every moment of every run.", "anchors": ["src/math_physics/atmosphere/wrapper_nrlmsise00.cpp: GetSpaceWeatherTable_, CalcNRLMSISE00"]}
{"id": "C169", "title": "Space weather at the simulation time", "statement": "From 1901 to 2099 the simulation time gives NRLMSISE-00 its right day of the year, but as date and time those after the passed days times 365/365.25 (in leap years 366/365.25): in common years the same day or the one before and up to 6 hours early, in leap years the same day or the one after and up to 18 hours late (12 hours on 1 July becomes 9:00:07 in 2023 and 21:02:35 in 2024); when 365.25 days have passed it is 1 January of the next year. In a run over the end of a common year the row of the last day can be missing from the table although the file has it.", "quantifier": "all dates and times from 1901 to 2099", "why_tests_cant": "Every moment of two centuries.", "anchors": ["src/math_physics/atmosphere/wrapper_nrlmsise00.cpp: ConvertDecyearToDate, CalcNRLMSISE00, GetSpaceWeatherTable_", "src/math_physics/orbit/sgp4/sgp4ext.cpp: JdToDecyear", "src/environment/local/atmosphere.cpp: Atmosphere"]}
{"id": "C170", "title": "Start of the attitude from the settings", "statement": "Unless its start or its motion is controlled, an attitude starts with the angular velocity, quaternion (as written, not normalised) and torque of the section [ATTITUDE]. With initialize_mode CONTROLLED it starts without angular velocity and torque, pointing - the main target exactly along the main body direction, the sub target on the side of the sub body direction - if the modes are two different pointing modes and the body directions are at least 30 degrees away from a common line, and otherwise with the quaternion of the file; a pointing main mode with the sub mode INERTIAL_STABILIZE is undefined behaviour. With propagate_mode CONTROLLED it starts at the quaternion of the file whatever initialize_mode says. CANTILEVER_VIBRATION moves with a cantilever that has the parameters of the structure file and starts at rest, CONTROLLED is controlled, every other text is a rigid body; a singular inertia tensor raises an exception.", "quantifier": "all settings files, surroundings and inertia tensors", "why_tests_cant": "Arbitrary files and continuum of directions.", "anchors": ["src/dynamics/attitude/initialize_attitude.cpp: InitAttitude", "src/dynamics/attitude/controlled_attitude.cpp: Initialize, Propagate"]}
{"id": "C171", "title": "Monte-Carlo settings", "statement": "The parameters parameter(0), parameter(1), ... of the settings up to the first that is missing are registered under the first two non-empty pieces of their names between dots, each with the type, mean_or_min and sigma_or_max of its own keys (a text that is not a type means no randomisation), and nothing else is; two parameters with the same object and parameter name raise an exception. All of them can be drawn again and again without an exception or undefined behaviour and give as many values as the type has (2 for circular, 3 for Cartesian and spherical, 4 for quaternions), so that fetching a vector of n elements raises an exception exactly if n is greater, and fetching a quaternion exactly if the type is not one for quaternions. An enabled run has as many cases as number_of_executions says, a run not enabled has one.", "quantifier": "all settings files, random number generators and numbers of draws", "why_tests_cant": "Arbitrary files, unbounded lists of parameters and histories of draws.", "anchors": ["src/simulation/monte_carlo_simulation/initialize_monte_carlo_simulation.cpp: InitMonteCarloSimulation", "src/simulation/monte_carlo_simulation/monte_carlo_simulation_executor.cpp: AddInitializedMonteCarloParameter"]}
{"id": "C172", "title": "Two-line elements", "statement": "Two lines in the TLE format (columns; numbers right-justified with blanks, optional signs, blanks for zeros in the second derivative and the eccentricity) give SGP4 exactly the elements that stand in their columns, in radians and minutes; the epoch is day d of the year counted from 1 January 0h as day 1, for any d, in 1957 to 2056, and the semi-major axis is that of Kepler's third law; ephemeris type, set number, revolutions and checksum have no influence. In the settings this holds for lines of less than 80 characters; a longer first line is undefined behaviour, as is a satellite number that begins with a letter (Alpha-5), whatever else the lines say.", "quantifier": "all lines in the format, settings and constants", "why_tests_cant": "All texts of the format; undefined behaviour.", "anchors": ["src/math_physics/orbit/sgp4/sgp4io.cpp: twoline2rv", "src/math_physics/orbit/sgp4/sgp4ext.cpp: days2mdhms, jday", "src/dynamics/orbit/initialize_orbit.cpp: InitOrbit"]}
{"id": "C173", "title": "SGP4 has no memory", "statement": "What a call of the SGP4 propagator returns and writes depends only on the initialised element record, the gravity constants and the time asked for: calls at other times before it, in any order and with any return codes, change nothing, for near-Earth and for deep-space orbits. The initialised record does not depend on what the record held before.", "quantifier": "all records, constants, times and all finite histories of calls", "why_tests_cant": "The record is written by every call (resonance state, periodic coefficients); a test compares a few call orders.", "anchors": ["src/math_physics/orbit/sgp4/sgp4unit.cpp: sgp4, sgp4init, dspace, dpper"]}
{"id": "C174", "title": "SGP4 returns for every time and integrates the resonance without jumps", "statement": "Every call of SGP4 returns: the integration of the deep-space resonance takes one second-order Taylor step per whole 720 minutes between the epoch and the time, in the direction of the time, and a last shorter one, so that the angle and the mean motion are continuous functions of time. Records without resonance move at constant rates.", "quantifier": "all records and all times, before and after the epoch", "why_tests_cant": "The loop has a hand-translated control flow with step directions and a backward branch; tests try a few times, not the boundaries of all steps.", "anchors": ["src/math_physics/orbit/sgp4/sgp4unit.cpp: dspace, sgp4, sgp4init"]}
{"id": "C175", "title": "Near-Earth SGP4 follows Spacetrack Report No. 3", "statement": "For every regular near-Earth element set (period below 225 minutes, eccentricity in [0,1), inclination not 180 degrees), every set of constants, every history of calls and every time, SGP4 returns the code, position and velocity of the equations of the report with the revisions of 2006: recovered mean motion, density parameters by height of perigee, secular and drag terms (the shorter formulas below 220 km), long- and short-period terms; Kepler's equation is solved by the damped iteration of the report. A negative semi-latus rectum gives code 6 and writes nothing. Initialisation gives code 5 when the perigee is below the surface and otherwise the code of the epoch.", "quantifier": "all regular element sets, constants, histories and times", "why_tests_cant": "Hundreds of coefficients over a continuum of orbits and times; test vectors exercise a few.", "anchors": ["src/math_physics/orbit/sgp4/sgp4unit.cpp: sgp4init, initl, sgp4, getgravconst"]}
{"id": "C176", "title": "SGP4 return codes", "statement": "Every call of SGP4, with any record, near-Earth or deep-space, and any time, sets the code 0, 1, 2, 3 or 6, never 4 or 5. Position and velocity, when written, lie in one plane through the centre of the Earth; when they are not written, and when the position is below the surface, the code is 6, so any other code means a written position on or above the surface.", "quantifier": "all records (reachable or not), constants and times", "why_tests_cant": "All floating-point states of about a hundred members.", "anchors": ["src/math_physics/orbit/sgp4/sgp4unit.cpp: sgp4"]}
{"id": "C177", "title": "SGP4 without drag has no preferred epoch", "statement": "If B* is 0, propagating a near-Earth set by t0 + t gives the same code, position and velocity as moving its mean anomaly, perigee and node to t0 at their constant rates and propagating the new set by t, with any epochs.", "quantifier": "all regular near-Earth element sets without drag, times and epochs", "why_tests_cant": "A relation between two runs for a continuum of sets and times.", "anchors": ["src/math_physics/orbit/sgp4/sgp4unit.cpp: sgp4init, sgp4"]}
{"id": "C178", "title": "SGP4 orbit of a spacecraft", "statement": "An SGP4 orbit that is enabled has after Propagate at a time the position and velocity of an orbit constructed from the same lines at that time, whatever calls were made before. For lines in the format with a regular near-Earth or deep-space set these are the position and velocity of the report (near-Earth or deep-space theory) in metres and metres per second, at the minutes between the epoch of the lines and the time; codes other than 0 are only printed, and a call for which SGP4 writes no position is undefined behaviour. A disabled orbit does not move.", "quantifier": "all lines, settings, times and finite sequences of calls", "why_tests_cant": "Composition of text, initialisation and propagation over all histories.", "anchors": ["src/dynamics/orbit/sgp4_orbit_propagation.cpp: Sgp4OrbitPropagation, Propagate", "src/math_physics/orbit/sgp4/sgp4io.cpp: twoline2rv"]}
{"id": "C179", "title": "SGP4 solves Kepler's equation", "statement": "Whenever the eccentricity with its long-period terms is at most 0.55, the limited Newton iteration of SGP4 (at most nine corrections) ends within 1.001e-12 rad of the exact solution of Kepler's equation, which exists and is unique, so the position and velocity are those of the report for this solution; a regular near-Earth set without drag whose perigee is not below the surface has such an eccentricity (at most 0.5) at all times.", "quantifier": "all regular near-Earth element sets, histories and times", "why_tests_cant": "Convergence of an iteration with a fixed number of steps over a continuum of arguments.", "anchors": ["src/math_physics/orbit/sgp4/sgp4unit.cpp: sgp4"]}
{"id": "C180", "title": "Deep-space part of SGP4", "statement": "For every regular element set with a period of 225 minutes or more, sgp4init returns (with the code 5 when the perigee is below the surface), and after every sequence of calls sgp4 returns for every time what the deep-space theory gives: Sun and Moon move the mean elements at the rates of Lagrange's planetary equations for their potential averaged over both orbits, plus periodic corrections that are the integrals of what is left when only the satellite's orbit is averaged; the mean motion and anomaly of orbits of 12 and 24 hours follow the resonance with the Earth's rotation, integrated by second-order Taylor steps of 720 minutes from the epoch; the corrections are applied directly from 0.2 rad of inclination on and by Lyddane's modification below; position, velocity and code follow from these elements.", "quantifier": "all regular deep-space element sets, gravity constants, epochs, finite call histories and times", "why_tests_cant": "A numerical theory of several hundred terms over a continuum of element sets, times and histories.", "anchors": ["src/math_physics/orbit/sgp4/sgp4unit.cpp: sgp4init, sgp4, dscom, dsinit, dspace, dpper"]}
{"id": "C181", "title": "The example component with a serial line, end to end", "statement": "After constructing ExampleSerialCommunicationWithObc on a free port of an on-board computer, for every history of SendFromObc, ReceivedByObc and component runs in which no reader finds more than 1023 waiting bytes: each run takes the next 5 waiting bytes (fewer if fewer wait); they are a command exactly when at least 4 arrived and they start with S E T, and then the fourth byte is put in front of the accepted characters; each run then sends exactly sizeof(std::vector) bytes (24 with the usual libraries), the newest accepted characters, newest first, followed by zeros; and the flight software receives exactly these bytes in order. By the letter of the C++ standard the first run is undefined, because tx_buffer_ is assigned from its own iterators.", "quantifier": "all ports, buffer contents, histories of sends, receives and runs of any length, all byte contents", "why_tests_cant": "unbounded histories; command framing interacts with the state of two ring buffers and of the memory", "anchors": ["src/components/examples/example_serial_communication_with_obc.cpp: ExampleSerialCommunicationWithObc::ParseCommand, GenerateTelemetry, MainRoutine", "src/components/base/uart_communication_with_obc.cpp: ReceiveCommand, SendTelemetry", "src/components/real/cdh/on_board_computer.cpp"]}
{"id": "C182", "title": "Sender and responder of the HILS example in SILS mode", "statement": "After constructing ExampleSerialCommunicationForHils without USE_HILS on a free port, for every mode and history of SendFromObc, ReceivedByObc and component runs in which no reader finds more than 1023 waiting bytes, the flight software receives exactly: in mode 0, one message of three letters and a zero per run, ABC, BCD, ..., XYZ and again from ABC (period 24); in mode 1, per run the three bytes last received and a zero, where a run that takes fewer than four bytes replaces only that many of them; in other modes nothing. In particular a responder returns any number of messages of three bytes and a zero as received.", "quantifier": "all ports, modes, buffer contents, histories of any length", "why_tests_cant": "unbounded histories; partial receptions mix old and new bytes", "anchors": ["src/components/examples/example_serial_communication_for_hils.cpp: ParseCommand, GenerateTelemetry, MainRoutine", "src/components/base/uart_communication_with_obc.cpp: ReceiveCommand, SendTelemetry"]}
{"id": "C183", "title": "Structure of a spacecraft: settings, setters, change during simulation", "statement": "Structure built from a settings file that describes a physical structure (centre of gravity, mass, nine inertia elements row by row, numbered surfaces, residual magnetic moment) is that structure. After every history of setters through the GetToSet functions: centre of gravity and inertia tensor are the last values set; the mass is the last positive total proposed by SetMass_kg or AddMass_kg (others are refused); the constant magnetic moment is the last value set plus what was added since; each surface has the last position, the last normal scaled to length one, the last positive area and the last reflectivity and specularities within [0,1], and setters for one quantity or surface change no other; the history is defined exactly when all surfaces named exist; a physical structure stays physical as long as no zero normal is set. ExampleChangeStructure leaves the structure alone for 1001 ticks and then gives it its second form for good, also across the wrap of the 32-bit counter; without surfaces the 1002nd tick is undefined.", "quantifier": "all settings files, structures, histories of setters of any length, numbers of ticks", "why_tests_cant": "unbounded histories of setters and ticks over real-valued quantities", "anchors": ["src/simulation/spacecraft/structure/kinematics_parameters.hpp", "src/simulation/spacecraft/structure/surface.hpp", "src/simulation/spacecraft/structure/residual_magnetic_moment.hpp", "src/simulation/spacecraft/structure/initialize_structure.cpp", "src/simulation/spacecraft/structure/structure.cpp", "src/components/examples/example_change_structure.cpp: MainRoutine"]}
{"id": "C184", "title": "Sensors and actuators made from a settings file", "statement": "For a file in which the data sheet of a component is written in the section of its kind and number, InitMagnetometer, InitGyroSensor, InitializeAngularVelocityObserver, InitMagnetorquer, the constructor of MtqMagnetometerInterference, InitStarSensor, InitSunSensor and InitGnssReceiver make a component with exactly these data: prescaler at least 1, mounting, matrices row by row, random walk stepped once per call of the component, angles from degrees, delays and intervals in whole steps, and a noise source of its own (own seed, written standard deviation) for every axis. A handed-over power port gets the two numbers of POWER_PORT and keeps everything else. What other sections say has no effect, different numbers have different sections, and a sensor for which no ranges are written measures 0 for ever.", "quantifier": "all settings files, component numbers, data sheets, step widths, seeds and histories of measurements", "why_tests_cant": "over all files and data; the mapping of keys to parameters is exercised by tests only for the sample files", "anchors": ["src/components/real/aocs/magnetometer.cpp: InitMagnetometer", "src/components/real/aocs/gyro_sensor.cpp: InitGyroSensor", "src/components/ideal/angular_velocity_observer.cpp: InitializeAngularVelocityObserver", "src/components/real/aocs/magnetorquer.cpp: InitMagnetorquer", "src/components/real/aocs/mtq_magnetometer_interference.cpp", "src/components/real/aocs/star_sensor.cpp: InitStarSensor", "src/components/real/aocs/sun_sensor.cpp: InitSunSensor", "src/components/real/aocs/gnss_receiver.cpp: InitGnssReceiver", "src/components/base/sensor_template_functions.hpp: ReadSensorInformation", "src/components/ports/power_port.cpp: InitializeWithInitializeFile"]}
{"id": "C185", "title": "Antennas, power components, thrusters, telescopes and ideal components made from a settings file", "statement": "From the written data to the behaviour: two isotropic antennas and the link calculator made from files give Friis' formula with the written power, gains, losses, frequency and temperature; a battery made from a file has after any currents the written depth of discharge changed by the charge that flowed in per cent of the written capacity, and the voltage of the written polynomial; a panel the written power; a thruster follows its duties with the written dead time and lag, counted in steps of the written step width; a telescope has the written data, and can be made exactly if both fields of view are below 90 degrees; generators and observers have the written standard deviations. An antenna reads its tables even if it is isotropic, and throws when one is not numbers or a length is negative. Other sections have no effect.", "quantifier": "all settings files, component numbers, data sheets, currents, duties and histories of updates", "why_tests_cant": "over all files, data and histories", "anchors": ["src/components/real/communication/antenna.cpp: InitAntenna", "src/components/real/communication/ground_station_calculator.cpp: InitGsCalculator", "src/components/real/power/battery.cpp: InitBAT", "src/components/real/power/solar_array_panel.cpp: InitSAP", "src/components/real/power/pcu_initial_study.cpp: InitPCU_InitialStudy", "src/components/real/propulsion/simple_thruster.cpp: InitSimpleThruster", "src/components/real/mission/telescope.cpp: InitTelescope", "src/components/ideal/torque_generator.cpp", "src/components/ideal/force_generator.cpp", "src/components/ideal/orbit_observer.cpp", "src/components/ideal/attitude_observer.cpp"]}
{"id": "C186", "title": "Reaction wheels made from a settings file", "statement": "For a file in which the data sheets of a wheel and of its jitter are written in the sections of its number, InitReactionWheel makes a wheel with exactly these data: its step is the given step times the prescaler, the jitter is stepped with the given step times the fast prescaler, fast updates are requested exactly if jitter is calculated. The wheel follows any torque commands with the written limit, inertia, dead time and lag. With any mounting word but QUATERNION the axis is the written direction, normalised (up to the threshold near the z axis). Making one more wheel replaces the jitter of all earlier wheels by that of the new file, even if the new file switches jitter off: they report force 0 until their next fast update, which computes with the new tables, interval and mounting. A direction that is too short, a negative friction order or harmonics degree and an unreadable table of force harmonics stop the program, whether or not jitter is calculated. Other sections have no effect.", "quantifier": "all settings files, wheel numbers, data sheets, fleets of earlier wheels, command sequences and numbers of updates", "why_tests_cant": "over all files, data and histories of creations and updates", "anchors": ["src/components/real/aocs/reaction_wheel.cpp: InitParams, InitReactionWheel"]}
{"id": "C187", "title": "Simulation clock made from a settings file", "statement": "InitSimulationTime on a file in which the section TIME is written makes a clock with exactly the written duration, step, update periods, integration steps and speed, starting at the Julian date of the written start year/month/day hour:minute:seconds (leading zeros, more blanks and a fraction of the seconds allowed), with the components at the whole number of Hz in their period, if no integration step is longer than its update period and no period is shorter than the step; otherwise it stops at an assertion. Without pacing, the calendar after n updates shows the time n steps after the written one (limits of C151), and a complete run writes floor(floor(duration/step)/ceil(log period/step)) + 1 rows. A start without a slash or without a colon (a date alone, another separator, no entry) leaves members without a value that are then used; a missing or zero component period converts an infinite number to int: both undefined. Other sections have no effect.", "quantifier": "all settings files, dates, times, periods, numbers of updates, worlds", "why_tests_cant": "over all texts of start times and all combinations of periods, and unbounded numbers of updates", "anchors": ["src/environment/global/simulation_time.cpp: InitSimulationTime, SimulationTime, AssertTimeStepParams"]}
{"id": "C188", "title": "Disturbances made from settings files", "statement": "For a disturbance file in which the switches, third bodies, temperatures, degrees and coefficient files are written, the constructor of Disturbances makes exactly the disturbances of the centre body, each switched and logged as written, and after any sequence of steps the total force, torque and acceleration are the sums of what every switched-on disturbance gives in the surroundings of the last step in which it was recalculated (orbit steps; gravity gradient, light pressure, drag and magnetic torque also in attitude steps), 0 if there was none. Around the Earth with a complete coefficient file the acceleration of the geopotential is the gradient of the spherical-harmonic potential of the written degree and coefficients. Air drag takes 0 degC as 273 K. A switched-on third body that is the centre or not selected is refused at start-up. Around the Moon a degree below 2 or an unreadable file is undefined at start-up even if the lunar field is switched off, and if it is switched on the first orbit step is undefined.", "quantifier": "all settings files, centre bodies, third bodies, degrees, coefficient files, surroundings and sequences of steps", "why_tests_cant": "over all files and unbounded histories of orbit and attitude steps", "anchors": ["src/disturbances/disturbances.cpp: Disturbances, InitializeInstances, Update", "src/disturbances/third_body_gravity.cpp: InitThirdBodyGravity", "src/disturbances/air_drag.cpp: InitAirDrag", "src/disturbances/geopotential.cpp: InitGeopotential", "src/disturbances/lunar_gravity_field.cpp: InitLunarGravityField", "src/disturbances/gravity_gradient.cpp: InitGravityGradient", "src/disturbances/solar_radiation_pressure_disturbance.cpp: InitSolarRadiationPressureDisturbance", "src/disturbances/magnetic_disturbance.cpp: InitMagneticDisturbance"]}
{"id": "C189", "title": "Thermal network made from files", "statement": "InitTemperature on a settings file and five tables in which a network is written makes a network with exactly these data. Rows are matched by their place (the numbers in the first columns have no effect); a type other than 1 (boundary) and 2 (arithmetic) is diffusive, only the direction of a node of type 0 is normalised; negative temperatures, capacities, areas and powers count as 0, fractions outside 0..1 as 0, an upper heater threshold below the lower one as 10 degC above it. If capacities of diffusive nodes are positive, heater numbers are places of heaters and times increase, the first Propagate reaches any time; boundary and arithmetic nodes keep the written temperature and a heater of one node is then on exactly below its written lower threshold; for an isolated, symmetric, all-diffusive network the heat content has grown by the written constant powers times the time, whatever the step. Wrong numbers of rows, loads or times, and a first matrix row of wrong length, stop at an assertion; a later short row of a diffusive node is not noticed and undefined at the first Propagate (in debug mode at once), and a missing heatload, node or heater table is undefined. Switched off, no table is read and Propagate never does anything. Other sections and files have no effect.", "quantifier": "all settings files, tables, numbers of nodes, heaters and times, step widths, surroundings, end times", "why_tests_cant": "over all files and sizes of networks, and unbounded numbers of integration steps", "anchors": ["src/dynamics/thermal/temperature.cpp: InitTemperature, Propagate", "src/dynamics/thermal/node.cpp: InitNode", "src/dynamics/thermal/heater.cpp: InitHeater", "src/dynamics/thermal/heater_controller.cpp: InitHeaterController", "src/dynamics/thermal/heatload.cpp: InitHeatload"]}
{"id": "C190", "title": "GNSS satellites from settings and SP3 products", "statement": "InitGnssSatellites reads, with calculation enabled, one SP3 product per calendar day from start_date to end_date under the name directory + header + day + period, and the object starts in the product whose 24 hours contain the simulation start: the nine epochs from four before the one nearest to the start (not before the first epoch of that product) are the supporting points, and at each of them GetPosition_ecef_m and GetClock_s return for every satellite exactly the position (km times 1000) and clock error (microseconds times 1e-6) written in the files, across day boundaries. If fewer than nine epochs follow, memory beyond the products is read. With calculation disabled no file is opened and logging is off. end_date before start_date takes the first element of an empty list; a product that cannot be opened although the search for the current day reaches it leaves the time it compares indeterminate; a clock footer of fewer than four characters throws; end_date = -1 never ends.", "quantifier": "all settings, all well-formed product files (any number of days, epochs and satellites, any text after the epochs), all start times from 1980 to 2099", "why_tests_cant": "The composition of settings, calendar, file names, the SP3 parser, date conversion and the interpolation window ranges over all products and start times; a test reads one set of files.", "anchors": ["src/environment/global/gnss_satellites.cpp: InitGnssSatellites, GnssSatellites::Initialize, GetCurrentSp3File, GetPosition_ecef_m, GetClock_s", "src/math_physics/gnss/sp3_file_reader.cpp", "src/math_physics/gnss/igs_product_name_handling.hpp"]}
{"id": "C191", "title": "UART ports for HILS tests", "statement": "HilsPortManager, built for HILS: after any history of connecting, closing, sending and receiving calls and arriving bytes, a port is either idle or has one session since its last successful connection. An idle port refuses everything with -1 and accepts a connection exactly if baud rate and sizes are not zero (a size of 2^31 or more raises an exception); a port with a session refuses a connection and can be closed. In a session of a working line the received bytes are the arrived bytes in order, none lost or doubled; a reception returns -2 for more bytes than the buffer size, -1 if nothing waits, otherwise the number of bytes taken, and it fills the rest of the caller's buffer with bytes of earlier receptions. The device gets the data of exactly the sends that returned 0, in order; data longer than the send buffer raises an exception. A line that cannot be opened is reported as connected, and then every send returns -1 and every reception -2. A component constructed on a port in use still takes bytes from it and sends on it, but leaves it open when destroyed; an I2C controller in that situation closes the other's port. With nothing waiting a component's command parser is called with size -1 on the old buffer. The example controller sends the two requests 53 44 01 00 50 and 53 45 05 50 in each run and prints the first five bytes that wait.", "quantifier": "all histories of calls on all ports, all data, sizes and baud rates, all answers of the serial lines", "why_tests_cant": "The port table and the streams must be right after every history of calls and for every behaviour of the lines, which a test cannot enumerate (and the code only builds with .NET).", "anchors": ["src/simulation/hils/hils_port_manager.cpp: UartConnectComPort, UartCloseComPort, UartReceive, UartSend, I2cControllerConnectComPort", "src/components/ports/hils_uart_port.cpp", "src/components/base/uart_communication_with_obc.cpp: HILS mode", "src/components/base/i2c_controller.cpp", "src/components/examples/example_i2c_controller_for_hils.cpp"]}
{"id": "C192", "title": "Global environment from the base settings file", "statement": "GlobalEnvironment made from the base settings file furnishes the kernels tls, tpc1, tpc2, tpc3, bsp in this order, selects the listed bodies and, after any number of Update calls, shows n simulation steps; GetPositionFromCenter_i_m and GetVelocityFromCenter_i_m_s return for each selected body the SPICE state at start + n steps, in metres, in the frame, with the aberration correction and from the centre written in the file; the Earth has the orientation of the mode written beside it at that date (FULL, SIMPLE, otherwise none), and the Moon that of its mode: SIMPLE a rotation that keeps the Earth in a fixed direction of the Moon-fixed frame, IAU_MOON the rotation of SPICE, otherwise none. If the Earth (or the Moon) is not selected, the mode written beside the first selected body is used for it. A body unknown to SPICE or a negative number of bodies stops the program, and a name of 30 or more characters is read without terminator. The star catalogue has the stars of its file up to the limiting magnitude if its calculation is enabled, otherwise (or without the file) none.", "quantifier": "all settings, all numbers and orders of bodies, all ephemerides, all start times, any number of updates", "why_tests_cant": "The composition of kernels, names, modes, clock and ephemeris over every history of updates and every list of bodies cannot be enumerated by tests, which run one settings file.", "anchors": ["src/environment/global/global_environment.cpp: Initialize, Update", "src/environment/global/celestial_information.cpp: InitCelestialInformation, CelestialInformation, UpdateAllObjectsInformation", "src/environment/global/celestial_information.hpp: GetRotationMode, GetVelocityFromSelectedBody_i_m_s", "src/environment/global/moon_rotation.cpp", "src/environment/global/hipparcos_catalogue.cpp: InitHipparcosCatalogue"]}
{"id": "C193", "title": "Log directory and log files", "statement": "Every enabled logger made at the clock time T in the directory D has the directory D/logs_T and, in it, the CSV file T_<name>, whether or not settings files are saved; the CSV file holds exactly the text the logger was told to write while enabled, in order, whatever other loggers with other paths and settings-file copies do in between. With saving on, each settings file is found in the log directory under its last name, the first one of a name wins, nothing that existed is changed, and a missing one ends the program with an exception. A directory that cannot be made is an exception; a CSV file that cannot be opened is not, and nothing is written then. A logger switched off makes no directory and no file, stays silent even when enabled later, and settings files copied through it land in the working directory of the program. Two loggers of the same name made in the same second share a file: the second empties what the first wrote. Monte Carlo cases with different numbers never share a path.", "quantifier": "all disks, clock texts, directories, file names, settings files, interleavings of several loggers and sequences of log operations", "why_tests_cant": "tests create one logger on a clean disk; the claims are about every interleaving of loggers, copies and earlier contents of the disk", "anchors": ["src/logger/logger.cpp: Logger::Logger, CreateDirectory, CopyFileToLogDirectory, Write", "src/logger/initialize_log.cpp: InitLog, InitMonteCarloLog", "src/simulation/case/simulation_case.cpp: SimulationCase::SimulationCase"]}
{"id": "C194", "title": "Local environment from its settings file", "statement": "LocalEnvironment made from its settings file: the magnetic field has the written coefficient file and noise, the atmosphere the written model (NRLMSISE-00 falls back to the standard model if its parameters are not written by hand and its table cannot be read; hand-written fluxes below 50 become 150), radiation pressure, albedo and infrared their switches, factor and temperatures; shadows are cast by the centre body and by the first of the listed third bodies only. Around another centre than the Earth the magnetic field and the air density stay 0 after every history. Otherwise, after every history: the field is the model value at the date and position of the last attitude update plus a random walk with one step per earlier attitude update plus white noise, in the body frame the same vector turned by that attitude; the density is that of the model at the last orbit update; albedo and infrared are those of the last orbit update for the Sun and shadows as seen at the last attitude update up to then, so an orbit update without attitude update uses old directions. Albedo and infrared are always logged. A negative number of third shadow sources is an exception, a coefficient path of 256 or more characters overruns a buffer.", "quantifier": "all settings files, centre bodies, selections of bodies, noise sources and histories of updates with any attitude and orbit flags", "why_tests_cant": "the environment is a composition of five models over every interleaving of attitude and orbit updates; tests run one file and one schedule", "anchors": ["src/environment/local/local_environment.cpp: Initialize, Update", "src/environment/local/geomagnetic_field.cpp: InitGeomagneticField", "src/environment/local/atmosphere.cpp: InitAtmosphere", "src/environment/local/solar_radiation_pressure_environment.cpp: InitSolarRadiationPressureEnvironment", "src/environment/local/earth_albedo.cpp: InitEarthAlbedo", "src/environment/local/earth_infrared.cpp: InitEarthInfrared"]}
{"id": "C195", "title": "Reading the log by column name", "statement": "In the log of a simulation the first line holds, for every part whose log is on and that exists for the centre body (time, bodies, GPS satellites, attitude with or without cantilever, orbit, thermal nodes, local environment, disturbances), the names of its columns with frame and unit, all different as long as no body is called spacecraft and the thermal nodes have different numbers; and in line k of the values, under the first column with a name such as spacecraft_position_i_x[m], stands that quantity at output k, whatever is registered after the spacecraft. The date is year/month/day hour:minute:second with two digits each except the seconds, which are cut to milliseconds and not filled up. A second spacecraft in the same log has the same column names, so that by name one finds the first one.", "quantifier": "all settings (bodies, nodes, centre body, log switches, attitude kinds), all states at all outputs, numbers of outputs, ways of printing numbers, and other loggables", "why_tests_cant": "the match of about 220 names and values, and their being distinct, must hold for every configuration and every output; tests look at one log", "anchors": ["src/environment/global/simulation_time.cpp: GetLogHeader, GetLogValue", "src/dynamics/attitude/attitude.cpp: GetLogHeader, GetLogValue", "src/dynamics/orbit/orbit.cpp: GetLogHeader, GetLogValue", "src/dynamics/thermal/temperature.cpp: GetLogHeader, GetLogValue", "src/environment/local/local_environment.cpp: LogSetup", "src/disturbances/disturbances.cpp: LogSetup", "src/simulation/spacecraft/spacecraft.cpp: LogSetup", "src/simulation/case/simulation_case.cpp: Initialize, Main"]}
{"id": "C196", "title": "Ground stations from the simulation settings", "statement": "The simulation configuration has the numbers, all files of the two lists (key(0), key(1), ... up to the first that is missing, whatever the numbers say) and the other two files of the base settings file; a negative number of spacecraft is taken modulo 2^32. A ground station with number i is the one in the section GROUND_STATION_i of the first file of the ground station list, whatever other files are listed, and a spacecraft is reported visible exactly when at its last update its elevation above the horizon at the written latitude and longitude was above the written limit. Without a ground station file, making a station is undefined behaviour.", "quantifier": "all settings files, lists of any length, station numbers, positions, limits from -90 to 90 degrees, and histories of updates", "why_tests_cant": "The composition of the settings, the position on the ellipsoid and the history of updates ranges over all files and positions; a test reads one file.", "anchors": ["src/simulation/case/simulation_case.cpp: InitializeSimulationConfiguration", "src/simulation/ground_station/ground_station.cpp: GroundStation::Initialize, Update, CalcIsVisible", "src/setting_file_reader/initialize_file_access.cpp: ReadStrVector, ReadInt, ReadDouble"]}
{"id": "C197", "title": "Lines of the example's log: time, spacecraft and ground station belong together", "statement": "A complete run of the example case (one spacecraft, one ground station, from its settings) writes a line every k steps. In every line after the first, the visibility flag of spacecraft 0 is the visibility of the spacecraft position shown in the same line from the station in the settings, and the station's inertial position is its place on the Earth at the time shown in the same line (not at the previous step). In the first line nothing is visible and the station is at the origin. Further spacecraft counted in the settings are never shown as visible.", "quantifier": "all settings, all spacecraft (any update function), all time settings, wall clocks and Earth rotations, every line of the run", "why_tests_cant": "A one-step delay between columns of the same line is invisible on slow geometry and needs every line of every run.", "anchors": ["example/src/simulation/case/sample_case.cpp: UpdateTargetObjects", "example/src/simulation/ground_station/sample_ground_station.cpp: Update", "src/simulation/ground_station/ground_station.cpp: Update, GetLogValue", "src/simulation/case/simulation_case.cpp: Main"]}
{"id": "C198", "title": "In the example, the magnetorquer disturbs the magnetometer one step later", "statement": "In every history of steps of the example spacecraft (component flag on or off, magnetometer and magnetorquer on, off or not due, commands at any time), each magnetometer measurement equals the one without interference with one thing added to the bias: the interference polynomial of the moment the magnetorquer had at the end of the previous step (nothing in the first step). What the magnetorquer does or is told in a step has no effect on the reading of the same step, and the interference has no effect on the magnetorquer. A step in which it is not the components' turn leaves the reading and the moment as they were. The noise source of every axis is drawn from once per measurement.", "quantifier": "all histories of steps, all coefficients, noise sources, fields and commands", "why_tests_cant": "The delay comes from the order of component ticks and the interference update over whole histories; a test of the interference object alone cannot see it.", "anchors": ["example/src/simulation/spacecraft/sample_components.cpp: SampleComponents, ComponentInterference", "src/simulation/spacecraft/spacecraft.cpp: Update", "src/components/real/aocs/mtq_magnetometer_interference.cpp: UpdateInterference", "src/components/real/aocs/magnetometer.cpp: MainRoutine", "src/components/real/aocs/magnetorquer.cpp: MainRoutine, PowerOffRoutine"]}
{"id": "C199", "title": "Component logs can be read by column name", "statement": "The log of every component class (gyro, magnetometer, star and sun sensor, GNSS receiver, magnetorquer, thruster, solar panel, reaction wheel with or without jitter, force and torque generator, the three observers, battery, power study, link calculator) has, cell by cell, the documented names <class><number>_<quantity>_<frame>_<axis>[<unit>] with the matching reading under each. Names within a component are distinct, and two components share a name only if class and number agree (so gyro_sensor1_ and gyro_sensor11_ never clash). In the CSV file of a whole run with any set of different components registered after the spacecraft, some switched off, looking up a component's column by name gives in every line the reading at that output, and no component column is shadowed by a column of the environment, the dynamics or the disturbances (unless a celestial body is called orbit_observer).", "quantifier": "all components, numbers, readings, orders of registration, log switches, output counts and ways of printing numbers without commas", "why_tests_cant": "A header and a value function that drift apart still produce well-formed CSV; only a statement about every component and every set of components rules out a swapped, missing or shadowed column.", "anchors": ["src/components/real/aocs/gyro_sensor.cpp: GetLogHeader, GetLogValue", "src/components/real/aocs/gnss_receiver.cpp: GetLogHeader, GetLogValue", "src/components/real/aocs/reaction_wheel.cpp: GetLogHeader, GetLogValue", "src/components/real/propulsion/simple_thruster.cpp: GetLogHeader, GetLogValue", "src/components/ideal/force_generator.cpp: GetLogHeader, GetLogValue", "src/logger/log_utility.hpp: WriteScalar, WriteVector, WriteQuaternion", "src/logger/logger.cpp: WriteHeaders, WriteValues"]}
