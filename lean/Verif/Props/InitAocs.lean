import Verif.Spec.InitAocs
import Verif.Proofs.Settings
import Verif.Props.Sensor
import Verif.Proofs.SpaceWeather
/-!
# C184: sensors and actuators made from a settings file
-/
namespace S2E.InitAocs
open Settings Log LogProps InitOrbit SensorBase SpaceWeather

/-- Components of one kind with different numbers have different sections. -/
theorem C184_sections (id id' : ℤ) (name : String) (h : numbered name id = numbered name id') : id = id' := by
  unfold numbered at h
  rw [List.append_assoc, List.append_assoc] at h
  have h := List.append_cancel_left h
  have hd : ∀ n : ℕ, ∀ c ∈ dec n, c ≠ '-' := fun n c hc e => by
    subst e
    exact dec_no '-' (by decide) n hc
  by_cases a : id < 0 <;> by_cases b : id' < 0
  · rw [if_pos a, if_pos b] at h
    have := dec_inj (List.append_cancel_left h)
    omega
  · rw [if_pos a, if_neg b] at h
    exact absurd rfl (hd id'.natAbs '-' (by simp at h; rw [← h]; simp))
  · rw [if_neg a, if_pos b] at h
    exact absurd rfl (hd id.natAbs '-' (by simp at h; rw [h]; simp))
  · rw [if_neg a, if_neg b] at h
    have := dec_inj (List.append_cancel_left h)
    omega

/-- The sensor of a data sheet, stepped with the given step, with the generators given by seed number and standard deviation. -/
noncomputable def sensorOf {γ : Type} (s : SensorSheet) (step : ℝ) (gen : ℕ → ℝ → γ) : Sensor 3 γ where
  bias := s.bias
  scale := s.scale
  toConst := fun _ => s.toConst
  toZero := fun _ => s.toZero
  noise := ![gen 3 (s.noise 0), gen 4 (s.noise 1), gen 5 (s.noise 2)]
  walkStep := step
  walkLimit := s.walkLimit
  walkT := 0
  walkX := 0
  walkG := ![gen 0 (s.walk 0), gen 1 (s.walk 1), gen 2 (s.walk 2)]

theorem scaleFactor_read (v : Vec (3 * 3)) (m : Mat 3 3) (h : ∀ (i j : Fin 3) (hk : i.val * 3 + j.val < 3 * 3), v ⟨i.val * 3 + j.val, hk⟩ = m i j) (h0 : m ≠ 0) :
    readScaleFactor 3 v = m := by
  unfold readScaleFactor
  rw [if_neg]
  · funext i j
    exact h i j _
  · intro hz
    apply h0
    unfold calcNorm at hz
    have hz := Real.sqrt_eq_zero'.1 hz
    funext i j
    have hk : i.val * 3 + j.val < 3 * 3 := by omega
    have hle : v ⟨i.val * 3 + j.val, hk⟩ ^ 2 ≤ 0 :=
      le_trans (Finset.single_le_sum (f := fun k => v k ^ 2) (fun k _ => sq_nonneg _) (Finset.mem_univ _)) hz
    rw [h i j hk] at hle
    exact pow_eq_zero_iff (n := 2) (by norm_num) |>.1 (le_antisymm hle (sq_nonneg _))

theorem readSensor_sheet {γ : Type} (rd : Reader) (file : File) (step : ℝ) (name : Str) (unit : String) (gen : ℕ → ℝ → γ) (s : SensorSheet)
    (h : s.In rd file name unit) : readSensor rd file step name unit.toList gen = sensorOf s step gen := by
  obtain ⟨⟨h1, h0⟩, h2, h3, h4, h5, h6, h7, h8, h9⟩ := h
  have hs : readScaleFactor 3 (fun k => Ini.readDouble rd.getReal (file ("SENSOR_BASE_".toList ++ name)) (Ini.indexedKey "scale_factor_c".toList k)) = s.scale :=
    scaleFactor_read _ _ (fun i j _ => h1.read i j) h0
  have hr : rangeCheck s.toConst s.toZero = (s.toConst, s.toZero) := by
    unfold rangeCheck
    rw [if_neg (by push Not; exact ⟨h8, le_trans h8 h9⟩)]
    dsimp only
    rw [if_neg (not_lt.2 h9)]
  rw [String.toList_append] at h2 h3 h4 h5 h6 h7
  unfold readSensor Sensor.new sensorOf
  dsimp only
  rw [hs, h2.read, h3.read, h4.read, h5.read, h6.read, h7.read, hr]
  congr 1
  · funext i; fin_cases i <;> rfl
  · funext i; fin_cases i <;> rfl

/-- A magnetometer with number `id` is the one whose data are in the sections `MAGNETOMETER_id` and `SENSOR_BASE_MAGNETOMETER_id`; the random walk makes one step
per measurement. -/
theorem C184_magnetometer {γ : Type} (rd : Reader) (file : File) (id : ℤ) (step : ℝ) (gen : ℕ → ℝ → γ) (port : Option (PowerPort ℝ)) (p : ℤ) (q : Quat)
    (s : SensorSheet) (hp : Integer rd file (numbered "MAGNETOMETER_" id) "prescaler".toList p)
    (hq : Quaternion rd file (numbered "MAGNETOMETER_" id) "quaternion_b2c".toList q) (hs : s.In rd file (numbered "MAGNETOMETER_" id) "nT") :
    let m := initMagnetometer rd file id step gen port
    m.prescaler = atLeastOne p ∧ m.body = (q, sensorOf s (step * atLeastOne p) gen) := by
  unfold initMagnetometer
  dsimp only
  rw [numbered_eq, prescaler_read hp, hq.read]
  exact ⟨rfl, by rw [← readSensor_sheet rd file (step * atLeastOne p) _ "nT" gen s hs]⟩

/-- The same for gyro sensors, in the unit rad/s. -/
theorem C184_gyro {γ : Type} (rd : Reader) (file : File) (id : ℤ) (step : ℝ) (gen : ℕ → ℝ → γ) (port : Option (PowerPort ℝ)) (p : ℤ) (q : Quat)
    (s : SensorSheet) (hp : Integer rd file (numbered "GYRO_SENSOR_" id) "prescaler".toList p)
    (hq : Quaternion rd file (numbered "GYRO_SENSOR_" id) "quaternion_b2c".toList q) (hs : s.In rd file (numbered "GYRO_SENSOR_" id) "rad_s") :
    let m := initGyro rd file id step gen port
    m.prescaler = atLeastOne p ∧ m.body = (q, sensorOf s (step * atLeastOne p) gen) := by
  unfold initGyro
  dsimp only
  rw [numbered_eq, prescaler_read hp, hq.read]
  exact ⟨rfl, by rw [← readSensor_sheet rd file (step * atLeastOne p) _ "rad_s" gen s hs]⟩

/-- The same for the observer of the angular velocity, which has no number and no mounting. -/
theorem C184_rate_observer {γ : Type} (rd : Reader) (file : File) (step : ℝ) (gen : ℕ → ℝ → γ) (p : ℤ) (s : SensorSheet)
    (hp : Integer rd file "COMPONENT_BASE".toList "prescaler".toList p) (hs : s.In rd file "ANGULAR_VELOCITY_OBSERVER".toList "rad_s") :
    let m := initRateObserver rd file step gen
    m.prescaler = atLeastOne p ∧ m.body = sensorOf s (step * atLeastOne p) gen := by
  unfold initRateObserver
  dsimp only
  rw [prescaler_read hp]
  exact ⟨rfl, readSensor_sheet rd file (step * atLeastOne p) _ "rad_s" gen s hs⟩

/-- A sensor for which no ranges are written measures 0 for ever. -/
theorem C184_no_range {γ : Type} (rd : Reader) (file : File) (step : ℝ) (name : Str) (unit : String) (gen : ℕ → ℝ → γ) (draw : γ → ℝ × γ)
    (h1 : file ("SENSOR_BASE_".toList ++ name) ("range_to_constant_" ++ unit).toList = none)
    (h2 : file ("SENSOR_BASE_".toList ++ name) ("range_to_zero_" ++ unit).toList = none)
    (s : Sensor 3 γ) (hu : Used draw (readSensor rd file step name unit.toList gen) s) (x : Vec 3) : (s.measure draw x).1 = 0 := by
  rw [String.toList_append] at h1 h2
  have e1 : Ini.readDouble rd.getReal (file ("SENSOR_BASE_".toList ++ name)) ("range_to_constant_".toList ++ unit.toList) = 0 := by unfold Ini.readDouble; rw [h1]
  have e2 : Ini.readDouble rd.getReal (file ("SENSOR_BASE_".toList ++ name)) ("range_to_zero_".toList ++ unit.toList) = 0 := by unfold Ini.readDouble; rw [h2]
  have hr : rangeCheck 0 0 = (0, 0) := by simp [rangeCheck]
  obtain ⟨a, b, -⟩ := used_ranges draw _ s hu
  have ha : s.toConst = fun _ => 0 := by
    rw [a]; funext i
    show (rangeCheck (Ini.readDouble _ _ _) (Ini.readDouble _ _ _)).1 = 0
    rw [e1, e2, hr]
  have hb : s.toZero = fun _ => 0 := by
    rw [b]; funext i
    show (rangeCheck (Ini.readDouble _ _ _) (Ini.readDouble _ _ _)).2 = 0
    rw [e1, e2, hr]
  funext i
  unfold Sensor.measure
  dsimp only
  rw [ha, hb]
  unfold clip
  rw [if_neg (by rintro ⟨h, k⟩; linarith), if_neg (by rintro ⟨h, k⟩; linarith), if_pos (abs_nonneg _)]
  rfl

/-- A power port that is handed over gets the two numbers of the section `POWER_PORT`, whatever the component and its number; its limit, voltage, current and
switch stay. Without one the component has a port of its own that is on. -/
theorem C184_port {γ δ : Type} (rd : Reader) (file : File) (id : ℤ) (n : ℕ) (step : ℝ) (gen : ℕ → ℝ → γ) (g0 : δ) (draw : γ → ℝ × γ) (b : Bool) (v w : ℝ)
    (hv : Number rd file "POWER_PORT".toList "minimum_voltage_V".toList v) (hw : Number rd file "POWER_PORT".toList "assumed_power_consumption_W".toList w)
    (port : Option (PowerPort ℝ)) :
    let result : PowerPort ℝ := match port with
      | none => ⟨10, 33 / 10, 0, 0, 0, true⟩
      | some p => ⟨p.limit, v, w, p.volt, p.cur, p.on⟩
    (initMagnetometer rd file id step gen port).port = result ∧ (initGyro rd file id step gen port).port = result ∧
    (initMagnetorquer rd file id step gen g0 port).port = result ∧ (initSun rd file id gen draw port).port = result ∧ (initGnss rd file n b gen port).port = result ∧
    ∀ m, initStar rd file id step port = .ok m → m.port = result := by
  have hp : portOf rd file port = match port with
      | none => ⟨10, 33 / 10, 0, 0, 0, true⟩
      | some p => ⟨p.limit, v, w, p.volt, p.cur, p.on⟩ := by
    cases port with
    | none => rfl
    | some p =>
      unfold portOf initializePort
      dsimp only
      rw [hv.read, hw.read]
      rfl
  refine ⟨hp, hp, hp, hp, hp, ?_⟩
  intro m hm
  unfold initStar at hm
  dsimp only at hm
  rw [← hp]
  generalize Star.steps _ _ = a at hm
  rcases a with a | _ | _ | _ <;> simp only [Res.bind, reduceCtorEq] at hm
  generalize Star.steps _ _ = c at hm
  rcases c with c | _ | _ | _ <;> simp only [reduceCtorEq] at hm
  generalize Star.Sensor.new _ _ _ _ = s at hm
  rcases s with s | _ | _ | _ <;> simp only [reduceCtorEq, Res.ok.injEq] at hm
  rw [← hm]

/-- A magnetorquer has the data of its section; it starts with no moment and no torque. -/
theorem C184_magnetorquer {γ δ : Type} (rd : Reader) (file : File) (id : ℤ) (step : ℝ) (gen : ℕ → ℝ → δ) (g0 : γ) (port : Option (PowerPort ℝ)) (p : ℤ)
    (s : MtqSheet) (hp : Integer rd file (numbered "MAGNETORQUER_" id) "prescaler".toList p) (hs : s.In rd file (numbered "MAGNETORQUER_" id)) :
    let m := initMagnetorquer rd file id step gen g0 port
    m.prescaler = atLeastOne p ∧
    m.body = ⟨⟨-s.b2c.x, -s.b2c.y, -s.b2c.z, s.b2c.w⟩, s.scale, s.max, s.min, s.bias, step * atLeastOne p, s.walkLimit, 0, 0,
      ![gen 0 (s.walk 0), gen 1 (s.walk 1), gen 2 (s.walk 2)], s.noise, fun _ => g0, 0, 0, 0⟩ := by
  obtain ⟨h1, h2, h3, h4, h5, h6, h7, h8⟩ := hs
  unfold initMagnetorquer Mtq.Mtq.new
  dsimp only
  rw [numbered_eq, prescaler_read hp, h2.read, h3.read, h4.read, h5.read, h6.read, h7.read, h8.read]
  refine ⟨rfl, ?_⟩
  have hm : (Matrix.of fun (i j : Fin 3) => Ini.readDouble rd.getReal (file (numbered "MAGNETORQUER_" id)) (Ini.indexedKey "scale_factor_c".toList (i.val * 3 + j.val))) =
      s.scale := by
    funext i j
    exact h1.read i j
  have hg : (fun i : Fin 3 => gen i.val (s.walk i)) = ![gen 0 (s.walk 0), gen 1 (s.walk 1), gen 2 (s.walk 2)] := by
    funext i; fin_cases i <;> rfl
  have hc : s.b2c.conjugate = ⟨-s.b2c.x, -s.b2c.y, -s.b2c.z, s.b2c.w⟩ := by simp [Quat.conjugate]
  rw [hm, hg, hc]
  rfl

/-- The interference of a magnetorquer on a magnetometer has one coefficient matrix for every degree from 1 to the polynomial degree, in this order. -/
theorem C184_interference (rd : Reader) (file : File) (id : ℕ) (l : List (Mat 3 3))
    (hn : Integer rd file (numbered "MTQ_MAGNETOMETER_INTERFERENCE_" id) "polynomial_degree".toList l.length)
    (hl : ∀ k (hk : k < l.length), Grid rd file (numbered "MTQ_MAGNETOMETER_INTERFERENCE_" id) (numbered "additional_bias_by_mtq_coefficients_" (k + 1 : ℕ)) l[k]) :
    initInterference rd file id = .ok ⟨l, 0⟩ := by
  have hsec : ∀ (name : String) (n : ℕ), name.toList ++ dec n = numbered name n := by
    intro name n
    unfold numbered
    rw [if_neg (by omega)]
    simp
  unfold initInterference
  dsimp only
  rw [hsec, hn.read, if_neg (by omega), Int.toNat_natCast]
  congr 2
  have key : ∀ (l : List (Mat 3 3)) (s : ℕ),
      (∀ k (hk : k < l.length), Grid rd file (numbered "MTQ_MAGNETOMETER_INTERFERENCE_" id) (numbered "additional_bias_by_mtq_coefficients_" (k + s : ℕ)) l[k]) →
      readCoefficients rd (file (numbered "MTQ_MAGNETOMETER_INTERFERENCE_" id)) (List.range' s l.length) = l := by
    intro l
    induction l with
    | nil => intro s _; rfl
    | cons m l ih =>
      intro s h
      rw [List.length_cons, List.range'_succ]
      unfold readCoefficients
      dsimp only
      rw [ih (s + 1) fun k hk => by
        have := h (k + 1) (by simp; omega)
        rw [List.getElem_cons_succ] at this
        rwa [show k + (s + 1) = k + 1 + s by omega]]
      congr 1
      funext i j
      rw [hsec]
      have := h 0 (by simp)
      rw [Nat.zero_add] at this
      exact this.read i j
  exact key l 1 hl

/-- The number of whole steps in a time, at least one. -/
noncomputable def wholeSteps (t step : ℝ) : ℕ := max 1 ⌊t / step⌋₊

theorem steps_whole {t step : ℝ} (hs : 0 < step) (ht : 0 ≤ t) (hb : t / step < 2 ^ 31) : Star.steps t step = .ok (wholeSteps t step) := by
  have h0 : 0 ≤ t / step := div_nonneg ht hs.le
  unfold Star.steps
  rw [if_neg hs.ne', toInt32_floor h0 hb]
  show Res.ok (max ⌊t / step⌋ 1) = _
  unfold wholeSteps
  rw [← Int.natCast_floor_eq_floor h0]
  congr 1
  rw [Nat.cast_max, max_comm]
  rfl

/-- Degrees to radians. -/
noncomputable def rad (deg : ℝ) : ℝ := deg * (Real.pi / 180)

/-- A star sensor has the data of its section: angles are converted from degrees, delay and interval from seconds to whole steps of the prescaled clock (at least
one), and its buffer has as many places as twice the delay divided by the step. -/
theorem C184_star (rd : Reader) (file : File) (id : ℤ) (step : ℝ) (port : Option (PowerPort ℝ)) (p : ℤ) (s : StarSheet)
    (hp : Integer rd file (numbered "STAR_SENSOR_" id) "prescaler".toList p) (hs : s.In rd file (numbered "STAR_SENSOR_" id)) (hstep : 0 < step)
    (hd : 0 ≤ s.delay) (hi : 0 ≤ s.interval) :
    let T := step * atLeastOne p
    s.delay / T < 2 ^ 30 → s.interval / T < 2 ^ 31 → 2 * wholeSteps s.delay T / T < 2 ^ 31 →
    ∃ m, initStar rd file id step port = .ok m ∧ m.prescaler = atLeastOne p ∧ m.body.sigmaSight = s.sigmaSight ∧ m.body.sigmaOrthogonal = s.sigmaOrthogonal ∧
      m.body.sensor = ⟨⟨s.b2c, rad s.sun, rad s.earth, rad s.moon, rad s.rate⟩, ⟨0, 0, 0, 1⟩, wholeSteps (2 * wholeSteps s.delay T) T,
        List.replicate (wholeSteps (2 * wholeSteps s.delay T) T) ⟨0, 0, 0, 1⟩, 0, wholeSteps s.delay T, wholeSteps s.interval T, 0, true⟩ := by
  intro T b1 b2 b3
  obtain ⟨h1, h2, h3, h4, h5, h6, h7, h8, h9⟩ := hs
  have hT : 0 < T := by
    have : 0 < atLeastOne p := by unfold atLeastOne; omega
    positivity
  have e1 := steps_whole hT hd (lt_trans b1 (by norm_num))
  have e2 := steps_whole hT hi b2
  have hw : wholeSteps s.delay T < 2 ^ 31 := by
    unfold wholeSteps
    have : ⌊s.delay / T⌋₊ < 2 ^ 30 := (Nat.floor_lt (div_nonneg hd hT.le)).2 (by exact_mod_cast b1)
    omega
  have hw2 : wholeSteps s.delay T * 2 % 2 ^ 32 = 2 * wholeSteps s.delay T := by omega
  have e3 : ∀ c : Star.Config, Star.Sensor.new c T (wholeSteps s.delay T) (wholeSteps s.interval T) =
      .ok ⟨c, ⟨0, 0, 0, 1⟩, wholeSteps (2 * wholeSteps s.delay T) T,
        List.replicate (wholeSteps (2 * wholeSteps s.delay T) T) ⟨0, 0, 0, 1⟩, 0, wholeSteps s.delay T, wholeSteps s.interval T, 0, true⟩ := by
    intro c
    have h0 : (0 : ℝ) ≤ ((2 * wholeSteps s.delay T : ℕ) : ℝ) / T := by positivity
    have hb : ((2 * wholeSteps s.delay T : ℕ) : ℝ) / T < 2 ^ 31 := by push_cast; exact b3
    unfold Star.Sensor.new
    rw [if_neg hT.ne', hw2, toInt32_floor h0 hb]
    have hm : (if ⌊((2 * wholeSteps s.delay T : ℕ) : ℝ) / T⌋ ≤ 0 then 1 else ⌊((2 * wholeSteps s.delay T : ℕ) : ℝ) / T⌋.toNat) =
        wholeSteps (2 * wholeSteps s.delay T) T := by
      have : wholeSteps (2 * wholeSteps s.delay T) T = max 1 ⌊((2 * wholeSteps s.delay T : ℕ) : ℝ) / T⌋₊ := by
        show max 1 ⌊2 * (wholeSteps s.delay T : ℝ) / T⌋₊ = _
        push_cast
        rfl
      rw [this, ← Int.natCast_floor_eq_floor h0]
      split <;> omega
    simp only [Res.bind]
    rw [hm]
    rfl
  have hdeg : ∀ x : ℝ, x * Real.pi / 180 = rad x := fun x => by unfold rad; ring
  unfold initStar
  dsimp only
  rw [numbered_eq, prescaler_read hp, h1.read, h2.read, h3.read, h4.read, h5.read, h6.read, h7.read, h8.read, h9.read]
  change ∃ m, ((Star.steps s.delay T).bind fun delay => (Star.steps s.interval T).bind fun interval => _) = _ ∧ _
  rw [e1, e2]
  simp only [Res.bind, Int.toNat_natCast]
  rw [e3]
  exact ⟨_, rfl, rfl, rfl, rfl, by simp only [hdeg]⟩

/-- A sun sensor has the data of its section, angles converted from degrees. Its two constant biases are two numbers drawn one after the other from one source
with the standard deviation written in the file. -/
theorem C184_sun {γ : Type} (rd : Reader) (file : File) (id : ℤ) (gen : ℕ → ℝ → γ) (draw : γ → ℝ × γ) (port : Option (PowerPort ℝ)) (p : ℤ) (s : SunSheet)
    (hp : Integer rd file (numbered "SUN_SENSOR_" id) "prescaler".toList p) (hs : s.In rd file (numbered "SUN_SENSOR_" id)) :
    let m := initSun rd file id gen draw port
    let first := draw (gen 0 (rad s.bias))
    m.prescaler = atLeastOne p ∧ m.body.sigma = rad s.noise ∧
    m.body.sensor = ⟨s.b2c, s.threshold, rad s.fieldOfView, first.1, (draw first.2).1, 0, 0, 0, 0, 0, false⟩ := by
  obtain ⟨h1, h2, h3, h4, h5⟩ := hs
  unfold initSun Sun.Sensor.new
  dsimp only
  rw [numbered_eq, prescaler_read hp, h1.read, h2.read, h3.read, h4.read, h5.read, zero_add, zero_add, mul_comm (Real.pi / 180)]
  exact ⟨rfl, rfl, rfl⟩

/-- A GNSS receiver has the data of its section. The antenna is a cone only if the file says so and GNSS satellites are simulated; any other word means the
simple antenna. -/
theorem C184_gnss {γ : Type} (rd : Reader) (file : File) (id : ℕ) (satellites : Bool) (gen : ℕ → ℝ → γ) (port : Option (PowerPort ℝ)) (p : ℤ) (s : GnssSheet)
    (hp : Integer rd file (numbered "GNSS_RECEIVER_" id) "prescaler".toList p) (hs : s.In rd file (numbered "GNSS_RECEIVER_" id)) :
    let m := initGnss rd file id satellites gen port
    m.prescaler = atLeastOne p ∧ m.body.config.position = s.position ∧ m.body.config.b2c = s.b2c ∧ m.body.config.halfWidth = s.halfWidth ∧
    (m.body.config.antenna = .cone ↔ s.model = "CONE" ∧ satellites = true) ∧
    m.body.positionNoise = ![gen 0 (s.noisePosition 0), gen 2 (s.noisePosition 1), gen 4 (s.noisePosition 2)] ∧
    m.body.velocityNoise = ![gen 1 (s.noiseVelocity 0), gen 3 (s.noiseVelocity 1), gen 5 (s.noiseVelocity 2)] ∧
    m.body.state.visible = false ∧ m.body.state.number = 0 ∧ m.body.state.list = [] := by
  obtain ⟨h1, h2, h3, h4, h5, h6⟩ := hs
  have hsec : "GNSS_RECEIVER_".toList ++ dec id = numbered "GNSS_RECEIVER_" id := by
    unfold numbered
    rw [if_neg (by omega)]
    simp
  unfold initGnss
  dsimp only
  rw [hsec, prescaler_read hp, h1.read, h2.read, h3.read, h4.read, h5.read, h6.read]
  refine ⟨rfl, rfl, rfl, rfl, ?_, ?_, ?_, rfl, rfl, rfl⟩
  · rw [String.ofList_toList]
    unfold GnssRx.antennaModel
    dsimp only
    by_cases hc : s.model = "CONE"
    · rw [hc]
      cases satellites <;> simp (decide := true)
    · by_cases hs : s.model = "SIMPLE" <;> cases satellites <;> simp [hc, hs]
  · funext i; fin_cases i <;> rfl
  · funext i; fin_cases i <;> rfl

/-- What is written in other sections does not matter. -/
theorem C184_independent {γ δ : Type} (rd : Reader) (f g : File) (id : ℤ) (n : ℕ) (step : ℝ) (gen : ℕ → ℝ → γ) (g0 : δ) (draw : γ → ℝ × γ) (b : Bool)
    (port : Option (PowerPort ℝ)) (hport : f "POWER_PORT".toList = g "POWER_PORT".toList) :
    (f (numbered "MAGNETOMETER_" id) = g (numbered "MAGNETOMETER_" id) → f (numbered "SENSOR_BASE_MAGNETOMETER_" id) = g (numbered "SENSOR_BASE_MAGNETOMETER_" id) →
      initMagnetometer rd f id step gen port = initMagnetometer rd g id step gen port) ∧
    (f (numbered "GYRO_SENSOR_" id) = g (numbered "GYRO_SENSOR_" id) → f (numbered "SENSOR_BASE_GYRO_SENSOR_" id) = g (numbered "SENSOR_BASE_GYRO_SENSOR_" id) →
      initGyro rd f id step gen port = initGyro rd g id step gen port) ∧
    (f (numbered "MAGNETORQUER_" id) = g (numbered "MAGNETORQUER_" id) → initMagnetorquer rd f id step gen g0 port = initMagnetorquer rd g id step gen g0 port) ∧
    (f (numbered "STAR_SENSOR_" id) = g (numbered "STAR_SENSOR_" id) → initStar rd f id step port = initStar rd g id step port) ∧
    (f (numbered "SUN_SENSOR_" id) = g (numbered "SUN_SENSOR_" id) → initSun rd f id gen draw port = initSun rd g id gen draw port) ∧
    (f (numbered "GNSS_RECEIVER_" n) = g (numbered "GNSS_RECEIVER_" n) → initGnss rd f n b gen port = initGnss rd g n b gen port) := by
  have hp : portOf rd f port = portOf rd g port := by
    cases port with
    | none => rfl
    | some p => unfold portOf initializePort; rw [hport]
  have hsec : ∀ name : String, name.toList ++ dec n = numbered name n := by
    intro name
    unfold numbered
    rw [if_neg (by omega)]
    simp
  have hbase : ∀ name : String, "SENSOR_BASE_".toList ++ numbered name id = numbered ("SENSOR_BASE_" ++ name) id := by
    intro name
    unfold numbered
    simp
  have hread : ∀ (name : String) (unit : Str) (T : ℝ), f (numbered ("SENSOR_BASE_" ++ name) id) = g (numbered ("SENSOR_BASE_" ++ name) id) →
      readSensor rd f T (numbered name id) unit gen = readSensor rd g T (numbered name id) unit gen := by
    intro name unit T h
    unfold readSensor
    rw [hbase, h]
  refine ⟨fun h k => ?_, fun h k => ?_, fun h => ?_, fun h => ?_, fun h => ?_, fun h => ?_⟩
  · unfold initMagnetometer
    dsimp only
    rw [numbered_eq, h, hp, hread "MAGNETOMETER_" _ _ k]
  · unfold initGyro
    dsimp only
    rw [numbered_eq, h, hp, hread "GYRO_SENSOR_" _ _ k]
  · unfold initMagnetorquer
    rw [numbered_eq, h, hp]
  · unfold initStar
    rw [numbered_eq, h, hp]
  · unfold initSun
    rw [numbered_eq, h, hp]
  · unfold initGnss
    rw [hsec, h, hp]

/-! ## A concrete file -/

/-- A file in which the text of every entry is its key. -/
def exFile : File := fun _ key => some key

/-- It is read by looking the keys up: prescaler 5, ranges 80 and 100, antenna `CONE`, delay 2 seconds, everything else 1. -/
noncomputable def exReader : Reader :=
  ⟨⟨[], [], []⟩, fun t => if t = "range_to_constant_nT".toList then 80 else if t = "range_to_zero_nT".toList then 100 else if t = "output_delay_s".toList then 2 else 1,
    fun _ => 5, fun _ => []⟩

theorem exOne {sec key : Str} (h : (key ≠ "range_to_constant_nT".toList ∧ key ≠ "range_to_zero_nT".toList) ∧ key ≠ "output_delay_s".toList) :
    Number exReader exFile sec key 1 := by
  refine ⟨key, rfl, ?_⟩
  simp only [exReader]
  rw [if_neg h.1.1, if_neg h.1.2, if_neg h.2]

theorem exTriple {sec key : Str} (h : ∀ i : Fin 3, (key ++ "(".toList ++ dec i ++ ")".toList ≠ "range_to_constant_nT".toList ∧
    key ++ "(".toList ++ dec i ++ ")".toList ≠ "range_to_zero_nT".toList) ∧ key ++ "(".toList ++ dec i ++ ")".toList ≠ "output_delay_s".toList) :
    Triple exReader exFile sec key fun _ => 1 := fun i => exOne (h i)

theorem exQuaternion (sec : Str) : Quaternion exReader exFile sec "quaternion_b2c".toList ⟨1, 1, 1, 1⟩ :=
  ⟨fun h => absurd (congrArg Quat.x h) one_ne_zero, exOne (by decide +kernel), exOne (by decide +kernel), exOne (by decide +kernel), exOne (by decide +kernel)⟩

example : (initMagnetometer exReader exFile 1 (1 / 10) (fun k sd => ((k, sd) : ℕ × ℝ)) none).body =
    (⟨1, 1, 1, 1⟩, sensorOf ⟨fun _ _ => 1, fun _ => 1, fun _ => 1, fun _ => 1, fun _ => 1, 80, 100⟩ (1 / 10 * 5) fun k sd => (k, sd)) :=
  (C184_magnetometer exReader exFile 1 (1 / 10) _ none 5 ⟨1, 1, 1, 1⟩ ⟨fun _ _ => 1, fun _ => 1, fun _ => 1, fun _ => 1, fun _ => 1, 80, 100⟩ ⟨_, rfl, rfl⟩
    (exQuaternion _) ⟨⟨fun i j => exOne (by revert i j; decide +kernel), fun h => absurd (congrFun (congrFun h 0) 0) one_ne_zero⟩,
      exTriple (by decide +kernel), exTriple (by decide +kernel), exTriple (by decide +kernel), exTriple (by decide +kernel),
      ⟨_, rfl, by simp only [exReader]; rw [if_pos (by decide +kernel)]⟩, ⟨_, rfl, by simp only [exReader]; rw [if_neg (by decide +kernel), if_pos (by decide +kernel)]⟩,
      by norm_num, by norm_num⟩).2

example : ∃ m, initStar exReader exFile (-1) (1 / 10) (some (.new2 1 false)) = .ok m ∧ m.prescaler = 5 ∧ m.body.sensor.delay = wholeSteps 2 (1 / 10 * 5) := by
  have hT : (1 / 10 * (atLeastOne 5 : ℕ) : ℝ) = 1 / 2 := by rw [show atLeastOne 5 = 5 from rfl]; norm_num
  have hw : wholeSteps 2 (1 / 2) = 4 := by
    unfold wholeSteps
    rw [show (2 : ℝ) / (1 / 2) = (4 : ℕ) by norm_num, Nat.floor_natCast]
    rfl
  obtain ⟨m, h1, h2, -, -, h3⟩ := C184_star exReader exFile (-1) (1 / 10) (some (.new2 1 false)) 5 ⟨⟨1, 1, 1, 1⟩, 1, 1, 2, 1, 1, 1, 1, 1⟩ ⟨_, rfl, rfl⟩
    ⟨exQuaternion _, exOne (by decide +kernel), exOne (by decide +kernel),
      ⟨_, rfl, by simp only [exReader]; rw [if_neg (by decide +kernel), if_neg (by decide +kernel), if_pos (by decide +kernel)]⟩,
      exOne (by decide +kernel), exOne (by decide +kernel), exOne (by decide +kernel), exOne (by decide +kernel), exOne (by decide +kernel)⟩
    (by norm_num) (by norm_num) (by norm_num) (by rw [hT]; norm_num) (by rw [hT]; norm_num) (by rw [hT, hw]; norm_num)
  exact ⟨m, h1, h2, by rw [h3]; rfl⟩

example : (initGyro exReader exFile 0 (1 / 10) (fun k sd => ((k, sd) : ℕ × ℝ)) none).body =
    (⟨1, 1, 1, 1⟩, sensorOf ⟨fun _ _ => 1, fun _ => 1, fun _ => 1, fun _ => 1, fun _ => 1, 1, 1⟩ (1 / 10 * 5) fun k sd => (k, sd)) :=
  (C184_gyro exReader exFile 0 (1 / 10) _ none 5 ⟨1, 1, 1, 1⟩ ⟨fun _ _ => 1, fun _ => 1, fun _ => 1, fun _ => 1, fun _ => 1, 1, 1⟩ ⟨_, rfl, rfl⟩
    (exQuaternion _) ⟨⟨fun i j => exOne (by revert i j; decide +kernel), fun h => absurd (congrFun (congrFun h 0) 0) one_ne_zero⟩,
      exTriple (by decide +kernel), exTriple (by decide +kernel), exTriple (by decide +kernel), exTriple (by decide +kernel),
      exOne (by decide +kernel), exOne (by decide +kernel), by norm_num, by norm_num⟩).2

example : (initRateObserver exReader exFile (1 / 10) (fun k sd => ((k, sd) : ℕ × ℝ))).body =
    sensorOf ⟨fun _ _ => 1, fun _ => 1, fun _ => 1, fun _ => 1, fun _ => 1, 1, 1⟩ (1 / 10 * 5) fun k sd => (k, sd) :=
  (C184_rate_observer exReader exFile (1 / 10) _ 5 ⟨fun _ _ => 1, fun _ => 1, fun _ => 1, fun _ => 1, fun _ => 1, 1, 1⟩ ⟨_, rfl, rfl⟩
    ⟨⟨fun i j => exOne (by revert i j; decide +kernel), fun h => absurd (congrFun (congrFun h 0) 0) one_ne_zero⟩,
      exTriple (by decide +kernel), exTriple (by decide +kernel), exTriple (by decide +kernel), exTriple (by decide +kernel),
      exOne (by decide +kernel), exOne (by decide +kernel), by norm_num, by norm_num⟩).2

example : (initMagnetorquer exReader exFile 7 (1 / 10) (fun k sd => ((k, sd) : ℕ × ℝ)) () none).prescaler = 5 :=
  (C184_magnetorquer exReader exFile 7 (1 / 10) (fun k sd => ((k, sd) : ℕ × ℝ)) () none 5
    ⟨fun _ _ => 1, ⟨1, 1, 1, 1⟩, fun _ => 1, fun _ => 1, fun _ => 1, fun _ => 1, fun _ => 1, fun _ => 1⟩ ⟨_, rfl, rfl⟩
    ⟨fun i j => exOne (by revert i j; decide +kernel), exQuaternion _, exTriple (by decide +kernel), exTriple (by decide +kernel), exTriple (by decide +kernel),
      exTriple (by decide +kernel), exTriple (by decide +kernel), exTriple (by decide +kernel)⟩).1

example : initInterference exReader exFile 0 = .ok ⟨List.replicate 5 (Matrix.of fun _ _ => 1), 0⟩ :=
  C184_interference exReader exFile 0 (List.replicate 5 (Matrix.of fun _ _ => 1)) ⟨_, rfl, rfl⟩ fun k hk i j => by
    rw [List.getElem_replicate]
    rw [List.length_replicate] at hk
    exact exOne (by revert k i j; decide +kernel)

example : (initSun exReader exFile 3 (fun _ sd => sd) (fun g => (g, g)) none).body.sigma = rad 1 :=
  (C184_sun exReader exFile 3 (fun _ sd => sd) (fun g => (g, g)) none 5 ⟨⟨1, 1, 1, 1⟩, 1, 1, 1, 1⟩ ⟨_, rfl, rfl⟩
    ⟨exQuaternion _, exOne (by decide +kernel), exOne (by decide +kernel), exOne (by decide +kernel), exOne (by decide +kernel)⟩).2.1

example : (initGnss exReader (fun sec key => if key = "antenna_model".toList then some "CONE".toList else exFile sec key) 1 true (fun _ sd => sd) none).body.config.antenna = .cone := by
  have hone : ∀ {sec key : Str}, key ≠ "antenna_model".toList → Number exReader exFile sec key 1 →
      Number exReader (fun sec key => if key = "antenna_model".toList then some "CONE".toList else exFile sec key) sec key 1 := by
    intro sec key h ⟨t, h1, h2⟩
    exact ⟨t, (if_neg h).trans h1, h2⟩
  refine (C184_gnss exReader (fun sec key => if key = "antenna_model".toList then some "CONE".toList else exFile sec key) 1 true (fun _ sd => sd) none 5
    ⟨"CONE", fun _ => 1, ⟨1, 1, 1, 1⟩, 1, fun _ => 1, fun _ => 1⟩ ⟨"prescaler".toList, by decide +kernel, rfl⟩ ⟨⟨"CONE".toList, by decide +kernel, by decide +kernel⟩, ?_, ?_, ?_, ?_, ?_⟩).2.2.2.2.1.2
    ⟨rfl, rfl⟩
  · intro i; exact hone (by revert i; decide +kernel) (exOne (by revert i; decide +kernel))
  · exact ⟨(exQuaternion []).1, hone (by decide +kernel) (exOne (by decide +kernel)), hone (by decide +kernel) (exOne (by decide +kernel)),
      hone (by decide +kernel) (exOne (by decide +kernel)), hone (by decide +kernel) (exOne (by decide +kernel))⟩
  · exact hone (by decide +kernel) (exOne (by decide +kernel))
  · intro i; exact hone (by revert i; decide +kernel) (exOne (by revert i; decide +kernel))
  · intro i; exact hone (by revert i; decide +kernel) (exOne (by revert i; decide +kernel))

example (draw : ℝ → ℝ × ℝ) (x : Vec 3) : ((readSensor exReader (fun _ _ => none) 1 "X".toList "nT".toList (fun _ sd => sd)).measure draw x).1 = 0 :=
  C184_no_range exReader (fun _ _ => none) 1 "X".toList "nT" (fun _ sd => sd) draw rfl rfl _ .new x

example : numbered "STAR_SENSOR_" (-1) = "STAR_SENSOR_-1".toList := by decide +kernel

end S2E.InitAocs
