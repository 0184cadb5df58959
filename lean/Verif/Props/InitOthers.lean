import Verif.Spec.InitOthers
import Verif.Props.InitAocs
import Verif.Props.Communication
import Verif.Props.Eps
import Verif.Props.Thruster
import Verif.Props.Telescope
import Verif.Props.Ideal
/-!
# C185: antennas, power components, thrusters, telescopes and ideal components made from a settings file
-/
namespace S2E.InitOthers
open Settings Log LogProps InitOrbit InitAocs

theorem Flag.read {ex : Extra} {file : File} {sec key : Str} {b : Bool} (h : Flag ex file sec key b) : readBoolean ex (file sec) key = b := by
  obtain ⟨t, h, ht⟩ := h
  unfold readBoolean; rw [h]; exact ht

/-- The parameters of a direction that is described by a sheet; an unused direction has gain and losses 0 dB. -/
noncomputable def linkOf : Option LinkSheet → Comm.Params
  | none => ⟨0, 0, 0, .isotropic, ⟨360, 181, 2 * Real.pi, Real.pi, List.replicate 360 (List.replicate 181 0)⟩⟩
  | some l => ⟨l.gain, l.feeder, l.pointing, if l.model = "RADIATION_PATTERN_CSV".toList then .pattern else .isotropic, ⟨l.lengthTheta, l.lengthPhi, l.thetaMax, l.phiMax, l.table⟩⟩

theorem gainModel_eq (name : Str) : gainModel name = if name = "RADIATION_PATTERN_CSV".toList then .pattern else .isotropic := by
  unfold gainModel
  by_cases h : name = "ISOTROPIC".toList
  · rw [if_pos h, if_neg]
    rw [h]; decide
  · rw [if_neg h]

theorem readParams_sheet (rd : Reader) (ex : Extra) (file : File) (sec : Str) (pre : String) (o : Option LinkSheet) (first : Bool)
    (h : ∀ l, o = some l → l.In rd ex file sec pre) : readParams rd ex (file sec) pre.toList o.isSome first = .ok (linkOf o) := by
  cases o with
  | none => unfold readParams; dsimp only; rw [if_neg (by simp)]; rfl
  | some l =>
    obtain ⟨h1, h2, h3, h4, h5, h6, h7, h8, path, h9, h10⟩ := h l rfl
    rw [String.toList_append] at h1 h2 h3 h4 h5 h6 h7 h8 h9
    have hp : ∀ (a b : ℕ) (x y : ℝ), readPattern ex path a b x y = .ok ⟨a, b, x, y, l.table⟩ := by
      intro a b x y
      unfold readPattern
      rw [if_neg (by omega), h10]
      rfl
    have hf : (if first then readPattern ex path 360 181 (2 * Real.pi) Real.pi else .ok defaultPattern) =
        .ok (if first then ⟨360, 181, 2 * Real.pi, Real.pi, l.table⟩ else defaultPattern) := by
      cases first
      · rfl
      · exact hp 360 181 _ _
    unfold readParams
    dsimp only
    rw [if_pos (show (some l).isSome = true from rfl), h1.read, h2.read, h3.read, h4.read, h5.read, h6.read, h7.read, h8.read, h9.read, hf]
    simp only [Res.bind]
    rw [hp, gainModel_eq]
    rfl

/-- **C185 (antenna).** An antenna with number `id` has the data of the section `ANTENNA_id`. -/
theorem C185_antenna (rd : Reader) (ex : Extra) (file : File) (id : ℤ) (s : AntennaSheet) (h : s.In rd ex file (numbered "ANTENNA_" id)) :
    initAntenna rd ex file id = .ok (Comm.Antenna.new s.b2c s.tx.isSome s.rx.isSome s.frequency s.bitrate s.power (linkOf s.tx) s.temperature (linkOf s.rx)) := by
  obtain ⟨h1, h2, h3, h4, h5, h6, h7, h8, h9⟩ := h
  unfold initAntenna
  dsimp only
  rw [numbered_eq, h1.read, h2.read, h3.read, h4.read, h5.read, Flag.read h6, Flag.read h7, readParams_sheet rd ex file _ "tx" s.tx false h8,
    readParams_sheet rd ex file _ "rx" s.rx true h9]
  rfl

/-- An antenna whose tables are not needed (`ISOTROPIC`) still reads them: if the text of one of them is not numbers, or if a length is negative, making the antenna
throws. -/
theorem C185_antenna_table (rd : Reader) (ex : Extra) (file : File) (id : ℤ) (path : Str) (nt np : ℤ) (m : Str)
    (htx : Flag ex file (numbered "ANTENNA_" id) "is_transmitter".toList true)
    (_hm : Text rd file (numbered "ANTENNA_" id) "tx_antenna_gain_model".toList m)
    (hp : Text rd file (numbered "ANTENNA_" id) "tx_antenna_radiation_pattern_file".toList path)
    (h1 : Integer rd file (numbered "ANTENNA_" id) "tx_length_theta".toList nt) (h2 : Integer rd file (numbered "ANTENNA_" id) "tx_length_phi".toList np)
    (hbad : ex.table path = .throws ∨ nt < 0 ∨ np < 0) : initAntenna rd ex file id = .throws := by
  have e1 : rd.int (file (numbered "ANTENNA_" id)) ("tx".toList ++ "_length_theta".toList) = nt := h1.read
  have e2 : rd.int (file (numbered "ANTENNA_" id)) ("tx".toList ++ "_length_phi".toList) = np := h2.read
  have e3 : Ini.readString rd.paths (file (numbered "ANTENNA_" id)) ("tx".toList ++ "_antenna_radiation_pattern_file".toList) = path := hp.read
  have hr : ∀ x y, readPattern ex path nt np x y = .throws := by
    intro x y
    unfold readPattern
    by_cases hn : nt < 0 ∨ np < 0
    · rw [if_pos hn]
    · rw [if_neg hn]
      rcases hbad with hb | hb
      · rw [hb]; rfl
      · exact absurd hb hn
  unfold initAntenna
  dsimp only
  rw [numbered_eq, Flag.read htx]
  have : readParams rd ex (file (numbered "ANTENNA_" id)) "tx".toList true false = .throws := by
    unfold readParams
    dsimp only
    rw [e1, e2, e3, if_pos rfl, hr]
    rfl
  rw [this]
  rfl

/-- **C185 (calculator).** -/
theorem C185_calculator (rd : Reader) (file : File) (s : CalculatorSheet) (h : s.In rd file) :
    initGsCalculator rd file = ⟨s.polarization, s.atmosphere, s.rainfall, s.others, s.ebn0, s.deterioration, s.codingGain, s.margin, s.bitrate, -10000, 0⟩ := by
  obtain ⟨h1, h2, h3, h4, h5, h6, h7, h8, h9⟩ := h
  unfold initGsCalculator Comm.Calculator.new
  dsimp only
  rw [h1.read, h2.read, h3.read, h4.read, h5.read, h6.read, h7.read, h8.read, h9.read]

open Comm TwoBody in
/-- **C185 (link).** From three files to the link: an isotropic transmitting antenna, an isotropic receiving one and the calculator give Friis' formula with the
written power, gains, losses, frequency and temperature. -/
theorem C185_link (rd : Reader) (ex : Extra) (ft fr fc : File) (it ir : ℤ) (st sr : AntennaSheet) (lt lr : LinkSheet) (sc : CalculatorSheet)
    (ht : st.In rd ex ft (numbered "ANTENNA_" it)) (hr : sr.In rd ex fr (numbered "ANTENNA_" ir)) (hc : sc.In rd fc) (htx : st.tx = some lt) (hrx : sr.rx = some lr)
    (ht1 : lt.model = "ISOTROPIC".toList) (hr1 : lr.model = "ISOTROPIC".toList) (hf : 0 < st.frequency) (hP : 0 < st.power) (hT : 0 < sr.temperature)
    (c : Craft) (s : Ground.Station) (hd : c.positionI ≠ s.positionI) :
    ∃ tx rx cn0, initAntenna rd ex ft it = .ok tx ∧ initAntenna rd ex fr ir = .ok rx ∧ (initGsCalculator rd fc).calcCn0 c tx s rx = .ok cn0 ∧
      ratio cn0 = friis st.power (ratio lt.gain * ratio lr.gain * ratio (lt.feeder + lt.pointing + lr.feeder + lr.pointing + sc.polarization + sc.atmosphere +
        sc.rainfall + sc.others)) (3e8 / (st.frequency * 1e6)) (len (c.positionI - s.positionI)) boltzmann sr.temperature := by
  have hne : "ISOTROPIC".toList ≠ "RADIATION_PATTERN_CSV".toList := by decide
  have e1 := C185_antenna rd ex ft it st ht
  have e2 := C185_antenna rd ex fr ir sr hr
  rw [htx] at e1
  rw [hrx] at e2
  have g1 : ∀ a b, calcAntennaGain (linkOf (some lt)) a b = .ok lt.gain := by
    intro a b; unfold linkOf calcAntennaGain; dsimp only; rw [ht1, if_neg hne]
  have g2 : ∀ a b, calcAntennaGain (linkOf (some lr)) a b = .ok lr.gain := by
    intro a b; unfold linkOf calcAntennaGain; dsimp only; rw [hr1, if_neg hne]
  obtain ⟨cn0, h1, h2⟩ := C128_cn0 (initGsCalculator rd fc) c s _ _ st.b2c sr.b2c st.frequency st.bitrate st.power sr.temperature sr.bitrate sr.frequency st.temperature
    sr.power (linkOf (some lt)) (linkOf (some lr)) (linkOf st.rx) (linkOf sr.tx) st.rx.isSome sr.tx.isSome lt.gain lr.gain rfl rfl hf hP hT hd (g1 _ _) (g2 _ _)
  refine ⟨_, _, cn0, e1, e2, h1, ?_⟩
  rw [C185_calculator rd fc sc hc] at h2
  exact h2

/-- **C185 (battery).** A battery made from the file and charged with any currents, one per run: the depth of discharge moves from the written one by the charge that
flowed, in per cent of the capacity of the pack; the voltage is the written polynomial of the charge taken from a cell, times the cells in series. A run is
prescaler times the given step. -/
theorem C185_battery (rd : Reader) (file : File) (id : ℤ) (step : ℝ) (elided : Bool) (p : ℤ) (s : BatterySheet) (hp32 : p < 2 ^ 31)
    (hp : Integer rd file (numbered "BATTERY_" id) "prescaler".toList p) (h : s.In rd file (numbered "BATTERY_" id)) (currents : List ℝ) :
    ∃ b, (initBattery rd file id step elided).run currents = .ok b ∧ b.prescaler = atLeastOne p ∧
      b.dod = s.dod - currents.sum * (step * atLeastOne p) / 3600 / (s.capacity * s.parallel) * 100 ∧
      b.ccCurrent = s.ccRate * s.capacity * s.parallel ∧ b.cvVoltage = s.cvVoltage ∧ b.resistance = s.resistance ∧
      (currents ≠ [] → b.voltage = some ((∑ k : Fin s.curve.length, s.curve[k] * (b.dod / 100 * s.capacity) ^ k.val) * s.series)) := by
  obtain ⟨h1, h2, h3, h4, h5, h6, h7, h8, h9⟩ := h
  have hc : (List.range s.curve.length).map (fun i => Ini.readDouble rd.getReal (file (numbered "BATTERY_" id)) (Ini.indexedKey "cell_discharge_curve_coefficients".toList i)) =
      s.curve := by
    apply List.ext_getElem
    · simp
    · intro k a b
      rw [List.getElem_map, List.getElem_range]
      exact (h5 k b).read
  have hn : (((s.curve.length : ℤ) - 1) + 1).toNat = s.curve.length := by omega
  have hpre : (if ((atLeastOne p : ℤ) % 2 ^ 32).toNat > 0 then ((atLeastOne p : ℤ) % 2 ^ 32).toNat else 1) = atLeastOne p := by
    unfold atLeastOne
    split <;> omega
  have hb : ∃ b, initBattery rd file id step elided = b ∧ b.prescaler = atLeastOne p ∧ b.series = s.series ∧ b.parallel = s.parallel ∧ b.capacity = s.capacity ∧ b.coeffs = s.curve ∧
      b.ccCurrent = s.ccRate * s.capacity * s.parallel ∧ b.cvVoltage = s.cvVoltage ∧ b.resistance = s.resistance ∧ b.stepTime = step ∧ b.dod = s.dod := by
    refine ⟨_, rfl, ?_⟩
    unfold initBattery
    dsimp only
    rw [numbered_eq, prescaler_read hp, h1.read, h2.read, h3.read, h4.read, h6.read, h7.read, h8.read, h9.read, hn, hc]
    cases elided <;> exact ⟨hpre, rfl, rfl, rfl, rfl, rfl, rfl, rfl, rfl, rfl⟩
  obtain ⟨b0, hb0, q1, q2, q3, q4, q5, q6, q7, q8, q9, q10⟩ := hb
  rw [hb0]
  obtain ⟨b, r1, ⟨t1, t2, t3, t4, t5, t6, t7, t8, t9⟩, r2, r3⟩ := Eps.C59_history b0 currents
  rw [q10, q9, q1, q4, q3] at r2
  refine ⟨b, r1, t1.trans q1, r2, t6.trans q6, t7.trans q7, t8.trans q8, fun hne => ?_⟩
  rw [(r3 hne).1]
  have hv : ∀ l, b.coeffs = l → Eps.stackVoltage b = (∑ k : Fin l.length, l[k] * (b.dod / 100 * b.capacity) ^ k.val) * b.series := by
    rintro l rfl
    rfl
  rw [hv s.curve (t5.trans q5), t2, q2, t4, q4]

/-- A battery of order `-1` or less has no coefficients: its voltage is 0. -/
theorem C185_battery_no_curve (rd : Reader) (file : File) (id : ℤ) (step : ℝ) (elided : Bool) (n : ℤ) (hn : n < 0)
    (h : Integer rd file (numbered "BATTERY_" id) "approximation_order".toList n) (currents : List ℝ) (hne : currents ≠ []) :
    ∃ b, (initBattery rd file id step elided).run currents = .ok b ∧ b.voltage = some 0 := by
  have hc : (initBattery rd file id step elided).coeffs = [] := by
    unfold initBattery
    dsimp only
    rw [numbered_eq, h.read, show (n + 1).toNat = 0 by omega]
    cases elided <;> rfl
  obtain ⟨b, r1, ⟨t1, t2, t3, t4, t5, t6, t7, t8, t9⟩, r2, r3⟩ := Eps.C59_history (initBattery rd file id step elided) currents
  refine ⟨b, r1, ?_⟩
  rw [(r3 hne).1]
  have hv : ∀ l, b.coeffs = l → Eps.stackVoltage b = (∑ k : Fin l.length, l[k] * (b.dod / 100 * b.capacity) ^ k.val) * b.series := by
    rintro l rfl
    rfl
  rw [hv [] (t5.trans hc)]
  simp

/-- **C185 (panel).** A lit panel made from the file gives the written efficiencies times the power density times the area of all cells times the cosine of the angle of
incidence on the written normal, of any length; nothing from behind. -/
theorem C185_panel (rd : Reader) (file : File) (id : ℤ) (step : ℝ) (p : ℤ) (s : PanelSheet) (hp : Integer rd file (numbered "SOLAR_ARRAY_PANEL_" id) "prescaler".toList p)
    (h : s.In rd file (numbered "SOLAR_ARRAY_PANEL_" id)) (e : Eps.PanelEnv) (k : ℤ) (hs : e.scenario = none) (hn : s.normal ≠ 0) (hsun : e.sunPosition ≠ 0)
    (h1 : 0 ≤ s.efficiency) (h2 : 0 ≤ s.transmission) (h3 : 0 ≤ e.powerDensity) (h4 : 0 ≤ s.area) (h5 : 0 ≤ s.series) (h6 : 0 ≤ s.parallel) :
    let m := initPanel rd file id true step
    m.prescaler = atLeastOne p ∧ ∃ b, m.body.main e k = .ok b ∧ (innerProduct s.normal e.sunPosition ≤ 0 → b.power = 0) ∧
      (0 ≤ innerProduct s.normal e.sunPosition → b.power * (calcNorm s.normal * calcNorm e.sunPosition) =
        s.efficiency * s.transmission * e.powerDensity * (s.area * (s.series * s.parallel)) * innerProduct s.normal e.sunPosition) := by
  obtain ⟨a1, a2, a3, a4, a5, a6⟩ := h
  unfold initPanel
  dsimp only
  rw [numbered_eq, prescaler_read hp, a1.read, a2.read, a3.read, a4.read, a5.read, a6.read]
  obtain ⟨b, q1, -, q2, q3, -⟩ := Eps.C61_power s.series s.parallel s.area s.normal s.efficiency s.transmission step e k hs hn hsun h1 h2 h3 h4 h5 h6
  exact ⟨rfl, b, q1, q2, q3⟩

/-- The overload of `InitSAP` without celestial information makes a panel that can only be used with the CSV scenario: its update without it is undefined. -/
theorem C185_panel_no_local (rd : Reader) (file : File) (id : ℤ) (step : ℝ) (e : Eps.PanelEnv) (k : ℤ) (hs : e.scenario = none) :
    (initPanel rd file id false step).body.main e k = .ub := Eps.C61_no_local _ _ _ _ _ _ _ e k hs

/-- **C185 (power control unit).** It takes the charge limits of the battery it is given, for a battery made from the file: the written ones. -/
theorem C185_pcu (rd : Reader) (fb fp : File) (ib ip : ℤ) (step : ℝ) (elided : Bool) (p pb : ℤ) (s : BatterySheet) (hb32 : pb < 2 ^ 31)
    (hpb : Integer rd fb (numbered "BATTERY_" ib) "prescaler".toList pb) (h : s.In rd fb (numbered "BATTERY_" ib))
    (hp : Integer rd fp (numbered "PCU_INITIAL_STUDY_" ip) "prescaler".toList p) :
    let m := initPcu rd fp ip (initBattery rd fb ib step elided) step
    m.prescaler = atLeastOne p ∧ m.body = ⟨s.ccRate * s.capacity * s.parallel, s.cvVoltage, step, 0, 0⟩ := by
  obtain ⟨b, r1, -, -, r2, r3, -⟩ := C185_battery rd fb ib step elided pb s hb32 hpb h []
  obtain rfl : initBattery rd fb ib step elided = b := by
    simpa [Eps.Battery.run] using r1
  unfold initPcu
  dsimp only
  rw [numbered_eq, prescaler_read hp, r2, r3]
  exact ⟨rfl, rfl⟩

open Thruster WheelSpec Wheel in
/-- **C185 (thruster).** A thruster made from the file follows its duties with the written dead time and lag, both counted in steps of the written step width (not of the
simulation): with `N` the number of steps with `dead time < N h ≤ dead time + h`, the thrust after update `n` is the written thrust times the lagged response to the
duty of update `n - N`, plus noise while the duty is positive, along a unit vector that without direction error is the written direction; the torque is the lever arm
times the thrust. -/
theorem C185_thruster {γ : Type} (rd : Reader) (file : File) (id : ℤ) (g0 : γ) (port : Option (PowerPort ℝ)) (p : ℤ) (s : ThrusterSheet)
    (hp : Integer rd file (numbered "THRUSTER_" id) "prescaler".toList p) (h : s.In rd file (numbered "THRUSTER_" id)) (std : γ → ℝ × γ) (eps : ℝ)
    (hdir : s.direction ≠ 0) (hh : 0 < s.step) (hτ : 0 ≤ s.timeConstant) (hd : 0 ≤ s.deadTime) (N : ℕ) (h1 : (N : ℝ) * s.step ≤ s.deadTime + s.step)
    (h2 : s.deadTime < N * s.step) (hmem : N < 2 ^ 60) (u t : ℕ → ℝ) (c : ℕ → Vec 3) (n : ℕ) :
    ∃ m s1 s2, initThruster rd file id g0 port = .ok m ∧ m.prescaler = atLeastOne p ∧ m.port = portOf rd file port ∧
      Thruster.run std eps (commands u t c n) m.body = .ok s1 ∧ Thruster.run std eps (commands u t c (n + 1)) m.body = .ok s2 ∧
      s2.torque = outerProduct (vsub s.position (c n)) s2.thrust ∧
      ∃ e, s2.thrust = scale (s.thrust * lagged s.step s.timeConstant (delayed N u) n + if u n > eps then s.sigmaThrust * (std s1.noiseMagnitude).1 else 0) e ∧
        dot3 e e = 1 ∧ (rad s.sigmaDirection ≤ eps → e = calcNormalizedVector s.direction) ∧
        (eps < rad s.sigmaDirection → dot3 e (calcNormalizedVector s.direction) = calcNormalizedVector s.direction 0 ^ 2 +
          (1 - calcNormalizedVector s.direction 0 ^ 2) * Real.cos (rad s.sigmaDirection * (std s1.noiseDirection).1)) := by
  obtain ⟨a1, a2, a3, a4, a5, a6, a7, a8⟩ := h
  have hdeg : s.sigmaDirection * Real.pi / 180 = rad s.sigmaDirection := by unfold rad; ring
  obtain ⟨s0, s1, s2, q1, q2, q3, q4, e, q5⟩ := C125_thrust std eps ⟨s.position, s.direction, s.thrust, s.sigmaThrust, rad s.sigmaDirection, s.deadTime, s.timeConstant, s.step⟩
    g0 hdir hh hτ hd N h1 h2 hmem u t c n
  refine ⟨⟨atLeastOne p, portOf rd file port, s0⟩, s1, s2, ?_, rfl, rfl, q2, q3, q4, e, q5⟩
  unfold initThruster
  dsimp only
  rw [numbered_eq, prescaler_read hp, a1.read, a2.read, a3.read, a4.read, a5.read, a6.read, a7.read, a8.read, hdeg, q1]
  rfl

/-- **C185 (telescope).** A telescope with number `id` has the data of the section `TELESCOPE_id`, angles converted from degrees; it can be made only if both fields of view
(pixels times degrees per pixel) are below 90 degrees. Its prescaler is 1 whatever the file says. -/
theorem C185_telescope (rd : Reader) (file : File) (id : ℤ) (orbit : Option (Vec 3 × ℝ)) (s : TelescopeSheet) (h : s.In rd file (numbered "TELESCOPE_" id)) :
    (s.nx * s.px < 90 ∧ s.ny * s.py < 90 → ∃ m, initTelescope rd file id orbit = .ok m ∧ m.prescaler = 1 ∧
      m.body.config = ⟨s.b2c, rad s.sun, rad s.earth, rad s.moon, s.nx, s.ny, rad s.px, rad s.py, s.stars⟩ ∧ m.body.stars.length = s.stars ∧
      m.body.fx = rad (s.nx * s.px) ∧ m.body.fy = rad (s.ny * s.py)) ∧
    (¬(s.nx * s.px < 90 ∧ s.ny * s.py < 90) → initTelescope rd file id orbit = .throws) := by
  obtain ⟨a1, a2, a3, a4, a5, a6, a7, a8, a9⟩ := h
  have hdeg : ∀ x : ℝ, x * Real.pi / 180 = rad x := fun x => by unfold rad; ring
  have hpi := Real.pi_pos
  have hiff : ∀ (n : ℤ) (x : ℝ), n * rad x < Real.pi / 2 ↔ n * x < 90 := by
    intro n x
    have : n * rad x = n * x * (Real.pi / 180) := by unfold rad; ring
    rw [this, ← lt_div_iff₀ (by positivity)]
    have : Real.pi / 2 / (Real.pi / 180) = 90 := by field_simp; norm_num
    rw [this]
  have key : initTelescope rd file id orbit = (Telescope.Telescope.new ⟨s.b2c, rad s.sun, rad s.earth, rad s.moon, s.nx, s.ny, rad s.px, rad s.py, s.stars⟩ orbit).bind
      fun t => .ok ⟨1, .newDefault, t⟩ := by
    unfold initTelescope
    dsimp only
    rw [numbered_eq, a1.read, a2.read, a3.read, a4.read, a5.read, a6.read, a7.read, a8.read, a9.read, if_neg (by omega)]
    simp only [hdeg, Int.toNat_natCast]
  constructor
  · intro hf
    rw [key]
    unfold Telescope.Telescope.new
    rw [if_pos ⟨(hiff _ _).2 hf.1, (hiff _ _).2 hf.2⟩]
    refine ⟨_, rfl, rfl, rfl, by simp, ?_, ?_⟩ <;> simp only [rad] <;> ring
  · intro hf
    rw [key]
    unfold Telescope.Telescope.new
    rw [if_neg]
    · rfl
    · rintro ⟨u, v⟩
      exact hf ⟨(hiff _ _).1 u, (hiff _ _).1 v⟩

/-- **C185 (generators).** -/
theorem C185_generators (rd : Reader) (file : File) (p : ℤ) (ft ff dt df : ℝ) (hp : Integer rd file "COMPONENT_BASE".toList "prescaler".toList p)
    (h1 : Number rd file "TORQUE_GENERATOR".toList "torque_magnitude_standard_deviation_Nm".toList ft)
    (h2 : Number rd file "TORQUE_GENERATOR".toList "torque_direction_standard_deviation_deg".toList dt)
    (h3 : Number rd file "FORCE_GENERATOR".toList "force_magnitude_standard_deviation_N".toList ff)
    (h4 : Number rd file "FORCE_GENERATOR".toList "force_direction_standard_deviation_deg".toList df) :
    (initTorque rd file).prescaler = atLeastOne p ∧ (initForce rd file).prescaler = atLeastOne p ∧
    (initTorque rd file).body = ⟨ft, rad dt, ⟨0, 0⟩⟩ ∧ (initForce rd file).body = ⟨ff, rad df, ⟨0, 0, 0, 0⟩⟩ := by
  unfold initTorque initForce
  dsimp only
  rw [prescaler_read hp, h1.read, h2.read, h3.read, h4.read, mul_comm, mul_comm (Real.pi / 180) df]
  exact ⟨rfl, rfl, rfl, rfl⟩

/-- **C185 (observers).** The orbit observer has six noise sources of its own with the written standard deviations; its noise is in the RTN frame exactly if the file says
`RTN`. -/
theorem C185_observers {γ : Type} (rd : Reader) (file : File) (gen : ℕ → ℝ → γ) (p : ℤ) (frame : String) (sd : Fin 6 → ℝ) (angle : ℝ)
    (hp : Integer rd file "COMPONENT_BASE".toList "prescaler".toList p) (h1 : Text rd file "ORBIT_OBSERVER".toList "noise_frame".toList frame.toList)
    (h2 : ∀ i : Fin 6, Number rd file "ORBIT_OBSERVER".toList ("noise_standard_deviation(".toList ++ dec i ++ ")".toList) (sd i))
    (h3 : Number rd file "ATTITUDE_OBSERVER".toList "error_angle_standard_deviation_deg".toList angle) :
    (initOrbitObserver rd file gen).prescaler = atLeastOne p ∧ (initAttitudeObserver rd file).prescaler = atLeastOne p ∧
    ((initOrbitObserver rd file gen).body.rtn = true ↔ frame = "RTN") ∧
    (initOrbitObserver rd file gen).body.noise = ![gen 0 (sd 0), gen 1 (sd 1), gen 2 (sd 2), gen 3 (sd 3), gen 4 (sd 4), gen 5 (sd 5)] ∧
    (initAttitudeObserver rd file).body = rad angle := by
  unfold initOrbitObserver initAttitudeObserver
  dsimp only
  rw [prescaler_read hp, h1.read, h3.read, mul_comm]
  refine ⟨rfl, rfl, ?_, ?_, rfl⟩
  · rw [String.ofList_toList]
    unfold Ideal.noiseFrame
    by_cases a : frame = "INERTIAL"
    · rw [if_pos a, a]; decide
    · rw [if_neg a]
      by_cases b : frame = "RTN" <;> simp [b]
  · funext i
    have := (h2 i).read
    fin_cases i <;> exact congrArg (gen _) this

/-- What is written in other sections does not matter. -/
theorem C185_independent {γ : Type} (rd : Reader) (ex : Extra) (f g : File) (id : ℤ) (step : ℝ) (g0 : γ) (port : Option (PowerPort ℝ)) (orbit : Option (Vec 3 × ℝ)) (b : Bool)
    (hport : f "POWER_PORT".toList = g "POWER_PORT".toList) :
    (f (numbered "ANTENNA_" id) = g (numbered "ANTENNA_" id) → initAntenna rd ex f id = initAntenna rd ex g id) ∧
    (f (numbered "BATTERY_" id) = g (numbered "BATTERY_" id) → initBattery rd f id step b = initBattery rd g id step b) ∧
    (f (numbered "SOLAR_ARRAY_PANEL_" id) = g (numbered "SOLAR_ARRAY_PANEL_" id) → initPanel rd f id b step = initPanel rd g id b step) ∧
    (f (numbered "THRUSTER_" id) = g (numbered "THRUSTER_" id) → initThruster rd f id g0 port = initThruster rd g id g0 port) ∧
    (f (numbered "TELESCOPE_" id) = g (numbered "TELESCOPE_" id) → initTelescope rd f id orbit = initTelescope rd g id orbit) := by
  have hp : portOf rd f port = portOf rd g port := by
    cases port with
    | none => rfl
    | some p => unfold portOf initializePort; rw [hport]
  refine ⟨fun h => ?_, fun h => ?_, fun h => ?_, fun h => ?_, fun h => ?_⟩
  · unfold initAntenna; rw [numbered_eq, h]
  · unfold initBattery; rw [numbered_eq, h]
  · unfold initPanel; rw [numbered_eq, h]
  · unfold initThruster; rw [numbered_eq, h, hp]
  · unfold initTelescope; rw [numbered_eq, h]

/-! ## A concrete file: the text of every entry is its key (`Props/InitAocs`) -/

/-- Every flag is set; the table named by the key is one line with two numbers. -/
def exExtra : Extra := ⟨fun _ => true, fun _ => .ok [[3, 4]]⟩

/-- The same reader with order 0 and 5 for every other integer; the words for gain model and noise frame are `ISOTROPIC` and `RTN`. -/
def exFile2 : File := fun _ key =>
  if key = "tx_antenna_gain_model".toList ∨ key = "rx_antenna_gain_model".toList then some "ISOTROPIC".toList else if key = "noise_frame".toList then some "RTN".toList else some key

theorem exOne2 {sec key : Str} (h : key ≠ "tx_antenna_gain_model".toList ∧ key ≠ "rx_antenna_gain_model".toList ∧ key ≠ "noise_frame".toList)
    (h' : (key ≠ "range_to_constant_nT".toList ∧ key ≠ "range_to_zero_nT".toList) ∧ key ≠ "output_delay_s".toList) : Number exReader exFile2 sec key 1 := by
  obtain ⟨t, h1, h2⟩ := exOne (sec := sec) h'
  refine ⟨t, ?_, h2⟩
  unfold exFile2
  rw [if_neg (by rintro (a | a); exacts [h.1 a, h.2.1 a]), if_neg h.2.2]
  exact h1

theorem exLink (sec : Str) (pre : String) (hpre : pre = "tx" ∨ pre = "rx") : LinkSheet.In ⟨1, 1, 1, "ISOTROPIC".toList, 5, 5, 1, 1, [[3, 4]]⟩ exReader exExtra exFile2 sec pre := by
  rcases hpre with rfl | rfl
  · exact ⟨exOne2 (by decide +kernel) (by decide +kernel), exOne2 (by decide +kernel) (by decide +kernel), exOne2 (by decide +kernel) (by decide +kernel),
      ⟨"ISOTROPIC".toList, (by decide +kernel : exFile2 [] "tx_antenna_gain_model".toList = _), by decide +kernel⟩, ⟨"tx_length_theta".toList, (by decide +kernel : exFile2 [] "tx_length_theta".toList = _), rfl⟩, ⟨"tx_length_phi".toList, (by decide +kernel : exFile2 [] "tx_length_phi".toList = _), rfl⟩,
      exOne2 (by decide +kernel) (by decide +kernel), exOne2 (by decide +kernel) (by decide +kernel),
      "tx_antenna_radiation_pattern_file".toList, ⟨"tx_antenna_radiation_pattern_file".toList, (by decide +kernel : exFile2 [] "tx_antenna_radiation_pattern_file".toList = _), by decide +kernel⟩, rfl⟩
  · exact ⟨exOne2 (by decide +kernel) (by decide +kernel), exOne2 (by decide +kernel) (by decide +kernel), exOne2 (by decide +kernel) (by decide +kernel),
      ⟨"ISOTROPIC".toList, (by decide +kernel : exFile2 [] "rx_antenna_gain_model".toList = _), by decide +kernel⟩, ⟨"rx_length_theta".toList, (by decide +kernel : exFile2 [] "rx_length_theta".toList = _), rfl⟩, ⟨"rx_length_phi".toList, (by decide +kernel : exFile2 [] "rx_length_phi".toList = _), rfl⟩,
      exOne2 (by decide +kernel) (by decide +kernel), exOne2 (by decide +kernel) (by decide +kernel),
      "rx_antenna_radiation_pattern_file".toList, ⟨"rx_antenna_radiation_pattern_file".toList, (by decide +kernel : exFile2 [] "rx_antenna_radiation_pattern_file".toList = _), by decide +kernel⟩, rfl⟩

theorem exQuaternion2 (sec : Str) : Quaternion exReader exFile2 sec "quaternion_b2c".toList ⟨1, 1, 1, 1⟩ :=
  ⟨(exQuaternion sec).1, exOne2 (by decide +kernel) (by decide +kernel), exOne2 (by decide +kernel) (by decide +kernel), exOne2 (by decide +kernel) (by decide +kernel),
    exOne2 (by decide +kernel) (by decide +kernel)⟩

/-- The sheet that is written in the file. -/
def exAntenna : AntennaSheet :=
  ⟨⟨1, 1, 1, 1⟩, 1, 1, 1, 1, some ⟨1, 1, 1, "ISOTROPIC".toList, 5, 5, 1, 1, [[3, 4]]⟩, some ⟨1, 1, 1, "ISOTROPIC".toList, 5, 5, 1, 1, [[3, 4]]⟩⟩

theorem exAntenna_in (sec : Str) : exAntenna.In exReader exExtra exFile2 sec :=
  ⟨exQuaternion2 sec, exOne2 (by decide +kernel) (by decide +kernel), exOne2 (by decide +kernel) (by decide +kernel), exOne2 (by decide +kernel) (by decide +kernel),
    exOne2 (by decide +kernel) (by decide +kernel), ⟨"is_transmitter".toList, (by decide +kernel : exFile2 [] "is_transmitter".toList = _), rfl⟩, ⟨"is_receiver".toList, (by decide +kernel : exFile2 [] "is_receiver".toList = _), rfl⟩,
    fun l hl => by obtain rfl := Option.some.inj hl; exact exLink sec "tx" (Or.inl rfl),
    fun l hl => by obtain rfl := Option.some.inj hl; exact exLink sec "rx" (Or.inr rfl)⟩

theorem exCalculator_in : CalculatorSheet.In ⟨1, 1, 1, 1, 1, 1, 1, 1, 1⟩ exReader exFile2 :=
  ⟨exOne2 (by decide +kernel) (by decide +kernel), exOne2 (by decide +kernel) (by decide +kernel), exOne2 (by decide +kernel) (by decide +kernel),
    exOne2 (by decide +kernel) (by decide +kernel), exOne2 (by decide +kernel) (by decide +kernel), exOne2 (by decide +kernel) (by decide +kernel),
    exOne2 (by decide +kernel) (by decide +kernel), exOne2 (by decide +kernel) (by decide +kernel), exOne2 (by decide +kernel) (by decide +kernel)⟩

example (c : Comm.Craft) (s : Ground.Station) (hd : c.positionI ≠ s.positionI) :
    ∃ tx rx cn0, initAntenna exReader exExtra exFile2 1 = .ok tx ∧ initAntenna exReader exExtra exFile2 2 = .ok rx ∧
      (initGsCalculator exReader exFile2).calcCn0 c tx s rx = .ok cn0 :=
  let ⟨tx, rx, cn0, h1, h2, h3, _⟩ := C185_link exReader exExtra exFile2 exFile2 exFile2 1 2 exAntenna exAntenna _ _ _ (exAntenna_in _) (exAntenna_in _) exCalculator_in rfl rfl
    rfl rfl (by norm_num [exAntenna]) (by norm_num [exAntenna]) (by norm_num [exAntenna]) c s hd
  ⟨tx, rx, cn0, h1, h2, h3⟩

example : initAntenna exReader ⟨fun _ => true, fun _ => .throws⟩ exFile2 1 = .throws :=
  C185_antenna_table exReader ⟨fun _ => true, fun _ => .throws⟩ exFile2 1 "tx_antenna_radiation_pattern_file".toList 5 5 "ISOTROPIC".toList
    ⟨"is_transmitter".toList, by decide +kernel, rfl⟩ ⟨"ISOTROPIC".toList, by decide +kernel, by decide +kernel⟩
    ⟨"tx_antenna_radiation_pattern_file".toList, by decide +kernel, by decide +kernel⟩ ⟨"tx_length_theta".toList, by decide +kernel, rfl⟩
    ⟨"tx_length_phi".toList, by decide +kernel, rfl⟩ (Or.inl rfl)

theorem exBattery_in (sec : Str) : BatterySheet.In ⟨5, 5, 1, List.replicate 6 1, 1, 1, 1, 1⟩ exReader exFile sec :=
  ⟨⟨_, rfl, rfl⟩, ⟨_, rfl, rfl⟩, exOne (by decide +kernel), ⟨_, rfl, rfl⟩, fun k hk => by
    change Number _ _ _ _ (List.replicate 6 (1 : ℝ))[k]
    rw [List.getElem_replicate]
    rw [List.length_replicate] at hk
    exact exOne (by revert k; decide +kernel),
    exOne (by decide +kernel), exOne (by decide +kernel), exOne (by decide +kernel), exOne (by decide +kernel)⟩

example : ∃ b, (initBattery exReader exFile 1 (1 / 10) true).run [1, 2] = .ok b ∧ b.dod = 1 - [1, 2].sum * (1 / 10 * 5) / 3600 / (1 * 5) * 100 := by
  obtain ⟨b, h1, -, h2, -⟩ := C185_battery exReader exFile 1 (1 / 10) true 5 ⟨5, 5, 1, List.replicate 6 1, 1, 1, 1, 1⟩ (by norm_num) ⟨_, rfl, rfl⟩ (exBattery_in _) [1, 2]
  exact ⟨b, h1, by rw [h2, show atLeastOne 5 = 5 from rfl]; norm_num⟩

example : ∃ b, (initBattery ⟨⟨[], [], []⟩, fun _ => 1, fun _ => -1, fun _ => []⟩ exFile 1 1 false).run [3] = .ok b ∧ b.voltage = some 0 :=
  C185_battery_no_curve ⟨⟨[], [], []⟩, fun _ => 1, fun _ => -1, fun _ => []⟩ exFile 1 1 false (-1) (by norm_num) ⟨_, rfl, rfl⟩ [3] (by simp)

example : (initPcu exReader exFile 3 (initBattery exReader exFile 1 1 true) 1).body = ⟨1 * 1 * (5 : ℤ), 1, 1, 0, 0⟩ :=
  (C185_pcu exReader exFile exFile 1 3 1 true 5 5 ⟨5, 5, 1, List.replicate 6 1, 1, 1, 1, 1⟩ (by norm_num) ⟨_, rfl, rfl⟩ (exBattery_in _) ⟨_, rfl, rfl⟩).2

example : (initPanel exReader exFile 0 true 1).prescaler = 5 :=
  (C185_panel exReader exFile 0 1 5 ⟨5, 5, 1, fun _ => 1, 1, 1⟩ ⟨_, rfl, rfl⟩
    ⟨⟨_, rfl, rfl⟩, ⟨_, rfl, rfl⟩, exOne (by decide +kernel), exTriple (by decide +kernel), exOne (by decide +kernel), exOne (by decide +kernel)⟩
    ⟨1000, 1366, fun _ => 1, none⟩ 0 rfl (fun h => absurd (congrFun h 0) one_ne_zero) (fun h => absurd (congrFun h 0) one_ne_zero) (by norm_num) (by norm_num) (by norm_num)
    (by norm_num) (by norm_num) (by norm_num)).1

example : ∃ m s1 : _, initThruster exReader exFile 2 (0 : ℝ) (some (.new2 1 false)) = .ok m ∧
    Thruster.Thruster.run (fun g => (g, g)) 0 (Thruster.commands (fun _ => 1) (fun _ => 0) (fun _ => 0) 7) m.body = .ok s1 := by
  obtain ⟨m, s1, -, h1, -, -, h2, -⟩ := C185_thruster exReader exFile 2 (0 : ℝ) (some (.new2 1 false)) 5 ⟨fun _ => 1, fun _ => 1, 1, 1, 1, 1, 1, 1⟩ ⟨_, rfl, rfl⟩
    ⟨exTriple (by decide +kernel), exTriple (by decide +kernel), exOne (by decide +kernel), exOne (by decide +kernel), exOne (by decide +kernel), exOne (by decide +kernel),
      exOne (by decide +kernel), exOne (by decide +kernel)⟩ (fun g => (g, g)) 0 (fun h => absurd (congrFun h 0) one_ne_zero) (by norm_num) (by norm_num) (by norm_num) 2 (by norm_num)
    (by norm_num) (by norm_num) (fun _ => 1) (fun _ => 0) (fun _ => 0) 7
  exact ⟨m, s1, h1, h2⟩

example : ∃ m, initTelescope exReader exFile 0 none = .ok m ∧ m.body.stars.length = 5 := by
  obtain ⟨m, h1, -, -, h2, -⟩ := (C185_telescope exReader exFile 0 none ⟨⟨1, 1, 1, 1⟩, 1, 1, 1, 5, 5, 1, 1, 5⟩
    ⟨exQuaternion _, exOne (by decide +kernel), exOne (by decide +kernel), exOne (by decide +kernel), ⟨_, rfl, rfl⟩, ⟨_, rfl, rfl⟩, exOne (by decide +kernel),
      exOne (by decide +kernel), ⟨_, rfl, rfl⟩⟩).1 (by norm_num)
  exact ⟨m, h1, h2⟩

example : (initForce exReader exFile).body = ⟨1, rad 1, ⟨0, 0, 0, 0⟩⟩ :=
  (C185_generators exReader exFile 5 1 1 1 1 ⟨_, rfl, rfl⟩ (exOne (by decide +kernel)) (exOne (by decide +kernel)) (exOne (by decide +kernel)) (exOne (by decide +kernel))).2.2.2

example : (initOrbitObserver exReader exFile2 fun k sd => ((k, sd) : ℕ × ℝ)).body.rtn = true :=
  (C185_observers exReader exFile2 (fun k sd => ((k, sd) : ℕ × ℝ)) 5 "RTN" (fun _ => 1) 1 ⟨"prescaler".toList, by decide +kernel, rfl⟩
    ⟨"RTN".toList, by decide +kernel, by decide +kernel⟩ (fun i => exOne2 (by revert i; decide +kernel) (by revert i; decide +kernel))
    (exOne2 (by decide +kernel) (by decide +kernel))).2.2.1.2 rfl

end S2E.InitOthers
