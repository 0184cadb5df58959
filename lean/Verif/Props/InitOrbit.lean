import Verif.Model.InitOrbit
import Verif.Props.OrbitalElements
import Verif.Props.RelativeOrbit
import Verif.Props.RelativeInformation
import Verif.Props.Geodetic
import Verif.Props.Ini
/-!
# C157–C160: the orbit of a spacecraft: start, Kepler propagation, surface of the Earth, body frame velocity
-/
namespace S2E.InitOrbit
open Log Ini OrbitProp Kepler Geodetic Geodesy TwoBody

/-! ## What the settings say -/

/-- The text of a setting (C52: without comment, with the directory names replaced, `NULL` if missing). -/
def text (rd : Reader) (file : File) (sec key : String) : Str := readString rd.paths (file sec.toList) key.toList

/-- The number of a setting, 0 if missing. -/
def number (rd : Reader) (file : File) (sec key : String) : ℝ :=
  match file sec.toList key.toList with
  | none => 0
  | some v => rd.getReal v

/-- The whole number of a setting, 0 if missing. -/
def whole (rd : Reader) (file : File) (sec key : String) : ℤ :=
  match file sec.toList key.toList with
  | none => 0
  | some v => rd.getInteger v

/-- The section gives this inertial position and velocity. -/
structure GivesState (rd : Reader) (file : File) (sec : String) (p v : Fin 3 → ℝ) : Prop where
  p0 : p 0 = number rd file sec "initial_position_i_m(0)"
  p1 : p 1 = number rd file sec "initial_position_i_m(1)"
  p2 : p 2 = number rd file sec "initial_position_i_m(2)"
  v0 : v 0 = number rd file sec "initial_velocity_i_m_s(0)"
  v1 : v 1 = number rd file sec "initial_velocity_i_m_s(1)"
  v2 : v 2 = number rd file sec "initial_velocity_i_m_s(2)"

/-- The section gives this relative position and velocity. -/
structure GivesRelative (rd : Reader) (file : File) (sec : String) (p v : Fin 3 → ℝ) : Prop where
  p0 : p 0 = number rd file sec "initial_relative_position_lvlh_m(0)"
  p1 : p 1 = number rd file sec "initial_relative_position_lvlh_m(1)"
  p2 : p 2 = number rd file sec "initial_relative_position_lvlh_m(2)"
  v0 : v 0 = number rd file sec "initial_relative_velocity_lvlh_m_s(0)"
  v1 : v 1 = number rd file sec "initial_relative_velocity_lvlh_m_s(1)"
  v2 : v 2 = number rd file sec "initial_relative_velocity_lvlh_m_s(2)"

/-- The section gives these orbital elements. -/
structure GivesElements (rd : Reader) (file : File) (sec : String) (oe : OrbitalElements) : Prop where
  a : oe.semiMajorAxis = number rd file sec "semi_major_axis_m"
  e : oe.eccentricity = number rd file sec "eccentricity"
  i : oe.inclination = number rd file sec "inclination_rad"
  raan : oe.raan = number rd file sec "raan_rad"
  arg : oe.argPerigee = number rd file sec "argument_of_perigee_rad"
  epoch : oe.epochJday = number rd file sec "epoch_jday"

/-- The propagation mode is one of those that integrate the equations of motion: RK4, ENCKE, or anything that is not a mode. -/
def Integrated (rd : Reader) (file : File) (sec : String) : Prop :=
  text rd file sec "propagate_mode" ≠ "SGP4".toList ∧ text rd file sec "propagate_mode" ≠ "RELATIVE".toList ∧
    text rd file sec "propagate_mode" ≠ "KEPLER".toList ∧ text rd file sec "propagate_mode" ≠ "TIME_SERIES_FILE".toList

/-! ## Helpers -/

theorem vec3_position {rd : Reader} {file : File} {sec : String} {p v : Fin 3 → ℝ} (h : GivesState rd file sec p v) :
    rd.vec3 (file sec.toList) "initial_position_i_m".toList = p ∧ rd.vec3 (file sec.toList) "initial_velocity_i_m_s".toList = v := by
  constructor <;> funext i <;> fin_cases i
  · exact h.p0.symm
  · exact h.p1.symm
  · exact h.p2.symm
  · exact h.v0.symm
  · exact h.v1.symm
  · exact h.v2.symm

theorem vec3_relative {rd : Reader} {file : File} {sec : String} {p v : Fin 3 → ℝ} (h : GivesRelative rd file sec p v) :
    rd.vec3 (file sec.toList) "initial_relative_position_lvlh_m".toList = p ∧
      rd.vec3 (file sec.toList) "initial_relative_velocity_lvlh_m_s".toList = v := by
  constructor <;> funext i <;> fin_cases i
  · exact h.p0.symm
  · exact h.p1.symm
  · exact h.p2.symm
  · exact h.v0.symm
  · exact h.v1.symm
  · exact h.v2.symm

theorem elements_eq {rd : Reader} {file : File} {sec : String} {oe : OrbitalElements} (h : GivesElements rd file sec oe) :
    rd.elements (file sec.toList) = oe := by
  rcases oe with ⟨a, e, i, r, g, t⟩
  obtain ⟨h1, h2, h3, h4, h5, h6⟩ := h
  simp only at h1 h2 h3 h4 h5 h6
  rw [h1, h2, h3, h4, h5, h6]
  rfl

theorem finish_ok {lib : Sgp4Lib} {w : World} {m : Motor lib} {r : Motor lib × Earth} (h : finish w m = .ok r) :
    r.1 = m ∧ transform w m.position m.velocity = .ok r.2 := by
  have key : ((transform w m.position m.velocity).bind fun e => .ok (m, e)) = .ok r → r.1 = m ∧ transform w m.position m.velocity = .ok r.2 := by
    intro h
    rcases h1 : transform w m.position m.velocity with e | _ | _ | _ <;> rw [h1] at h <;> simp only [Res.bind, reduceCtorEq] at h
    obtain rfl := Res.ok.inj h
    exact ⟨rfl, rfl⟩
  unfold finish at h
  split at h
  · split at h
    · exact key h
    · simp at h
  · exact key h

theorem initOrbit_ok {lib : Sgp4Lib} {rd : Reader} {w : World} {g : Vec 3} {file : File} {step jd mu : ℝ} {sec : Str} {o : Orbit lib}
    (h : initOrbit lib rd w g file step jd mu sec = .ok o) :
    ∃ m e, chooseMotor lib rd w file step jd mu sec = .ok m ∧ transform w m.position m.velocity = .ok e ∧
      o = ⟨m.setEnabled (readEnable rd.paths (file sec) "calculation".toList), e, g, readEnable rd.paths (file sec) "logging".toList⟩ := by
  unfold initOrbit at h
  rcases h1 : chooseMotor lib rd w file step jd mu sec with m | _ | _ | _ <;> rw [h1] at h <;> simp only [Res.bind, reduceCtorEq] at h
  rcases h2 : finish w m with r | _ | _ | _ <;> rw [h2] at h <;> simp only [reduceCtorEq] at h
  obtain ⟨e1, e2⟩ := finish_ok h2
  obtain rfl := Res.ok.inj h
  exact ⟨m, r.2, rfl, e2, by rw [e1]⟩

@[simp] theorem setEnabled_position {lib : Sgp4Lib} (b : Bool) (m : Motor lib) : (m.setEnabled b).position = m.position := by cases m <;> rfl
@[simp] theorem setEnabled_velocity {lib : Sgp4Lib} (b : Bool) (m : Motor lib) : (m.setEnabled b).velocity = m.velocity := by cases m <;> rfl
@[simp] theorem setEnabled_enabled {lib : Sgp4Lib} (b : Bool) (m : Motor lib) : (m.setEnabled b).enabled = b := by cases m <;> rfl

theorem mode_elements (s : Str) : setOrbitInitializeMode s = .orbitalElements ↔ s = "ORBITAL_ELEMENTS".toList := by
  unfold setOrbitInitializeMode
  split_ifs with h1 h2 h3
  · subst h1; simp
  · subst h2; simp
  · simp [h3]
  · exact ⟨fun h => (by cases h), fun h => absurd h h3⟩

theorem mode_state (s : Str) : setOrbitInitializeMode s = .inertialPositionAndVelocity ↔ s = "POSITION_VELOCITY_I".toList := by
  unfold setOrbitInitializeMode
  split_ifs with h1 h2 h3
  · subst h1; simp
  · simp [h2]
  · subst h3; simp
  · exact ⟨fun h => (by cases h), fun h => absurd h h2⟩

theorem choose_integrated {lib : Sgp4Lib} {rd : Reader} {w : World} {file : File} {step jd mu : ℝ} {sec : String} (hm : Integrated rd file sec) :
    chooseMotor lib rd w file step jd mu sec.toList = .ok
      (if text rd file sec "propagate_mode" = "ENCKE".toList then enckeMotor lib rd file (file sec.toList) step jd mu
       else rk4Motor lib rd file step jd mu) := by
  obtain ⟨h1, h2, h3, h4⟩ := hm
  unfold text at *
  simp only [chooseMotor]
  by_cases hr : readString rd.paths (file sec.toList) "propagate_mode".toList = "RK4".toList
  · rw [if_pos hr, if_neg (by rw [hr]; decide)]
  · rw [if_neg hr, if_neg h1, if_neg h2, if_neg h3]
    split_ifs <;> rfl

theorem choose_kepler {lib : Sgp4Lib} {rd : Reader} {w : World} {file : File} {step jd mu : ℝ} {sec : String}
    (hm : text rd file sec "propagate_mode" = "KEPLER".toList) :
    chooseMotor lib rd w file step jd mu sec.toList = .ok
      (keplerMotor lib rd (file sec.toList) jd mu (setOrbitInitializeMode (text rd file sec "initialize_mode"))) := by
  unfold text at *
  simp only [chooseMotor, hm]
  rw [if_neg (by decide), if_neg (by decide), if_neg (by decide), if_pos trivial]

theorem integrated_state {lib : Sgp4Lib} {rd : Reader} {file : File} {step jd mu : ℝ} {sec : String} :
    (if text rd file sec "propagate_mode" = "ENCKE".toList then enckeMotor lib rd file (file sec.toList) step jd mu
       else rk4Motor lib rd file step jd mu).position = (initializePosVel rd file jd mu "ORBIT".toList).1 ∧
    (if text rd file sec "propagate_mode" = "ENCKE".toList then enckeMotor lib rd file (file sec.toList) step jd mu
       else rk4Motor lib rd file step jd mu).velocity = (initializePosVel rd file jd mu "ORBIT".toList).2 := by
  split_ifs
  · constructor
    · funext i
      simp [enckeMotor, Motor.position, Encke.new, Encke.init, Encke.updateSatOrbit, vadd, defaultSection]
    · funext i
      simp [enckeMotor, Motor.velocity, Encke.new, Encke.init, Encke.updateSatOrbit, vadd, defaultSection]
  · exact ⟨rfl, rfl⟩

/-! ## C157: start -/

/-- **C157 (position and velocity).** In the modes RK4 and ENCKE, and for every text that is not a mode, the spacecraft starts exactly at the inertial
position and velocity of the section `[ORBIT]`, unless `initialize_mode` of that section is `ORBITAL_ELEMENTS`. A text that is not a mode gives an RK4 orbit. -/
theorem C157_state (lib : Sgp4Lib) (rd : Reader) (w : World) (g : Vec 3) (file : File) (step jd mu : ℝ) (sec : String) (o : Orbit lib)
    (h : initOrbit lib rd w g file step jd mu sec.toList = .ok o) (hm : Integrated rd file sec)
    (hi : text rd file "ORBIT" "initialize_mode" ≠ "ORBITAL_ELEMENTS".toList) (p v : Fin 3 → ℝ) (hg : GivesState rd file "ORBIT" p v) :
    o.motor.position = p ∧ o.motor.velocity = v ∧
    (if text rd file sec "propagate_mode" = "ENCKE".toList then ∃ s, o.motor = .encke s else ∃ s, o.motor = .rk4 s) := by
  obtain ⟨m, e, h1, _, rfl⟩ := initOrbit_ok h
  rw [choose_integrated hm] at h1
  obtain rfl := Res.ok.inj h1
  have hs := integrated_state (lib := lib) (rd := rd) (file := file) (step := step) (jd := jd) (mu := mu) (sec := sec)
  have hpv : initializePosVel rd file jd mu "ORBIT".toList = (p, v) := by
    obtain ⟨e1, e2⟩ := vec3_position hg
    have : setOrbitInitializeMode (readString rd.paths (file "ORBIT".toList) "initialize_mode".toList) ≠ .orbitalElements :=
      fun hh => hi ((mode_elements _).mp hh)
    unfold initializePosVel
    split
    · contradiction
    · rw [e1, e2]
  refine ⟨?_, ?_, ?_⟩
  · simp only [setEnabled_position]; rw [hs.1, hpv]
  · simp only [setEnabled_velocity]; rw [hs.2, hpv]
  · split_ifs with hc
    · exact ⟨_, rfl⟩
    · exact ⟨_, rfl⟩

/-- **C157 (elements).** The spacecraft starts on the two-body motion with the given elements, to 2·10⁻⁵ of the semi-major axis, for eccentricities up to
1/4: in RK4, ENCKE and unknown modes when `[ORBIT]` says `ORBITAL_ELEMENTS` (elements of `[ORBIT]`), in KEPLER mode for every initialize mode but
`POSITION_VELOCITY_I` (elements of the named section). -/
theorem C157_elements (lib : Sgp4Lib) (rd : Reader) (w : World) (g : Vec 3) (file : File) (step jd mu : ℝ) (sec : String) (o : Orbit lib)
    (h : initOrbit lib rd w g file step jd mu sec.toList = .ok o) (oe : OrbitalElements)
    (hm : (Integrated rd file sec ∧ text rd file "ORBIT" "initialize_mode" = "ORBITAL_ELEMENTS".toList ∧ GivesElements rd file "ORBIT" oe) ∨
      (text rd file sec "propagate_mode" = "KEPLER".toList ∧ text rd file sec "initialize_mode" ≠ "POSITION_VELOCITY_I".toList ∧
        GivesElements rd file sec oe)) :
    (o.motor.position = Kepler.position mu oe jd ∧ o.motor.velocity = Kepler.velocity mu oe jd) ∧
    (Elliptic mu oe → oe.eccentricity ≤ 1 / 4 → ∀ R V, Motion mu R V → StartsAtPerigee mu oe R V →
      len (o.motor.position - R ((jd - oe.epochJday) * 86400)) ≤ 2 / 100000 * oe.semiMajorAxis ∧
      len (o.motor.velocity - V ((jd - oe.epochJday) * 86400)) ≤ 6 / 100000 * Real.sqrt (mu / oe.semiMajorAxis)) := by
  have key : o.motor.position = Kepler.position mu oe jd ∧ o.motor.velocity = Kepler.velocity mu oe jd := by
    obtain ⟨m, e, h1, _, rfl⟩ := initOrbit_ok h
    simp only [setEnabled_position, setEnabled_velocity]
    rcases hm with ⟨hm, hi, hg⟩ | ⟨hm, hi, hg⟩
    · rw [choose_integrated hm] at h1
      obtain rfl := Res.ok.inj h1
      have hs := integrated_state (lib := lib) (rd := rd) (file := file) (step := step) (jd := jd) (mu := mu) (sec := sec)
      have hpv : initializePosVel rd file jd mu "ORBIT".toList = (Kepler.position mu oe jd, Kepler.velocity mu oe jd) := by
        have : setOrbitInitializeMode (readString rd.paths (file "ORBIT".toList) "initialize_mode".toList) = .orbitalElements :=
          (mode_elements _).mpr hi
        unfold initializePosVel
        rw [this]
        simp only [elements_eq hg]
      rw [hs.1, hs.2, hpv]
      exact ⟨rfl, rfl⟩
    · rw [choose_kepler hm] at h1
      obtain rfl := Res.ok.inj h1
      have : setOrbitInitializeMode (text rd file sec "initialize_mode") ≠ .inertialPositionAndVelocity := fun hh => hi ((mode_state _).mp hh)
      simp only [keplerMotor, if_neg this, elements_eq hg]
      exact ⟨rfl, rfl⟩
  refine ⟨key, fun he hq R V hM hS => ?_⟩
  rw [key.1, key.2]
  exact C91_follows mu oe he hq R V hM hS jd

/-- **C157 (KEPLER from position and velocity).** In KEPLER mode with `POSITION_VELOCITY_I`, for an elliptic state of the named section whose node lies ahead
(C92) and whose eccentricity is at most 1/4, the spacecraft starts within 2·10⁻⁵ semi-major axes of the given position, and every later `Propagate` that
returns leaves it that close to the two-body motion through the given position and velocity. -/
theorem C157_kepler_state (lib : Sgp4Lib) (rd : Reader) (w : World) (g : Vec 3) (file : File) (step jd mu : ℝ) (sec : String) (o : Orbit lib)
    (h : initOrbit lib rd w g file step jd mu sec.toList = .ok o) (hm : text rd file sec "propagate_mode" = "KEPLER".toList)
    (hi : text rd file sec "initialize_mode" = "POSITION_VELOCITY_I".toList) (p v : Fin 3 → ℝ) (hg : GivesState rd file sec p v)
    (hmu : 0 < mu) (hne : cross p v ≠ 0) (hE : dot v v < 2 * mu / len p) (hn : NodeAhead (cross p v))
    (hq : (calcOeFromPosVel mu jd p v).eccentricity ≤ 1 / 4) (R V : ℝ → Fin 3 → ℝ) (hM : Motion mu R V) (hR : R 0 = p) (hV : V 0 = v) :
    len (o.motor.position - p) ≤ 2 / 100000 * (calcOeFromPosVel mu jd p v).semiMajorAxis ∧
    ∀ w' endTime jd' o', o.motor.enabled = true → o.propagate w' endTime jd' = .ok o' →
      len (o'.motor.position - R ((jd' - jd) * 86400)) ≤ 2 / 100000 * (calcOeFromPosVel mu jd p v).semiMajorAxis := by
  obtain ⟨m, e, h1, _, rfl⟩ := initOrbit_ok h
  rw [choose_kepler hm] at h1
  obtain rfl := Res.ok.inj h1
  obtain ⟨e1, e2⟩ := vec3_position hg
  simp only [setEnabled_position, setEnabled_enabled]
  simp only [keplerMotor, if_pos ((mode_state _).mpr hi), e1, e2]
  constructor
  · have := C92_round_trip mu jd p v hmu hne hE hn hq R V hM hR hV 0
    rw [hR, zero_div, add_zero] at this
    exact this
  · intro w' endTime jd' o' hen ho
    have := C92_round_trip mu jd p v hmu hne hE hn hq R V hM hR hV ((jd' - jd) * 86400)
    rw [mul_div_cancel_right₀ _ (by norm_num : (86400 : ℝ) ≠ 0), add_sub_cancel] at this
    unfold Orbit.propagate at ho
    simp only [setEnabled_enabled, hen, if_true] at ho
    simp only [Motor.setEnabled, Motor.propagate] at ho
    generalize hmm : (Motor.kepler _ : Motor lib) = mm at ho
    rcases h2 : finish w' mm with r | _ | _ | _ <;> rw [h2] at ho <;> simp only [Res.bind, reduceCtorEq] at ho
    obtain rfl := Res.ok.inj ho
    obtain ⟨e3, _⟩ := finish_ok h2
    simp only [e3, ← hmm]
    exact this

/-- **C157 (DEFAULT means two things).** With the initialize mode `DEFAULT`, a missing one, or any unknown one, an RK4 or ENCKE orbit starts at the position of
the file, a KEPLER orbit at the point given by the elements of the same file: two spacecraft whose settings differ only in the propagation mode start at
different places unless the file says the same thing twice. -/
theorem C157_default (lib : Sgp4Lib) (rd : Reader) (w : World) (g : Vec 3) (file file' : File) (step jd mu : ℝ) (o o' : Orbit lib)
    (hd : text rd file "ORBIT" "initialize_mode" ≠ "ORBITAL_ELEMENTS".toList ∧ text rd file "ORBIT" "initialize_mode" ≠ "POSITION_VELOCITY_I".toList)
    (hsame : ∀ key, key ≠ "propagate_mode" → file' "ORBIT".toList key.toList = file "ORBIT".toList key.toList)
    (h : initOrbit lib rd w g file step jd mu "ORBIT".toList = .ok o) (h' : initOrbit lib rd w g file' step jd mu "ORBIT".toList = .ok o')
    (hm : Integrated rd file "ORBIT") (hm' : text rd file' "ORBIT" "propagate_mode" = "KEPLER".toList)
    (p v : Fin 3 → ℝ) (hg : GivesState rd file "ORBIT" p v) (oe : OrbitalElements) (he : GivesElements rd file "ORBIT" oe) :
    o.motor.position = p ∧ o.motor.velocity = v ∧ o'.motor.position = Kepler.position mu oe jd ∧ o'.motor.velocity = Kepler.velocity mu oe jd := by
  obtain ⟨a1, a2, _⟩ := C157_state lib rd w g file step jd mu "ORBIT" o h hm hd.1 p v hg
  have hnum : ∀ key, key ≠ "propagate_mode" → number rd file' "ORBIT" key = number rd file "ORBIT" key := by
    intro key hk
    simp only [number, hsame key hk]
  have he' : GivesElements rd file' "ORBIT" oe := by
    refine ⟨?_, ?_, ?_, ?_, ?_, ?_⟩ <;> rw [hnum _ (by decide)]
    · exact he.a
    · exact he.e
    · exact he.i
    · exact he.raan
    · exact he.arg
    · exact he.epoch
  have hi' : text rd file' "ORBIT" "initialize_mode" ≠ "POSITION_VELOCITY_I".toList := by
    have : text rd file' "ORBIT" "initialize_mode" = text rd file "ORBIT" "initialize_mode" := by
      simp only [text, readString, hsame "initialize_mode" (by decide)]
    rw [this]; exact hd.2
  obtain ⟨⟨b1, b2⟩, _⟩ := C157_elements lib rd w g file' step jd mu "ORBIT" o' h' oe (Or.inr ⟨hm', hi', he'⟩)
  exact ⟨a1, a2, b1, b2⟩

theorem updateFromEcef_zero : ∃ g, (∀ fuel, 1 ≤ fuel → updateFromEcef fuel (0 : Vec 3) = .ok g) ∧ g.altitude < 0 := by
  obtain ⟨lon, k, l1, _⟩ := (fMod2p_spec (3 * Real.pi / 2)).1 (by rw [abs_of_pos (by positivity)]; nlinarith [Real.pi_pos])
  have t0 : acTan 0 0 = 3 * Real.pi / 2 := by simp [acTan]
  set th : ℝ := 3 * Real.pi / 2 with hth
  have hs : Real.sin th = -1 := by
    rw [hth, show 3 * Real.pi / 2 = Real.pi / 2 + Real.pi by ring, Real.sin_add_pi, Real.sin_pi_div_two]
  have he : 0 < e2 := by rw [e2_val]; norm_num
  have hpos : 0 < earthRadius * curvature th * e2 := mul_pos (mul_pos earthRadius_pos (curvature_pos th)) he
  have hth1 : acTan (0 + earthRadius * curvature th * e2 * Real.sin th) 0 = th := by
    rw [hs]
    simp only [acTan, if_true]
    rw [if_neg (by linarith)]
  have hloop : ∀ fuel, 1 ≤ fuel → latLoop 0 0 fuel th = .ok (th, curvature th) := by
    intro fuel hf
    obtain ⟨m, rfl⟩ : ∃ m, fuel = m + 1 := ⟨fuel - 1, by omega⟩
    rw [latLoop]
    simp only [hth1, sub_self, abs_zero]
    rw [if_neg (by norm_num)]
  refine ⟨_, fun fuel hf => by
    simp only [updateFromEcef, Pi.zero_apply, mul_zero, add_zero, Real.sqrt_zero, t0, l1, Res.bind_ok, hloop fuel hf]
    rfl, ?_⟩
  change 0 / Real.cos th - curvature th * earthRadius < 0
  have := mul_pos (curvature_pos th) earthRadius_pos
  rw [zero_div]
  linarith

/-- **C157 (section).** The named section does not provide the start of an RK4, ENCKE or unknown orbit: in a file without a section `[ORBIT]` such an orbit starts
at the centre of the Earth, whatever the named section says, and the program ends. -/
theorem C157_section (lib : Sgp4Lib) (rd : Reader) (w : World) (g : Vec 3) (file : File) (step jd mu : ℝ) (sec : String)
    (hm : Integrated rd file sec) (hno : ∀ key, file "ORBIT".toList key = none) (hf : 1 ≤ w.fuel) :
    initOrbit lib rd w g file step jd mu sec.toList = .throws := by
  have hs := integrated_state (lib := lib) (rd := rd) (file := file) (step := step) (jd := jd) (mu := mu) (sec := sec)
  have hz : ∀ key, rd.vec3 (file "ORBIT".toList) key = 0 := by
    intro key
    funext i
    simp only [Reader.vec3, readDouble, hno, Pi.zero_apply]
  have hmode : setOrbitInitializeMode (readString rd.paths (file "ORBIT".toList) "initialize_mode".toList) = .default := by
    rw [(IniRead.C52_missing rd.paths rd.getReal (file "ORBIT".toList) "initialize_mode".toList (hno _)).1]
    decide +kernel
  have hpv : initializePosVel rd file jd mu "ORBIT".toList = (0, 0) := by
    unfold initializePosVel
    rw [hmode]
    simp only [hz]
  unfold initOrbit
  rw [choose_integrated hm]
  generalize hM : (if text rd file sec "propagate_mode" = "ENCKE".toList then enckeMotor lib rd file (file sec.toList) step jd mu
       else rk4Motor lib rd file step jd mu) = m at hs ⊢
  rw [hpv] at hs
  obtain ⟨gg, hg1, hg2⟩ := updateFromEcef_zero
  have ht : transform w m.position m.velocity = .throws := by
    have : ecefPosition w.dcm (0 : Vec 3) = 0 := by
      funext i; simp [ecefPosition, matVec]
    rw [hs.1]
    unfold transform
    simp only [this, hg1 w.fuel hf, Res.bind_ok, if_pos hg2]
  have hfin : finish w m = .throws := by
    have hnf : ∀ c s, m ≠ .file c s := by
      intro c s
      rw [← hM]
      split_ifs <;> simp [enckeMotor, rk4Motor]
    unfold finish
    split
    · exact absurd rfl (hnf _ _)
    · rw [ht]; rfl
  simp only [Res.bind, hfin]

/-- **C157 (RELATIVE).** A relative orbit starts at the reference spacecraft plus the relative position of the section, whose components are taken along the
reference's radius, along-track and orbit normal directions; the relative velocity is added to the reference's velocity in the same way. A reference that
is not registered raises an exception; without relative information the behaviour is undefined. The reference is the setting modulo 2³². -/
theorem C157_relative (lib : Sgp4Lib) (rd : Reader) (w : World) (g : Vec 3) (file : File) (step jd mu : ℝ) (sec : String)
    (hm : text rd file sec "propagate_mode" = "RELATIVE".toList) :
    (w.relatives = none → initOrbit lib rd w g file step jd mu sec.toList = .ub) ∧
    ∀ f, w.relatives = some f →
      (f (whole rd file sec "reference_satellite_id" % 2 ^ 32).toNat = none → initOrbit lib rd w g file step jd mu sec.toList = .throws) ∧
      ∀ P V, f (whole rd file sec "reference_satellite_id" % 2 ^ 32).toNat = some (P, V) → cross P V ≠ 0 →
        ∀ o, initOrbit lib rd w g file step jd mu sec.toList = .ok o → ∀ x u, GivesRelative rd file sec x u →
          ![dot (o.motor.position - P) P / len P, dot (o.motor.position - P) (cross (cross P V) P) / (len (cross P V) * len P),
            dot (o.motor.position - P) (cross P V) / len (cross P V)] = x ∧
          ![dot (o.motor.velocity - V) P / len P, dot (o.motor.velocity - V) (cross (cross P V) P) / (len (cross P V) * len P),
            dot (o.motor.velocity - V) (cross P V) / len (cross P V)] = u := by
  have hc : chooseMotor lib rd w file step jd mu sec.toList = relativeMotor lib rd (file sec.toList) step mu w := by
    unfold text at hm
    simp only [chooseMotor, hm]
    rw [if_neg (by decide), if_neg (by decide), if_pos trivial]
  have hid : rd.int (file sec.toList) "reference_satellite_id".toList = whole rd file sec "reference_satellite_id" := rfl
  refine ⟨fun hr => ?_, fun f hf => ⟨fun hn => ?_, fun P V hPV hne o ho x u hxu => ?_⟩⟩
  · unfold initOrbit
    simp only [hc, relativeMotor, reference, hr, Res.bind]
  · unfold initOrbit
    simp only [hc, relativeMotor, reference, hf, hid, hn, Res.bind]
  · obtain ⟨m, e, h1, _, rfl⟩ := initOrbit_ok ho
    obtain ⟨e1, e2⟩ := vec3_relative hxu
    simp only [hc, relativeMotor, reference, hf, hid, hPV, Res.bind, e1, e2] at h1
    obtain rfl := Res.ok.inj h1
    simp only [setEnabled_position, setEnabled_velocity]
    rw [← Rel.rtn_apply _ _ _ hne, ← Rel.rtn_apply _ _ _ hne]
    have hv : inertialVelocity P V u - V = inertialPosition P V u - P := by
      funext i
      simp [inertialVelocity, inertialPosition, vadd]
    have h2 := (C97_position P V u hne).1
    rw [← hv] at h2
    exact ⟨(C97_position P V x hne).1, h2⟩

/-- **C157 (SGP4).** An SGP4 orbit starts at the position and velocity of the SGP4 code for the minutes between the epoch of the two lines (the first 80
characters of `tle1` and `tle2`) and the start, in metres. A `wgs_setting` other than 0, 1, 2 makes the behaviour undefined. -/
theorem C157_sgp4 (lib : Sgp4Lib) (rd : Reader) (w : World) (g : Vec 3) (file : File) (step jd mu : ℝ) (sec : String)
    (hm : text rd file sec "propagate_mode" = "SGP4".toList) :
    (whole rd file sec "wgs_setting" ∉ ({0, 1, 2} : Finset ℤ) → initOrbit lib rd w g file step jd mu sec.toList = .ub) ∧
    ∀ o, initOrbit lib rd w g file step jd mu sec.toList = .ok o → ∃ wgs tle1 tle2,
      (wgs = match whole rd file sec "wgs_setting" with | 0 => Wgs.wgs72old | 1 => .wgs72 | _ => .wgs84) ∧
      tle1.length = 80 ∧ tle2.length = 80 ∧
      (text rd file sec "tle1").take 80 <+: tle1 ∧ (text rd file sec "tle2").take 80 <+: tle2 ∧
      ∀ i, o.motor.position i = 1000 * (lib.run wgs (lib.read wgs tle1 tle2) ((jd - lib.epoch (lib.read wgs tle1 tle2)) * 1440)).2.1 i ∧
        o.motor.velocity i = 1000 * (lib.run wgs (lib.read wgs tle1 tle2) ((jd - lib.epoch (lib.read wgs tle1 tle2)) * 1440)).2.2 i := by
  have hc : chooseMotor lib rd w file step jd mu sec.toList = sgp4Motor lib rd (file sec.toList) jd := by
    unfold text at hm
    simp only [chooseMotor, hm]
    rw [if_neg (by decide), if_pos trivial]
  have hid : rd.int (file sec.toList) "wgs_setting".toList = whole rd file sec "wgs_setting" := rfl
  have hlen : ∀ key, (readChar rd.paths (file sec.toList) key 80).length = 80 := by
    intro key
    simp only [readChar, List.length_append, List.length_take, List.length_replicate]
    omega
  constructor
  · intro hn
    have : wgsOf (whole rd file sec "wgs_setting") = none := by
      simp only [Finset.mem_insert, Finset.mem_singleton, not_or] at hn
      unfold wgsOf
      rw [if_neg hn.1, if_neg hn.2.1, if_neg hn.2.2]
    unfold initOrbit
    simp only [hc, sgp4Motor, hid, this, Res.bind]
  · intro o ho
    obtain ⟨m, e, h1, _, rfl⟩ := initOrbit_ok ho
    rw [hc, sgp4Motor, hid] at h1
    rcases h2 : wgsOf (whole rd file sec "wgs_setting") with _ | wgs <;> rw [h2] at h1 <;> simp only [reduceCtorEq] at h1
    obtain rfl := Res.ok.inj h1
    refine ⟨wgs, readChar rd.paths (file sec.toList) "tle1".toList 80, readChar rd.paths (file sec.toList) "tle2".toList 80, ?_, hlen _, hlen _,
      List.prefix_append _ _, List.prefix_append _ _, fun i => ?_⟩
    · unfold wgsOf at h2
      split_ifs at h2 with a b c
      · rw [a]; exact (Option.some.inj h2).symm
      · rw [b]; exact (Option.some.inj h2).symm
      · rw [c]; exact (Option.some.inj h2).symm
    · simp only [setEnabled_position, setEnabled_velocity]
      simp only [Motor.position, Motor.velocity, Sgp4.step, scale]
      norm_num

/-- **C157 (parameters of the propagators).** The propagator of an orbit is the one its section names, with the section's parameters: a relative orbit is
integrated if `relative_orbit_update_method` is 0 and otherwise uses a transition matrix, and it can be propagated only if the chosen model
(`relative_dynamics_model_type`, resp. `stm_model_type`) is 0 – otherwise the first propagation reads an uninitialised matrix; an ENCKE orbit is rectified
at `error_tolerance`; an orbit of a file interpolates the named file with the given number of points, method and period; every other mode but SGP4 and
KEPLER is integrated with RK4, with the step width and the gravity constant of the call. -/
theorem C157_parameters (lib : Sgp4Lib) (rd : Reader) (w : World) (g : Vec 3) (file : File) (step jd mu : ℝ) (sec : String) (o : Orbit lib)
    (h : initOrbit lib rd w g file step jd mu sec.toList = .ok o) :
    (text rd file sec "propagate_mode" = "RELATIVE".toList → ∃ s can, o.motor = .relative s (whole rd file sec "reference_satellite_id" % 2 ^ 32).toNat can ∧
      s.mu = mu ∧ s.step = step ∧ s.time = 0 ∧
      (s.method = .rk4 ↔ whole rd file sec "relative_orbit_update_method" = 0) ∧
      (can = true ↔ (whole rd file sec "relative_orbit_update_method" = 0 ∧ whole rd file sec "relative_dynamics_model_type" = 0 ∨
        whole rd file sec "relative_orbit_update_method" ≠ 0 ∧ whole rd file sec "stm_model_type" = 0)) ∧
      (can = false → o.motor.enabled = true → ∀ w' t jd', o.propagate w' t jd' = .ub)) ∧
    (text rd file sec "propagate_mode" = "ENCKE".toList → ∃ s, o.motor = .encke s ∧ s.tolerance = number rd file sec "error_tolerance" ∧
      s.mu = mu ∧ s.step = step ∧ s.time = 0) ∧
    (text rd file sec "propagate_mode" = "TIME_SERIES_FILE".toList → ∃ c s, o.motor = .file c s ∧
      c.rows = rd.rows (text rd file sec "time_series_file_path") ∧ c.number = (whole rd file sec "number_of_interpolation").toNat ∧
      c.method = whole rd file sec "interpolation_method" ∧ c.period = number rd file sec "orbital_period_correction_s") ∧
    (text rd file sec "propagate_mode" = "SGP4".toList → ∃ s, o.motor = .sgp4 s) ∧
    (text rd file sec "propagate_mode" = "KEPLER".toList → ∃ s, o.motor = .kepler s ∧ s.mu = mu) ∧
    (text rd file sec "propagate_mode" ∉ ["RELATIVE".toList, "ENCKE".toList, "TIME_SERIES_FILE".toList, "SGP4".toList, "KEPLER".toList] →
      ∃ s, o.motor = .rk4 s ∧ s.mu = mu ∧ s.step = step ∧ s.time = 0) := by
  have hid : ∀ key : String, rd.int (file sec.toList) key.toList = whole rd file sec key := fun _ => rfl
  obtain ⟨m, e, h1, _, rfl⟩ := initOrbit_ok h
  unfold text
  refine ⟨fun hm => ?_, fun hm => ?_, fun hm => ?_, fun hm => ?_, fun hm => ?_, fun hm => ?_⟩
  · have hc : chooseMotor lib rd w file step jd mu sec.toList = relativeMotor lib rd (file sec.toList) step mu w := by
      simp only [chooseMotor, hm]
      rw [if_neg (by decide), if_neg (by decide), if_pos trivial]
    rw [hc, relativeMotor] at h1
    rcases h2 : reference w (rd.int (file sec.toList) "reference_satellite_id".toList % 2 ^ 32).toNat with r | _ | _ | _ <;> rw [h2] at h1 <;>
      simp only [Res.bind, reduceCtorEq] at h1
    obtain rfl := Res.ok.inj h1
    simp only [hid]
    refine ⟨_, _, rfl, rfl, rfl, rfl, ?_, ?_, ?_⟩
    · by_cases hz : whole rd file sec "relative_orbit_update_method" = 0 <;> simp [Relative.new, hz]
    · by_cases hz : whole rd file sec "relative_orbit_update_method" = 0 <;> simp [hz]
    · intro hb hen w' t jd'
      unfold Orbit.propagate
      rw [if_pos hen]
      simp only [Motor.setEnabled, Motor.propagate, hb, Bool.false_eq_true, if_false, Res.bind]
  · have hc : chooseMotor lib rd w file step jd mu sec.toList = .ok (enckeMotor lib rd file (file sec.toList) step jd mu) := by
      simp only [chooseMotor, hm]
      rw [if_neg (by decide), if_neg (by decide), if_neg (by decide), if_neg (by decide), if_pos trivial]
    rw [hc] at h1
    obtain rfl := Res.ok.inj h1
    exact ⟨_, rfl, rfl, rfl, rfl, rfl⟩
  · have hc : chooseMotor lib rd w file step jd mu sec.toList = fileMotor lib rd (file sec.toList) jd := by
      simp only [chooseMotor, hm]
      rw [if_neg (by decide), if_neg (by decide), if_neg (by decide), if_neg (by decide), if_neg (by decide), if_pos trivial]
    rw [hc, fileMotor] at h1
    generalize hC : TimeSeries.Config.mk _ _ _ _ = c at h1
    rcases h2 : TimeSeries.construct c jd with s | _ | _ | _ <;> rw [h2] at h1 <;> simp only [Res.bind, reduceCtorEq] at h1
    obtain rfl := Res.ok.inj h1
    subst hC
    exact ⟨_, _, rfl, rfl, rfl, rfl, rfl⟩
  · have hc : chooseMotor lib rd w file step jd mu sec.toList = sgp4Motor lib rd (file sec.toList) jd := by
      simp only [chooseMotor, hm]
      rw [if_neg (by decide), if_pos trivial]
    rw [hc, sgp4Motor] at h1
    rcases h2 : wgsOf (rd.int (file sec.toList) "wgs_setting".toList) with _ | wgs <;> rw [h2] at h1 <;> simp only [reduceCtorEq] at h1
    obtain rfl := Res.ok.inj h1
    exact ⟨_, rfl⟩
  · rw [choose_kepler (by exact hm)] at h1
    obtain rfl := Res.ok.inj h1
    exact ⟨_, rfl, rfl⟩
  · simp only [List.mem_cons, List.not_mem_nil, or_false, not_or] at hm
    rw [choose_integrated ⟨hm.2.2.2.1, hm.1, hm.2.2.2.2, hm.2.2.1⟩, if_neg (by exact hm.2.1)] at h1
    obtain rfl := Res.ok.inj h1
    exact ⟨_, rfl, rfl, rfl, rfl⟩

/-- **C157 (flags).** The calculation is enabled, and the log is written, exactly if the settings `calculation` and `logging` of the named section are
`ENABLE` or `1`; an orbit starts with the Earth-fixed state of its start and with an altitude that is not negative. -/
theorem C157_flags (lib : Sgp4Lib) (rd : Reader) (w : World) (g : Vec 3) (file : File) (step jd mu : ℝ) (sec : String) (o : Orbit lib)
    (h : initOrbit lib rd w g file step jd mu sec.toList = .ok o) :
    (o.motor.enabled = true ↔ text rd file sec "calculation" = "ENABLE".toList ∨ text rd file sec "calculation" = "1".toList) ∧
    (o.logging = true ↔ text rd file sec "logging" = "ENABLE".toList ∨ text rd file sec "logging" = "1".toList) := by
  obtain ⟨m, e, h1, _, rfl⟩ := initOrbit_ok h
  have key : ∀ k : String, readEnable rd.paths (file sec.toList) k.toList = true ↔
      text rd file sec k = "ENABLE".toList ∨ text rd file sec k = "1".toList := by
    intro k
    unfold readEnable text
    split_ifs <;> simp_all
  simp only [setEnabled_enabled]
  exact ⟨key _, key _⟩

/-! ## C158: Kepler propagation -/

/-- A call of the public interface of an orbit: `Propagate` (in some surroundings), `SetIsCalcEnabled`, and a change of the disturbing acceleration
(`SetAcceleration_i_m_s2`, `AddForce_i_N`, `AddAcceleration_i_m_s2`, `AddForce_b_N` all end in some value of it). -/
inductive Call where
  | propagate (w : World) (endTime jd : ℝ)
  | enable (b : Bool)
  | accelerate (a : Vec 3)

/-- One call. -/
noncomputable def Orbit.call {lib : Sgp4Lib} (o : Orbit lib) : Call → Res (Orbit lib)
  | .propagate w e jd => o.propagate w e jd
  | .enable b => .ok { o with motor := o.motor.setEnabled b }
  | .accelerate a => .ok { o with motor := o.motor.setAcceleration a }

/-- A history of calls. -/
noncomputable def Orbit.calls {lib : Sgp4Lib} (o : Orbit lib) : List Call → Res (Orbit lib)
  | [] => .ok o
  | c :: l => (o.call c).bind fun o => o.calls l

/-- The Julian date of the last `Propagate` at which the calculation was enabled; `t` if there is none. `b`: enabled at the beginning. -/
def lastDate : List Call → Bool → ℝ → ℝ
  | [], _, t => t
  | .propagate _ _ jd :: l, b, t => lastDate l b (if b then jd else t)
  | .enable b' :: l, _, t => lastDate l b' t
  | .accelerate _ :: l, b, t => lastDate l b t

theorem kepler_calls {lib : Sgp4Lib} (mu : ℝ) (oe : OrbitalElements) (l : List Call) : ∀ (o o' : Orbit lib) (b : Bool) (t : ℝ),
    o.motor = .kepler ⟨mu, oe, Kepler.position mu oe t, Kepler.velocity mu oe t, b⟩ → o.calls l = .ok o' →
    ∃ b', o'.motor = .kepler ⟨mu, oe, Kepler.position mu oe (lastDate l b t), Kepler.velocity mu oe (lastDate l b t), b'⟩ := by
  induction l with
  | nil =>
    intro o o' b t h ho
    obtain rfl := Res.ok.inj ho
    exact ⟨b, h⟩
  | cons c l ih =>
    intro o o' b t h ho
    cases c with
    | propagate w e jd =>
      simp only [Orbit.calls, Orbit.call, Orbit.propagate, h, Motor.enabled] at ho
      cases b with
      | false =>
        simp only [Bool.false_eq_true, if_false, Res.bind] at ho
        simpa [lastDate] using ih o o' false t h ho
      | true =>
        simp only [if_true, Motor.propagate] at ho
        generalize hmm : (Motor.kepler _ : Motor lib) = mm at ho
        rcases h2 : finish w mm with r | _ | _ | _ <;> rw [h2] at ho <;> simp only [Res.bind, reduceCtorEq] at ho
        obtain ⟨e3, _⟩ := finish_ok h2
        have := ih _ o' true jd (by simp only [e3, ← hmm, KeplerProp.updateState]) ho
        simpa [lastDate] using this
    | enable b' =>
      simp only [Orbit.calls, Orbit.call, Res.bind] at ho
      exact ih _ o' b' t (by simp only [h, Motor.setEnabled]) ho
    | accelerate a =>
      simp only [Orbit.calls, Orbit.call, Res.bind] at ho
      exact ih _ o' b t (by simp only [h, Motor.setAcceleration]) ho

/-- **C158.** After any history of calls on a KEPLER orbit that `InitOrbit` has made, position and velocity are those of the two-body motion with the elements of
the settings at the date of the last `Propagate` with the calculation enabled (the start, if there is none): they depend neither on the dates and end times
of the other calls, nor on forces and accelerations. For eccentricities up to 1/4 this is the exact two-body motion to 2·10⁻⁵ semi-major axes, after any number
of calls. -/
theorem C158_history (lib : Sgp4Lib) (rd : Reader) (w : World) (g : Vec 3) (file : File) (step jd mu : ℝ) (sec : String) (o o' : Orbit lib)
    (h : initOrbit lib rd w g file step jd mu sec.toList = .ok o) (hm : text rd file sec "propagate_mode" = "KEPLER".toList)
    (hi : text rd file sec "initialize_mode" ≠ "POSITION_VELOCITY_I".toList) (oe : OrbitalElements) (hg : GivesElements rd file sec oe)
    (l : List Call) (hl : o.calls l = .ok o') :
    (o'.motor.position = Kepler.position mu oe (lastDate l o.motor.enabled jd) ∧
      o'.motor.velocity = Kepler.velocity mu oe (lastDate l o.motor.enabled jd)) ∧
    (Elliptic mu oe → oe.eccentricity ≤ 1 / 4 → ∀ R V, Motion mu R V → StartsAtPerigee mu oe R V →
      len (o'.motor.position - R ((lastDate l o.motor.enabled jd - oe.epochJday) * 86400)) ≤ 2 / 100000 * oe.semiMajorAxis ∧
      len (o'.motor.velocity - V ((lastDate l o.motor.enabled jd - oe.epochJday) * 86400)) ≤ 6 / 100000 * Real.sqrt (mu / oe.semiMajorAxis)) := by
  have key : o'.motor.position = Kepler.position mu oe (lastDate l o.motor.enabled jd) ∧
      o'.motor.velocity = Kepler.velocity mu oe (lastDate l o.motor.enabled jd) := by
    obtain ⟨m, e, h1, _, rfl⟩ := initOrbit_ok h
    rw [choose_kepler hm] at h1
    obtain rfl := Res.ok.inj h1
    have hmode : setOrbitInitializeMode (text rd file sec "initialize_mode") ≠ .inertialPositionAndVelocity := fun hh => hi ((mode_state _).mp hh)
    obtain ⟨b', hb⟩ := kepler_calls mu oe l _ o' (readEnable rd.paths (file sec.toList) "calculation".toList) jd (by
      simp only [keplerMotor, if_neg hmode, elements_eq hg, KeplerProp.updateState, Motor.setEnabled]) hl
    simp only [setEnabled_enabled, hb]
    exact ⟨rfl, rfl⟩
  refine ⟨key, fun he hq R V hM hS => ?_⟩
  rw [key.1, key.2]
  exact C91_follows mu oe he hq R V hM hS _

/-! ## C159: the surface of the Earth -/

/-- The Earth-fixed state belongs to the inertial state. -/
structure Consistent {lib : Sgp4Lib} (dcm : Mat 3 3) (o : Orbit lib) : Prop where
  position : o.earth.position = ecefPosition dcm o.motor.position
  velocity : o.earth.velocity = ecefVelocity dcm o.motor.position o.motor.velocity
  altitude : 0 ≤ o.earth.geodetic.altitude

theorem transform_ok {w : World} {p v : Vec 3} {e : Earth} (h : transform w p v = .ok e) :
    e.position = ecefPosition w.dcm p ∧ e.velocity = ecefVelocity w.dcm p v ∧ updateFromEcef w.fuel (ecefPosition w.dcm p) = .ok e.geodetic ∧
      0 ≤ e.geodetic.altitude := by
  unfold transform at h
  simp only [bind] at h
  rcases h1 : updateFromEcef w.fuel (ecefPosition w.dcm p) with g | _ | _ | _ <;> rw [h1] at h <;> simp only [Res.bind, reduceCtorEq] at h
  split_ifs at h with h2
  obtain rfl := Res.ok.inj h
  exact ⟨rfl, rfl, rfl, not_lt.mp h2⟩

theorem motor_propagate_ok {lib : Sgp4Lib} {w : World} {endTime jd : ℝ} {m : Motor lib} {r : Motor lib × Earth}
    (h : m.propagate w endTime jd = .ok r) : transform w r.1.position r.1.velocity = .ok r.2 := by
  have fin : ∀ m', finish w m' = .ok r → transform w r.1.position r.1.velocity = .ok r.2 := by
    intro m' h'
    obtain ⟨e1, e2⟩ := finish_ok h'
    rw [e1]; exact e2
  cases m with
  | rk4 s =>
    simp only [Motor.propagate] at h
    rcases h1 : s.propagate w.fuel endTime with s1 | _ | _ | _ <;> rw [h1] at h <;> simp only [Res.bind, reduceCtorEq] at h
    exact fin _ h
  | sgp4 s => exact fin (.sgp4 (s.step jd)) h
  | relative s id b =>
    simp only [Motor.propagate] at h
    split_ifs at h
    rcases h1 : reference w id with q | _ | _ | _ <;> rw [h1] at h <;> simp only [Res.bind, reduceCtorEq] at h
    rcases h2 : s.propagate w.fuel endTime q.1 q.2 with s1 | _ | _ | _ <;> rw [h2] at h <;> simp only [reduceCtorEq] at h
    exact fin _ h
  | kepler s => exact fin (.kepler (s.updateState jd)) h
  | encke s =>
    simp only [Motor.propagate] at h
    generalize (if calcNorm s.diffPosition / calcNorm s.position > s.tolerance then
      (transform w (s.rectify jd).position (s.rectify jd).velocity).bind fun _ => .ok () else Res.ok ()) = x at h
    rcases x with _ | _ | _ | _ <;> simp only [Res.bind, reduceCtorEq] at h
    rcases h1 : s.propagate w.fuel endTime jd with s1 | _ | _ | _ <;> rw [h1] at h <;> simp only [reduceCtorEq] at h
    exact fin _ h
  | file c s =>
    simp only [Motor.propagate] at h
    rcases h1 : TimeSeries.propagate c s jd with s1 | _ | _ | _ <;> rw [h1] at h <;> simp only [Res.bind, reduceCtorEq] at h
    exact fin _ h

/-- **C159 (returns above the ground).** Whatever the propagator: an `InitOrbit` that returns, and an enabled `Propagate` that returns, leaves the spacecraft
with the Earth-fixed position and velocity that belong to its inertial state, an altitude that is not negative and a position off the Earth's axis; the true
geodetic altitude is then above -10 µm. A disabled `Propagate` changes nothing. -/
theorem C159_returns (lib : Sgp4Lib) (w : World) (hf : 8 ≤ w.fuel) (o' : Orbit lib)
    (h : (∃ rd g file step jd mu sec, initOrbit lib rd w g file step jd mu sec = .ok o') ∨
      (∃ o : Orbit lib, ∃ e jd, o.motor.enabled = true ∧ o.propagate w e jd = .ok o')) :
    Consistent w.dcm o' ∧ ¬ (o'.earth.position 0 = 0 ∧ o'.earth.position 1 = 0) ∧
    ∀ lat lon alt, HasGeodetic earthRadius flattening o'.earth.position lat lon alt → |lat| < Real.pi / 2 → -(earthRadius / 4) ≤ alt → -1e-5 ≤ alt := by
  have ht : transform w o'.motor.position o'.motor.velocity = .ok o'.earth := by
    rcases h with ⟨rd, g, file, step, jd, mu, sec, h⟩ | ⟨o, e, jd, hen, h⟩
    · obtain ⟨m, e, h1, h2, rfl⟩ := initOrbit_ok h
      simpa using h2
    · unfold Orbit.propagate at h
      rw [if_pos hen] at h
      rcases h1 : o.motor.propagate w e jd with r | _ | _ | _ <;> rw [h1] at h <;> simp only [Res.bind, reduceCtorEq] at h
      obtain rfl := Res.ok.inj h
      exact motor_propagate_ok h1
  obtain ⟨e1, e2, e3, e4⟩ := transform_ok ht
  refine ⟨⟨e1, e2, e4⟩, fun hz => ?_, fun lat lon alt hg hlat halt => ?_⟩
  · rw [← e1] at e3
    have hv : o'.earth.position = ![0, 0, o'.earth.position 2] := by
      funext i; fin_cases i
      · exact hz.1
      · exact hz.2
      · rfl
    rw [hv] at e3
    by_cases hz2 : o'.earth.position 2 = 0
    · obtain ⟨gg, hg1, hg2⟩ := updateFromEcef_zero
      have h0 : (![0, 0, o'.earth.position 2] : Vec 3) = 0 := by
        rw [hz2]; funext i; fin_cases i <;> rfl
      rw [h0, hg1 _ (by omega)] at e3
      obtain rfl := Res.ok.inj e3
      linarith
    · obtain ⟨gg, hg1, _, hg2⟩ := C98_pole _ hz2
      rw [hg1 _ (by omega)] at e3
      obtain rfl := Res.ok.inj e3
      linarith
  · obtain ⟨gg, hg1, _, _, _, _, hg2⟩ := C98_accuracy _ lat lon alt hg hlat halt
    rw [← e1, hg1 _ hf] at e3
    obtain rfl := Res.ok.inj e3
    have := (abs_le.mp hg2).2
    linarith

/-- **C159 (disabled).** A `Propagate` with the calculation disabled changes nothing, for every propagator. -/
theorem C159_disabled (lib : Sgp4Lib) (w : World) (e jd : ℝ) (o : Orbit lib) (h : o.motor.enabled = false) : o.propagate w e jd = .ok o := by
  simp [Orbit.propagate, h]

theorem transform_below {w : World} (hf : 8 ≤ w.fuel) {p : Vec 3} (v : Vec 3) {lat lon alt : ℝ}
    (hg : HasGeodetic earthRadius flattening (ecefPosition w.dcm p) lat lon alt) (hlat : |lat| < Real.pi / 2) (halt : -(earthRadius / 4) ≤ alt) :
    (alt < -1e-5 → transform w p v = .throws) ∧ (1e-5 ≤ alt → ∃ e, transform w p v = .ok e) := by
  obtain ⟨gg, hg1, _, _, _, _, hg2⟩ := C98_accuracy _ lat lon alt hg hlat halt
  obtain ⟨b1, b2⟩ := abs_le.mp hg2
  constructor
  · intro h
    unfold transform
    simp only [hg1 _ hf, Res.bind_ok]
    rw [if_pos (by linarith)]
  · intro h
    unfold transform
    simp only [hg1 _ hf, Res.bind_ok]
    rw [if_neg (by linarith)]
    exact ⟨_, rfl⟩

/-- **C159 (end below the ground).** An enabled `Propagate` of a KEPLER orbit ends the program when its new position lies more than 10 µm below the ellipsoid
(down to a quarter of the Earth's radius) or exactly on the Earth's axis, at any height; it returns when it lies more than 10 µm above and off the axis. -/
theorem C159_kepler (lib : Sgp4Lib) (w : World) (hf : 8 ≤ w.fuel) (e jd : ℝ) (o : Orbit lib) (s : KeplerProp) (ho : o.motor = .kepler s)
    (hen : s.enabled = true) :
    (∀ lat lon alt, HasGeodetic earthRadius flattening (ecefPosition w.dcm (Kepler.position s.mu s.oe jd)) lat lon alt → |lat| < Real.pi / 2 →
      -(earthRadius / 4) ≤ alt → (alt < -1e-5 → o.propagate w e jd = .throws) ∧ (1e-5 ≤ alt → ∃ o', o.propagate w e jd = .ok o')) ∧
    (∀ z, z ≠ 0 → ecefPosition w.dcm (Kepler.position s.mu s.oe jd) = ![0, 0, z] → o.propagate w e jd = .throws) := by
  have hp : o.propagate w e jd = (transform w (Kepler.position s.mu s.oe jd) (Kepler.velocity s.mu s.oe jd)).bind fun ee =>
      .ok { o with motor := .kepler (s.updateState jd), earth := ee } := by
    unfold Orbit.propagate
    rw [ho]
    simp only [Motor.enabled, hen, if_true, Motor.propagate, finish, Motor.position, Motor.velocity, KeplerProp.updateState]
    rcases transform w (Kepler.position s.mu s.oe jd) (Kepler.velocity s.mu s.oe jd) with _ | _ | _ | _ <;> rfl
  refine ⟨fun lat lon alt hg hlat halt => ⟨fun h => ?_, fun h => ?_⟩, fun z hz hzz => ?_⟩
  · rw [hp, (transform_below hf _ hg hlat halt).1 h]; rfl
  · obtain ⟨ee, he⟩ := (transform_below hf (Kepler.velocity s.mu s.oe jd) hg hlat halt).2 h
    rw [hp, he]
    exact ⟨_, rfl⟩
  · obtain ⟨gg, hg1, _, hg2⟩ := C98_pole z hz
    rw [hp]
    unfold transform
    simp only [hzz, hg1 _ (by omega : 1 ≤ w.fuel), Res.bind_ok]
    rw [if_pos (by linarith)]
    rfl

/-! ## C160: the state of a spacecraft after each step -/

/-- The dynamics of a spacecraft that can occur: after construction, and after every `Update` (with any flags, times and surroundings). `dcm`: the rotation of the
Earth when the Earth-fixed state was computed. -/
inductive Occurs {lib : Sgp4Lib} {A : Type} (propagateAttitude : Orbit lib → ℝ → A → Res A) (i2b : A → Quat) : Mat 3 3 → Dynamics lib A → Prop
  | init {rd w g file step jd mu sec initAttitude d} (h : Dynamics.init (initOrbit lib rd w g file step jd mu sec) initAttitude i2b = .ok d) :
      Occurs propagateAttitude i2b w.dcm d
  | update {dcm d w f1 f2 e jd d'} (h0 : Occurs propagateAttitude i2b dcm d) (h : d.update propagateAttitude i2b w f1 f2 e jd = .ok d') :
      Occurs propagateAttitude i2b (if f2 && d.orbit.motor.enabled then w.dcm else dcm) d'

/-- **C160.** After construction and after every `Update` of a spacecraft's dynamics, whichever of attitude and orbit are due, the velocity in the body frame is the
inertial velocity of that moment turned by the attitude of that moment, and the Earth-fixed position and velocity belong to the inertial state and the Earth
rotation of the last enabled orbit propagation; the altitude is not negative. -/
theorem C160_consistent (lib : Sgp4Lib) (A : Type) (propagateAttitude : Orbit lib → ℝ → A → Res A) (i2b : A → Quat) (dcm : Mat 3 3)
    (d : Dynamics lib A) (h : Occurs propagateAttitude i2b dcm d) :
    d.orbit.velocityB = (i2b d.attitude).frameConversion d.orbit.motor.velocity ∧ Consistent dcm d.orbit := by
  induction h with
  | @init rd w g file step jd mu sec initAttitude d h =>
    unfold Dynamics.init at h
    rcases h1 : initOrbit lib rd w g file step jd mu sec with o | _ | _ | _ <;> rw [h1] at h <;> simp only [Res.bind, reduceCtorEq] at h
    rcases h2 : initAttitude o with a | _ | _ | _ <;> rw [h2] at h <;> simp only [reduceCtorEq] at h
    obtain rfl := Res.ok.inj h
    obtain ⟨m, e, _, h3, rfl⟩ := initOrbit_ok h1
    obtain ⟨e1, e2, _, e4⟩ := transform_ok h3
    exact ⟨rfl, ⟨by simpa [Orbit.updateByAttitude] using e1, by simpa [Orbit.updateByAttitude] using e2, e4⟩⟩
  | @update dcm d w f1 f2 e jd d' h0 h ih =>
    unfold Dynamics.update at h
    generalize (if f1 = true then propagateAttitude d.orbit e d.attitude else Res.ok d.attitude) = x at h
    rcases x with a | _ | _ | _ <;> simp only [Res.bind, reduceCtorEq] at h
    have key : ∀ o : Orbit lib, (if f2 = true then d.orbit.propagate w e jd else .ok d.orbit) = .ok o →
        Consistent (if f2 && d.orbit.motor.enabled then w.dcm else dcm) o := by
      intro o ho
      cases f2 with
      | false =>
        obtain rfl := Res.ok.inj ho
        simpa using ih.2
      | true =>
        simp only [if_true] at ho
        unfold Orbit.propagate at ho
        by_cases hen : d.orbit.motor.enabled = true
        · rw [if_pos hen] at ho
          rcases h1 : d.orbit.motor.propagate w e jd with r | _ | _ | _ <;> rw [h1] at ho <;> simp only [Res.bind, reduceCtorEq] at ho
          obtain rfl := Res.ok.inj ho
          obtain ⟨e1, e2, _, e4⟩ := transform_ok (motor_propagate_ok h1)
          simp only [hen, Bool.and_self, if_true]
          exact ⟨e1, e2, e4⟩
        · rw [if_neg hen] at ho
          obtain rfl := Res.ok.inj ho
          simpa [hen] using ih.2
    generalize hx : (if f2 = true then d.orbit.propagate w e jd else Res.ok d.orbit) = x at h
    rcases x with o | _ | _ | _ <;> simp only [reduceCtorEq] at h
    obtain rfl := Res.ok.inj h
    obtain ⟨k1, k2, k3⟩ := key o hx
    exact ⟨rfl, ⟨k1, k2, k3⟩⟩

/-! ## Concrete cases -/

/-- A settings file: `[ORBIT]` with a propagation mode, position (7000 km, 0, 0), semi-major axis 7000 km, calculation enabled. -/
def exFile (mode : String) : File := fun sec key =>
  if sec = "ORBIT".toList then
    if key = "propagate_mode".toList then some mode.toList
    else if key = "initial_position_i_m(0)".toList then some "7000000".toList
    else if key = "semi_major_axis_m".toList then some "7000000".toList
    else if key = "calculation".toList then some "ENABLE".toList
    else none
  else none

/-- A reader that understands the file. -/
noncomputable def exReader : Reader where
  paths := ⟨[], [], []⟩
  getReal := fun s => if s = "7000000".toList then 7000000 else 0
  getInteger := fun _ => 0
  rows := fun _ => []

/-- Surroundings: the Earth not turned, no other spacecraft. -/
def exWorld : World := ⟨fun i j => if i = j then 1 else 0, none, 8⟩

theorem ex_transform (v : Vec 3) : ∃ e, transform exWorld ![7000000, 0, 0] v = .ok e := by
  have hp : ecefPosition exWorld.dcm ![7000000, 0, 0] = ![7000000, 0, 0] := by
    funext i
    fin_cases i <;> simp [ecefPosition, matVec, Fin.sum_univ_three, exWorld]
  refine (transform_below (w := exWorld) (by decide) v (lat := 0) (lon := 0) (alt := 7000000 - earthRadius) ?_ ?_ ?_).2 ?_
  · rw [hp]
    have ha := earthRadius_pos
    refine ⟨![earthRadius, 0, 0], ?_, ⟨1 / earthRadius, by positivity, ?_⟩, ?_⟩
    · simp [OnEllipsoid, ha.ne']
    · intro i
      fin_cases i
      · simp [direction]; field_simp
      · simp [direction]
      · simp [direction]
    · intro i
      fin_cases i <;> simp [direction]
  · simp [Real.pi_pos]
  · unfold earthRadius; norm_num
  · unfold earthRadius; norm_num

theorem ex_missing (mode key : String) (h : key ∉ ["propagate_mode", "initial_position_i_m(0)", "semi_major_axis_m", "calculation"]) :
    exFile mode "ORBIT".toList key.toList = none := by
  simp only [List.mem_cons, not_or, List.not_mem_nil, not_false_eq_true, and_true] at h
  have : ∀ k : String, key ≠ k → key.toList ≠ k.toList := fun k hk hh => hk (String.toList_inj.mp hh)
  unfold exFile
  rw [if_pos rfl, if_neg (this _ h.1), if_neg (this _ h.2.1), if_neg (this _ h.2.2.1), if_neg (this _ h.2.2.2)]

theorem ex_default (mode : String) : text exReader (exFile mode) "ORBIT" "initialize_mode" = "NULL".toList :=
  (IniRead.C52_missing exReader.paths exReader.getReal _ _ (ex_missing mode "initialize_mode" (by decide))).1

theorem ex_mode (mode : String) (h0 : ¬ "//".toList <:+: mode.toList) (h1 : ¬ "SETTINGS_DIR_FROM_EXE".toList <:+: mode.toList)
    (h2 : ¬ "EXT_LIB_DIR_FROM_EXE".toList <:+: mode.toList) (h3 : ¬ "CORE_DIR_FROM_EXE".toList <:+: mode.toList) :
    text exReader (exFile mode) "ORBIT" "propagate_mode" = mode.toList :=
  IniRead.C52_plain _ _ _ _ rfl h0 h1 h2 h3

theorem ex_state (mode : String) : GivesState exReader (exFile mode) "ORBIT" ![7000000, 0, 0] ![0, 0, 0] := by
  refine ⟨?_, ?_, ?_, ?_, ?_, ?_⟩
  · change _ = exReader.getReal "7000000".toList
    simp [exReader]
  all_goals (rw [number, ex_missing mode _ (by decide)]; simp)

theorem ex_elements (mode : String) : GivesElements exReader (exFile mode) "ORBIT" ⟨7000000, 0, 0, 0, 0, 0⟩ := by
  refine ⟨?_, ?_, ?_, ?_, ?_, ?_⟩
  · change _ = exReader.getReal "7000000".toList
    simp [exReader]
  all_goals (rw [number, ex_missing mode _ (by decide)])

theorem ex_position (mu : ℝ) : Kepler.position mu ⟨7000000, 0, 0, 0, 0, 0⟩ 0 = ![7000000, 0, 0] := by
  have hw : wrapTo2Pi 0 = 0 := (C90_wrap 0).2.2.2 le_rfl (by positivity)
  have hu : eccentricAnomaly mu ⟨7000000, 0, 0, 0, 0, 0⟩ 0 = 0 := by
    simp only [eccentricAnomaly, sub_zero, zero_mul, mul_zero, hw, solveKeplerNewtonMethod, newtonLoop]
    norm_num [hw]
  rw [Kepler.position, hu]
  funext i
  fin_cases i <;> simp [matVec, matMul, dcmInplaneToI, posInplane, makeRotationMatrixX, makeRotationMatrixZ, Fin.sum_univ_three]

theorem ex_rk4 (lib : Sgp4Lib) (mode : String) (hm : Integrated exReader (exFile mode) "ORBIT") (mu : ℝ) :
    ∃ o, initOrbit lib exReader exWorld 0 (exFile mode) 1 0 mu "ORBIT".toList = .ok o := by
  have hs := integrated_state (lib := lib) (rd := exReader) (file := exFile mode) (step := 1) (jd := 0) (mu := mu) (sec := "ORBIT")
  obtain ⟨e1, e2⟩ := vec3_position (ex_state mode)
  have hpv : (initializePosVel exReader (exFile mode) 0 mu "ORBIT".toList).1 = ![7000000, 0, 0] := by
    have hd := ex_default mode
    unfold text at hd
    unfold initializePosVel
    rw [hd]
    exact e1
  rw [hpv] at hs
  unfold initOrbit
  rw [choose_integrated hm]
  generalize hM : (if text exReader (exFile mode) "ORBIT" "propagate_mode" = "ENCKE".toList then
    enckeMotor lib exReader (exFile mode) (exFile mode "ORBIT".toList) 1 0 mu else rk4Motor lib exReader (exFile mode) 1 0 mu) = m at hs ⊢
  obtain ⟨ee, he⟩ := ex_transform m.velocity
  have hfin : finish exWorld m = .ok (m, ee) := by
    have hnf : ∀ c s, m ≠ .file c s := by
      intro c s
      rw [← hM]
      split_ifs <;> simp [enckeMotor, rk4Motor]
    unfold finish
    split
    · exact absurd rfl (hnf _ _)
    · rw [hs.1, he]; rfl
  simp only [Res.bind, hfin]
  exact ⟨_, rfl⟩

theorem ex_kepler (lib : Sgp4Lib) (mu : ℝ) :
    ∃ o, initOrbit lib exReader exWorld 0 (exFile "KEPLER") 1 0 mu "ORBIT".toList = .ok o ∧ o.motor.enabled = true := by
  have hm := ex_mode "KEPLER" (by decide +kernel) (by decide +kernel) (by decide +kernel) (by decide +kernel)
  have hd := ex_default "KEPLER"
  obtain ⟨ee, he⟩ := ex_transform (Kepler.velocity mu ⟨7000000, 0, 0, 0, 0, 0⟩ 0)
  have hen : readEnable exReader.paths (exFile "KEPLER" "ORBIT".toList) "calculation".toList = true := by decide +kernel
  unfold initOrbit
  rw [choose_kepler hm, hd]
  simp only [Res.bind, keplerMotor, if_neg (by decide : ¬ setOrbitInitializeMode "NULL".toList = .inertialPositionAndVelocity),
    elements_eq (ex_elements "KEPLER"), finish, KeplerProp.updateState, Motor.position, Motor.velocity, ex_position, he, hen]
  exact ⟨_, rfl, rfl⟩

/-- Non-vacuity of `C157_state`, `C157_parameters`, `C157_flags`, `C159_returns`: an RK4 orbit and one with an unknown mode. -/
example (lib : Sgp4Lib) : ∀ mode ∈ ["RK4", "ENCKE", "J2"], Integrated exReader (exFile mode) "ORBIT" ∧
    text exReader (exFile mode) "ORBIT" "initialize_mode" ≠ "ORBITAL_ELEMENTS".toList ∧
    GivesState exReader (exFile mode) "ORBIT" ![7000000, 0, 0] ![0, 0, 0] ∧
    ∃ o, initOrbit lib exReader exWorld 0 (exFile mode) 1 0 398600441800000 "ORBIT".toList = .ok o := by
  have key : ∀ mode : String, Integrated exReader (exFile mode) "ORBIT" → Integrated exReader (exFile mode) "ORBIT" ∧
    text exReader (exFile mode) "ORBIT" "initialize_mode" ≠ "ORBITAL_ELEMENTS".toList ∧
    GivesState exReader (exFile mode) "ORBIT" ![7000000, 0, 0] ![0, 0, 0] ∧
    ∃ o, initOrbit lib exReader exWorld 0 (exFile mode) 1 0 398600441800000 "ORBIT".toList = .ok o := by
    intro mode hm
    exact ⟨hm, by rw [ex_default]; decide, ex_state mode, ex_rk4 lib mode hm _⟩
  intro mode hmem
  apply key
  simp only [List.mem_cons, List.not_mem_nil, or_false] at hmem
  rcases hmem with rfl | rfl | rfl <;>
    (refine ⟨?_, ?_, ?_, ?_⟩ <;>
      (rw [ex_mode _ (by decide +kernel) (by decide +kernel) (by decide +kernel) (by decide +kernel)]; decide))

/-- Non-vacuity of `C157_elements`, `C157_default`, `C158_history`, `C159_kepler`: a circular KEPLER orbit with the default initialize mode. -/
example (lib : Sgp4Lib) : text exReader (exFile "KEPLER") "ORBIT" "propagate_mode" = "KEPLER".toList ∧
    text exReader (exFile "KEPLER") "ORBIT" "initialize_mode" ≠ "POSITION_VELOCITY_I".toList ∧
    GivesElements exReader (exFile "KEPLER") "ORBIT" ⟨7000000, 0, 0, 0, 0, 0⟩ ∧ Elliptic 398600441800000 ⟨7000000, 0, 0, 0, 0, 0⟩ ∧
    ∃ o : Orbit lib, ∃ o', initOrbit lib exReader exWorld 0 (exFile "KEPLER") 1 0 398600441800000 "ORBIT".toList = .ok o ∧
      o.calls [.accelerate 1, .enable false, .propagate exWorld 1 1, .enable true, .propagate exWorld 2 0] = .ok o' := by
  have hm := ex_mode "KEPLER" (by decide +kernel) (by decide +kernel) (by decide +kernel) (by decide +kernel)
  refine ⟨hm, by rw [ex_default]; decide, ex_elements _, ⟨by norm_num, by norm_num, le_rfl, by norm_num⟩, ?_⟩
  obtain ⟨o, ho, hen⟩ := ex_kepler lib 398600441800000
  obtain ⟨ee, he⟩ := ex_transform (Kepler.velocity 398600441800000 ⟨7000000, 0, 0, 0, 0, 0⟩ 0)
  have hk : ∃ s, o.motor = .kepler s ∧ s.mu = 398600441800000 ∧ s.oe = ⟨7000000, 0, 0, 0, 0, 0⟩ := by
    obtain ⟨m, e, h1, _, rfl⟩ := initOrbit_ok ho
    rw [choose_kepler hm, ex_default] at h1
    obtain rfl := Res.ok.inj h1
    refine ⟨_, rfl, rfl, ?_⟩
    exact elements_eq (ex_elements "KEPLER")
  obtain ⟨s, h1, h2, h3⟩ := hk
  suffices hs : ∃ o', o.calls [.accelerate 1, .enable false, .propagate exWorld 1 1, .enable true, .propagate exWorld 2 0] = .ok o' by
    obtain ⟨o', hs⟩ := hs
    exact ⟨o, o', ho, hs⟩
  simp only [Orbit.calls, Orbit.call, Orbit.propagate, h1, Motor.setAcceleration, Motor.setEnabled, Motor.enabled, Res.bind, Bool.false_eq_true, if_false,
    if_true, Motor.propagate, finish, KeplerProp.updateState, Motor.position, Motor.velocity, h2, h3, ex_position, he]
  exact ⟨_, rfl⟩

/-- Non-vacuity of `C157_kepler_state`: the hypotheses on the state, for an inclined orbit whose node lies ahead. -/
example : ∃ p v : Fin 3 → ℝ, cross p v ≠ 0 ∧ dot v v < 2 * 1 / len p ∧ NodeAhead (cross p v) := by
  refine ⟨![1, 0, 0], ![0, 4 / 5, 3 / 5], ?_, ?_, ?_⟩
  · intro h
    have := congrFun h 2
    simp [cross] at this
  · have : len ![1, 0, 0] = 1 := by simp [len]
    rw [this]
    simp [dot]
    norm_num
  · left
    constructor
    · have : Real.sqrt (cross ![1, 0, 0] ![0, 4 / 5, 3 / 5] 0 * cross ![1, 0, 0] ![0, 4 / 5, 3 / 5] 0 +
          cross ![1, 0, 0] ![0, 4 / 5, 3 / 5] 1 * cross ![1, 0, 0] ![0, 4 / 5, 3 / 5] 1) = 3 / 5 := by
        rw [Real.sqrt_eq_iff_mul_self_eq (by simp [cross]; norm_num) (by norm_num)]
        simp [cross]
      rw [this]
      norm_num
    · simp [cross]
      norm_num

/-- Non-vacuity of `C157_section`: the settings of the example in a section of another name. -/
example : Integrated exReader (fun sec key => if sec = "SAT1".toList then exFile "RK4" "ORBIT".toList key else none) "SAT1" ∧
    (∀ key, (fun sec key => if sec = "SAT1".toList then exFile "RK4" "ORBIT".toList key else none : File) "ORBIT".toList key = none) := by
  refine ⟨?_, fun key => if_neg (by decide)⟩
  have hm := ex_mode "RK4" (by decide +kernel) (by decide +kernel) (by decide +kernel) (by decide +kernel)
  have : text exReader (fun sec key => if sec = "SAT1".toList then exFile "RK4" "ORBIT".toList key else none) "SAT1" "propagate_mode" = "RK4".toList := hm
  refine ⟨?_, ?_, ?_, ?_⟩ <;> rw [this] <;> decide

/-- Non-vacuity of `C160_consistent`: construction and one update with a fixed attitude. -/
example (lib : Sgp4Lib) (q : Quat) : ∃ d : Dynamics lib Unit,
    Occurs (fun _ _ a => .ok a) (fun _ => q) exWorld.dcm d := by
  obtain ⟨o, ho, hen⟩ := ex_kepler lib 398600441800000
  have h1 : Dynamics.init (initOrbit lib exReader exWorld 0 (exFile "KEPLER") 1 0 398600441800000 "ORBIT".toList) (fun _ => .ok ()) (fun _ => q) =
      .ok ⟨(), o.updateByAttitude q⟩ := by rw [ho]; rfl
  have h2 : (⟨(), o.updateByAttitude q⟩ : Dynamics lib Unit).update (fun _ _ a => .ok a) (fun _ => q) exWorld true false 1 1 =
      .ok ⟨(), (o.updateByAttitude q).updateByAttitude q⟩ := rfl
  exact ⟨_, Occurs.update (Occurs.init h1) h2⟩

/-- Non-vacuity of `C157_relative`: a spacecraft that starts at its reference. -/
example (lib : Sgp4Lib) : let w : World := { exWorld with relatives := some fun id => if id = 0 then some (![7000000, 0, 0], ![0, 7500, 0]) else none }
    text exReader (exFile "RELATIVE") "ORBIT" "propagate_mode" = "RELATIVE".toList ∧
    cross ![7000000, 0, 0] ![0, 7500, 0] ≠ 0 ∧ GivesRelative exReader (exFile "RELATIVE") "ORBIT" ![0, 0, 0] ![0, 0, 0] ∧
    ∃ o, initOrbit lib exReader w 0 (exFile "RELATIVE") 1 0 398600441800000 "ORBIT".toList = .ok o := by
  intro w
  have hm := ex_mode "RELATIVE" (by decide +kernel) (by decide +kernel) (by decide +kernel) (by decide +kernel)
  have hne : cross ![7000000, 0, 0] ![0, 7500, 0] ≠ 0 := by
    intro h
    have := congrFun h 2
    simp [cross] at this
  have hg : GivesRelative exReader (exFile "RELATIVE") "ORBIT" ![0, 0, 0] ![0, 0, 0] := by
    refine ⟨?_, ?_, ?_, ?_, ?_, ?_⟩ <;> (rw [number, ex_missing "RELATIVE" _ (by decide)]; simp)
  refine ⟨hm, hne, hg, ?_⟩
  obtain ⟨e1, e2⟩ := vec3_relative hg
  have hc : chooseMotor lib exReader w (exFile "RELATIVE") 1 0 398600441800000 "ORBIT".toList =
      relativeMotor lib exReader (exFile "RELATIVE" "ORBIT".toList) 1 398600441800000 w := by
    unfold text at hm
    simp only [chooseMotor, hm]
    rw [if_neg (by decide), if_neg (by decide), if_pos trivial]
  have hid : exReader.int (exFile "RELATIVE" "ORBIT".toList) "reference_satellite_id".toList = 0 := by
    simp only [Reader.int, ex_missing "RELATIVE" "reference_satellite_id" (by decide)]
  have hpos : inertialPosition ![7000000, 0, 0] ![0, 7500, 0] ![0, 0, 0] = ![7000000, 0, 0] := by
    have h2 := (C97_position ![7000000, 0, 0] ![0, 7500, 0] ![0, 0, 0] hne).2
    have h0 : len ![0, 0, 0] = 0 := by simp [len]
    rw [h0] at h2
    by_contra hcon
    exact absurd h2 (len_pos (sub_ne_zero.mpr hcon)).ne'
  unfold initOrbit
  rw [hc]
  have hr : reference w ((0 : ℤ) % 2 ^ 32).toNat = .ok (![7000000, 0, 0], ![0, 7500, 0]) := rfl
  obtain ⟨ee, he⟩ := ex_transform (inertialVelocity ![7000000, 0, 0] ![0, 7500, 0] ![0, 0, 0])
  have he' : transform w ![7000000, 0, 0] (inertialVelocity ![7000000, 0, 0] ![0, 7500, 0] ![0, 0, 0]) = .ok ee := he
  simp only [relativeMotor, hid, hr, e1, e2, Res.bind, finish, Motor.position, Motor.velocity, Relative.new, hpos, he']
  exact ⟨_, rfl⟩

/-- Non-vacuity of `C157_sgp4`: an SGP4 code that always answers (7000 km, 0, 0). -/
example : let lib : Sgp4Lib := ⟨Unit, fun _ _ _ => (), fun _ => 0, fun _ _ _ => ((), ![7000, 0, 0], 0)⟩
    text exReader (exFile "SGP4") "ORBIT" "propagate_mode" = "SGP4".toList ∧
    ∃ o, initOrbit lib exReader exWorld 0 (exFile "SGP4") 1 0 398600441800000 "ORBIT".toList = .ok o := by
  intro lib
  have hm := ex_mode "SGP4" (by decide +kernel) (by decide +kernel) (by decide +kernel) (by decide +kernel)
  refine ⟨hm, ?_⟩
  have hc : chooseMotor lib exReader exWorld (exFile "SGP4") 1 0 398600441800000 "ORBIT".toList =
      sgp4Motor lib exReader (exFile "SGP4" "ORBIT".toList) 0 := by
    unfold text at hm
    simp only [chooseMotor, hm]
    rw [if_neg (by decide), if_pos trivial]
  have hid : exReader.int (exFile "SGP4" "ORBIT".toList) "wgs_setting".toList = 0 := by
    simp only [Reader.int, ex_missing "SGP4" "wgs_setting" (by decide)]
  have hpos : scale 1000 (![7000, 0, 0] : Vec 3) = ![7000000, 0, 0] := by
    funext i; fin_cases i <;> norm_num [scale]
  obtain ⟨ee, he⟩ := ex_transform (scale 1000 0)
  unfold initOrbit
  rw [hc]
  simp only [sgp4Motor, hid, wgsOf, if_true, Res.bind, finish, Motor.position, Motor.velocity, Sgp4.step, lib, hpos, he]
  exact ⟨_, rfl⟩

end S2E.InitOrbit
