import Verif.Spec.LogComponents
import Verif.Props.LogColumns
/-! # C199: the columns of the components, by name -/
namespace S2E.LogComponents
open S2E.Log S2E.LogProps S2E.Csv S2E.Ini S2E.LogColumns

variable {fmt : ℕ → ℝ → Str}

theorem head_eq (k : Kind) : head k = title k := by
  cases k
  case gyro id => exact rfl
  case magnetometer id => exact rfl
  case starSensor id => exact rfl
  case sunSensor id => exact rfl
  case gnssReceiver id => exact rfl
  case magnetorquer id => exact rfl
  case thruster id => exact rfl
  case solarPanel id => exact rfl
  case reactionWheel id => exact rfl
  all_goals decide +kernel

def classes : List String :=
  ["gyro_sensor", "magnetometer", "stt", "sun_sensor", "gnss_receiver", "magnetorquer", "simple_thruster", "sap", "rw", "ideal_force_generator",
   "ideal_torque_generator", "angular_velocity_observer", "attitude_observer", "orbit_observer", "battery", "pcu_initial_study", "gs_calculator"]

theorem word_mem (k : Kind) : word k ∈ classes := by cases k <;> simp [word, classes]

theorem classes_clean : ∀ w ∈ classes, ',' ∉ w.toList ∧ '\n' ∉ w.toList := by decide +kernel

theorem classes_prefix : ∀ w ∈ classes, ∀ w' ∈ classes, w.toList <+: w'.toList → w = w' := by decide +kernel

theorem title_clean (k : Kind) : Clean (title k) := by
  unfold title
  refine Clean.append (Clean.append (classes_clean _ (word_mem k)) ?_) (by constructor <;> decide)
  cases number k
  · exact cl ""
  · exact dec_clean _

/-- The names of a list of rests. -/
def named (t : Str) (l : List String) : List Str := l.map (fun x => t ++ x.toList)

theorem hv {t : Str} (ht : Clean t) (q frame unit : String) (hq : Clean q.toList) (hf : Clean frame.toList) (hu : Clean unit.toList) :
    Row (vectorHeader (t ++ q.toList) frame.toList unit.toList 3)
      (named t [q ++ "_" ++ frame ++ "_x[" ++ unit ++ "]", q ++ "_" ++ frame ++ "_y[" ++ unit ++ "]", q ++ "_" ++ frame ++ "_z[" ++ unit ++ "]"]) := by
  have h := row_vectorHeader (ht.append hq) hf hu 3
  have e : (List.range 3).map (vectorColumn (t ++ q.toList) frame.toList unit.toList 3) =
      named t [q ++ "_" ++ frame ++ "_x[" ++ unit ++ "]", q ++ "_" ++ frame ++ "_y[" ++ unit ++ "]", q ++ "_" ++ frame ++ "_z[" ++ unit ++ "]"] := by
    simp [List.range_succ, vectorColumn, axisName, named, List.append_assoc]
  rw [e] at h
  exact h

theorem hs {t : Str} (ht : Clean t) (q unit : String) (hq : Clean q.toList) (hu : Clean unit.toList) :
    Row (scalarHeader (t ++ q.toList) unit.toList) (named t [q ++ "[" ++ unit ++ "]"]) := by
  have h := row_scalarHeader (ht.append hq) hu
  have e : [t ++ q.toList ++ "[".toList ++ unit.toList ++ "]".toList] = named t [q ++ "[" ++ unit ++ "]"] := by
    simp [named, List.append_assoc]
  rw [e] at h
  exact h

theorem hp {t : Str} (ht : Clean t) (q : String) (hq : Clean q.toList) : Row (plainHeader (t ++ q.toList)) (named t [q]) :=
  Row.single (ht.append hq)

theorem hq4 {t : Str} (ht : Clean t) (q frame : String) (hq : Clean q.toList) (hf : Clean frame.toList) :
    Row (quaternionHeader (t ++ q.toList) frame.toList)
      (named t [q ++ "_" ++ frame ++ "_x", q ++ "_" ++ frame ++ "_y", q ++ "_" ++ frame ++ "_z", q ++ "_" ++ frame ++ "_w"]) := by
  have c : ∀ s : String, Clean s.toList → Clean (t ++ (q ++ "_" ++ frame ++ s).toList) := by
    intro s hs'
    have := ht.append (((hq.append (cl "_")).append hf).append hs')
    simpa [List.append_assoc] using this
  refine ⟨by simp [quaternionHeader, named, terminated, List.append_assoc], ?_⟩
  intro f hfm
  simp only [named, List.map_cons, List.map_nil, List.mem_cons, List.not_mem_nil, or_false] at hfm
  rcases hfm with rfl | rfl | rfl | rfl
  · exact c "_x" (cl _)
  · exact c "_y" (cl _)
  · exact c "_z" (cl _)
  · exact c "_w" (cl _)

theorem vw (n : ℕ) : Row (wholeValue n) [dec n] := Row.single (dec_clean n)

theorem vb (b : Bool) : Row (boolValue b) [if b then ['1'] else ['0']] := by
  cases b
  · exact vw 0
  · exact vw 1

theorem norm3 (v : Fin 3 → ℝ) : calcNorm v = Real.sqrt (v 0 ^ 2 + v 1 ^ 2 + v 2 ^ 2) := by
  simp [calcNorm, Fin.sum_univ_three]

/-- The cells of the header. -/
theorem row_header (r : Readings) (k : Kind) : Row (header r k) (named (title k) ((cells fmt r k).map Prod.fst)) := by
  have t := title_clean k
  unfold header
  rw [head_eq]
  cases k
  case gyro id => exact hv t "measured_angular_velocity" "c" "rad/s" (cl _) (cl _) (cl _)
  case magnetometer id => exact hv t "measured_magnetic_field" "c" "nT" (cl _) (cl _) (cl _)
  case starSensor id => exact (hq4 t "measured_quaternion" "i2c" (cl _) (cl _)).append (hp t "error_flag" (cl _))
  case sunSensor id => exact (hv t "measured_sun_direction" "c" "-" (cl _) (cl _) (cl _)).append (hs t "sun_detected_flag" "-" (cl _) (cl _))
  case gnssReceiver id =>
    exact ((((((((((((hp t "measured_utc_time_year" (cl _)).append (hp t "measured_utc_time_month" (cl _))).append (hp t "measured_utc_time_day" (cl _))).append
      (hp t "measured_utc_time_hour" (cl _))).append (hp t "measured_utc_time_min" (cl _))).append (hp t "measured_utc_time_sec" (cl _))).append
      (hv t "measured_position" "ecef" "m" (cl _) (cl _) (cl _))).append (hv t "measured_velocity" "ecef" "m/s" (cl _) (cl _) (cl _))).append
      (hs t "measured_latitude" "rad" (cl _) (cl _))).append (hs t "measured_longitude" "rad" (cl _) (cl _))).append
      (hs t "measured_altitude" "m" (cl _) (cl _))).append (hp t "satellite_visible_flag" (cl _))).append (hp t "number_of_visible_satellites" (cl _))
  case magnetorquer id =>
    exact (hv t "output_magnetic_moment" "b" "Am2" (cl _) (cl _) (cl _)).append (hv t "output_torque" "b" "Nm" (cl _) (cl _) (cl _))
  case thruster id =>
    exact ((hv t "output_thrust" "b" "N" (cl _) (cl _) (cl _)).append (hv t "output_torque" "b" "Nm" (cl _) (cl _) (cl _))).append
      (hs t "output_thrust_norm" "N" (cl _) (cl _))
  case solarPanel id => exact hs t "generated_power" "W" (cl _) (cl _)
  case reactionWheel id =>
    have h5 := ((((hs t "angular_velocity" "rad/s" (cl _) (cl _)).append (hs t "angular_velocity" "rpm" (cl _) (cl _))).append
      (hs t "angular_velocity_upper_limit" "rpm" (cl _) (cl _))).append (hs t "target_angular_acceleration" "rad/s2" (cl _) (cl _))).append
      (hs t "angular_acceleration" "rad/s2" (cl _) (cl _))
    have h6 := (hv t "jitter_force" "c" "N" (cl _) (cl _) (cl _)).append (hv t "jitter_torque" "c" "Nm" (cl _) (cl _) (cl _))
    dsimp only [reactionWheelHeader, cells]
    cases r.jitterLogged <;> cases r.jitterCalculated
    · exact h5.append Row.nil
    · exact h5.append Row.nil
    · exact h5.append Row.nil
    · exact h5.append h6
  case forceGenerator =>
    exact (((hv t "ordered_force" "b" "N" (cl _) (cl _) (cl _)).append (hv t "generated_force" "b" "N" (cl _) (cl _) (cl _))).append
      (hv t "generated_force" "i" "N" (cl _) (cl _) (cl _))).append (hv t "generated_force" "rtn" "N" (cl _) (cl _) (cl _))
  case torqueGenerator => exact (hv t "ordered_torque" "b" "Nm" (cl _) (cl _) (cl _)).append (hv t "generated_torque" "b" "Nm" (cl _) (cl _) (cl _))
  case angularVelocityObserver => exact hv t "measured_value" "b" "rad/s" (cl _) (cl _) (cl _)
  case attitudeObserver => exact hq4 t "quaternion" "i2b" (cl _) (cl _)
  case orbitObserver => exact (hv t "position" "i" "m" (cl _) (cl _) (cl _)).append (hv t "velocity" "i" "m/s" (cl _) (cl _) (cl _))
  case battery => exact (hs t "voltage" "V" (cl _) (cl _)).append (hs t "dod" "%" (cl _) (cl _))
  case powerStudy => exact (hs t "power_consumption" "W" (cl _) (cl _)).append (hs t "bus_voltage" "V" (cl _) (cl _))
  case link => exact (hs t "max_bitrate" "Mbps" (cl _) (cl _)).append (hs t "receive_margin" "dB" (cl _) (cl _))

/-- The cells of the values. -/
theorem row_value (hf : ∀ p x, Clean (fmt p x)) (r : Readings) (k : Kind) : Row (value fmt r k) ((cells fmt r k).map Prod.snd) := by
  have s := fun p x => row_scalarValue hf p x
  have v := fun p x => row3 hf p x
  have q := fun p x => row4 hf p x
  cases k
  case gyro id => exact v 6 _
  case magnetometer id => exact v 6 _
  case starSensor id => exact (q 6 _).append (s 6 _)
  case sunSensor id => exact (v 6 _).append (s 6 _)
  case gnssReceiver id =>
    exact ((((((((((((vw _).append (vw _)).append (vw _)).append (vw _)).append (vw _)).append (s 6 _)).append (v 10 _)).append (v 10 _)).append
      (s 10 _)).append (s 10 _)).append (s 10 _)).append (vb _)).append (vw _)
  case magnetorquer id => exact (v 6 _).append (v 6 _)
  case thruster id =>
    dsimp only [value, cells]
    rw [norm3]
    exact ((v 6 _).append (v 6 _)).append (s 6 _)
  case solarPanel id => exact s 6 _
  case reactionWheel id =>
    have h5 := ((((s 6 r.wheelSpeed).append (s 6 r.wheelSpeedRpm)).append (s 6 r.speedLimitRpm)).append (s 6 r.targetAcceleration)).append (s 6 r.acceleration)
    have h6 := (v 6 r.jitterForce).append (v 6 r.jitterTorque)
    dsimp only [value, reactionWheelValue, cells]
    cases r.jitterLogged <;> cases r.jitterCalculated
    · exact h5.append Row.nil
    · exact h5.append Row.nil
    · exact h5.append Row.nil
    · exact h5.append h6
  case forceGenerator => exact (((v 6 _).append (v 6 _)).append (v 6 _)).append (v 6 _)
  case torqueGenerator => exact (v 6 _).append (v 6 _)
  case angularVelocityObserver => exact v 6 _
  case attitudeObserver => exact q 6 _
  case orbitObserver => exact (v 16 _).append (v 16 _)
  case battery => exact (s 6 _).append (s 6 _)
  case powerStudy => exact (s 6 _).append (s 6 _)
  case link => exact (s 6 _).append (s 6 _)

/-! ## Distinct names -/

/-- The rests of the names of a component, with jitter. -/
def rests : Kind → List String
  | .gyro _ => ["measured_angular_velocity_c_x[rad/s]", "measured_angular_velocity_c_y[rad/s]", "measured_angular_velocity_c_z[rad/s]"]
  | .magnetometer _ => ["measured_magnetic_field_c_x[nT]", "measured_magnetic_field_c_y[nT]", "measured_magnetic_field_c_z[nT]"]
  | .starSensor _ => ["measured_quaternion_i2c_x", "measured_quaternion_i2c_y", "measured_quaternion_i2c_z", "measured_quaternion_i2c_w", "error_flag"]
  | .sunSensor _ => ["measured_sun_direction_c_x[-]", "measured_sun_direction_c_y[-]", "measured_sun_direction_c_z[-]", "sun_detected_flag[-]"]
  | .gnssReceiver _ => ["measured_utc_time_year", "measured_utc_time_month", "measured_utc_time_day", "measured_utc_time_hour", "measured_utc_time_min",
      "measured_utc_time_sec", "measured_position_ecef_x[m]", "measured_position_ecef_y[m]", "measured_position_ecef_z[m]",
      "measured_velocity_ecef_x[m/s]", "measured_velocity_ecef_y[m/s]", "measured_velocity_ecef_z[m/s]", "measured_latitude[rad]",
      "measured_longitude[rad]", "measured_altitude[m]", "satellite_visible_flag", "number_of_visible_satellites"]
  | .magnetorquer _ => ["output_magnetic_moment_b_x[Am2]", "output_magnetic_moment_b_y[Am2]", "output_magnetic_moment_b_z[Am2]",
      "output_torque_b_x[Nm]", "output_torque_b_y[Nm]", "output_torque_b_z[Nm]"]
  | .thruster _ => ["output_thrust_b_x[N]", "output_thrust_b_y[N]", "output_thrust_b_z[N]", "output_torque_b_x[Nm]", "output_torque_b_y[Nm]",
      "output_torque_b_z[Nm]", "output_thrust_norm[N]"]
  | .solarPanel _ => ["generated_power[W]"]
  | .reactionWheel _ => ["angular_velocity[rad/s]", "angular_velocity[rpm]", "angular_velocity_upper_limit[rpm]", "target_angular_acceleration[rad/s2]",
      "angular_acceleration[rad/s2]", "jitter_force_c_x[N]", "jitter_force_c_y[N]", "jitter_force_c_z[N]", "jitter_torque_c_x[Nm]",
      "jitter_torque_c_y[Nm]", "jitter_torque_c_z[Nm]"]
  | .forceGenerator => ["ordered_force_b_x[N]", "ordered_force_b_y[N]", "ordered_force_b_z[N]", "generated_force_b_x[N]", "generated_force_b_y[N]",
      "generated_force_b_z[N]", "generated_force_i_x[N]", "generated_force_i_y[N]", "generated_force_i_z[N]", "generated_force_rtn_x[N]",
      "generated_force_rtn_y[N]", "generated_force_rtn_z[N]"]
  | .torqueGenerator => ["ordered_torque_b_x[Nm]", "ordered_torque_b_y[Nm]", "ordered_torque_b_z[Nm]", "generated_torque_b_x[Nm]",
      "generated_torque_b_y[Nm]", "generated_torque_b_z[Nm]"]
  | .angularVelocityObserver => ["measured_value_b_x[rad/s]", "measured_value_b_y[rad/s]", "measured_value_b_z[rad/s]"]
  | .attitudeObserver => ["quaternion_i2b_x", "quaternion_i2b_y", "quaternion_i2b_z", "quaternion_i2b_w"]
  | .orbitObserver => ["position_i_x[m]", "position_i_y[m]", "position_i_z[m]", "velocity_i_x[m/s]", "velocity_i_y[m/s]", "velocity_i_z[m/s]"]
  | .battery => ["voltage[V]", "dod[%]"]
  | .powerStudy => ["power_consumption[W]", "bus_voltage[V]"]
  | .link => ["max_bitrate[Mbps]", "receive_margin[dB]"]

/-- One component of every class. -/
def samples : List Kind :=
  [.gyro 0, .magnetometer 0, .starSensor 0, .sunSensor 0, .gnssReceiver 0, .magnetorquer 0, .thruster 0, .solarPanel 0, .reactionWheel 0, .forceGenerator,
   .torqueGenerator, .angularVelocityObserver, .attitudeObserver, .orbitObserver, .battery, .powerStudy, .link]

theorem exists_sample (k : Kind) : ∃ x ∈ samples, word x = word k ∧ rests x = rests k := by
  cases k
  case gyro id => exact ⟨.gyro 0, by decide, rfl, rfl⟩
  case magnetometer id => exact ⟨.magnetometer 0, by decide, rfl, rfl⟩
  case starSensor id => exact ⟨.starSensor 0, by decide, rfl, rfl⟩
  case sunSensor id => exact ⟨.sunSensor 0, by decide, rfl, rfl⟩
  case gnssReceiver id => exact ⟨.gnssReceiver 0, by decide, rfl, rfl⟩
  case magnetorquer id => exact ⟨.magnetorquer 0, by decide, rfl, rfl⟩
  case thruster id => exact ⟨.thruster 0, by decide, rfl, rfl⟩
  case solarPanel id => exact ⟨.solarPanel 0, by decide, rfl, rfl⟩
  case reactionWheel id => exact ⟨.reactionWheel 0, by decide, rfl, rfl⟩
  case forceGenerator => exact ⟨.forceGenerator, by decide, rfl, rfl⟩
  case torqueGenerator => exact ⟨.torqueGenerator, by decide, rfl, rfl⟩
  case angularVelocityObserver => exact ⟨.angularVelocityObserver, by decide, rfl, rfl⟩
  case attitudeObserver => exact ⟨.attitudeObserver, by decide, rfl, rfl⟩
  case orbitObserver => exact ⟨.orbitObserver, by decide, rfl, rfl⟩
  case battery => exact ⟨.battery, by decide, rfl, rfl⟩
  case powerStudy => exact ⟨.powerStudy, by decide, rfl, rfl⟩
  case link => exact ⟨.link, by decide, rfl, rfl⟩

theorem names_sub (r : Readings) (k : Kind) : ((cells fmt r k).map Prod.fst).Sublist (rests k) := by
  cases k
  case reactionWheel id =>
    dsimp only [cells]
    rw [List.map_append]
    refine List.Sublist.append (l₁ := _) (l₂ := ["angular_velocity[rad/s]", "angular_velocity[rpm]", "angular_velocity_upper_limit[rpm]",
      "target_angular_acceleration[rad/s2]", "angular_acceleration[rad/s2]"]) (r₂ := ["jitter_force_c_x[N]", "jitter_force_c_y[N]",
      "jitter_force_c_z[N]", "jitter_torque_c_x[Nm]", "jitter_torque_c_y[Nm]", "jitter_torque_c_z[Nm]"]) (List.Sublist.refl _) ?_
    split
    · exact List.Sublist.refl _
    · exact List.nil_sublist _
  all_goals exact List.Sublist.refl _

theorem samples_nodup : ∀ x ∈ samples, ((rests x).map String.toList).Nodup := by decide +kernel

/-- The names of a component are distinct. -/
theorem named_nodup (r : Readings) (k : Kind) : (named (title k) ((cells fmt r k).map Prod.fst)).Nodup := by
  obtain ⟨x, hx, _, e⟩ := exists_sample k
  have h := samples_nodup x hx
  rw [e] at h
  have h2 : ((((cells fmt r k).map Prod.fst).map String.toList).map (title k ++ ·)).Nodup :=
    (h.sublist ((names_sub r k).map _)).map (fun a b hab => List.append_cancel_left hab)
  simpa [named, List.map_map, Function.comp_def] using h2

/-- Class and number from a name. -/
theorem title_inj {k k' : Kind} {a b : Str} (h : title k ++ a = title k' ++ b) : word k = word k' ∧ number k = number k' := by
  unfold title at h
  simp only [List.append_assoc] at h
  have hw : word k = word k' := by
    have p1 := List.prefix_append (word k).toList ((match number k with | some id => dec id | none => []) ++ (['_'] ++ a))
    have p2 := List.prefix_append (word k').toList ((match number k' with | some id => dec id | none => []) ++ (['_'] ++ b))
    replace p2 := h.symm ▸ p2
    rcases List.prefix_or_prefix_of_prefix p1 p2 with q | q
    · exact classes_prefix _ (word_mem k) _ (word_mem k') q
    · exact (classes_prefix _ (word_mem k') _ (word_mem k) q).symm
  refine ⟨hw, ?_⟩
  rw [hw] at h
  have h := List.append_cancel_left h
  have hne : ∀ (i : ℕ) (x y : Str), dec i ++ (['_'] ++ x) ≠ [] ++ (['_'] ++ y) := by
    intro i x y e
    rcases hd : dec i with _ | ⟨c, cs⟩
    · have h0 := Nat.length_toDigits_pos (b := 10) (n := i)
      have h1 : (Nat.toDigits 10 i).length = 0 := congrArg List.length hd
      omega
    · rw [hd] at e
      have : c = '_' := by simpa using congrArg List.head? e
      exact dec_no '_' (by decide) i (by rw [hd, this]; simp)
  rcases hk : number k with _ | i <;> rcases hk' : number k' with _ | j <;> simp only [hk, hk'] at h
  · rfl
  · exact absurd h.symm (hne _ b a)
  · exact absurd h (hne _ a b)
  · exact congrArg some (dec_sep (c := '_') (by decide) h).1

theorem kind_ext {k k' : Kind} (h : word k = word k') (h' : number k = number k') : k = k' := by
  cases k <;> cases k' <;> simp_all [word, number]

theorem fixed_word : ∀ f ∈ fixedParts.flatMap allFixed, ∀ w ∈ classes, ¬ w.toList <+: f := by decide +kernel

theorem sample_tail : ∀ x ∈ samples, ∀ s ∈ rests x, ∀ t ∈ tailsI ++ tailsB ++ nodeTails, (s.toList <:+ t ∨ t <:+ s.toList) →
    word x = "orbit_observer" ∧ t = '_' :: s.toList := by decide +kernel

theorem orbit_word {k : Kind} (h : word k = "orbit_observer") : k = .orbitObserver := by
  cases k <;> simp_all [word]

/-- No component has a column name of the environment, the dynamics or the disturbances, unless a body is called `orbit_observer`. -/
theorem comp_apart {fmt3 : ℝ → Str} (c : Config) (hb : "orbit_observer".toList ∉ c.bodies) (st : State) (p : Part) (r : Readings) (k : Kind) (n : Str)
    (h1 : n ∈ (columns fmt fmt3 c st p).map Prod.fst) (h2 : n ∈ named (title k) ((cells fmt r k).map Prod.fst)) : False := by
  obtain ⟨s, hs', e⟩ := List.mem_map.1 h2
  have hs := (names_sub r k).subset hs'
  obtain ⟨x, hx, ew, er⟩ := exists_sample k
  rw [← er] at hs
  have hsuf : s.toList <:+ n := ⟨title k, e⟩
  have key : ∀ t ∈ tailsI ++ tailsB ++ nodeTails, t <:+ n → word k = "orbit_observer" ∧ t = '_' :: s.toList := by
    intro t ht hn
    rw [← ew]
    exact sample_tail x hx s hs t ht (List.suffix_or_suffix_of_suffix hsuf hn)
  have body : ∀ b ∈ c.bodies, ∀ t ∈ tailsI ++ tailsB ++ nodeTails, b ++ t = n → False := by
    intro b hbm t ht en
    obtain ⟨hw, et⟩ := key t ht ⟨b, en⟩
    have hk := orbit_word hw
    subst hk
    have ett : title .orbitObserver ++ s.toList = "orbit_observer".toList ++ t := by rw [et]; rfl
    have := List.append_cancel_right (en.trans (e.symm.trans ett))
    exact hb (this ▸ hbm)
  rcases name_kind c st p n h1 with ⟨hp, m1⟩ | ⟨_, b, hbm, t, ht, en⟩ | ⟨_, b, hbm, t, ht, en⟩ | ⟨_, t, ht, en⟩
  · refine fixed_word n (List.mem_flatMap.2 ⟨p, mem_fixedParts p hp, m1⟩) (word k) (word_mem k) ?_
    rw [← e]; unfold title; simp only [List.append_assoc]; exact List.prefix_append _ _
  · exact body b hbm t (List.mem_append_left _ (List.mem_append_left _ ht)) en
  · exact body b hbm t (List.mem_append_left _ (List.mem_append_right _ ht)) en
  · obtain ⟨hw, et⟩ := key t (List.mem_append_right _ ht) en
    have : ∀ u ∈ nodeTails, u.head? ≠ some '_' := by decide
    exact this t ht (by rw [et]; rfl)

/-! ## C199 -/

/-- **C199.** Every component: the names in its header and the texts in its values, cell by cell, for all readings and numbers. -/
theorem C199_columns (hf : ∀ p x, Clean (fmt p x)) (r : Readings) (k : Kind) :
    split ',' (header r k) = (cells fmt r k).map (fun x => title k ++ x.1.toList) ∧ split ',' (value fmt r k) = (cells fmt r k).map Prod.snd := by
  refine ⟨?_, (row_value hf r k).columns⟩
  rw [(row_header (fmt := fmt) r k).columns]
  simp [named, List.map_map, Function.comp_def]

/-- **C199.** The names of one component are all different, and two components have a name in common only if they are of the same class and have the
same number. -/
theorem C199_names (r r' : Readings) (k k' : Kind) :
    (split ',' (header r k)).Nodup ∧ ((∃ n, n ∈ split ',' (header r k) ∧ n ∈ split ',' (header r' k')) → k = k') := by
  have f : ℕ → ℝ → Str := fun _ _ => []
  rw [(row_header (fmt := f) r k).columns, (row_header (fmt := f) r' k').columns]
  refine ⟨named_nodup r k, ?_⟩
  rintro ⟨n, h1, h2⟩
  obtain ⟨a, _, ea⟩ := List.mem_map.1 h1
  obtain ⟨b, _, eb⟩ := List.mem_map.1 h2
  have := title_inj (ea.trans eb.symm)
  exact kind_ext this.1 this.2

/-- The columns of a component with their full names. -/
noncomputable def compColumns (fmt : ℕ → ℝ → Str) (r : Readings) (k : Kind) : List Column := (cells fmt r k).map (fun x => (title k ++ x.1.toList, x.2))

theorem comp_fst (r : Readings) (k : Kind) : (compColumns fmt r k).map Prod.fst = named (title k) ((cells fmt r k).map Prod.fst) := by
  simp [compColumns, named, List.map_map, Function.comp_def]

theorem comp_snd (r : Readings) (k : Kind) : (compColumns fmt r k).map Prod.snd = (cells fmt r k).map Prod.snd := by
  simp [compColumns, List.map_map, Function.comp_def]

/-- A component as a source of cells. -/
noncomputable def compSource (fmt : ℕ → ℝ → Str) (enabled : Kind → Bool) (r : ℕ → Kind → Readings) (k : Kind) : Source :=
  ⟨enabled k, (compColumns fmt (r 0 k) k).map Prod.fst, fun j => (compColumns fmt (r j k) k).map Prod.snd⟩

/-- The flags of the jitter do not change during the run. -/
def Constant (r : ℕ → Kind → Readings) : Prop :=
  ∀ j k, (r j k).jitterLogged = (r 0 k).jitterLogged ∧ (r j k).jitterCalculated = (r 0 k).jitterCalculated

theorem header_const {r : ℕ → Kind → Readings} (hr : Constant r) (j : ℕ) (k : Kind) : header (r j k) k = header (r 0 k) k := by
  cases k
  case reactionWheel id =>
    dsimp only [header]
    rw [(hr j _).1, (hr j _).2]
  all_goals rfl

theorem compNames_const {r : ℕ → Kind → Readings} (hr : Constant r) (j : ℕ) (k : Kind) :
    (compColumns fmt (r j k) k).map Prod.fst = (compColumns fmt (r 0 k) k).map Prod.fst := by
  rw [comp_fst, comp_fst, ← (row_header (fmt := fmt) (r j k) k).columns, ← (row_header (fmt := fmt) (r 0 k) k).columns, header_const hr]

theorem compSource_at (hf : ∀ p x, Clean (fmt p x)) {r : ℕ → Kind → Readings} (hr : Constant r) (enabled : Kind → Bool) (k : Kind) (j : ℕ) :
    (compSource fmt enabled r k).at j = loggable fmt enabled (r j) k := by
  unfold Source.at loggable compSource
  dsimp only
  rw [header_const hr, (row_header (fmt := fmt) (r 0 k) k).1, (row_value hf (r j k) k).1, comp_fst, comp_snd]

theorem compSource_ok (hf : ∀ p x, Clean (fmt p x)) {r : ℕ → Kind → Readings} (hr : Constant r) (enabled : Kind → Bool) (k : Kind) :
    (compSource fmt enabled r k).Ok := by
  refine ⟨?_, fun j => ⟨?_, ?_⟩⟩
  · show ∀ f ∈ (compColumns fmt (r 0 k) k).map Prod.fst, Clean f
    rw [comp_fst]; exact (row_header (fmt := fmt) (r 0 k) k).2
  · show ((compColumns fmt (r j k) k).map Prod.snd).length = ((compColumns fmt (r 0 k) k).map Prod.fst).length
    rw [← compNames_const hr j k]; simp
  · show ∀ f ∈ (compColumns fmt (r j k) k).map Prod.snd, Clean f
    rw [comp_snd]; exact (row_value hf (r j k) k).2

/-- **C199.** Reading a whole run by name: components with different classes or numbers, registered after the spacecraft in any order, some of them
switched off, and anything after them. Under the first column with the name of a quantity of a component that is switched on stands, in the line of
every output, that quantity as it was at that output. -/
theorem C199_by_name {fmt3 : ℝ → Str} (c : Config) (h : Sound fmt fmt3 c) (hc : Distinct c) (hb : "orbit_observer".toList ∉ c.bodies)
    (state : ℕ → State) (hd : ∀ j, (dateText fmt3 (state j)).length ≤ 98) (enabled : Kind → Bool) (r : ℕ → Kind → Readings) (hr : Constant r)
    (ks : List Kind) (hks : ks.Nodup) (rest : List Source) (ho : ∀ x ∈ rest, x.Ok) (l : Logger) (hl : l.isEnabled = true) (h0 : l.file = [])
    (n j : ℕ) (hj : j < n) (k : Kind) (hk : k ∈ ks) (he : enabled k = true) (name : String) (text : Str) (hm : (name, text) ∈ cells fmt (r j k) k) :
    byName (runTable fmt fmt3 c state enabled r ks (fun i => rest.map (Source.at · i)) l n) (title k ++ name.toList) j = some text := by
  let others := ks.map (compSource fmt enabled r) ++ rest
  have e : runTable fmt fmt3 c state enabled r ks (fun i => rest.map (Source.at · i)) l n = LogColumns.runTable fmt fmt3 c state others l n := by
    unfold runTable LogColumns.runTable
    have : (fun i => ks.map (loggable fmt enabled (r i)) ++ rest.map (Source.at · i)) = fun i => others.map (Source.at · i) := by
      funext i
      show _ = (ks.map (compSource fmt enabled r) ++ rest).map _
      rw [List.map_append, List.map_map]
      congr 1
      exact List.map_congr_left fun x _ => (compSource_at h.fmt hr enabled x i).symm
    have h2 := fun i => congrFun this i
    simp only at h2
    simp only [h2]
  have ok : ∀ x ∈ others, x.Ok := by
    intro x hx
    rcases List.mem_append.1 hx with hx | hx
    · obtain ⟨q, _, rfl⟩ := List.mem_map.1 hx
      exact compSource_ok h.fmt hr enabled q
    · exact ho x hx
  obtain ⟨r0, r1⟩ := table_rows h state hd others ok l hl h0 n j hj
  have hH : headerCells others = ((ks.filter enabled).flatMap (fun q => compColumns fmt (r j q) q)).map Prod.fst ++ headerCells rest := by
    show headerCells (ks.map (compSource fmt enabled r) ++ rest) = _
    unfold headerCells
    rw [List.filter_append, List.flatMap_append, List.filter_map, List.flatMap_map, List.map_flatMap]
    congr 1
    show (ks.filter enabled).flatMap (fun q => (compColumns fmt (r 0 q) q).map Prod.fst) = _
    congr 1; funext q; exact (compNames_const hr j q).symm
  have hV : valueCells others j = ((ks.filter enabled).flatMap (fun q => compColumns fmt (r j q) q)).map Prod.snd ++ valueCells rest j := by
    show valueCells (ks.map (compSource fmt enabled r) ++ rest) j = _
    unfold valueCells
    rw [List.filter_append, List.flatMap_append, List.filter_map, List.flatMap_map, List.map_flatMap]
    rfl
  rw [e]
  unfold byName
  rw [r0, r1]
  dsimp only
  rw [hH, hV, ← List.append_assoc, ← List.append_assoc, ← List.map_append, ← List.map_append]
  refine lookup_mem _ _ _ ?_ (List.mem_append_right _ (List.mem_flatMap.2 ⟨k, List.mem_filter.2 ⟨hk, he⟩, List.mem_map.2 ⟨(name, text), hm, rfl⟩⟩))
  rw [List.map_append]
  refine List.Nodup.append (all_nodup c hc (state j)) ?_ ?_
  · rw [List.map_flatMap, List.nodup_flatMap]
    refine ⟨fun q _ => by rw [comp_fst]; exact named_nodup _ q, ?_⟩
    refine (hks.filter _).imp (fun {p q} hpq => ?_)
    intro m m1 m2
    simp only [comp_fst] at m1 m2
    obtain ⟨a, _, ea⟩ := List.mem_map.1 m1
    obtain ⟨b, _, eb⟩ := List.mem_map.1 m2
    have := title_inj (ea.trans eb.symm)
    exact hpq (kind_ext this.1 this.2)
  · intro m m1 m2
    obtain ⟨⟨a, t⟩, ha, rfl⟩ := List.mem_map.1 m1
    obtain ⟨p, _, hp⟩ := List.mem_flatMap.1 ha
    rw [List.map_flatMap] at m2
    obtain ⟨q, _, hq⟩ := List.mem_flatMap.1 m2
    rw [comp_fst] at hq
    exact comp_apart c hb (state j) p (r j q) q a (List.mem_map.2 ⟨_, hp, rfl⟩) hq

/-! ### Two gyro sensors with similar numbers and a reaction wheel -/

noncomputable def exReadings (j : ℕ) (k : Kind) : Readings where
  angularVelocity := fun i => if k = .gyro 11 then j + 100 else i.val
  magneticField := fun i => i.val
  starQuaternion := fun i => i.val
  starError := true
  sunDirection := fun i => i.val
  sunDetected := true
  year := 2026
  month := 1
  day := 2
  hour := 3
  minute := 4
  second := 5
  position := fun i => i.val
  velocity := fun i => i.val
  latitude := 1
  longitude := 2
  altitude := 3
  gnssVisible := true
  satellites := 7
  moment := fun i => i.val
  torque := fun i => i.val
  thrust := fun i => i.val
  thrustTorque := fun i => i.val
  orderedForce := fun i => i.val
  forceB := fun i => i.val
  forceI := fun i => i.val
  forceRtn := fun i => i.val
  orderedTorque := fun i => i.val
  generatedTorque := fun i => i.val
  observedAngularVelocity := fun i => i.val
  observedQuaternion := fun i => i.val
  observedPosition := fun i => i.val
  observedVelocity := fun i => i.val
  batteryVoltage := 1
  depthOfDischarge := 2
  consumption := 3
  busVoltage := 4
  generation := 5
  bitrate := 6
  margin := 7
  wheelSpeed := 8
  wheelSpeedRpm := 9
  speedLimitRpm := 10
  targetAcceleration := 11
  acceleration := 12
  jitterForce := fun i => i.val
  jitterTorque := fun i => i.val
  jitterLogged := true
  jitterCalculated := true

example : byName (runTable exFmt exFmt3 exConfig exState (fun k => k ≠ .battery) exReadings [.gyro 1, .battery, .reactionWheel 0, .gyro 11]
      (fun i => [exOther].map (Source.at · i)) ⟨true, [], []⟩ 10) "gyro_sensor11_measured_angular_velocity_c_y[rad/s]".toList 6 = some "106".toList := by
  have e : exFmt 6 ((exReadings 6 (.gyro 11)).angularVelocity 1) = "106".toList := by
    have : (exReadings 6 (.gyro 11)).angularVelocity 1 = 106 := by simp [exReadings]; norm_num
    rw [this]; unfold exFmt
    rw [show ⌊|(106 : ℝ)|⌋₊ = 106 by norm_num]
    decide +kernel
  rw [← e, show "gyro_sensor11_measured_angular_velocity_c_y[rad/s]".toList = title (.gyro 11) ++ "measured_angular_velocity_c_y[rad/s]".toList by decide +kernel]
  refine C199_by_name exConfig exSound exDistinct (by decide +kernel) exState (fun k => by rw [exDate]; decide) _ exReadings (fun _ _ => ⟨rfl, rfl⟩)
    [.gyro 1, .battery, .reactionWheel 0, .gyro 11] (by decide) [exOther] exOther_ok _ rfl rfl 10 6 (by omega) (.gyro 11) (by decide) (by decide) _ _ ?_
  exact List.mem_cons_of_mem _ (List.mem_cons_self ..)

/-- Eleven columns with jitter. -/
example : (split ',' (header (exReadings 0 (.reactionWheel 3)) (.reactionWheel 3)))[8]? = some "rw3_jitter_torque_c_x[Nm]".toList := by
  rw [(C199_columns (fmt := exFmt) (fun _ _ => dec_clean _) (exReadings 0 (.reactionWheel 3)) (.reactionWheel 3)).1]
  have : (title (.reactionWheel 3) ++ "jitter_torque_c_x[Nm]".toList) = "rw3_jitter_torque_c_x[Nm]".toList := by decide +kernel
  rw [← this]; rfl

example : ¬ ∃ n, n ∈ split ',' (header (exReadings 0 (.gyro 1)) (.gyro 1)) ∧ n ∈ split ',' (header (exReadings 0 (.gyro 11)) (.gyro 11)) :=
  fun h => absurd ((C199_names _ _ (.gyro 1) (.gyro 11)).2 h) (by decide)

end S2E.LogComponents
