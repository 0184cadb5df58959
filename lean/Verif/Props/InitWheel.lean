import Verif.Spec.InitWheel
import Verif.Model.InitWheel
import Verif.Props.InitOthers
import Verif.Props.Ini
import Mathlib.Analysis.Real.Pi.Bounds
import Verif.Props.ReactionWheel2
import Verif.Props.WheelJitter2
/-!
# C186: reaction wheels made from a settings file
-/
namespace S2E.InitWheel
open Settings Log LogProps InitOrbit InitAocs InitOthers Wheel WheelSpec

theorem Switch.read {rd : Reader} {file : File} {sec key : Str} {b : Bool} (h : Switch rd file sec key b) : Ini.readEnable rd.paths (file sec) key = b := by
  obtain ⟨w, h, hb⟩ := h
  unfold Ini.readEnable
  rw [h.read]
  by_cases a : w = "ENABLE".toList
  · rw [if_pos a, hb.2 (Or.inl a)]
  · rw [if_neg a]
    by_cases c : w = "1".toList
    · rw [if_pos c, hb.2 (Or.inr c)]
    · rw [if_neg c]
      cases b
      · rfl
      · rcases hb.1 rfl with d | d
        exacts [absurd d a, absurd d c]

/-- The quaternion of a mounting: the written one, or the one that the library makes of the written direction and the z axis. -/
noncomputable def quaternionOf (eps : ℝ) : Mounting → Res Quat
  | .byQuaternion q => .ok q
  | .byDirection d => directionQuaternion eps d

theorem readMounting_sheet {rd : Reader} {file : File} {sec : Str} (eps : ℝ) {m : Mounting} (h : m.In rd file sec) :
    readMounting rd eps (file sec) = quaternionOf eps m := by
  cases m with
  | byQuaternion q =>
    obtain ⟨h1, h2⟩ := h
    unfold readMounting quaternionOf
    rw [h1.read, if_pos rfl, h2.read]
  | byDirection d =>
    obtain ⟨⟨w, h1, hw⟩, h2⟩ := h
    unfold readMounting quaternionOf
    rw [h1.read, if_neg hw, h2.read]

theorem readFriction_sheet {rd : Reader} {file : File} {sec : Str} {l : List ℝ} (h1 : Integer rd file sec "friction_order".toList l.length)
    (h2 : ∀ k (hk : k < l.length), Number rd file sec ("friction_coefficients(".toList ++ dec k ++ ")".toList) l[k]) : readFriction rd (file sec) = .ok l := by
  unfold readFriction
  rw [h1.read, if_neg (by omega), Int.toNat_natCast, (IniRead.C52_vector rd.paths rd.getReal (file sec) "friction_coefficients".toList l.length).2.1]
  congr 1
  apply List.ext_getElem
  · simp
  · intro k a b
    rw [List.getElem_map, List.getElem_range]
    exact (h2 k b).read

theorem fastPrescaler_read {rd : Reader} {file : File} {sec : Str} {p : ℤ} (h : Integer rd file sec "fast_prescaler".toList p) :
    fastPrescaler rd (file sec) = atLeastOne p := by
  unfold fastPrescaler atLeastOne
  rw [h.read]
  split <;> omega

/-- The jitter of a data sheet. -/
noncomputable def jitterOf (s : JitterSheet) (step : ℝ) (q : Quat) (forcePhase torquePhase : List ℝ) (uninitialised : Fin 6 → ℝ) : Jitter :=
  Jitter.new s.force s.torque (atLeastOne s.fast * step) q s.frequency s.damping s.bandwidth s.resonance forcePhase torquePhase uninitialised

theorem readJitter_sheet {rd : Reader} {ex : Extra} {file : File} {sec : Str} {s : JitterSheet} (h : s.In rd ex file sec) (step : ℝ) (q : Quat)
    (fp tp : List ℝ) (un : Fin 6 → ℝ) : readJitter rd ex (file sec) step q fp tp un = .ok (jitterOf s step q fp tp un) := by
  obtain ⟨-, -, h3, h4, ⟨p1, h5, h5'⟩, ⟨p2, h6, h6'⟩, h7, h8, h9, h10⟩ := h
  have e : ∀ (key : String) (p : Str) (t : List (List ℝ)), Text rd file sec key.toList p → ex.table p = .ok t → readHarmonics rd ex (file sec) key = .ok t := by
    intro key p t a b
    unfold readHarmonics
    rw [h4.read, if_neg (by omega), a.read, b]
  unfold readJitter
  dsimp only
  rw [e _ _ _ h5 h5', e _ _ _ h6 h6', h7.read, h8.read, h9.read, Switch.read h10, fastPrescaler_read h3]
  rfl

/-- The parameters of the wheel of a data sheet. -/
def paramsOf (s : WheelSheet) (step : ℝ) (q : Quat) : WheelParams :=
  ⟨step, s.inertia, s.maxTorque, s.maxRpm, q, s.position, s.deadTime, s.timeConstant, s.friction, s.stopLimit, s.drive, s.initial⟩

/-- **C186 (wheel).** A wheel with number `id` has the data of the sections `REACTION_WHEEL_id` and `REACTION_WHEEL_JITTER_id`; its step is the given step times the
prescaler and the step of the jitter is the given step times the fast prescaler. Fast updates are requested exactly if jitter is calculated. The wheel is the last
of the fleet, and the jitter all wheels refer to is the one of this file, even if the file switches the calculation of jitter off. -/
theorem C186_wheel (rd : Reader) (ex : Extra) (eps : ℝ) (file : File) (id : ℤ) (step : ℝ) (fp tp : List ℝ) (un : Fin 6 → ℝ) (port : Option (PowerPort ℝ))
    (fleet : Fleet) (p : ℤ) (s : WheelSheet) (js : JitterSheet) (hp : Integer rd file (numbered "REACTION_WHEEL_" id) "prescaler".toList p)
    (hs : s.In rd ex file (numbered "REACTION_WHEEL_" id)) (hj : js.In rd ex file (numbered "REACTION_WHEEL_JITTER_" id)) (q : Quat) (w : Wheel)
    (hq : quaternionOf eps s.mounting = .ok q) (hw : Wheel.new (paramsOf s (step * atLeastOne p) q) = .ok w) :
    initWheel rd ex eps file id step fp tp un port fleet = .ok (⟨jitterOf js step q fp tp un, fleet.wheels ++ [(w, js.calculated)]⟩,
      ⟨atLeastOne p, atLeastOne js.fast, js.calculated, portOf rd file port, js.logged⟩) := by
  obtain ⟨h1, h2, h3, h4, h5, h6, h7, h8, h9, h10, h11, h12⟩ := hs
  unfold initWheel
  dsimp only
  rw [numbered_eq, numbered_eq, readMounting_sheet eps h4, hq]
  simp only [Res.bind]
  rw [readFriction_sheet h8 h9]
  simp only
  rw [readJitter_sheet hj, prescaler_read hp, h1.read, h2.read, h3.read, h5.read, h6.read, h7.read, h10.read, Flag.read h11, h12.read, Switch.read hj.1, Switch.read hj.2.1,
    fastPrescaler_read hj.2.2.1]
  change (fleet.init (paramsOf s (step * atLeastOne p) q) (jitterOf js step q fp tp un) js.calculated).bind _ = _
  unfold Fleet.init
  rw [hw]
  rfl

/-- **C186 (axis).** In direction mode the rotation axis is the written direction, normalised, except within `eps` of the z axis, where the axis is the z axis and
misses the direction by less than `√(2 eps)`. A direction that is not longer than `eps` stops the program. -/
theorem C186_axis (eps : ℝ) (heps : 0 < eps) (heps1 : eps < 1) (d : Vec 3) :
    (calcNorm d > eps → ∃ q, quaternionOf eps (.byDirection d) = .ok q ∧
      (let n := scale (1 / calcNorm d) d
       let e := vsub (q.inverseFrameConversion ![0, 0, 1]) n
       dot3 e e < 2 * eps ∧ (n 2 ≤ 1 - eps → -1 + eps ≤ n 2 → q.inverseFrameConversion ![0, 0, 1] = n))) ∧
    (calcNorm d ≤ eps → quaternionOf eps (.byDirection d) = .throws) := by
  refine ⟨C116_axis eps heps heps1 d, fun h => ?_⟩
  change directionQuaternion eps d = _
  unfold directionQuaternion
  rw [C70_short_vector_aborts eps d _ (Or.inl h)]
  rfl

/-- **C186 (response).** From the file to the motion: a driven wheel with dead time `d` and `N` updates with `d < N h ≤ d + h` (`h` the step times the prescaler)
responds to the torque commands `u` as the data sheet says: each command, limited to the maximum torque, divided by the inertia, delayed by `N` updates and lagged by
the time constant is the acceleration, as long as the limit of speed is not reached. -/
theorem C186_response (rd : Reader) (ex : Extra) (eps : ℝ) (file : File) (id : ℤ) (step : ℝ) (fp tp : List ℝ) (un : Fin 6 → ℝ) (port : Option (PowerPort ℝ))
    (fleet : Fleet) (p : ℤ) (s : WheelSheet) (js : JitterSheet) (hp : Integer rd file (numbered "REACTION_WHEEL_" id) "prescaler".toList p)
    (hs : s.In rd ex file (numbered "REACTION_WHEEL_" id)) (hj : js.In rd ex file (numbered "REACTION_WHEEL_JITTER_" id)) (q : Quat)
    (hq : quaternionOf eps s.mounting = .ok q) (hdrive : s.drive = true) (hh : 0 < step) (hJ : 0 < s.inertia) (hM : 0 ≤ s.maxTorque) (hR : 0 ≤ s.maxRpm)
    (hτ : 0 ≤ s.timeConstant) (hd : 0 ≤ s.deadTime) (N : ℕ) (h : ℝ) (hdef : h = step * atLeastOne p) (h1 : N * h ≤ s.deadTime + h) (h2 : s.deadTime < N * h) (hmem : N < 2 ^ 60)
    (u a : ℕ → ℝ) (ha : a = lagged h s.timeConstant (delayed N fun k => clamp s.maxTorque (u k) / s.inertia)) (n : ℕ)
    (hL : ∀ k ≤ n, |s.initial + h * ∑ j ∈ Finset.range k, a j| ≤ s.maxRpm * (2 * Real.pi / 60)) :
    ∃ fleet' base w0 w, initWheel rd ex eps file id step fp tp un port fleet = .ok (fleet', base) ∧ fleet'.wheels = fleet.wheels ++ [(w0, js.calculated)] ∧
      base.prescaler = atLeastOne p ∧ Wheel.run (commands u n) w0 = .ok w ∧ w.omega = s.initial + h * ∑ j ∈ Finset.range n, a j ∧
      (∀ m, n = m + 1 → w.torque = scale (-(s.inertia * a m)) (q.inverseFrameConversion ![0, 0, 1]) ∧
        w.momentum = scale (s.inertia * w.omega) (q.inverseFrameConversion ![0, 0, 1])) := by
  subst hdef ha
  have hpos : (0 : ℝ) < atLeastOne p := by
    have : 0 < atLeastOne p := by unfold atLeastOne; omega
    exact_mod_cast this
  obtain ⟨w0, e1, w, e2, e3, e4⟩ := C116_response (paramsOf s (step * atLeastOne p) q) hdrive (mul_pos hh hpos) hJ hM hR hτ hd N h1 h2 hmem u n hL
  exact ⟨_, _, w0, w, C186_wheel rd ex eps file id step fp tp un port fleet p s js hp hs hj q w0 hq e1, rfl, rfl, e2, e3, e4⟩

/-- **C186 (jitter lost).** What the earlier wheels had as jitter does not matter after one more wheel was made: every earlier wheel with jitter now reports the force 0,
and its next fast update, at the speed `ω`, computes with the tables, the update interval and the mounting of the new file. -/
theorem C186_jitter_lost (rd : Reader) (ex : Extra) (eps : ℝ) (file : File) (id : ℤ) (step : ℝ) (fp tp : List ℝ) (un : Fin 6 → ℝ) (port : Option (PowerPort ℝ))
    (fleet fleet' : Fleet) (base : Base) (p : ℤ) (s : WheelSheet) (js : JitterSheet) (hp : Integer rd file (numbered "REACTION_WHEEL_" id) "prescaler".toList p)
    (hs : s.In rd ex file (numbered "REACTION_WHEEL_" id)) (hj : js.In rd ex file (numbered "REACTION_WHEEL_JITTER_" id))
    (h : initWheel rd ex eps file id step fp tp un port fleet = .ok (fleet', base)) (k : ℕ) (w : Wheel) (hk : fleet.wheels[k]? = some (w, true)) :
    fleet'.jitterForce true = (fun _ => 0) ∧ ∃ q, quaternionOf eps s.mounting = .ok q ∧
      fleet'.fastUpdate k = ((jitterOf js step q fp tp un).calcJitter w.omega).bind fun j => .ok ⟨j, fleet'.wheels⟩ := by
  have hs' := hs
  obtain ⟨h1, h2, h3, h4, h5, h6, h7, h8, h9, h10, h11, h12⟩ := hs
  have hq : ∃ q, quaternionOf eps s.mounting = .ok q := by
    rcases hm : quaternionOf eps s.mounting with q | _ | _ | _
    · exact ⟨q, rfl⟩
    all_goals
      unfold initWheel at h
      dsimp only at h
      rw [numbered_eq, numbered_eq, readMounting_sheet eps h4, hm] at h
      simp only [Res.bind, reduceCtorEq] at h
  obtain ⟨q, hq⟩ := hq
  have hw : ∃ w0, Wheel.new (paramsOf s (step * atLeastOne p) q) = .ok w0 := by
    rcases hm : Wheel.new (paramsOf s (step * atLeastOne p) q) with q | _ | _ | _
    · exact ⟨q, rfl⟩
    all_goals
      unfold initWheel at h
      dsimp only at h
      rw [numbered_eq, numbered_eq, readMounting_sheet eps h4, hq] at h
      simp only [Res.bind] at h
      rw [readFriction_sheet h8 h9] at h
      simp only at h
      rw [readJitter_sheet hj, prescaler_read hp, h1.read, h2.read, h3.read, h5.read, h6.read, h7.read, h10.read, Flag.read h11, h12.read] at h
      change (fleet.init (paramsOf s (step * atLeastOne p) q) (jitterOf js step q fp tp un) _).bind _ = _ at h
      unfold Fleet.init at h
      rw [hm] at h
      simp only [Res.bind, reduceCtorEq] at h
  obtain ⟨w0, hw⟩ := hw
  rw [C186_wheel rd ex eps file id step fp tp un port fleet p s js hp hs' hj q w0 hq hw] at h
  obtain ⟨rfl, rfl⟩ := Prod.mk.inj (Res.ok.inj h)
  have hlt : k < fleet.wheels.length := by
    by_contra hc
    rw [List.getElem?_eq_none (by omega)] at hk
    cases hk
  refine ⟨?_, q, hq, ?_⟩
  · unfold Fleet.jitterForce jitterOf Jitter.new
    cases js.resonance <;> rfl
  · unfold Fleet.fastUpdate
    dsimp only
    rw [List.getElem?_append_left hlt, hk]
    rfl

/-- **C186 (refused).** A direction that is too short, a negative order of friction, a negative degree of harmonics and, whether or not jitter is calculated, a file of
force harmonics that is not numbers, each stop the program. -/
theorem C186_refused (rd : Reader) (ex : Extra) (eps : ℝ) (file : File) (id : ℤ) (step : ℝ) (fp tp : List ℝ) (un : Fin 6 → ℝ) (port : Option (PowerPort ℝ))
    (fleet : Fleet) (m : Mounting) (hm : m.In rd file (numbered "REACTION_WHEEL_" id)) (order degree : ℤ)
    (ho : Integer rd file (numbered "REACTION_WHEEL_" id) "friction_order".toList order)
    (hd : Integer rd file (numbered "REACTION_WHEEL_JITTER_" id) "harmonics_degree".toList degree) (path : Str)
    (hf : Text rd file (numbered "REACTION_WHEEL_JITTER_" id) "radial_force_harmonics_coefficient_file".toList path)
    (hbad : (∃ d, m = .byDirection d ∧ calcNorm d ≤ eps) ∨ order < 0 ∨ degree < 0 ∨ ex.table path = .throws) :
    initWheel rd ex eps file id step fp tp un port fleet = .throws := by
  have hq : quaternionOf eps m = .throws ∨ ∃ q, quaternionOf eps m = .ok q := by
    cases m with
    | byQuaternion q => exact Or.inr ⟨q, rfl⟩
    | byDirection d =>
      unfold quaternionOf directionQuaternion Quat.ofTwoVectors
      dsimp only
      split_ifs <;> simp [Res.bind]
  have hshort : (∃ d, m = .byDirection d ∧ calcNorm d ≤ eps) → quaternionOf eps m = .throws := by
    rintro ⟨d, rfl, h⟩
    change directionQuaternion eps d = _
    unfold directionQuaternion
    rw [C70_short_vector_aborts eps d _ (Or.inl h)]
    rfl
  unfold initWheel
  dsimp only
  rw [numbered_eq, numbered_eq, readMounting_sheet eps hm]
  rcases hq with hq | ⟨q, hq⟩
  · rw [hq]; rfl
  · rw [hq]
    simp only [Res.bind]
    unfold readFriction
    rw [ho.read]
    by_cases hn : order < 0
    · rw [if_pos hn]
    · rw [if_neg hn]
      simp only
      have : readJitter rd ex (file (numbered "REACTION_WHEEL_JITTER_" id)) step q fp tp un = .throws := by
        unfold readJitter
        dsimp only
        have : readHarmonics rd ex (file (numbered "REACTION_WHEEL_JITTER_" id)) "radial_force_harmonics_coefficient_file" = .throws := by
          unfold readHarmonics
          rw [hd.read, hf.read]
          rcases hbad with h | h | h | h
          · rw [hshort h] at hq; cases hq
          · exact absurd h hn
          · rw [if_pos h]
          · rw [h]; split <;> rfl
        rw [this]
        rfl
      rw [this]

/-- What is written in other sections does not matter. -/
theorem C186_independent (rd : Reader) (ex : Extra) (eps : ℝ) (f g : File) (id : ℤ) (step : ℝ) (fp tp : List ℝ) (un : Fin 6 → ℝ) (port : Option (PowerPort ℝ)) (fleet : Fleet)
    (h1 : f (numbered "REACTION_WHEEL_" id) = g (numbered "REACTION_WHEEL_" id))
    (h2 : f (numbered "REACTION_WHEEL_JITTER_" id) = g (numbered "REACTION_WHEEL_JITTER_" id)) (hport : f "POWER_PORT".toList = g "POWER_PORT".toList) :
    initWheel rd ex eps f id step fp tp un port fleet = initWheel rd ex eps g id step fp tp un port fleet := by
  have hp : portOf rd f port = portOf rd g port := by
    cases port with
    | none => rfl
    | some p => unfold portOf initializePort; rw [hport]
  unfold initWheel
  dsimp only
  rw [numbered_eq, numbered_eq, h1, h2, hp]

/-! ## A concrete file -/

/-- Jitter is switched on; the mounting is given by a direction; every other entry is its key (`Props/InitAocs`). -/
def exFile3 : File := fun _ key => if key = "jitter_calculation".toList then some "ENABLE".toList else some key

/-- The limit of speed is 1000 rpm, every other number 1, every integer 5. -/
noncomputable def exReader3 : Reader := ⟨⟨[], [], []⟩, fun t => if t = "max_angular_velocity_rpm".toList then 1000 else 1, fun _ => 5, fun _ => []⟩

theorem exRpm : exReader3.getReal "max_angular_velocity_rpm".toList = 1000 := by simp only [exReader3, if_true]

theorem exOne3 {sec key : Str} (h : key ≠ "jitter_calculation".toList) (h' : key ≠ "max_angular_velocity_rpm".toList) : Number exReader3 exFile3 sec key 1 :=
  ⟨key, if_neg h, if_neg h'⟩

theorem exInteger3 {sec key : Str} (h : key ≠ "jitter_calculation".toList) : Integer exReader3 exFile3 sec key 5 := ⟨key, if_neg h, rfl⟩

def exWheelSheet : WheelSheet := ⟨1, 1, 1000, .byDirection fun _ => 1, fun _ => 1, 1, 1, List.replicate 5 1, 1, true, 1⟩

theorem exWheel_in (sec : Str) : exWheelSheet.In exReader3 exExtra exFile3 sec := by
  refine ⟨exOne3 ?_ ?_, exOne3 ?_ ?_, ⟨_, if_neg ?_, exRpm⟩, ⟨⟨"direction_determination_mode".toList, ⟨"direction_determination_mode".toList, if_neg ?_, ?_⟩, ?_⟩, fun i => exOne3 ?_ ?_⟩,
    fun i => exOne3 ?_ ?_, exOne3 ?_ ?_, exOne3 ?_ ?_, exInteger3 ?_, fun k hk => ?_, exOne3 ?_ ?_, ⟨"initial_motor_drive_flag".toList, if_neg ?_, rfl⟩, exOne3 ?_ ?_⟩
  all_goals first | decide +kernel | (revert i; decide +kernel) | skip
  have hk5 : k < 5 := by
    have : exWheelSheet.friction.length = 5 := List.length_replicate
    omega
  have e : exWheelSheet.friction[k] = 1 := List.getElem_replicate hk
  refine Eq.mp (congrArg _ e.symm) ?_
  clear e hk
  exact exOne3 (by revert k; decide +kernel) (by revert k; decide +kernel)

def exJitterSheet : JitterSheet := ⟨true, false, 5, [[3, 4]], [[3, 4]], 5, 1, 1, 1, false⟩

theorem exJitter_in (sec : Str) : exJitterSheet.In exReader3 exExtra exFile3 sec := by
  refine ⟨⟨"ENABLE".toList, ⟨"ENABLE".toList, if_pos rfl, ?_⟩, ?_⟩, ⟨"jitter_logging".toList, ⟨"jitter_logging".toList, if_neg ?_, ?_⟩, ?_⟩, exInteger3 ?_, exInteger3 ?_,
    ⟨"radial_force_harmonics_coefficient_file".toList, ⟨"radial_force_harmonics_coefficient_file".toList, if_neg ?_, ?_⟩, rfl⟩,
    ⟨"radial_torque_harmonics_coefficient_file".toList, ⟨"radial_torque_harmonics_coefficient_file".toList, if_neg ?_, ?_⟩, rfl⟩, exOne3 ?_ ?_, exOne3 ?_ ?_, exOne3 ?_ ?_,
    ⟨"considers_structural_resonance".toList, ⟨"considers_structural_resonance".toList, if_neg ?_, ?_⟩, ?_⟩⟩
  all_goals decide +kernel

theorem exNorm : calcNorm (fun _ => 1 : Vec 3) = √3 := by
  unfold calcNorm; norm_num [Fin.sum_univ_three]

/-- A wheel along `(1, 1, 1)` with dead time 1 second and step half a second: 7 updates under the command 0 leave the speed as it is. -/
example (fleet : Fleet) : ∃ fleet' base w0 w, initWheel exReader3 exExtra (1 / 10) exFile3 1 (1 / 10) [0] [0] 0 none fleet = .ok (fleet', base) ∧
    fleet'.wheels = fleet.wheels ++ [(w0, true)] ∧ Wheel.run (commands (fun _ => 0) 7) w0 = .ok w ∧ w.omega = 1 := by
  obtain ⟨q, hq, -⟩ := (C186_axis (1 / 10) (by norm_num) (by norm_num) fun _ => 1).1 (by
    rw [exNorm]; exact lt_of_lt_of_le (by norm_num) (Real.one_le_sqrt.2 (by norm_num)))
  have h0 : ∀ j, lagged (1 / 10 * atLeastOne 5) exWheelSheet.timeConstant (delayed 3 fun _ => clamp exWheelSheet.maxTorque 0 / exWheelSheet.inertia) j = 0 := by
    have hd : ∀ k, delayed 3 (fun _ => clamp exWheelSheet.maxTorque 0 / exWheelSheet.inertia) k = 0 := by
      intro k
      simp [delayed, clamp, exWheelSheet]
    intro j
    induction j with
    | zero => unfold lagged; rw [hd]; simp
    | succ n ih => unfold lagged; rw [hd, ih]; simp
  have h5 : ((atLeastOne 5 : ℕ) : ℝ) = 5 := by rw [show atLeastOne 5 = 5 from rfl]; norm_num
  obtain ⟨f, b, w0, w, e1, e2, -, e3, e4, -⟩ := C186_response exReader3 exExtra (1 / 10) exFile3 1 (1 / 10) [0] [0] 0 none fleet 5 exWheelSheet exJitterSheet
    (exInteger3 (by decide +kernel)) (exWheel_in _) (exJitter_in _) q hq rfl (by norm_num) (by norm_num [exWheelSheet]) (by norm_num [exWheelSheet]) (by norm_num [exWheelSheet])
    (by norm_num [exWheelSheet]) (by norm_num [exWheelSheet]) 3 (1 / 10 * atLeastOne 5) rfl (by rw [h5]; norm_num [exWheelSheet]) (by rw [h5]; norm_num [exWheelSheet])
    (by norm_num) (fun _ => 0) _ rfl 7 (by
      intro k _
      rw [Finset.sum_congr rfl (fun j _ => h0 j)]
      have := Real.pi_gt_three
      simp only [exWheelSheet, Finset.sum_const_zero, mul_zero, add_zero, abs_one]
      linarith)
  refine ⟨f, b, w0, w, e1, e2, e3, ?_⟩
  rw [e4, Finset.sum_congr rfl (fun j _ => h0 j)]
  simp [exWheelSheet]

example (fleet : Fleet) : initWheel ⟨⟨[], [], []⟩, fun _ => 1, fun _ => -1, fun _ => []⟩ exExtra (1 / 10) exFile3 1 1 [] [] 0 none fleet = .throws :=
  C186_refused ⟨⟨[], [], []⟩, fun _ => 1, fun _ => -1, fun _ => []⟩ exExtra (1 / 10) exFile3 1 1 [] [] 0 none fleet (.byDirection fun _ => 1)
    ⟨⟨"direction_determination_mode".toList, ⟨"direction_determination_mode".toList, if_neg (by decide +kernel), by decide +kernel⟩, by decide +kernel⟩,
      fun i => ⟨_, if_neg (by revert i; decide +kernel), rfl⟩⟩ (-1) (-1) ⟨"friction_order".toList, if_neg (by decide +kernel), rfl⟩
    ⟨"harmonics_degree".toList, if_neg (by decide +kernel), rfl⟩ "radial_force_harmonics_coefficient_file".toList
    ⟨"radial_force_harmonics_coefficient_file".toList, if_neg (by decide +kernel), by decide +kernel⟩ (Or.inr (Or.inl (by norm_num)))

end S2E.InitWheel
