import Verif.Model.InitAttitude
import Verif.Props.InitOrbit
import Verif.Props.ControlledAttitude
import Verif.Props.Lu
/-!
# C170: the attitude of a spacecraft starts as its settings say
-/
namespace S2E.InitAttitude
open Log Ini InitOrbit Att Geodetic Geodesy TwoBody

/-! ## What the settings say -/

/-- The section `ATTITUDE` gives this quaternion: the numbers of the keys `…_(0)` to `…_(3)` unless all of them are zero or missing, else of the keys
`…(0)` to `…(3)`. -/
def GivesQuaternion (rd : Reader) (file : File) (q : Quat) : Prop :=
  let new := fun key => number rd file "ATTITUDE" key
  let anyNew := new "initial_quaternion_i2b_(0)" ≠ 0 ∨ new "initial_quaternion_i2b_(1)" ≠ 0 ∨ new "initial_quaternion_i2b_(2)" ≠ 0 ∨
    new "initial_quaternion_i2b_(3)" ≠ 0
  (anyNew → q = ⟨new "initial_quaternion_i2b_(0)", new "initial_quaternion_i2b_(1)", new "initial_quaternion_i2b_(2)", new "initial_quaternion_i2b_(3)"⟩) ∧
  (¬ anyNew → q = ⟨new "initial_quaternion_i2b(0)", new "initial_quaternion_i2b(1)", new "initial_quaternion_i2b(2)", new "initial_quaternion_i2b(3)"⟩)

/-- The section `CONTROLLED_ATTITUDE` names this main or sub mode (`key`), and in the surroundings the direction it points to is `m`: from the spacecraft to the Sun,
to the centre of the Earth, along the velocity, along the velocity over ground, along the orbit normal, or to the position given by latitude, longitude
and altitude. -/
def Seeks (rd : Reader) (file : File) (w : Att.World) (key : String) (m : Fin 3 → ℝ) : Prop :=
  let mode := text rd file "CONTROLLED_ATTITUDE" key
  mode = "SUN_POINTING".toList ∧ m = w.sunCenter - w.position ∨
  mode = "EARTH_CENTER_POINTING".toList ∧ m = w.earthCenter - w.position ∨
  mode = "VELOCITY_DIRECTION_POINTING".toList ∧ m = w.velocity ∨
  mode = "GROUND_SPEED_DIRECTION_POINTING".toList ∧ w.dcmJ2000ToEcef.mulVec m = w.velocityEcef ∨
  mode = "ORBIT_NORMAL_POINTING".toList ∧ m = cross w.position w.velocity ∨
  mode = "EARTH_SURFACE_POINTING".toList ∧
    HasGeodetic earthRadius flattening (w.dcmJ2000ToEcef.mulVec (w.position + m))
      (number rd file "CONTROLLED_ATTITUDE" "target_position_latitude_deg" * (Real.pi / 180))
      (number rd file "CONTROLLED_ATTITUDE" "target_position_longitude_deg" * (Real.pi / 180)) (number rd file "CONTROLLED_ATTITUDE" "altitude_m")

/-- The names of modes with a direction to point to. -/
def pointingNames : List Str :=
  ["SUN_POINTING".toList, "EARTH_CENTER_POINTING".toList, "VELOCITY_DIRECTION_POINTING".toList, "GROUND_SPEED_DIRECTION_POINTING".toList,
    "ORBIT_NORMAL_POINTING".toList, "EARTH_SURFACE_POINTING".toList]

/-- The vector of a section. -/
noncomputable def vector (rd : Reader) (file : File) (sec : String) (k0 k1 k2 : String) : Fin 3 → ℝ :=
  ![number rd file sec k0, number rd file sec k1, number rd file sec k2]

/-- The inertia tensor of the cantilever in a structure file: nine numbers, row after row. -/
noncomputable def cantileverTensor (rd : Reader) (file : File) : Matrix (Fin 3) (Fin 3) ℝ :=
  !![number rd file "CANTILEVER_PARAMETERS" "inertia_tensor_cantilever_kgm2(0)", number rd file "CANTILEVER_PARAMETERS" "inertia_tensor_cantilever_kgm2(1)",
      number rd file "CANTILEVER_PARAMETERS" "inertia_tensor_cantilever_kgm2(2)";
    number rd file "CANTILEVER_PARAMETERS" "inertia_tensor_cantilever_kgm2(3)", number rd file "CANTILEVER_PARAMETERS" "inertia_tensor_cantilever_kgm2(4)",
      number rd file "CANTILEVER_PARAMETERS" "inertia_tensor_cantilever_kgm2(5)";
    number rd file "CANTILEVER_PARAMETERS" "inertia_tensor_cantilever_kgm2(6)", number rd file "CANTILEVER_PARAMETERS" "inertia_tensor_cantilever_kgm2(7)",
      number rd file "CANTILEVER_PARAMETERS" "inertia_tensor_cantilever_kgm2(8)"]

/-- The two body directions. -/
noncomputable def mainDirection (rd : Reader) (file : File) : Fin 3 → ℝ :=
  vector rd file "CONTROLLED_ATTITUDE" "main_pointing_direction_b(0)" "main_pointing_direction_b(1)" "main_pointing_direction_b(2)"
@[inherit_doc mainDirection]
noncomputable def subDirection (rd : Reader) (file : File) : Fin 3 → ℝ :=
  vector rd file "CONTROLLED_ATTITUDE" "sub_pointing_direction_b(0)" "sub_pointing_direction_b(1)" "sub_pointing_direction_b(2)"

/-- The surroundings are consistent: the positions seen from the spacecraft are up to date or not yet set (zero), the Earth rotation matrix is a rotation. -/
structure Consistent (w : Att.World) : Prop where
  sun : w.sunLocal = 0 ∨ w.sunLocal = w.sunCenter - w.position
  earth : w.earthLocal = 0 ∨ w.earthLocal = w.earthCenter - w.position
  rotation : IsRotation w.dcmJ2000ToEcef

/-! ## Lemmas -/

theorem readQuat_gives (rd : Reader) (file : File) :
    GivesQuaternion rd file (readQuat rd (file "ATTITUDE".toList) "initial_quaternion_i2b".toList) := by
  have key0 : ∀ a b c d : ℝ, 0 + a * a + b * b + c * c + d * d = 0 ↔ a = 0 ∧ b = 0 ∧ c = 0 ∧ d = 0 := by
    intro a b c d
    constructor
    · intro h
      have ha := mul_self_nonneg a; have hb := mul_self_nonneg b; have hc := mul_self_nonneg c; have hd := mul_self_nonneg d
      refine ⟨mul_self_eq_zero.1 ?_, mul_self_eq_zero.1 ?_, mul_self_eq_zero.1 ?_, mul_self_eq_zero.1 ?_⟩ <;> linarith
    · rintro ⟨rfl, rfl, rfl, rfl⟩; simp
  have e0 : "initial_quaternion_i2b".toList ++ "_(".toList ++ dec 0 ++ ")".toList = "initial_quaternion_i2b_(0)".toList := by decide +kernel
  have e1 : "initial_quaternion_i2b".toList ++ "_(".toList ++ dec 1 ++ ")".toList = "initial_quaternion_i2b_(1)".toList := by decide +kernel
  have e2 : "initial_quaternion_i2b".toList ++ "_(".toList ++ dec 2 ++ ")".toList = "initial_quaternion_i2b_(2)".toList := by decide +kernel
  have e3 : "initial_quaternion_i2b".toList ++ "_(".toList ++ dec 3 ++ ")".toList = "initial_quaternion_i2b_(3)".toList := by decide +kernel
  have f0 : indexedKey "initial_quaternion_i2b".toList 0 = "initial_quaternion_i2b(0)".toList := by decide +kernel
  have f1 : indexedKey "initial_quaternion_i2b".toList 1 = "initial_quaternion_i2b(1)".toList := by decide +kernel
  have f2 : indexedKey "initial_quaternion_i2b".toList 2 = "initial_quaternion_i2b(2)".toList := by decide +kernel
  have f3 : indexedKey "initial_quaternion_i2b".toList 3 = "initial_quaternion_i2b(3)".toList := by decide +kernel
  have hn : ∀ key : String, readDouble rd.getReal (file "ATTITUDE".toList) key.toList = number rd file "ATTITUDE" key := fun _ => rfl
  constructor
  · intro h
    unfold readQuat readQuaternion
    simp only [e0, e1, e2, e3, hn]
    have hne : ¬ (0 + number rd file "ATTITUDE" "initial_quaternion_i2b_(0)" * number rd file "ATTITUDE" "initial_quaternion_i2b_(0)" +
        number rd file "ATTITUDE" "initial_quaternion_i2b_(1)" * number rd file "ATTITUDE" "initial_quaternion_i2b_(1)" +
        number rd file "ATTITUDE" "initial_quaternion_i2b_(2)" * number rd file "ATTITUDE" "initial_quaternion_i2b_(2)" +
        number rd file "ATTITUDE" "initial_quaternion_i2b_(3)" * number rd file "ATTITUDE" "initial_quaternion_i2b_(3)" = 0) := by
      rw [key0]
      exact fun k => h.elim (· k.1) fun h => h.elim (· k.2.1) fun h => h.elim (· k.2.2.1) (· k.2.2.2)
    rw [if_neg hne]
    simp only [e0, e1, e2, e3, hn]
  · intro h
    unfold readQuat readQuaternion
    simp only [e0, e1, e2, e3, hn]
    have hne : (0 + number rd file "ATTITUDE" "initial_quaternion_i2b_(0)" * number rd file "ATTITUDE" "initial_quaternion_i2b_(0)" +
        number rd file "ATTITUDE" "initial_quaternion_i2b_(1)" * number rd file "ATTITUDE" "initial_quaternion_i2b_(1)" +
        number rd file "ATTITUDE" "initial_quaternion_i2b_(2)" * number rd file "ATTITUDE" "initial_quaternion_i2b_(2)" +
        number rd file "ATTITUDE" "initial_quaternion_i2b_(3)" * number rd file "ATTITUDE" "initial_quaternion_i2b_(3)" = 0) := by
      rw [key0]
      exact ⟨by_contra fun k => h (.inl k), by_contra fun k => h (.inr (.inl k)), by_contra fun k => h (.inr (.inr (.inl k))),
        by_contra fun k => h (.inr (.inr (.inr k)))⟩
    rw [if_pos hne]
    simp only [f0, f1, f2, f3, hn]

theorem gives_unique {rd : Reader} {file : File} {p q : Quat} (hp : GivesQuaternion rd file p) (hq : GivesQuaternion rd file q) : p = q := by
  unfold GivesQuaternion at hp hq
  by_cases h : number rd file "ATTITUDE" "initial_quaternion_i2b_(0)" ≠ 0 ∨ number rd file "ATTITUDE" "initial_quaternion_i2b_(1)" ≠ 0 ∨
    number rd file "ATTITUDE" "initial_quaternion_i2b_(2)" ≠ 0 ∨ number rd file "ATTITUDE" "initial_quaternion_i2b_(3)" ≠ 0
  · exact (hp.1 h).trans (hq.1 h).symm
  · exact (hp.2 h).trans (hq.2 h).symm

theorem vec3_vector (rd : Reader) (file : File) (sec key k0 k1 k2 : String) (h0 : indexedKey key.toList 0 = k0.toList)
    (h1 : indexedKey key.toList 1 = k1.toList) (h2 : indexedKey key.toList 2 = k2.toList) :
    rd.vec3 (file sec.toList) key.toList = vector rd file sec k0 k1 k2 := by
  funext i
  fin_cases i
  · change readDouble rd.getReal (file sec.toList) (indexedKey key.toList 0) = _; rw [h0]; rfl
  · change readDouble rd.getReal (file sec.toList) (indexedKey key.toList 1) = _; rw [h1]; rfl
  · change readDouble rd.getReal (file sec.toList) (indexedKey key.toList 2) = _; rw [h2]; rfl

theorem ofList_iff (s : Str) (t : String) : String.ofList s = t ↔ s = t.toList := by
  constructor
  · rintro rfl; exact (String.toList_ofList).symm
  · rintro rfl; exact String.ofList_toList

theorem seeks_of_target {rd : Reader} {file : File} {w : Att.World} {key : String} {p m : Vec 3} (hw : Consistent w)
    (h : targetVector { w with targetEcef := p } (Mode.ofString (String.ofList (text rd file "CONTROLLED_ATTITUDE" key))) = .ok m)
    (hp : Mode.ofString (String.ofList (text rd file "CONTROLLED_ATTITUDE" key)) = .earthSurface → HasGeodetic earthRadius flattening p
      (number rd file "CONTROLLED_ATTITUDE" "target_position_latitude_deg" * (Real.pi / 180))
      (number rd file "CONTROLLED_ATTITUDE" "target_position_longitude_deg" * (Real.pi / 180)) (number rd file "CONTROLLED_ATTITUDE" "altitude_m")) :
    Seeks rd file w key m := by
  obtain ⟨t1, t2, t3, t4, ⟨g, t5, g5⟩, ⟨d, t6, g6⟩⟩ := C112_targets { w with targetEcef := p } hw.sun hw.earth hw.rotation
  obtain ⟨n0, n1, n2, n3, n4, n5, n6, n7⟩ := C112_mode_names (String.ofList (text rd file "CONTROLLED_ATTITUDE" key))
  unfold Seeks
  cases hmode : Mode.ofString (String.ofList (text rd file "CONTROLLED_ATTITUDE" key)) <;> rw [hmode] at h
  · cases h
  · exact .inl ⟨(ofList_iff _ _).1 (n1.1 hmode), (Res.ok.inj (t1.symm.trans h)).symm⟩
  · exact .inr (.inl ⟨(ofList_iff _ _).1 (n2.1 hmode), (Res.ok.inj (t2.symm.trans h)).symm⟩)
  · exact .inr (.inr (.inl ⟨(ofList_iff _ _).1 (n3.1 hmode), (Res.ok.inj (t3.symm.trans h)).symm⟩))
  · refine .inr (.inr (.inr (.inl ⟨(ofList_iff _ _).1 (n4.1 hmode), ?_⟩)))
    rw [← Res.ok.inj (t5.symm.trans h)]; exact g5
  · exact .inr (.inr (.inr (.inr (.inl ⟨(ofList_iff _ _).1 (n5.1 hmode), (Res.ok.inj (t4.symm.trans h)).symm⟩))))
  · refine .inr (.inr (.inr (.inr (.inr ⟨(ofList_iff _ _).1 (n6.1 hmode), ?_⟩))))
    rw [← Res.ok.inj (t6.symm.trans h)]
    exact (show w.dcmJ2000ToEcef.mulVec (w.position + d) = p from g6) ▸ hp hmode
  · cases h

/-- Whether the controlled start is left at the quaternion of the file: inertial stabilisation, an unknown mode, twice the same mode, or body directions closer
than 30 degrees to a common line. -/
def Held (rd : Reader) (file : File) : Prop :=
  text rd file "CONTROLLED_ATTITUDE" "main_mode" ∉ pointingNames ∨
  text rd file "CONTROLLED_ATTITUDE" "sub_mode" ∉ "INERTIAL_STABILIZE".toList :: pointingNames ∨
  text rd file "CONTROLLED_ATTITUDE" "main_mode" = text rd file "CONTROLLED_ATTITUDE" "sub_mode" ∨
  Real.sqrt 3 / 2 * (len (mainDirection rd file) * len (subDirection rd file)) < |dot (mainDirection rd file) (subDirection rd file)|

theorem mode_cases (s : Str) :
    (Mode.ofString (String.ofList s) = .inertialStabilize ∧ s = "INERTIAL_STABILIZE".toList ∧ s ∉ pointingNames) ∨
    (Mode.ofString (String.ofList s) = .noControl ∧ s ∉ "INERTIAL_STABILIZE".toList :: pointingNames) ∨
    (Mode.ofString (String.ofList s) ≠ .inertialStabilize ∧ Mode.ofString (String.ofList s) ≠ .noControl ∧ s ∈ pointingNames ∧
      s ≠ "INERTIAL_STABILIZE".toList) := by
  obtain ⟨n0, n1, n2, n3, n4, n5, n6, n7⟩ := C112_mode_names (String.ofList s)
  by_cases h : s ∈ "INERTIAL_STABILIZE".toList :: pointingNames
  · simp only [pointingNames, List.mem_cons, List.not_mem_nil, or_false] at h
    rcases h with rfl | rfl | rfl | rfl | rfl | rfl | rfl
    · exact .inl (by decide +kernel)
    all_goals exact .inr (.inr (by decide +kernel))
  · refine .inr (.inl ⟨n7.2 fun hh => h ?_, h⟩)
    simp only [List.mem_cons, List.not_mem_nil, or_false, ofList_iff] at hh
    simpa only [pointingNames, List.mem_cons, List.not_mem_nil, or_false] using hh

theorem mode_inj {s t : Str} (hs : s ∈ pointingNames) (h : Mode.ofString (String.ofList s) = Mode.ofString (String.ofList t)) : s = t := by
  obtain ⟨n0, n1, n2, n3, n4, n5, n6, n7⟩ := C112_mode_names (String.ofList t)
  simp only [ofList_iff] at n0 n1 n2 n3 n4 n5 n6
  simp only [pointingNames, List.mem_cons, List.not_mem_nil, or_false] at hs
  rcases hs with rfl | rfl | rfl | rfl | rfl | rfl
  · exact (n1.1 (h.symm.trans (by decide +kernel))).symm
  · exact (n2.1 (h.symm.trans (by decide +kernel))).symm
  · exact (n3.1 (h.symm.trans (by decide +kernel))).symm
  · exact (n4.1 (h.symm.trans (by decide +kernel))).symm
  · exact (n5.1 (h.symm.trans (by decide +kernel))).symm
  · exact (n6.1 (h.symm.trans (by decide +kernel))).symm

/-- The members of the object made from the settings. -/
theorem readControlled_eq (rd : Reader) (file : File) (inertia : Mat 3 3) (prev : Quat × Vec 3) :
    (readControlled rd file inertia prev).1 = Controlled.new (Mode.ofString (String.ofList (text rd file "CONTROLLED_ATTITUDE" "main_mode")))
      (Mode.ofString (String.ofList (text rd file "CONTROLLED_ATTITUDE" "sub_mode")))
      (readQuat rd (file "ATTITUDE".toList) "initial_quaternion_i2b".toList) (mainDirection rd file) (subDirection rd file) inertia prev.1 prev.2 := by
  unfold readControlled
  simp only [vec3_vector rd file "CONTROLLED_ATTITUDE" "main_pointing_direction_b" _ _ _ (by decide +kernel : _ = "main_pointing_direction_b(0)".toList)
    (by decide +kernel : _ = "main_pointing_direction_b(1)".toList) (by decide +kernel : _ = "main_pointing_direction_b(2)".toList),
    vec3_vector rd file "CONTROLLED_ATTITUDE" "sub_pointing_direction_b" _ _ _ (by decide +kernel : _ = "sub_pointing_direction_b(0)".toList)
    (by decide +kernel : _ = "sub_pointing_direction_b(1)".toList) (by decide +kernel : _ = "sub_pointing_direction_b(2)".toList)]
  rfl

theorem new_fields (main sub : Mode) (q : Quat) (mB uB : Vec 3) (I : Mat 3 3) (q0 : Quat) (w0 : Vec 3) :
    let s := Controlled.new main sub q mB uB I q0 w0
    s.main = main ∧ s.sub = sub ∧ s.quat = q ∧ s.omega = 0 ∧ s.torque = 0 ∧ s.prevTime = -1 ∧ s.inertia = I := by
  unfold Controlled.new Controlled.initializeModes
  dsimp only
  split_ifs <;> exact ⟨rfl, rfl, rfl, rfl, rfl, rfl, rfl⟩

theorem enabled_iff (rd : Reader) (file : File) (inertia : Mat 3 3) (prev : Quat × Vec 3) (hm : mainDirection rd file ≠ 0) (hu : subDirection rd file ≠ 0) :
    ((readControlled rd file inertia prev).1.enabled = false ∨ (readControlled rd file inertia prev).1.main = .inertialStabilize) ↔ Held rd file := by
  rw [readControlled_eq]
  generalize hM : text rd file "CONTROLLED_ATTITUDE" "main_mode" = a
  generalize hS : text rd file "CONTROLLED_ATTITUDE" "sub_mode" = b
  unfold Held
  rw [hM, hS]
  rw [(new_fields _ _ _ _ _ _ _ _).1]
  rcases mode_cases a with ⟨h1, h2, h3⟩ | ⟨h1, h2⟩ | ⟨h1, h2, h3, h4⟩
  · simp [h1, h3]
  · have hn := (C112_new (Mode.ofString (String.ofList a)) (Mode.ofString (String.ofList b))
      (readQuat rd (file "ATTITUDE".toList) "initial_quaternion_i2b".toList) (mainDirection rd file) (subDirection rd file) inertia prev.1 prev.2
      (by rw [h1]; decide) hm hu).1
    refine ⟨fun _ => .inl fun h => h2 (List.mem_cons_of_mem _ h), fun _ => .inl ?_⟩
    rw [← Bool.not_eq_true, hn]
    exact fun h => h.1 h1
  · have hn := (C112_new (Mode.ofString (String.ofList a)) (Mode.ofString (String.ofList b))
      (readQuat rd (file "ATTITUDE".toList) "initial_quaternion_i2b".toList) (mainDirection rd file) (subDirection rd file) inertia prev.1 prev.2
      h1 hm hu).1
    rw [← Bool.not_eq_true, hn]
    constructor
    · rintro (h | h)
      · by_contra hc
        push Not at hc
        refine h ⟨h2, ?_, fun he => hc.2.2.1 (mode_inj h3 he), hc.2.2.2⟩
        rcases mode_cases b with ⟨k1, -⟩ | ⟨-, k2⟩ | ⟨-, k2, -⟩
        · rw [k1]; decide
        · exact absurd hc.2.1 k2
        · exact k2
      · exact absurd h h1
    · rintro (h | h | h | h)
      · exact absurd h3 h
      · refine .inl fun hh => hh.2.1 ?_
        rcases mode_cases b with ⟨k1, k2, -⟩ | ⟨k1, -⟩ | ⟨-, -, k3, -⟩
        · exact absurd (k2 ▸ List.mem_cons_self) h
        · exact k1
        · exact absurd (List.mem_cons_of_mem _ k3) h
      · exact .inl fun hh => hh.2.2.1 (by rw [h])
      · exact .inl fun hh => absurd hh.2.2.2 (not_le.2 h)

/-- The initial state of a controlled start. -/
theorem start_controlled {rd : Reader} {file : File} {w : Att.World} {step : ℝ} {inertia : Mat 3 3} {prev : Quat × Vec 3}
    (hi : text rd file "ATTITUDE" "initialize_mode" = "CONTROLLED".toList) (hw : Consistent w) (hm : mainDirection rd file ≠ 0)
    (hu : subDirection rd file ≠ 0) (hlon : |number rd file "CONTROLLED_ATTITUDE" "target_position_longitude_deg"| < 2 ^ 31 * 360) :
    (Held rd file → initialState rd file w step inertia prev =
      .ok (0, readQuat rd (file "ATTITUDE".toList) "initial_quaternion_i2b".toList, 0)) ∧
    (¬ Held rd file → text rd file "CONTROLLED_ATTITUDE" "sub_mode" = "INERTIAL_STABILIZE".toList → initialState rd file w step inertia prev = .ub) ∧
    (¬ Held rd file → text rd file "CONTROLLED_ATTITUDE" "sub_mode" ≠ "INERTIAL_STABILIZE".toList → ∃ q m u,
      initialState rd file w step inertia prev = .ok (0, q, 0) ∧ Seeks rd file w "main_mode" m ∧ Seeks rd file w "sub_mode" u ∧
      (cross m u ≠ 0 → Points q ((1 / len (mainDirection rd file)) • mainDirection rd file) ((1 / len (subDirection rd file)) • subDirection rd file) m u)) := by
  have hen := enabled_iff rd file inertia prev hm hu
  have hI : initialState rd file w step inertia prev =
      (propagateTo (readControlled rd file inertia prev).1 (readControlled rd file inertia prev).2 w step).bind takeState := if_pos hi
  have hq := readControlled_eq rd file inertia prev
  have hg : (readControlled rd file inertia prev).2 = GeodeticPosition.new
      (number rd file "CONTROLLED_ATTITUDE" "target_position_latitude_deg" * (Real.pi / 180))
      (number rd file "CONTROLLED_ATTITUDE" "target_position_longitude_deg" * (Real.pi / 180)) (number rd file "CONTROLLED_ATTITUDE" "altitude_m") := rfl
  obtain ⟨p, hp, hgeo⟩ := C98_to_ecef (number rd file "CONTROLLED_ATTITUDE" "target_position_latitude_deg" * (Real.pi / 180))
    (number rd file "CONTROLLED_ATTITUDE" "target_position_longitude_deg" * (Real.pi / 180)) (number rd file "CONTROLLED_ATTITUDE" "altitude_m") (by
      rw [abs_mul, abs_of_pos (by positivity : 0 < Real.pi / 180)]
      calc _ < 2 ^ 31 * 360 * (Real.pi / 180) := mul_lt_mul_of_pos_right hlon (by positivity)
        _ = _ := by ring)
  rw [← hg] at hp
  generalize hs : (readControlled rd file inertia prev).1 = s at *
  generalize ht : (readControlled rd file inertia prev).2 = target at *
  have hf := new_fields (Mode.ofString (String.ofList (text rd file "CONTROLLED_ATTITUDE" "main_mode")))
      (Mode.ofString (String.ofList (text rd file "CONTROLLED_ATTITUDE" "sub_mode")))
      (readQuat rd (file "ATTITUDE".toList) "initial_quaternion_i2b".toList) (mainDirection rd file) (subDirection rd file) inertia prev.1 prev.2
  have hnew := C112_new (Mode.ofString (String.ofList (text rd file "CONTROLLED_ATTITUDE" "main_mode")))
      (Mode.ofString (String.ofList (text rd file "CONTROLLED_ATTITUDE" "sub_mode")))
      (readQuat rd (file "ATTITUDE".toList) "initial_quaternion_i2b".toList) (mainDirection rd file) (subDirection rd file) inertia prev.1 prev.2
  rw [← hq] at hf hnew
  obtain ⟨f1, f2, f3, f4, f5, f6, f7⟩ := hf
  have hnot : ¬ Held rd file → s.enabled = true ∧ s.main ≠ .inertialStabilize := by
    intro h
    rw [← hen] at h
    push Not at h
    exact ⟨by simpa using h.1, h.2⟩
  -- the call always runs in surroundings whose target is right when a mode needs it
  have hprop : ¬ Held rd file → ∃ p', propagateTo s target w step = s.propagate { w with targetEcef := p' } step ∧
      ((s.main = .earthSurface ∨ s.sub = .earthSurface) → p' = p) := by
    intro h
    obtain ⟨h1, h2⟩ := hnot h
    unfold propagateTo
    by_cases hE : s.main = .earthSurface ∨ s.sub = .earthSurface
    · rw [if_pos ⟨h1, h2, hE⟩, hp]
      exact ⟨p, rfl, fun _ => rfl⟩
    · rw [if_neg (fun h => hE h.2.2)]
      exact ⟨w.targetEcef, rfl, fun h => absurd h hE⟩
  refine ⟨fun h => ?_, fun h hsub => ?_, fun h hsub => ?_⟩
  · have h' := hen.2 h
    have : propagateTo s target w step = .ok (some s) := by
      unfold propagateTo
      rw [if_neg (by rintro ⟨a, b, -⟩; rcases h' with h' | h'; · rw [a] at h'; cases h'
                     · exact b h')]
      exact (C112_outcomes s w step).1 h'
    rw [hI, this, ← f3]
    rfl
  · obtain ⟨h1, h2⟩ := hnot h
    obtain ⟨p', e, -⟩ := hprop h
    have hs2 : s.sub = .inertialStabilize := by rw [f2]; exact (C112_mode_names _).1.2 ((ofList_iff _ _).2 hsub)
    rw [hI, e, ((C112_outcomes s _ step).2 h1 h2).1.2 (.inr (.inl hs2))]
    rfl
  · obtain ⟨h1, h2⟩ := hnot h
    obtain ⟨p', e, he⟩ := hprop h
    have hmode : Mode.ofString (String.ofList (text rd file "CONTROLLED_ATTITUDE" "main_mode")) ≠ .inertialStabilize := by rw [← f1]; exact h2
    obtain ⟨n1, n2⟩ := hnew hmode hm hu
    obtain ⟨c1, c2, c3, c4⟩ := n1.1 h1
    obtain ⟨d1, d2, d3, d4, -⟩ := n2 h1
    have hsubmode : Mode.ofString (String.ofList (text rd file "CONTROLLED_ATTITUDE" "sub_mode")) ≠ .inertialStabilize := by
      intro hh
      exact hsub ((ofList_iff _ _).1 ((C112_mode_names _).1.1 hh))
    obtain ⟨s', hs'⟩ := (((C112_outcomes s { w with targetEcef := p' } step).2 h1 h2).2 ⟨by rw [f1]; exact c1, by rw [f2]; exact hsubmode,
      by rw [f2]; exact c2⟩).2.2.2 (.inl (by rw [f6]; norm_num))
    have hgeo' : ∀ mode, (mode = s.main ∨ mode = s.sub) → mode = .earthSurface → HasGeodetic earthRadius flattening p'
      (number rd file "CONTROLLED_ATTITUDE" "target_position_latitude_deg" * (Real.pi / 180))
      (number rd file "CONTROLLED_ATTITUDE" "target_position_longitude_deg" * (Real.pi / 180)) (number rd file "CONTROLLED_ATTITUDE" "altitude_m") := by
      rintro mode hmm rfl
      rw [he (hmm.imp Eq.symm Eq.symm)]
      exact hgeo
    have htv : ∀ mode : Mode, mode ≠ .inertialStabilize → mode ≠ .noControl → ∃ m, targetVector { w with targetEcef := p' } mode = .ok m := by
      intro mode a b
      cases mode <;> first | exact absurd rfl a | exact absurd rfl b | exact ⟨_, rfl⟩
    obtain ⟨m, hm'⟩ := htv s.main h2 (by rw [f1]; exact c1)
    obtain ⟨u, hu'⟩ := htv s.sub (by rw [f2]; exact hsubmode) (by rw [f2]; exact c2)
    refine ⟨s'.quat, m, u, ?_, ?_, ?_, fun hc => ?_⟩
    · rw [hI, e, hs']; rfl
    · exact seeks_of_target hw (f1 ▸ hm') (fun hE => hgeo' _ (.inl rfl) (f1.trans hE))
    · exact seeks_of_target hw (f2 ▸ hu') (fun hE => hgeo' _ (.inr rfl) (f2.trans hE))
    · have hlm := len_pos hm
      have hlu := len_pos hu
      have e1 : (1 / len (mainDirection rd file)) • mainDirection rd file = s.mainB := by
        conv_lhs => rw [← d3]
        rw [smul_smul, d3]
        rw [one_div_mul_cancel hlm.ne', one_smul]
      have e2 : (1 / len (subDirection rd file)) • subDirection rd file = s.subB := by
        conv_lhs => rw [← d4]
        rw [smul_smul, d4]
        rw [one_div_mul_cancel hlu.ne', one_smul]
      rw [e1, e2]
      refine (C112_pointing s s' _ step m u h1 h2 hm' hu' d1 ?_ hc hs').1
      intro h0
      rw [h0] at d2
      norm_num [len] at d2

/-- What an attitude that does not follow a controlled motion is made from. -/
theorem initAttitude_ok {rd : Reader} {files : Str → File} {path : Str} {w : Att.World} {step : ℝ} {inertia : Mat 3 3} {prev : Quat × Vec 3}
    {a : AnyAttitude} (h : initAttitude rd files path w step inertia prev = .ok a)
    (hp : text rd (files path) "ATTITUDE" "propagate_mode" ≠ "CONTROLLED".toList) :
    initialState rd (files path) w step inertia prev = .ok (a.omega, a.quat, a.torque) := by
  unfold initAttitude at h
  dsimp only at h
  rcases h1 : initialState rd (files path) w step inertia prev with s | _ | _ | _ <;> rw [h1] at h <;> simp only [Res.bind, reduceCtorEq] at h
  have hrk : ∀ {a : AnyAttitude}, ((Attitude.new s.1 s.2.1 inertia s.2.2 step).bind fun a => .ok (AnyAttitude.rk4 a)) = .ok a → (a.omega, a.quat, a.torque) = s := by
    intro a ha
    unfold Attitude.new at ha
    rcases h2 : Lu.calcInverseMatrix inertia with inv | _ | _ | _ <;> rw [h2] at ha <;> simp only [Res.bind, reduceCtorEq] at ha
    obtain rfl := Res.ok.inj ha
    rfl
  congr 1
  split_ifs at h with a1 a2 a3
  · exact (hrk h).symm
  · unfold Cantilever.new at h
    dsimp only at h
    generalize readInertia rd _ = C at h
    rcases h2 : Lu.calcInverseMatrix inertia with inv | _ | _ | _ <;> rw [h2] at h <;> simp only [Res.bind, reduceCtorEq] at h
    rcases h3 : Lu.calcInverseMatrix (inertia + C) with inv' | _ | _ | _ <;> rw [h3] at h <;> simp only [reduceCtorEq] at h
    obtain rfl := Res.ok.inj h
    rfl
  · exact absurd a3 hp
  · exact (hrk h).symm

/-- **C170 (start given).** Unless its start or its motion is controlled, an attitude starts with the angular velocity, the quaternion (as written, not
normalised) and the torque of the section `ATTITUDE`. -/
theorem C170_given (rd : Reader) (files : Str → File) (path : Str) (w : Att.World) (step : ℝ) (inertia : Mat 3 3) (prev : Quat × Vec 3) (a : AnyAttitude)
    (h : initAttitude rd files path w step inertia prev = .ok a) (hp : text rd (files path) "ATTITUDE" "propagate_mode" ≠ "CONTROLLED".toList)
    (hi : text rd (files path) "ATTITUDE" "initialize_mode" ≠ "CONTROLLED".toList) :
    a.omega = ![number rd (files path) "ATTITUDE" "initial_angular_velocity_b_rad_s(0)", number rd (files path) "ATTITUDE" "initial_angular_velocity_b_rad_s(1)",
      number rd (files path) "ATTITUDE" "initial_angular_velocity_b_rad_s(2)"] ∧
    GivesQuaternion rd (files path) a.quat ∧
    a.torque = ![number rd (files path) "ATTITUDE" "initial_torque_b_Nm(0)", number rd (files path) "ATTITUDE" "initial_torque_b_Nm(1)",
      number rd (files path) "ATTITUDE" "initial_torque_b_Nm(2)"] := by
  have h1 := initAttitude_ok h hp
  have h2 : initialState rd (files path) w step inertia prev = .ok (rd.vec3 (files path "ATTITUDE".toList) "initial_angular_velocity_b_rad_s".toList,
    readQuat rd (files path "ATTITUDE".toList) "initial_quaternion_i2b".toList, rd.vec3 (files path "ATTITUDE".toList) "initial_torque_b_Nm".toList) :=
    if_neg hi
  have h3 := Res.ok.inj (h1.symm.trans h2)
  have e1 : a.omega = _ := congrArg Prod.fst h3
  have e2 : a.quat = _ := congrArg (·.2.1) h3
  have e3 : a.torque = _ := congrArg (·.2.2) h3
  refine ⟨e1.trans ?_, ?_, e3.trans ?_⟩
  · exact vec3_vector rd (files path) "ATTITUDE" "initial_angular_velocity_b_rad_s" _ _ _ (by decide +kernel) (by decide +kernel) (by decide +kernel)
  · rw [e2]; exact readQuat_gives rd (files path)
  · exact vec3_vector rd (files path) "ATTITUDE" "initial_torque_b_Nm" _ _ _ (by decide +kernel) (by decide +kernel) (by decide +kernel)

/-- **C170 (controlled start).** With `initialize_mode` `CONTROLLED` the attitude starts without angular velocity and torque. It points – the main target exactly
along the main body direction, the sub target on the side of the sub body direction – if the modes are two different pointing modes and the body directions
are at least 30 degrees apart from a common line; otherwise (inertial stabilisation, an unknown mode, …) it has the quaternion of the file. -/
theorem C170_controlled_start (rd : Reader) (files : Str → File) (path : Str) (w : Att.World) (step : ℝ) (inertia : Mat 3 3) (prev : Quat × Vec 3)
    (a : AnyAttitude) (h : initAttitude rd files path w step inertia prev = .ok a)
    (hp : text rd (files path) "ATTITUDE" "propagate_mode" ≠ "CONTROLLED".toList)
    (hi : text rd (files path) "ATTITUDE" "initialize_mode" = "CONTROLLED".toList) (hw : Consistent w) (hm : mainDirection rd (files path) ≠ 0)
    (hu : subDirection rd (files path) ≠ 0) (hlon : |number rd (files path) "CONTROLLED_ATTITUDE" "target_position_longitude_deg"| < 2 ^ 31 * 360) :
    a.omega = 0 ∧ a.torque = 0 ∧
    (Held rd (files path) → GivesQuaternion rd (files path) a.quat) ∧
    (¬ Held rd (files path) → ∃ m u, Seeks rd (files path) w "main_mode" m ∧ Seeks rd (files path) w "sub_mode" u ∧
      (cross m u ≠ 0 → Points a.quat ((1 / len (mainDirection rd (files path))) • mainDirection rd (files path))
        ((1 / len (subDirection rd (files path))) • subDirection rd (files path)) m u)) := by
  have h1 := initAttitude_ok h hp
  obtain ⟨k1, k2, k3⟩ := start_controlled (step := step) (inertia := inertia) (prev := prev) hi hw hm hu hlon
  by_cases hH : Held rd (files path)
  · have h3 := Res.ok.inj (h1.symm.trans (k1 hH))
    have e2 : a.quat = _ := congrArg (·.2.1) h3
    refine ⟨congrArg Prod.fst h3, congrArg (·.2.2) h3, fun _ => ?_, fun h => absurd hH h⟩
    rw [e2]; exact readQuat_gives rd (files path)
  · by_cases hs : text rd (files path) "CONTROLLED_ATTITUDE" "sub_mode" = "INERTIAL_STABILIZE".toList
    · rw [k2 hH hs] at h1; cases h1
    · obtain ⟨q, m, u, e, s1, s2, s3⟩ := k3 hH hs
      have h3 := Res.ok.inj (h1.symm.trans e)
      have e2 : a.quat = q := congrArg (·.2.1) h3
      refine ⟨congrArg Prod.fst h3, congrArg (·.2.2) h3, fun h => absurd h hH, fun _ => ⟨m, u, s1, s2, ?_⟩⟩
      rw [e2]; exact s3

/-- **C170 (controlled motion).** With `propagate_mode` `CONTROLLED` the attitude starts at the quaternion of the file, whatever `initialize_mode` says, without
angular velocity and torque; it is pointed by the first propagation (C112). -/
theorem C170_controlled_motion (rd : Reader) (files : Str → File) (path : Str) (w : Att.World) (step : ℝ) (inertia : Mat 3 3) (prev : Quat × Vec 3)
    (a : AnyAttitude) (h : initAttitude rd files path w step inertia prev = .ok a)
    (hp : text rd (files path) "ATTITUDE" "propagate_mode" = "CONTROLLED".toList) :
    ∃ c target, a = .controlled c target ∧ a.omega = 0 ∧ a.torque = 0 ∧ GivesQuaternion rd (files path) a.quat ∧
      (mainDirection rd (files path) ≠ 0 → subDirection rd (files path) ≠ 0 →
        ((c.enabled = false ∨ c.main = .inertialStabilize) ↔ Held rd (files path))) := by
  unfold initAttitude at h
  dsimp only at h
  rcases h1 : initialState rd (files path) w step inertia prev with s | _ | _ | _ <;> rw [h1] at h <;> simp only [Res.bind, reduceCtorEq] at h
  unfold text at hp
  rw [hp, if_neg (by decide), if_neg (by decide), if_pos rfl] at h
  obtain rfl := Res.ok.inj h
  have hq := readControlled_eq rd (files path) inertia prev
  have hf := new_fields (Mode.ofString (String.ofList (text rd (files path) "CONTROLLED_ATTITUDE" "main_mode")))
      (Mode.ofString (String.ofList (text rd (files path) "CONTROLLED_ATTITUDE" "sub_mode")))
      (readQuat rd (files path "ATTITUDE".toList) "initial_quaternion_i2b".toList) (mainDirection rd (files path)) (subDirection rd (files path))
      inertia prev.1 prev.2
  rw [← hq] at hf
  refine ⟨_, _, rfl, hf.2.2.2.1, hf.2.2.2.2.1, ?_, fun hm hu => enabled_iff rd (files path) inertia prev hm hu⟩
  change GivesQuaternion rd (files path) (readControlled rd (files path) inertia prev).1.quat
  rw [hf.2.2.1]
  exact readQuat_gives rd (files path)

/-- **C170 (undefined).** A controlled start that points the main direction but names `INERTIAL_STABILIZE` as sub mode is undefined behaviour: the sub direction
is read without having been set. -/
theorem C170_undefined (rd : Reader) (files : Str → File) (path : Str) (w : Att.World) (step : ℝ) (inertia : Mat 3 3) (prev : Quat × Vec 3)
    (hi : text rd (files path) "ATTITUDE" "initialize_mode" = "CONTROLLED".toList) (hw : Consistent w) (hm : mainDirection rd (files path) ≠ 0)
    (hu : subDirection rd (files path) ≠ 0) (hlon : |number rd (files path) "CONTROLLED_ATTITUDE" "target_position_longitude_deg"| < 2 ^ 31 * 360)
    (hmain : text rd (files path) "CONTROLLED_ATTITUDE" "main_mode" ∈ pointingNames)
    (hsub : text rd (files path) "CONTROLLED_ATTITUDE" "sub_mode" = "INERTIAL_STABILIZE".toList)
    (hangle : |dot (mainDirection rd (files path)) (subDirection rd (files path))| ≤
      Real.sqrt 3 / 2 * (len (mainDirection rd (files path)) * len (subDirection rd (files path)))) :
    initAttitude rd files path w step inertia prev = .ub := by
  obtain ⟨-, k2, -⟩ := start_controlled (step := step) (inertia := inertia) (prev := prev) hi hw hm hu hlon
  have hH : ¬ Held rd (files path) := by
    rintro (h | h | h | h)
    · exact h hmain
    · exact h (hsub ▸ List.mem_cons_self)
    · rw [h, hsub] at hmain
      exact absurd hmain (by decide +kernel)
    · exact absurd hangle (not_le.2 h)
  unfold initAttitude
  dsimp only
  rw [k2 hH hsub]
  rfl

/-- **C170 (kind and parameters).** When the start is not controlled: the motion is that of a spacecraft with a cantilever for `CANTILEVER_VIBRATION`, with the inertia
tensor (row after row), damping ratio and intrinsic angular velocity of the structure file and the cantilever at rest; controlled for `CONTROLLED`; and that of
a rigid body for every other text. A singular inertia tensor (of the spacecraft, or of the spacecraft with the cantilever) raises an exception, and nothing
else does. -/
theorem C170_kind (rd : Reader) (files : Str → File) (path : Str) (w : Att.World) (step : ℝ) (inertia : Mat 3 3) (prev : Quat × Vec 3)
    (hi : text rd (files path) "ATTITUDE" "initialize_mode" ≠ "CONTROLLED".toList) :
    (text rd (files path) "ATTITUDE" "propagate_mode" ∉ ["CANTILEVER_VIBRATION".toList, "CONTROLLED".toList] →
      (inertia.det = 0 → initAttitude rd files path w step inertia prev = .throws) ∧
      (inertia.det ≠ 0 → ∃ a, initAttitude rd files path w step inertia prev = .ok (.rk4 a) ∧ a.enabled = true ∧ a.step = step ∧ a.time = 0 ∧
        a.inertia = inertia ∧ a.wheel = 0)) ∧
    (text rd (files path) "ATTITUDE" "propagate_mode" = "CANTILEVER_VIBRATION".toList → ∀ structureFile C,
      structureFile = files (text rd (files path) "SETTING_FILES" "structure_file") →
      C = cantileverTensor rd structureFile →
      (inertia.det = 0 ∨ (inertia + C).det = 0 → initAttitude rd files path w step inertia prev = .throws) ∧
      (inertia.det ≠ 0 → (inertia + C).det ≠ 0 → ∃ c, initAttitude rd files path w step inertia prev = .ok (.cantilever c) ∧
        c.inertiaC = C ∧ c.rate = 0 ∧ c.angle = 0 ∧ c.base.time = 0 ∧ c.base.step = step ∧ c.base.inertia = inertia ∧
        c.attenuation = 2 * number rd structureFile "CANTILEVER_PARAMETERS" "damping_ratio_cantilever" *
          number rd structureFile "CANTILEVER_PARAMETERS" "intrinsic_angular_velocity_cantilever_rad_s" ∧
        c.spring = number rd structureFile "CANTILEVER_PARAMETERS" "intrinsic_angular_velocity_cantilever_rad_s" ^ 2)) ∧
    (text rd (files path) "ATTITUDE" "propagate_mode" = "CONTROLLED".toList →
      ∃ c target, initAttitude rd files path w step inertia prev = .ok (.controlled c target)) := by
  have h2 : initialState rd (files path) w step inertia prev = .ok (rd.vec3 (files path "ATTITUDE".toList) "initial_angular_velocity_b_rad_s".toList,
    readQuat rd (files path "ATTITUDE".toList) "initial_quaternion_i2b".toList, rd.vec3 (files path "ATTITUDE".toList) "initial_torque_b_Nm".toList) :=
    if_neg hi
  have hd := Lu.C73_inverse inertia
  unfold initAttitude text
  dsimp only
  rw [h2]
  simp only [Res.bind]
  refine ⟨fun hp => ?_, fun hp => ?_, fun hp => ?_⟩
  · simp only [List.mem_cons, List.not_mem_nil, or_false, not_or] at hp
    have hall : ∀ {X Y Z : Res AnyAttitude}, (if readString rd.paths (files path "ATTITUDE".toList) "propagate_mode".toList = "RK4".toList then X
        else if readString rd.paths (files path "ATTITUDE".toList) "propagate_mode".toList = "CANTILEVER_VIBRATION".toList then Y
        else if readString rd.paths (files path "ATTITUDE".toList) "propagate_mode".toList = "CONTROLLED".toList then Z else X) = X := by
      intro X Y Z
      split_ifs
      · rfl
      · exact absurd ‹_› hp.1
      · exact absurd ‹_› hp.2
      · rfl
    rw [hall]
    unfold Attitude.new
    constructor
    · intro h0
      rw [hd.1 h0]; rfl
    · intro h0
      obtain ⟨b, hb, -⟩ := hd.2 h0
      rw [hb]
      exact ⟨_, rfl, rfl, rfl, rfl, rfl, rfl⟩
  · rintro S C rfl rfl
    rw [hp, if_neg (by decide), if_pos rfl]
    have hC : readInertia rd (files (readString rd.paths (files path "SETTING_FILES".toList) "structure_file".toList) "CANTILEVER_PARAMETERS".toList) =
        cantileverTensor rd (files (readString rd.paths (files path "SETTING_FILES".toList) "structure_file".toList)) := by
      have hk : ∀ (k : ℕ) (key : String), indexedKey "inertia_tensor_cantilever_kgm2".toList k = key.toList →
          readDouble rd.getReal (files (readString rd.paths (files path "SETTING_FILES".toList) "structure_file".toList) "CANTILEVER_PARAMETERS".toList)
            (indexedKey "inertia_tensor_cantilever_kgm2".toList k) =
          number rd (files (readString rd.paths (files path "SETTING_FILES".toList) "structure_file".toList)) "CANTILEVER_PARAMETERS" key := by
        intro k key hkey
        rw [hkey]; rfl
      apply mat3_ext
      refine ⟨hk 0 _ ?_, hk 1 _ ?_, hk 2 _ ?_, hk 3 _ ?_, hk 4 _ ?_, hk 5 _ ?_, hk 6 _ ?_, hk 7 _ ?_, hk 8 _ ?_⟩ <;> decide +kernel
    rw [← hC]
    generalize readInertia rd _ = C
    have hd' := Lu.C73_inverse (inertia + C)
    unfold Cantilever.new
    dsimp only
    constructor
    · intro h0
      by_cases h1 : inertia.det = 0
      · rw [hd.1 h1]; rfl
      · obtain ⟨b, hb, -⟩ := hd.2 h1
        rw [hb]
        simp only [Res.bind]
        rw [hd'.1 (h0.resolve_left h1)]
    · intro h1 h3
      obtain ⟨b, hb, -⟩ := hd.2 h1
      obtain ⟨b', hb', -⟩ := hd'.2 h3
      rw [hb]
      simp only [Res.bind]
      rw [hb']
      refine ⟨_, rfl, rfl, rfl, rfl, rfl, rfl, rfl, rfl, ?_⟩
      exact Real.rpow_two _
  · rw [hp, if_neg (by decide), if_neg (by decide), if_pos rfl]
    exact ⟨_, _, rfl⟩

/-! ## Concrete cases -/

/-- A settings file: start, motion and sub mode as given; no rotation; main direction z to the Sun, sub direction x. -/
def exFile (start motion sub : String) : File := fun sec key =>
  if sec = "ATTITUDE".toList then
    if key = "initialize_mode".toList then some start.toList
    else if key = "propagate_mode".toList then some motion.toList
    else if key = "initial_quaternion_i2b(3)".toList then some "1".toList
    else if key = "initial_torque_b_Nm(1)".toList then some "1".toList
    else none
  else if sec = "CONTROLLED_ATTITUDE".toList then
    if key = "main_mode".toList then some "SUN_POINTING".toList
    else if key = "sub_mode".toList then some sub.toList
    else if key = "main_pointing_direction_b(2)".toList then some "1".toList
    else if key = "sub_pointing_direction_b(0)".toList then some "1".toList
    else none
  else none

/-- A reader that understands the file. -/
noncomputable def exReader : Reader where
  paths := ⟨[], [], []⟩
  getReal := fun s => if s = "1".toList then 1 else 0
  getInteger := fun _ => 0
  rows := fun _ => []

theorem ex_main (start motion sub : String) : mainDirection exReader (exFile start motion sub) = ![0, 0, 1] := by
  unfold mainDirection vector number
  rw [show exFile start motion sub "CONTROLLED_ATTITUDE".toList "main_pointing_direction_b(0)".toList = none by rfl,
    show exFile start motion sub "CONTROLLED_ATTITUDE".toList "main_pointing_direction_b(1)".toList = none by rfl,
    show exFile start motion sub "CONTROLLED_ATTITUDE".toList "main_pointing_direction_b(2)".toList = some "1".toList by rfl]
  simp [exReader]

theorem ex_sub (start motion sub : String) : subDirection exReader (exFile start motion sub) = ![1, 0, 0] := by
  unfold subDirection vector number
  rw [show exFile start motion sub "CONTROLLED_ATTITUDE".toList "sub_pointing_direction_b(0)".toList = some "1".toList by rfl,
    show exFile start motion sub "CONTROLLED_ATTITUDE".toList "sub_pointing_direction_b(1)".toList = none by rfl,
    show exFile start motion sub "CONTROLLED_ATTITUDE".toList "sub_pointing_direction_b(2)".toList = none by rfl]
  simp [exReader]

theorem ex_text (file : File) (sec key : String) (v : String) (h : file sec.toList key.toList = some v.toList) (h0 : ¬ "//".toList <:+: v.toList)
    (h1 : ¬ "SETTINGS_DIR_FROM_EXE".toList <:+: v.toList) (h2 : ¬ "EXT_LIB_DIR_FROM_EXE".toList <:+: v.toList)
    (h3 : ¬ "CORE_DIR_FROM_EXE".toList <:+: v.toList) : text exReader file sec key = v.toList := IniRead.C52_plain _ _ _ _ h h0 h1 h2 h3

theorem ex_consistent : Consistent exampleWorld :=
  ⟨Or.inl rfl, Or.inr (by simp [exampleWorld]), by constructor <;> simp [exampleWorld]⟩

theorem ex_lon (start motion sub : String) :
    |number exReader (exFile start motion sub) "CONTROLLED_ATTITUDE" "target_position_longitude_deg"| < 2 ^ 31 * 360 := by
  unfold number
  rw [show exFile start motion sub "CONTROLLED_ATTITUDE".toList "target_position_longitude_deg".toList = none by rfl]
  norm_num

theorem ex_held (start motion : String) : ¬ Held exReader (exFile start motion "VELOCITY_DIRECTION_POINTING") := by
  have hm := ex_text (exFile start motion "VELOCITY_DIRECTION_POINTING") "CONTROLLED_ATTITUDE" "main_mode" "SUN_POINTING" rfl (by decide +kernel)
    (by decide +kernel) (by decide +kernel) (by decide +kernel)
  have hs := ex_text (exFile start motion "VELOCITY_DIRECTION_POINTING") "CONTROLLED_ATTITUDE" "sub_mode" "VELOCITY_DIRECTION_POINTING" rfl (by decide +kernel)
    (by decide +kernel) (by decide +kernel) (by decide +kernel)
  unfold Held
  rw [hm, hs, ex_main, ex_sub]
  rintro (h | h | h | h)
  · exact h (by decide +kernel)
  · exact h (by decide +kernel)
  · exact absurd h (by decide +kernel)
  · simp [dot] at h
    have := mul_nonneg (len_nonneg ![(0 : ℝ), 0, 1]) (len_nonneg ![(1 : ℝ), 0, 0])
    have h3 : 0 ≤ Real.sqrt 3 / 2 := by positivity
    exact absurd h (not_lt.2 (mul_nonneg h3 this))

/-- Non-vacuity of `C170_given` and `C170_kind`: a rigid body with a start given in the file, for a known and an unknown mode. -/
example (prev : Quat × Vec 3) : ∃ a : Attitude,
    initAttitude exReader (fun _ => exFile "MANUAL" "RK4" "") [] exampleWorld 1 (1 : Matrix (Fin 3) (Fin 3) ℝ) prev = .ok (.rk4 a) ∧
    text exReader (exFile "MANUAL" "RK4" "") "ATTITUDE" "propagate_mode" ≠ "CONTROLLED".toList ∧
    text exReader (exFile "MANUAL" "RK4" "") "ATTITUDE" "initialize_mode" ≠ "CONTROLLED".toList ∧ a.quat.w = 1 := by
  have hi := ex_text (exFile "MANUAL" "RK4" "") "ATTITUDE" "initialize_mode" "MANUAL" rfl (by decide +kernel) (by decide +kernel) (by decide +kernel)
    (by decide +kernel)
  have hp := ex_text (exFile "MANUAL" "RK4" "") "ATTITUDE" "propagate_mode" "RK4" rfl (by decide +kernel) (by decide +kernel) (by decide +kernel)
    (by decide +kernel)
  have hi' : text exReader (exFile "MANUAL" "RK4" "") "ATTITUDE" "initialize_mode" ≠ "CONTROLLED".toList := by rw [hi]; decide
  have hp' : text exReader (exFile "MANUAL" "RK4" "") "ATTITUDE" "propagate_mode" ≠ "CONTROLLED".toList := by rw [hp]; decide
  obtain ⟨a, ha, -⟩ := ((C170_kind exReader (fun _ => exFile "MANUAL" "RK4" "") [] exampleWorld 1 1 prev hi').1 (by rw [hp]; decide)).2 (by simp)
  refine ⟨a, ha, hp', hi', ?_⟩
  have hq := (C170_given exReader (fun _ => exFile "MANUAL" "RK4" "") [] exampleWorld 1 1 prev _ ha hp' hi').2.1
  have hno : ∀ key : String, exFile "MANUAL" "RK4" "" "ATTITUDE".toList key.toList = none → number exReader (exFile "MANUAL" "RK4" "") "ATTITUDE" key = 0 := by
    intro key hk
    unfold number; rw [hk]
  have h := hq.2 (by
    rintro (h | h | h | h)
    · exact h (hno _ rfl)
    · exact h (hno _ rfl)
    · exact h (hno _ rfl)
    · exact h (hno _ rfl))
  have hw : a.quat.w = _ := congrArg Quat.w h
  rw [hw]
  change number exReader (exFile "MANUAL" "RK4" "") "ATTITUDE" "initial_quaternion_i2b(3)" = 1
  unfold number
  rw [show exFile "MANUAL" "RK4" "" "ATTITUDE".toList "initial_quaternion_i2b(3)".toList = some "1".toList by rfl]
  simp [exReader]

/-- Non-vacuity of `C170_controlled_start`: the z axis starts towards the Sun, the x axis on the side of the velocity. -/
example (prev : Quat × Vec 3) : ∃ a : AnyAttitude,
    initAttitude exReader (fun _ => exFile "CONTROLLED" "RK4" "VELOCITY_DIRECTION_POINTING") [] exampleWorld 1 (1 : Matrix (Fin 3) (Fin 3) ℝ) prev = .ok a ∧
    ∃ m u, Points a.quat ![0, 0, 1] ![1, 0, 0] m u ∧ m = ![0, 0, 9] ∧ u = ![0, 2, 0] := by
  have hi := ex_text (exFile "CONTROLLED" "RK4" "VELOCITY_DIRECTION_POINTING") "ATTITUDE" "initialize_mode" "CONTROLLED" rfl (by decide +kernel) (by decide +kernel)
    (by decide +kernel) (by decide +kernel)
  have hp := ex_text (exFile "CONTROLLED" "RK4" "VELOCITY_DIRECTION_POINTING") "ATTITUDE" "propagate_mode" "RK4" rfl (by decide +kernel) (by decide +kernel)
    (by decide +kernel) (by decide +kernel)
  have hmm := ex_text (exFile "CONTROLLED" "RK4" "VELOCITY_DIRECTION_POINTING") "CONTROLLED_ATTITUDE" "main_mode" "SUN_POINTING" rfl (by decide +kernel)
    (by decide +kernel) (by decide +kernel) (by decide +kernel)
  have hss := ex_text (exFile "CONTROLLED" "RK4" "VELOCITY_DIRECTION_POINTING") "CONTROLLED_ATTITUDE" "sub_mode" "VELOCITY_DIRECTION_POINTING" rfl
    (by decide +kernel) (by decide +kernel) (by decide +kernel) (by decide +kernel)
  have hm : mainDirection exReader (exFile "CONTROLLED" "RK4" "VELOCITY_DIRECTION_POINTING") ≠ 0 := by
    rw [ex_main]; intro h; simpa using congrFun h 2
  have hu : subDirection exReader (exFile "CONTROLLED" "RK4" "VELOCITY_DIRECTION_POINTING") ≠ 0 := by
    rw [ex_sub]; intro h; simpa using congrFun h 0
  obtain ⟨-, -, k3⟩ := start_controlled (step := 1) (inertia := (1 : Matrix (Fin 3) (Fin 3) ℝ)) (prev := prev) hi ex_consistent hm hu (ex_lon _ _ _)
  obtain ⟨q, _, _, e, _⟩ := k3 (ex_held _ _) (by rw [hss]; decide)
  obtain ⟨b, hb, -⟩ := (Lu.C73_inverse (1 : Matrix (Fin 3) (Fin 3) ℝ)).2 (by simp)
  have hex : ∃ a : AnyAttitude,
      initAttitude exReader (fun _ => exFile "CONTROLLED" "RK4" "VELOCITY_DIRECTION_POINTING") [] exampleWorld 1 (1 : Matrix (Fin 3) (Fin 3) ℝ) prev = .ok a := by
    unfold initAttitude
    dsimp only
    unfold text at hp
    rw [e]
    simp only [Res.bind]
    rw [hp, if_pos rfl]
    unfold Attitude.new
    rw [hb]
    exact ⟨_, rfl⟩
  obtain ⟨a, ha⟩ := hex
  obtain ⟨-, -, -, h4⟩ := C170_controlled_start exReader (fun _ => exFile "CONTROLLED" "RK4" "VELOCITY_DIRECTION_POINTING") [] exampleWorld 1 1 prev a ha
    (by rw [hp]; decide) hi ex_consistent hm hu (ex_lon _ _ _)
  obtain ⟨m, u, s1, s2, s3⟩ := h4 (ex_held _ _)
  have e1 : m = ![0, 0, 9] := by
    unfold Seeks at s1
    rw [hmm] at s1
    rcases s1 with ⟨-, h⟩ | ⟨h, -⟩ | ⟨h, -⟩ | ⟨h, -⟩ | ⟨h, -⟩ | ⟨h, -⟩
    · rw [h]; apply vec3_ext <;> simp [exampleWorld]
    all_goals exact absurd h (by decide +kernel)
  have e2 : u = ![0, 2, 0] := by
    unfold Seeks at s2
    rw [hss] at s2
    rcases s2 with ⟨h, -⟩ | ⟨h, -⟩ | ⟨-, h⟩ | ⟨h, -⟩ | ⟨h, -⟩ | ⟨h, -⟩
    · exact absurd h (by decide +kernel)
    · exact absurd h (by decide +kernel)
    · exact h
    all_goals exact absurd h (by decide +kernel)
  refine ⟨a, ha, m, u, ?_, e1, e2⟩
  have h := s3 (by rw [e1, e2]; intro h; have := congrFun h 0; simp [cross] at this)
  rw [ex_main, ex_sub] at h
  simpa [len] using h

/-- Non-vacuity of `C170_undefined`. -/
example (prev : Quat × Vec 3) :
    initAttitude exReader (fun _ => exFile "CONTROLLED" "RK4" "INERTIAL_STABILIZE") [] exampleWorld 1 (1 : Matrix (Fin 3) (Fin 3) ℝ) prev = .ub := by
  refine C170_undefined exReader _ [] exampleWorld 1 1 prev
    (ex_text _ "ATTITUDE" "initialize_mode" "CONTROLLED" rfl (by decide +kernel) (by decide +kernel) (by decide +kernel) (by decide +kernel)) ex_consistent
    (by rw [ex_main]; intro h; simpa using congrFun h 2) (by rw [ex_sub]; intro h; simpa using congrFun h 0) (ex_lon _ _ _)
    (by rw [ex_text _ "CONTROLLED_ATTITUDE" "main_mode" "SUN_POINTING" rfl (by decide +kernel) (by decide +kernel) (by decide +kernel) (by decide +kernel)]
        decide +kernel)
    (ex_text _ "CONTROLLED_ATTITUDE" "sub_mode" "INERTIAL_STABILIZE" rfl (by decide +kernel) (by decide +kernel) (by decide +kernel) (by decide +kernel)) ?_
  rw [ex_main, ex_sub]
  have := mul_nonneg (len_nonneg ![(0 : ℝ), 0, 1]) (len_nonneg ![(1 : ℝ), 0, 0])
  have h3 : 0 ≤ Real.sqrt 3 / 2 := by positivity
  simpa [dot] using mul_nonneg h3 this

/-- Non-vacuity of `C170_controlled_motion`. -/
example (prev : Quat × Vec 3) : ∃ c target,
    initAttitude exReader (fun _ => exFile "MANUAL" "CONTROLLED" "ORBIT_NORMAL_POINTING") [] exampleWorld 1 (1 : Matrix (Fin 3) (Fin 3) ℝ) prev =
      .ok (.controlled c target) ∧
    text exReader (exFile "MANUAL" "CONTROLLED" "ORBIT_NORMAL_POINTING") "ATTITUDE" "propagate_mode" = "CONTROLLED".toList := by
  have hi := ex_text (exFile "MANUAL" "CONTROLLED" "ORBIT_NORMAL_POINTING") "ATTITUDE" "initialize_mode" "MANUAL" rfl (by decide +kernel) (by decide +kernel)
    (by decide +kernel) (by decide +kernel)
  have hp := ex_text (exFile "MANUAL" "CONTROLLED" "ORBIT_NORMAL_POINTING") "ATTITUDE" "propagate_mode" "CONTROLLED" rfl (by decide +kernel) (by decide +kernel)
    (by decide +kernel) (by decide +kernel)
  obtain ⟨c, t, h⟩ := (C170_kind exReader (fun _ => exFile "MANUAL" "CONTROLLED" "ORBIT_NORMAL_POINTING") [] exampleWorld 1 1 prev (by rw [hi]; decide)).2.2 hp
  exact ⟨c, t, h, hp⟩

end S2E.InitAttitude
