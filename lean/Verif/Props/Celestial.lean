import Verif.Model.Celestial
import Verif.Spec.TwoBody
import Verif.Props.Quaternion
import Verif.Props.OrbitalElements
import Mathlib.Tactic.NormNum
import Mathlib.Analysis.Calculus.Deriv.Mul
import Mathlib.Analysis.Calculus.Deriv.Pi
/-!
# C106, C107: celestial bodies seen from the spacecraft
-/
namespace S2E.Env

open TwoBody

/-- The body with SPICE identifier `p` is entry `k` of the selected bodies. -/
def SelectedAt (c : Celestial) (p : Int) (k : ℕ) : Prop := c.ids[k]? = some p ∧ ∀ j < k, c.ids[j]? ≠ some p

theorem findIdx_selected {l : List Int} {p : Int} {k : ℕ} (h1 : l[k]? = some p) (h2 : ∀ j < k, l[j]? ≠ some p) :
    l.findIdx? (fun i => i = p) = some k := by
  rw [List.findIdx?_eq_some_iff_getElem]
  obtain ⟨hk, e⟩ := List.getElem?_eq_some_iff.mp h1
  refine ⟨hk, by simpa using e, fun j hj => ?_⟩
  have := h2 j hj
  rw [List.getElem?_eq_getElem (by omega)] at this
  simpa using this

theorem findIdx_absent {l : List Int} {p : Int} (h : p ∉ l) : l.findIdx? (fun i => i = p) = none := by
  rw [List.findIdx?_eq_none_iff]
  intro x hx
  simp only [decide_eq_false_iff_not]
  rintro rfl
  exact h hx

theorem id_selected {spice : String → Option Int} {c : Celestial} {name : String} {p : Int} {k : ℕ} (hs : spice name = some p)
    (h : SelectedAt c p k) : c.calcBodyIdFromName spice name = .ok k := by
  simp only [Celestial.calcBodyIdFromName, hs, findIdx_selected h.1 h.2, Option.getD_some]

theorem id_absent {spice : String → Option Int} {c : Celestial} {name : String} {p : Int} (hs : spice name = some p)
    (h : p ∉ c.ids) : c.calcBodyIdFromName spice name = .ok 0 := by
  simp only [Celestial.calcBodyIdFromName, hs, findIdx_absent h, Option.getD_none]

theorem getAt_map {α β : Type} (f : α → β) {l : List α} {k : ℕ} {a : α} (h : l[k]? = some a) : getAt (l.map f) k = .ok (f a) := by
  simp [getAt, h]

/-- **C106** (positions). After the ephemeris has been read for the time `et` and the local information has been updated for a spacecraft at
`x` with attitude `q`, every getter asked for a selected body returns the data of that body: its ephemeris position in metres, that position
relative to the spacecraft, the same vector in the body frame (of the same length), its gravity constant and its mean radius. -/
theorem C106_selected_body (spice : String → Option Int) (bodyName : Int → String) (spk : String → ℝ → Vec 3 × Vec 3) (gm : Int → ℝ)
    (radiiKm : Int → Vec 3) (ids : List Int) (center : String) (et : ℝ) (x v w : Vec 3) (q : Quat) (name : String) (p : Int)
    (hs : spice name = some p) (hp : p ∈ ids) :
    let c := (Celestial.new ids center gm radiiKm).update bodyName spk et
    let l := c.localUpdate x v q w
    let r : Vec 3 := (1000 : ℝ) • (spk (ephemerisName (bodyName p)) et).1
    c.getPositionFromCenter spice name = .ok r ∧
    c.getPositionFromSpacecraftI spice l name = .ok (r - x) ∧
    c.getPositionFromSpacecraftB spice l name = .ok (q.frameConversion (r - x)) ∧
    (q.IsUnit → len (q.frameConversion (r - x)) = len (r - x)) ∧
    c.getGravityConstant spice name = .ok (gm p * 10 ^ 9) ∧
    c.getMeanRadius spice name = .ok ((1000 * radiiKm p 0 * (1000 * radiiKm p 1) * (1000 * radiiKm p 2)) ^ (1 / 3 : ℝ)) := by
  intro c l r
  obtain ⟨k, hk1, hk2⟩ : ∃ k : ℕ, ids[k]? = some p ∧ ∀ j < k, ids[j]? ≠ some p := by
    have hex : ∃ k : ℕ, ids[k]? = some p := List.mem_iff_getElem?.mp hp
    exact ⟨Nat.find hex, Nat.find_spec hex, fun j hj => Nat.find_min hex hj⟩
  have hid : c.calcBodyIdFromName spice name = .ok k := id_selected hs ⟨hk1, hk2⟩
  have hr : (fun j => (spk (ephemerisName (bodyName p)) et).1 j * 1000) = r := by
    funext j; simp [r, mul_comm]
  have hlt : k < ids.length := (List.getElem?_eq_some_iff.mp hk1).1
  have hpos : c.position[k]? = some r := by
    rw [← hr]
    simp only [c, Celestial.update, Celestial.new, List.getElem?_map, hk1, Option.map_some]
  have hsub : vsub r x = r - x := rfl
  refine ⟨?_, ?_, ?_, ?_, ?_, ?_⟩
  · simp only [Celestial.getPositionFromCenter, hid, Res.bind, Celestial.getPositionFromCenterAt]
    rw [if_neg (by show ¬ k > ids.length; omega)]
    simp only [getAt, hpos]
  · simp only [Celestial.getPositionFromSpacecraftI, hid, Res.bind]
    exact getAt_map (fun r => vsub r x) hpos
  · simp only [Celestial.getPositionFromSpacecraftB, hid, Res.bind]
    have : (c.position.map fun r => vsub r x)[k]? = some (r - x) := by simp [hpos, hsub]
    exact getAt_map _ this
  · intro hq
    have := C64_isometry q hq (r - x) (r - x)
    have e : ∀ u : Vec 3, len u = Real.sqrt (u 0 ^ 2 + u 1 ^ 2 + u 2 ^ 2) := fun u => rfl
    rw [e, e]
    congr 1
    simp only [dot3] at this
    linarith [this]
  · simp only [Celestial.getGravityConstant, hid, Res.bind]
    rw [show c.gravity = ids.map fun p => gm p * 1000000000 from rfl, getAt_map _ hk1]
    norm_num
  · simp only [Celestial.getMeanRadius, hid, Res.bind]
    rw [show c.meanRadius = ids.map fun p => meanRadiusOf fun j => radiiKm p j * 1000 from rfl, getAt_map _ hk1, meanRadiusOf]
    congr 2
    ring

/-- A configuration with three bodies: identifiers 399 (EARTH), 10 (SUN), 301 (MOON). -/
noncomputable def exampleSpice : String → Option Int := fun n =>
  if n = "EARTH" then some 399 else if n = "SUN" then some 10 else if n = "MOON" then some 301 else if n = "MARS" then some 499 else none

/-- The hypotheses of `C106_selected_body` hold for the Moon of that configuration. -/
example : exampleSpice "MOON" = some 301 ∧ (301 : Int) ∈ ([399, 10, 301] : List Int) := by
  constructor
  · simp [exampleSpice]
  · simp

/-- **C106** (ephemeris). The ephemeris of Mars and of the planets beyond is that of the barycentre of the planet's system, under the name
SPICE uses for it; for every other body it is the ephemeris of the body itself. -/
theorem C106_ephemeris_name (name : String) :
    ephemerisName "MARS" = "MARS_BARYCENTER" ∧ ephemerisName "JUPITER" = "JUPITER_BARYCENTER" ∧ ephemerisName "SATURN" = "SATURN_BARYCENTER" ∧
    ephemerisName "URANUS" = "URANUS_BARYCENTER" ∧ ephemerisName "NEPTUNE" = "NEPTUNE_BARYCENTER" ∧ ephemerisName "PLUTO" = "PLUTO_BARYCENTER" ∧
    (name ∉ ["MARS", "JUPITER", "SATURN", "URANUS", "NEPTUNE", "PLUTO"] → ephemerisName name = name) := by
  refine ⟨by decide, by decide, by decide, by decide, by decide, by decide, fun h => ?_⟩
  simp only [List.mem_cons, List.not_mem_nil, or_false] at h
  rw [ephemerisName, if_neg h]

example : "EARTH" ∉ ["MARS", "JUPITER", "SATURN", "URANUS", "NEPTUNE", "PLUTO"] := by decide

/-- **C106** (wrong names). A body that SPICE knows but that was not selected is not reported as missing: every getter silently answers with
the data of the *first* selected body, whatever that body is. A name unknown to SPICE makes the identifier an uninitialised variable. -/
theorem C106_unselected_body (spice : String → Option Int) (c : Celestial) (l : Local) (name first : String) (p p0 : Int) (rest : List Int)
    (hids : c.ids = p0 :: rest) (hs : spice name = some p) (hp : p ∉ c.ids) (hf : spice first = some p0) :
    c.getPositionFromCenter spice name = c.getPositionFromCenter spice first ∧
    c.getPositionFromSpacecraftI spice l name = c.getPositionFromSpacecraftI spice l first ∧
    c.getPositionFromSpacecraftB spice l name = c.getPositionFromSpacecraftB spice l first ∧
    c.getGravityConstant spice name = c.getGravityConstant spice first ∧
    c.getMeanRadius spice name = c.getMeanRadius spice first := by
  have h1 : c.calcBodyIdFromName spice name = .ok 0 := id_absent hs hp
  have h2 : c.calcBodyIdFromName spice first = .ok 0 := id_selected hf ⟨by simp [hids], by intro j hj; omega⟩
  simp only [Celestial.getPositionFromCenter, Celestial.getPositionFromSpacecraftI, Celestial.getPositionFromSpacecraftB,
    Celestial.getGravityConstant, Celestial.getMeanRadius, h1, h2, and_self]

/-- Mars is known to SPICE, was not selected, and answers with the data of the Earth. -/
example : exampleSpice "MARS" = some 499 ∧ (499 : Int) ∉ ([399, 10, 301] : List Int) ∧ exampleSpice "EARTH" = some 399 := by
  refine ⟨?_, ?_, ?_⟩ <;> simp [exampleSpice]

/-- **C106** (undefined behaviour). A name SPICE does not know, an empty selection, and the position of body number `n` when `n` bodies are
selected (the range check of the getter is off by one) are undefined behaviour; the numbers above `n` give the zero vector. -/
theorem C106_undefined (spice : String → Option Int) (c : Celestial) (name : String) (hl : c.position.length = c.ids.length) :
    (spice name = none → c.calcBodyIdFromName spice name = .ub) ∧
    (c.ids = [] → c.getPositionFromCenter spice name = .ub) ∧
    (∀ id : ℕ, c.getPositionFromCenterAt id = .ub ↔ id = c.ids.length) ∧
    (∀ id : ℕ, c.ids.length < id → c.getPositionFromCenterAt id = .ok 0) := by
  have key : ∀ id : ℕ, c.getPositionFromCenterAt id = .ub ↔ id = c.ids.length := by
    intro id
    simp only [Celestial.getPositionFromCenterAt]
    by_cases h : id > c.ids.length
    · rw [if_pos h]
      simp
      omega
    · rw [if_neg h]
      by_cases h2 : id = c.ids.length
      · simp [getAt, h2, ← hl]
      · have : id < c.position.length := by omega
        simp [getAt, List.getElem?_eq_getElem this, h2]
  refine ⟨?_, ?_, key, ?_⟩
  · intro h
    simp only [Celestial.calcBodyIdFromName, h]
  · intro h
    rcases hs : spice name with _ | p
    · simp only [Celestial.getPositionFromCenter, Celestial.calcBodyIdFromName, hs, Res.bind]
    · have h0 : c.calcBodyIdFromName spice name = .ok 0 := id_absent hs (by simp [h])
      simp only [Celestial.getPositionFromCenter, h0, Res.bind]
      exact (key 0).mpr (by simp [h])
  · intro id h
    simp only [Celestial.getPositionFromCenterAt]
    rw [if_pos h]
    rfl

/-- A state of the class with two bodies satisfies the length hypothesis. -/
example : (Celestial.new [399, 10] "EARTH" (fun _ => 1) (fun _ _ => 1)).position.length = (Celestial.new [399, 10] "EARTH" (fun _ => 1) (fun _ _ => 1)).ids.length := rfl

/-- **C106** (mean radius). The mean radius is the radius of the ball with the volume of the ellipsoid, so it lies between the smallest and
the largest of the three radii. -/
theorem C106_mean_radius (r : Vec 3) (hr : ∀ j, 0 < r j) (lo hi : ℝ) (hlo0 : 0 < lo) (hlo : ∀ j, lo ≤ r j) (hhi : ∀ j, r j ≤ hi) :
    meanRadiusOf r ^ 3 = r 0 * r 1 * r 2 ∧ lo ≤ meanRadiusOf r ∧ meanRadiusOf r ≤ hi := by
  have h0 : 0 < r 0 * r 1 * r 2 := mul_pos (mul_pos (hr 0) (hr 1)) (hr 2)
  have h3 : meanRadiusOf r ^ 3 = r 0 * r 1 * r 2 := by
    rw [meanRadiusOf, ← Real.rpow_natCast, ← Real.rpow_mul h0.le]
    norm_num
  have hm : 0 ≤ meanRadiusOf r := Real.rpow_nonneg h0.le _
  refine ⟨h3, ?_, ?_⟩
  · refine le_of_pow_le_pow_left₀ (n := 3) (by norm_num) hm ?_
    rw [h3, show lo ^ 3 = lo * lo * lo by ring]
    exact mul_le_mul (mul_le_mul (hlo 0) (hlo 1) hlo0.le (hr 0).le) (hlo 2) hlo0.le (mul_pos (hr 0) (hr 1)).le
  · have hh : 0 ≤ hi := (hr 0).le.trans (hhi 0)
    refine le_of_pow_le_pow_left₀ (n := 3) (by norm_num) hh ?_
    rw [h3, show hi ^ 3 = hi * hi * hi by ring]
    exact mul_le_mul (mul_le_mul (hhi 0) (hhi 1) (hr 1).le hh) (hhi 2) (hr 2).le (mul_nonneg hh hh)

/-- The radii of an oblate body satisfy the hypotheses. -/
example : ∀ j, (6356 : ℝ) ≤ (![6378, 6378, 6356] : Vec 3) j ∧ (![6378, 6378, 6356] : Vec 3) j ≤ 6378 := by
  intro j; fin_cases j <;> simp <;> norm_num

/-- The velocity of a body seen from the spacecraft, in the body frame, is the rate of change of its body-frame position. For an attitude
matrix that rotates with the angular velocity `w` (in the body frame) this is `q v - w × q r`. -/
theorem body_frame_velocity (M : ℝ → Matrix (Fin 3) (Fin 3) ℝ) (r : ℝ → Fin 3 → ℝ) (v w : Fin 3 → ℝ) (t : ℝ)
    (hM : ∀ i j, HasDerivAt (fun s => M s i j) (-(cross w (fun k => M t k j) i)) t) (hr : ∀ j, HasDerivAt (fun s => r s j) (v j) t) :
    HasDerivAt (fun s => fun i => M s i 0 * r s 0 + M s i 1 * r s 1 + M s i 2 * r s 2)
      ((fun i => M t i 0 * v 0 + M t i 1 * v 1 + M t i 2 * v 2) -
        cross w (fun i => M t i 0 * r t 0 + M t i 1 * r t 1 + M t i 2 * r t 2)) t := by
  rw [hasDerivAt_pi]
  intro i
  have h := (((hM i 0).mul (hr 0)).add ((hM i 1).mul (hr 1))).add ((hM i 2).mul (hr 2))
  refine h.congr_deriv ?_
  fin_cases i <;> simp [cross] <;> ring

/-- **C107.** The body-frame velocity of a body that is written to the log differs from the true one - the rate of change of the body-frame
position, `q v - w × (q r)` - by `(w - q w) × (q r)`: the inertial position is multiplied with the body-frame angular velocity. It is
exact precisely when that term vanishes, in particular when the spacecraft does not rotate or its attitude fixes its rotation axis. -/
theorem C107_velocity (q : Quat) (hq : q.IsUnit) (r v w : Vec 3) :
    let true_ := q.frameConversion v - cross w (q.frameConversion r)
    convertVelocity r v q w = true_ + cross (w - q.frameConversion w) (q.frameConversion r) ∧
    (convertVelocity r v q w = true_ ↔ cross w (q.frameConversion r) = cross (q.frameConversion w) (q.frameConversion r)) ∧
    (w = 0 → convertVelocity r v q w = true_) ∧ (q.frameConversion w = w → convertVelocity r v q w = true_) := by
  intro true_
  have hcross : ∀ a b : Vec 3, outerProduct a b = cross a b := fun a b => by
    apply vec3_ext <;> simp [outerProduct, cross]
  have h1 : convertVelocity r v q w = q.frameConversion v - cross (q.frameConversion w) (q.frameConversion r) := by
    have hi := (C64_isometry q hq w r).2
    rw [hcross] at hi
    have hl := C64_linear q 1 (-1) v (outerProduct w r)
    rw [hi]
    simp only [convertVelocity]
    have e1 : vsub v (outerProduct w r) = vadd (scale 1 v) (scale (-1) (outerProduct w r)) := by
      funext i; simp [vsub, vadd, scale]; ring
    rw [e1, hl]
    funext i; simp [vadd, scale]; ring
  have h2 : convertVelocity r v q w = true_ + cross (w - q.frameConversion w) (q.frameConversion r) := by
    rw [h1]
    apply vec3_ext <;> simp [true_, cross, Matrix.vecHead, Matrix.vecTail] <;> ring
  have h3 : convertVelocity r v q w = true_ ↔ cross w (q.frameConversion r) = cross (q.frameConversion w) (q.frameConversion r) := by
    rw [h1]
    simp only [true_]
    constructor
    · intro h; exact (sub_right_injective h).symm
    · intro h; rw [h]
  refine ⟨h2, h3, ?_, ?_⟩
  · rintro rfl
    rw [h3]
    have : q.frameConversion 0 = 0 := by rw [frame_explicit]; apply vec3_ext <;> simp
    rw [this]
  · intro h
    rw [h3, h]

/-- **C107** (the full statement is false). A spacecraft turned by 90 degrees about its `x` axis and rotating about its `z` axis sees a resting
body in front of it with a body-frame velocity that is not the rate of change of the body-frame position. -/
theorem C107_velocity_wrong : ∃ (q : Quat) (r v w : Vec 3), q.IsUnit ∧
    convertVelocity r v q w ≠ q.frameConversion v - cross w (q.frameConversion r) := by
  obtain ⟨s, hs⟩ : ∃ s : ℝ, s * s = 1 / 2 := ⟨Real.sqrt (1 / 2), Real.mul_self_sqrt (by norm_num)⟩
  refine ⟨⟨s, 0, 0, s⟩, ![1, 0, 0], ![0, 0, 0], ![0, 0, 1], ?_, ?_⟩
  · simp only [Quat.IsUnit]; nlinarith
  · intro h
    have h1 := congrFun h 1
    simp only [convertVelocity, frame_explicit] at h1
    simp [cross, vsub, outerProduct] at h1
    nlinarith [hs]

/-- **C107** (log of the local information). Positions and velocities of all selected bodies are written in the order of the selection; entry
`k` is computed from the data of body `k` alone. -/
theorem C107_entry (c : Celestial) (x v w : Vec 3) (q : Quat) (k : ℕ) (r u : Vec 3) (hr : c.position[k]? = some r) (hu : c.velocity[k]? = some u) :
    (c.localUpdate x v q w).positionB[k]? = some (q.frameConversion (r - x)) ∧
    (c.localUpdate x v q w).velocityI[k]? = some (u - v) ∧
    (c.localUpdate x v q w).velocityB[k]? = some (convertVelocity (r - x) (u - v) q w) := by
  have e1 : ∀ a b : Vec 3, vsub a b = a - b := fun _ _ => rfl
  refine ⟨?_, ?_, ?_⟩
  · simp [Celestial.localUpdate, hr, e1]
  · simp [Celestial.localUpdate, hu, e1]
  · simp [Celestial.localUpdate, List.getElem?_zipWith, hr, hu, e1]

end S2E.Env
