import Verif.Model.Telescope
import Verif.Props.Hipparcos
/-!
# C138-C140: telescope
-/
namespace S2E.Telescope
open S2E.TwoBody S2E.Shadow Quat

/-- The three axes of the component in body components. -/
def axisX (q : Quat) : Vec 3 := q.inverseFrameConversion ![1, 0, 0]
@[inherit_doc axisX] def axisY (q : Quat) : Vec 3 := q.inverseFrameConversion ![0, 1, 0]
@[inherit_doc axisX] def axisZ (q : Quat) : Vec 3 := q.inverseFrameConversion ![0, 0, 1]

theorem frame_comp (q : Quat) (hq : q.IsUnit) (v : Vec 3) :
    q.frameConversion v 0 = dot v (axisX q) ∧ q.frameConversion v 1 = dot v (axisY q) ∧ q.frameConversion v 2 = dot v (axisZ q) := by
  have key : ∀ e, dot3 (q.frameConversion v) e = dot v (q.inverseFrameConversion e) := by
    intro e
    conv_lhs => rw [← (C64_inverse q hq e).2]
    rw [(C64_isometry q hq _ _).1]
    rfl
  refine ⟨?_, ?_, ?_⟩
  · rw [axisX, ← key]; simp [dot3]
  · rw [axisY, ← key]; simp [dot3]
  · rw [axisZ, ← key]; simp [dot3]

/-- An angle off the axis below `f < π/2`. -/
theorem arg_lt {x y f : ℝ} (hf : 0 < f) (hf2 : f < Real.pi / 2) (h : x ≠ 0 ∨ y ≠ 0) : |atan2 y x| < f ↔ 0 < x ∧ |y| < x * Real.tan f := by
  have ht : 0 < Real.tan f := Real.tan_pos_of_pos_of_lt_pi_div_two hf hf2
  rw [atan2]
  by_cases hx : 0 < x
  · rw [Star.arg_arctan hx, abs_lt]
    have e1 : -f < Real.arctan (y / x) ↔ -Real.tan f < y / x := by
      rw [← Real.tan_neg]
      conv_rhs => rw [← Real.arctan_strictMono.lt_iff_lt, Real.arctan_tan (by linarith) (by linarith)]
    have e2 : Real.arctan (y / x) < f ↔ y / x < Real.tan f := by
      conv_rhs => rw [← Real.arctan_strictMono.lt_iff_lt, Real.arctan_tan (by linarith) (by linarith)]
    rw [e1, e2, abs_lt, lt_div_iff₀ hx, div_lt_iff₀ hx]
    constructor
    · rintro ⟨h1, h2⟩; exact ⟨hx, by linarith, by linarith⟩
    · rintro ⟨-, h1, h2⟩; exact ⟨by linarith, by linarith⟩
  · refine ⟨fun hl => ?_, fun hl => absurd hl.1 hx⟩
    exfalso
    have h1 : |Complex.arg ⟨x, y⟩| < Real.pi / 2 := hl.trans hf2
    rw [Complex.abs_arg_lt_pi_div_two_iff] at h1
    rcases h1 with h1 | h1
    · exact hx h1
    · have e1 := congrArg Complex.re h1
      have e2 := congrArg Complex.im h1
      simp at e1 e2
      rcases h with h | h
      · exact h e1
      · exact h e2

theorem arg_le {x y f : ℝ} (hf : 0 < f) (hf2 : f < Real.pi / 2) (h : x ≠ 0 ∨ y ≠ 0) : |atan2 y x| ≤ f ↔ 0 < x ∧ |y| ≤ x * Real.tan f := by
  have ht : 0 < Real.tan f := Real.tan_pos_of_pos_of_lt_pi_div_two hf hf2
  rw [atan2]
  by_cases hx : 0 < x
  · rw [Star.arg_arctan hx, abs_le]
    have e1 : -f ≤ Real.arctan (y / x) ↔ -Real.tan f ≤ y / x := by
      rw [← Real.tan_neg]
      conv_rhs => rw [← Real.arctan_strictMono.le_iff_le, Real.arctan_tan (by linarith) (by linarith)]
    have e2 : Real.arctan (y / x) ≤ f ↔ y / x ≤ Real.tan f := by
      conv_rhs => rw [← Real.arctan_strictMono.le_iff_le, Real.arctan_tan (by linarith) (by linarith)]
    rw [e1, e2, abs_le, le_div_iff₀ hx, div_le_iff₀ hx]
    constructor
    · rintro ⟨h1, h2⟩; exact ⟨hx, by linarith, by linarith⟩
    · rintro ⟨-, h1, h2⟩; exact ⟨by linarith, by linarith⟩
  · refine ⟨fun hl => ?_, fun hl => absurd hl.1 hx⟩
    exfalso
    have h1 : |Complex.arg ⟨x, y⟩| < Real.pi / 2 := hl.trans_lt hf2
    rw [Complex.abs_arg_lt_pi_div_two_iff] at h1
    rcases h1 with h1 | h1
    · exact hx h1
    · have e1 := congrArg Complex.re h1
      have e2 := congrArg Complex.im h1
      simp at e1 e2
      rcases h with h | h
      · exact h e1
      · exact h e2

theorem tan_atan2 (y x : ℝ) : Real.tan (atan2 y x) = y / x := by rw [atan2, Complex.tan_arg]

/-- The direction of `v` is in the field: in front of the telescope and within the half angles `fx` (towards the component's z axis) and `fy` (towards y). -/
def InField (q : Quat) (fx fy : ℝ) (v : Vec 3) : Prop :=
  0 < dot v (axisX q) ∧ |dot v (axisZ q)| < dot v (axisX q) * Real.tan fx ∧ |dot v (axisY q)| < dot v (axisX q) * Real.tan fy

/-- The same with the boundary. -/
def InFieldOrEdge (q : Quat) (fx fy : ℝ) (v : Vec 3) : Prop :=
  0 < dot v (axisX q) ∧ |dot v (axisZ q)| ≤ dot v (axisX q) * Real.tan fx ∧ |dot v (axisY q)| ≤ dot v (axisX q) * Real.tan fy

theorem zero_of_comp {q : Quat} (hq : q.IsUnit) {v : Vec 3} (h0 : dot v (axisX q) = 0) (h1 : dot v (axisY q) = 0) (h2 : dot v (axisZ q) = 0) : v = 0 := by
  obtain ⟨e0, e1, e2⟩ := frame_comp q hq v
  have hz : q.frameConversion v = 0 := vec3_ext (by rw [e0, h0]; rfl) (by rw [e1, h1]; rfl) (by rw [e2, h2]; rfl)
  rw [← (C64_inverse q hq v).1, hz, inverse_explicit]
  apply vec3_ext <;> simp

/-- Both angles of a non-zero vector. -/
theorem field_iff {q : Quat} (hq : q.IsUnit) {v : Vec 3} (hv : v ≠ 0) {fx fy : ℝ} (h1 : 0 < fx) (h2 : fx < Real.pi / 2) (h3 : 0 < fy) (h4 : fy < Real.pi / 2) :
    ((|atan2 (dot v (axisZ q)) (dot v (axisX q))| < fx ∧ |atan2 (dot v (axisY q)) (dot v (axisX q))| < fy) ↔ InField q fx fy v) ∧
    ((|atan2 (dot v (axisZ q)) (dot v (axisX q))| ≤ fx ∧ |atan2 (dot v (axisY q)) (dot v (axisX q))| ≤ fy) ↔ InFieldOrEdge q fx fy v) := by
  by_cases hx : dot v (axisX q) = 0
  · have hyz : dot v (axisY q) ≠ 0 ∨ dot v (axisZ q) ≠ 0 := by
      by_contra hc
      push Not at hc
      exact hv (zero_of_comp hq hx hc.1 hc.2)
    have no1 : ¬InField q fx fy v := fun h => absurd h.1 (by rw [hx]; simp)
    have no2 : ¬InFieldOrEdge q fx fy v := fun h => absurd h.1 (by rw [hx]; simp)
    refine ⟨⟨fun h => ?_, fun h => absurd h no1⟩, ⟨fun h => ?_, fun h => absurd h no2⟩⟩
    · exfalso
      rcases hyz with h' | h'
      · exact absurd ((arg_lt h3 h4 (Or.inr h')).1 h.2).1 (by rw [hx]; simp)
      · exact absurd ((arg_lt h1 h2 (Or.inr h')).1 h.1).1 (by rw [hx]; simp)
    · exfalso
      rcases hyz with h' | h'
      · exact absurd ((arg_le h3 h4 (Or.inr h')).1 h.2).1 (by rw [hx]; simp)
      · exact absurd ((arg_le h1 h2 (Or.inr h')).1 h.1).1 (by rw [hx]; simp)
  · rw [arg_lt h1 h2 (Or.inl hx), arg_lt h3 h4 (Or.inl hx), arg_le h1 h2 (Or.inl hx), arg_le h3 h4 (Or.inl hx), InField, InFieldOrEdge]
    constructor <;> tauto

/-- **C138 (construction).** Construction aborts exactly when the number of pixels times the angle per pixel is a right angle or more in one direction. The flags start set,
the image positions at -1. -/
theorem C138_new (c : Config) (orbit : Option (Vec 3 × ℝ)) :
    ((c.nx * c.px < Real.pi / 2 ∧ c.ny * c.py < Real.pi / 2) →
      ∃ t, Telescope.new c orbit = .ok t ∧ t.config = c ∧ t.fx = c.nx * c.px ∧ t.fy = c.ny * c.py ∧ t.sunForbidden = true ∧ t.earthForbidden = true ∧
        t.moonForbidden = true ∧ t.sunPos = ![-1, -1] ∧ t.earthPos = ![-1, -1] ∧ t.moonPos = ![-1, -1] ∧ t.stars = List.replicate c.logged blank ∧
        t.groundX = 0 ∧ t.groundY = 0) ∧
    (¬(c.nx * c.px < Real.pi / 2 ∧ c.ny * c.py < Real.pi / 2) → Telescope.new c orbit = .throws) := by
  refine ⟨fun h => ⟨_, by rw [Telescope.new, if_pos h], rfl, rfl, rfl, rfl, rfl, rfl, rfl, rfl, rfl, rfl, rfl, rfl⟩, fun h => by rw [Telescope.new, if_neg h]⟩

/-- **C138 (exclusion).** The flag of a body is set exactly when its centre is closer than the limit to the direction of sight, the component's x axis. -/
theorem C138_forbidden (q : Quat) (target : Vec 3) (limit : ℝ) : judge q target limit = true ↔ angle target (axisX q) < limit := by
  rw [judge, (Rel.conj_frame q _).1]
  have : calcAngleTwoVectors target (q.inverseFrameConversion ![1, 0, 0]) = angle target (axisX q) := by
    rw [calcAngleTwoVectors, angle, axisX, Kepler.calcNorm_len, Kepler.calcNorm_len, Kepler.innerProduct_dot]
  rw [this]
  simp

theorem observe_eq (t : Telescope) (hq : t.config.b2c.IsUnit) (v : Vec 3) : t.observe v =
    if |atan2 (dot v (axisZ t.config.b2c)) (dot v (axisX t.config.b2c))| < t.fx ∧ |atan2 (dot v (axisY t.config.b2c)) (dot v (axisX t.config.b2c))| < t.fy then
      ![(t.config.nx.tdiv 2 : ℤ) * (dot v (axisZ t.config.b2c) / dot v (axisX t.config.b2c)) / Real.tan t.fx + (t.config.nx.tdiv 2 : ℤ),
        (t.config.ny.tdiv 2 : ℤ) * (dot v (axisY t.config.b2c) / dot v (axisX t.config.b2c)) / Real.tan t.fy + (t.config.ny.tdiv 2 : ℤ)]
    else ![-1, -1] := by
  obtain ⟨e0, e1, e2⟩ := frame_comp t.config.b2c hq v
  simp only [Telescope.observe, e0, e1, e2, tan_atan2]

/-- **C138 (image).** With positive angles below a right angle, a body (not at the telescope) in the field has the image position of the central projection on the plane
at which the field reaches from 0 to twice half the number of pixels (rounded down), strictly inside the image; any other body has the position (-1, -1). The field reaches to the full
product of pixels and angle per pixel on each side. -/
theorem C138_image (t : Telescope) (hq : t.config.b2c.IsUnit) (v : Vec 3) (hv : v ≠ 0) (h1 : 0 < t.fx) (h2 : t.fx < Real.pi / 2) (h3 : 0 < t.fy)
    (h4 : t.fy < Real.pi / 2) :
    (InField t.config.b2c t.fx t.fy v →
      t.observe v 0 = (t.config.nx.tdiv 2 : ℤ) * (1 + dot v (axisZ t.config.b2c) / (dot v (axisX t.config.b2c) * Real.tan t.fx)) ∧
      t.observe v 1 = (t.config.ny.tdiv 2 : ℤ) * (1 + dot v (axisY t.config.b2c) / (dot v (axisX t.config.b2c) * Real.tan t.fy)) ∧
      (2 ≤ t.config.nx → 0 < t.observe v 0 ∧ t.observe v 0 < t.config.nx) ∧ (2 ≤ t.config.ny → 0 < t.observe v 1 ∧ t.observe v 1 < t.config.ny)) ∧
    (¬InField t.config.b2c t.fx t.fy v → t.observe v = ![-1, -1]) := by
  rw [observe_eq t hq v]
  refine ⟨fun h => ?_, fun h => by rw [if_neg (fun hc => h ((field_iff hq hv h1 h2 h3 h4).1.1 hc))]⟩
  rw [if_pos ((field_iff hq hv h1 h2 h3 h4).1.2 h)]
  obtain ⟨hx, hz, hy⟩ := h
  have t1 : 0 < Real.tan t.fx := Real.tan_pos_of_pos_of_lt_pi_div_two h1 h2
  have t2 : 0 < Real.tan t.fy := Real.tan_pos_of_pos_of_lt_pi_div_two h3 h4
  simp only [Matrix.cons_val]
  have key : ∀ {n : ℤ} {y x T : ℝ}, 0 < x → 0 < T → |y| < x * T →
      (n.tdiv 2 : ℤ) * (y / x) / T + (n.tdiv 2 : ℤ) = (n.tdiv 2 : ℤ) * (1 + y / (x * T)) ∧
      (2 ≤ n → 0 < (n.tdiv 2 : ℤ) * (y / x) / T + (n.tdiv 2 : ℤ) ∧ (n.tdiv 2 : ℤ) * (y / x) / T + (n.tdiv 2 : ℤ) < n) := by
    intro n y x T hx hT hy
    have e : ((n.tdiv 2 : ℤ) : ℝ) * (y / x) / T + (n.tdiv 2 : ℤ) = (n.tdiv 2 : ℤ) * (1 + y / (x * T)) := by field_simp; ring
    refine ⟨e, fun hn => ?_⟩
    rw [e]
    have hxT : 0 < x * T := by positivity
    obtain ⟨b1, b2⟩ := abs_lt.1 hy
    have c1 : -1 < y / (x * T) := by rw [lt_div_iff₀ hxT]; linarith
    have c2 : y / (x * T) < 1 := by rw [div_lt_iff₀ hxT]; linarith
    have hm : 1 ≤ n.tdiv 2 ∧ 2 * n.tdiv 2 ≤ n := by rw [Int.tdiv_eq_ediv_of_nonneg (by omega)]; omega
    have m1 : (1 : ℝ) ≤ (n.tdiv 2 : ℤ) := by exact_mod_cast hm.1
    have m2 : 2 * ((n.tdiv 2 : ℤ) : ℝ) ≤ n := by exact_mod_cast hm.2
    constructor <;> nlinarith
  exact ⟨(key hx t1 hz).1, (key hx t2 hy).1, (key hx t1 hz).2, (key hx t2 hy).2⟩

/-- **C138 (field).** A body at the angle `a` from the direction of sight towards the component's z axis is imaged exactly when `|a|` is below the full product of pixels and angle
per pixel, so the image spans twice that angle; one pixel at the centre covers about twice the configured angle. -/
theorem C138_field (t : Telescope) (hq : t.config.b2c.IsUnit) (a : ℝ) (ha : |a| ≤ Real.pi) (h1 : 0 < t.fx) (h2 : t.fx < Real.pi / 2) (h3 : 0 < t.fy)
    (h4 : t.fy < Real.pi / 2) :
    (|a| < t.fx → t.observe (Real.cos a • axisX t.config.b2c + Real.sin a • axisZ t.config.b2c) =
      ![(t.config.nx.tdiv 2 : ℤ) * (1 + Real.tan a / Real.tan t.fx), (t.config.ny.tdiv 2 : ℤ)]) ∧
    (t.fx ≤ |a| → t.observe (Real.cos a • axisX t.config.b2c + Real.sin a • axisZ t.config.b2c) = ![-1, -1]) := by
  set q := t.config.b2c with hqd
  have d := fun e f : Vec 3 => Star.inverse_dot q hq e f
  have xx : dot (axisX q) (axisX q) = 1 := (d _ _).trans (by simp [dot3])
  have xy : dot (axisX q) (axisY q) = 0 := (d _ _).trans (by simp [dot3])
  have xz : dot (axisX q) (axisZ q) = 0 := (d _ _).trans (by simp [dot3])
  have zx : dot (axisZ q) (axisX q) = 0 := (d _ _).trans (by simp [dot3])
  have zy : dot (axisZ q) (axisY q) = 0 := (d _ _).trans (by simp [dot3])
  have zz : dot (axisZ q) (axisZ q) = 1 := (d _ _).trans (by simp [dot3])
  have lin : ∀ w, dot (Real.cos a • axisX q + Real.sin a • axisZ q) w = Real.cos a * dot (axisX q) w + Real.sin a * dot (axisZ q) w := by
    intro w; simp only [dot, Pi.add_apply, Pi.smul_apply, smul_eq_mul]; ring
  have ex := lin (axisX q)
  have ey := lin (axisY q)
  have ez := lin (axisZ q)
  rw [xx, zx, mul_one, mul_zero, add_zero] at ex
  rw [xy, zy, mul_zero, mul_zero, add_zero] at ey
  rw [xz, zz, mul_one, mul_zero, zero_add] at ez
  have hv : Real.cos a • axisX q + Real.sin a • axisZ q ≠ 0 := by
    intro hz
    rw [hz] at ex ez
    have := Real.sin_sq_add_cos_sq a
    rw [← ex, ← ez] at this
    simp [dot] at this
  have arg : a ≠ -Real.pi → atan2 (Real.sin a) (Real.cos a) = a := by
    intro hne
    rw [abs_le] at ha
    have e : (⟨Real.cos a, Real.sin a⟩ : ℂ) = Complex.cos a + Complex.sin a * Complex.I := by
      rw [← Complex.ofReal_cos, ← Complex.ofReal_sin]
      generalize Real.cos a = u
      generalize Real.sin a = w
      apply Complex.ext <;> simp
    rw [atan2, e, Complex.arg_cos_add_sin_mul_I ⟨lt_of_le_of_ne ha.1 (Ne.symm hne), ha.2⟩]
  have arg' : |atan2 (Real.sin a) (Real.cos a)| = |a| := by
    by_cases hne : a = -Real.pi
    · subst hne
      simp only [Real.sin_neg, Real.sin_pi, Real.cos_neg, Real.cos_pi, atan2, abs_neg, neg_zero]
      have : (⟨-1, 0⟩ : ℂ) = -1 := by apply Complex.ext <;> simp
      rw [this, Complex.arg_neg_one]
    · rw [arg hne]
  rw [observe_eq t hq, ← hqd, ex, ey, ez, arg']
  constructor
  · intro hl
    have hc : 0 < Real.cos a := by
      apply Real.cos_pos_of_mem_Ioo
      obtain ⟨b1, b2⟩ := abs_lt.1 hl
      constructor <;> linarith
    have h0 : |atan2 0 (Real.cos a)| < t.fy := by
      rw [atan2, Star.arg_arctan hc]; simpa using h3
    rw [if_pos ⟨hl, h0⟩, Real.tan_eq_sin_div_cos a]
    have t1 : 0 < Real.tan t.fx := Real.tan_pos_of_pos_of_lt_pi_div_two h1 h2
    congr 1
    · ring
    · simp
  · intro hl
    rw [if_neg fun hc => absurd hc.1 (not_lt.2 hl)]

/-! ## Stars -/

/-- The position on the image of a direction in body components, for stars: the number of pixels is not rounded to an even number. -/
noncomputable def starImage (t : Telescope) (v : Vec 3) : Vec 2 :=
  ![(t.config.nx : ℝ) / 2 * (1 + dot v (axisZ t.config.b2c) / (dot v (axisX t.config.b2c) * Real.tan t.fx)),
    (t.config.ny : ℝ) / 2 * (1 + dot v (axisY t.config.b2c) / (dot v (axisX t.config.b2c) * Real.tan t.fy))]

/-- The direction of a star in inertial components. -/
noncomputable def starDirection (s : Hip.Star) : Vec 3 :=
  ![Real.cos (s.rightAscension * (Real.pi / 180)) * Real.cos (s.declination * (Real.pi / 180)),
    Real.sin (s.rightAscension * (Real.pi / 180)) * Real.cos (s.declination * (Real.pi / 180)), Real.sin (s.declination * (Real.pi / 180))]

theorem starDirection_ne (s : Hip.Star) (q : Quat) (hq : q.IsUnit) : q.frameConversion (starDirection s) ≠ 0 := by
  intro h
  have h1 := (C64_isometry q hq (starDirection s) (starDirection s)).1
  rw [h] at h1
  simp only [dot3, starDirection, Matrix.cons_val, Pi.zero_apply] at h1
  nlinarith [Real.sin_sq_add_cos_sq (s.rightAscension * (Real.pi / 180)), Real.sin_sq_add_cos_sq (s.declination * (Real.pi / 180))]

open Classical in
/-- The stars of a catalogue in the field, in the order of the catalogue, with their image positions. -/
noncomputable def visible (t : Telescope) (i2b : Quat) (l : List Hip.Star) : List Seen :=
  (l.filter fun s => decide (InFieldOrEdge t.config.b2c t.fx t.fy (i2b.frameConversion (starDirection s)))).map
    fun s => ⟨s, starImage t (i2b.frameConversion (starDirection s))⟩

theorem lookAt_eq (t : Telescope) (hq : t.config.b2c.IsUnit) (i2b : Quat) (hi : i2b.IsUnit) (h1 : 0 < t.fx) (h2 : t.fx < Real.pi / 2) (h3 : 0 < t.fy)
    (h4 : t.fy < Real.pi / 2) (l : List Hip.Star) (n : ℕ) (hn : n < l.length) : t.lookAt i2b l n = .ok (visible t i2b [l[n]]) := by
  have hb : Hip.directionB l n i2b = .ok (i2b.frameConversion (starDirection l[n])) := by
    rw [Hip.directionB, Hip.directionI, Hip.star, List.getElem?_eq_getElem hn]; rfl
  have hs : Hip.star l n = .ok l[n] := by rw [Hip.star, List.getElem?_eq_getElem hn]
  have hv := starDirection_ne l[n] i2b hi
  obtain ⟨e0, e1, e2⟩ := frame_comp t.config.b2c hq (i2b.frameConversion (starDirection l[n]))
  rw [Telescope.lookAt, hb]
  simp only [Res.bind, e0, e1, e2, hs, tan_atan2]
  by_cases hf : InFieldOrEdge t.config.b2c t.fx t.fy (i2b.frameConversion (starDirection l[n]))
  · rw [if_pos ((field_iff hq hv h1 h2 h3 h4).2.2 hf), visible, List.filter_cons_of_pos (by simpa using hf)]
    have hx := hf.1
    have t1 : 0 < Real.tan t.fx := Real.tan_pos_of_pos_of_lt_pi_div_two h1 h2
    have t2 : 0 < Real.tan t.fy := Real.tan_pos_of_pos_of_lt_pi_div_two h3 h4
    simp only [List.filter_nil, List.map_cons, List.map_nil, starImage]
    generalize dot (i2b.frameConversion (starDirection l[n])) (axisX t.config.b2c) = x at hx ⊢
    congr 5
    · field_simp
      ring
    · field_simp
      ring
  · rw [if_neg fun hc => hf ((field_iff hq hv h1 h2 h3 h4).2.1 hc), visible, List.filter_cons_of_neg (by simpa using hf)]
    rfl

theorem visible_append (t : Telescope) (i2b : Quat) (a b : List Hip.Star) : visible t i2b (a ++ b) = visible t i2b a ++ visible t i2b b := by
  simp [visible]

theorem visible_single (t : Telescope) (i2b : Quat) (s : Hip.Star) : (visible t i2b [s]).length ≤ 1 := by
  rw [visible, List.length_map]
  exact List.length_filter_le _ _

theorem starLoop_spec (t : Telescope) (hq : t.config.b2c.IsUnit) (i2b : Quat) (hi : i2b.IsUnit) (h1 : 0 < t.fx) (h2 : t.fx < Real.pi / 2) (h3 : 0 < t.fy)
    (h4 : t.fy < Real.pi / 2) (l : List Hip.Star) (k : ℕ) : ∀ n, n + k + 1 = l.length → (visible t i2b (l.take n)).length ≤ t.config.logged →
    t.starLoop i2b l n (visible t i2b (l.take n)) = .ok ((visible t i2b l).take t.config.logged ++
      List.replicate (t.config.logged - (visible t i2b l).length) blank) := by
  induction k with
  | zero =>
    intro n hn hle
    have hall : visible t i2b (l.take n) ++ visible t i2b [l[n]] = visible t i2b l := by
      rw [← visible_append]
      congr 1
      rw [← List.take_succ_eq_append_getElem (by omega), List.take_of_length_le (by omega)]
    rw [Telescope.starLoop]
    by_cases hlt : (visible t i2b (l.take n)).length < t.config.logged
    · rw [if_pos hlt, lookAt_eq t hq i2b hi h1 h2 h3 h4 l n (by omega)]
      simp only [Res.bind, hall]
      rw [dif_pos (by omega)]
      have := visible_single t i2b l[n]
      have hl := congrArg List.length hall
      rw [List.length_append] at hl
      rw [List.take_of_length_le (by omega)]
    · rw [if_neg hlt]
      have hl := congrArg List.length hall
      rw [List.length_append] at hl
      rw [← hall, List.take_append_of_le_length (by omega), List.take_of_length_le (l := visible t i2b (l.take n)) (by omega), List.length_append]
      rw [show t.config.logged - ((visible t i2b (l.take n)).length + (visible t i2b [l[n]]).length) = 0 by omega]
      simp
  | succ k ih =>
    intro n hn hle
    rw [Telescope.starLoop]
    by_cases hlt : (visible t i2b (l.take n)).length < t.config.logged
    · rw [if_pos hlt, lookAt_eq t hq i2b hi h1 h2 h3 h4 l n (by omega)]
      simp only [Res.bind]
      rw [dif_neg (by omega)]
      have hs : visible t i2b (l.take n) ++ visible t i2b [l[n]] = visible t i2b (l.take (n + 1)) := by
        rw [← visible_append]
        congr 1
        rw [← List.take_succ_eq_append_getElem (by omega)]
      rw [hs]
      apply ih (n + 1) (by omega)
      rw [← hs, List.length_append]
      have := visible_single t i2b l[n]
      omega
    · rw [if_neg hlt]
      have hall : visible t i2b l = visible t i2b (l.take n) ++ visible t i2b (l.drop n) := by rw [← visible_append, List.take_append_drop]
      rw [hall, List.take_append_of_le_length (by omega), List.take_of_length_le (l := visible t i2b (l.take n)) (by omega), List.length_append]
      rw [show t.config.logged - ((visible t i2b (l.take n)).length + (visible t i2b (l.drop n)).length) = 0 by omega]
      simp

/-- **C139 (stars).** With a catalogue of at least one star, the logged stars are the first ones of the catalogue that are in the field (edge included), in the order of the catalogue,
with their image positions, filled up with blank entries to the configured number. With an empty catalogue and at least one logged star, the first star is accessed out of
range. -/
theorem C139_stars (t : Telescope) (hq : t.config.b2c.IsUnit) (i2b : Quat) (hi : i2b.IsUnit) (h1 : 0 < t.fx) (h2 : t.fx < Real.pi / 2) (h3 : 0 < t.fy)
    (h4 : t.fy < Real.pi / 2) (l : List Hip.Star) :
    (l ≠ [] → t.observeStars i2b l = .ok { t with
        stars := (visible t i2b l).take t.config.logged ++ List.replicate (t.config.logged - (visible t i2b l).length) blank }) ∧
    (l = [] → 0 < t.config.logged → t.observeStars i2b l = .ub) := by
  constructor
  · intro hl
    obtain ⟨k, hk⟩ : ∃ k, 0 + k + 1 = l.length := ⟨l.length - 1, by have := List.length_pos_iff.2 hl; omega⟩
    have := starLoop_spec t hq i2b hi h1 h2 h3 h4 l k 0 hk (by simp [visible])
    rw [List.take_zero, show visible t i2b [] = [] from by simp [visible]] at this
    rw [Telescope.observeStars, this]
    rfl
  · rintro rfl hn
    have : t.starLoop i2b [] 0 [] = .ub := by
      rw [Telescope.starLoop, if_pos (by simpa using hn)]
      rfl
    rw [Telescope.observeStars, this]
    rfl

/-- **C139 (brightest).** From a catalogue sorted by magnitude the brightest stars in the field are logged: no star in the field that is missing is brighter than a logged one. -/
theorem C139_brightest (t : Telescope) (i2b : Quat) (l : List Hip.Star) (h : l.Pairwise fun a b => a.magnitude ≤ b.magnitude) (n : ℕ) :
    ∀ a ∈ (visible t i2b l).take n, ∀ b ∈ (visible t i2b l).drop n, a.data.magnitude ≤ b.data.magnitude := by
  have hp : (visible t i2b l).Pairwise fun a b => a.data.magnitude ≤ b.data.magnitude := by
    rw [visible, List.pairwise_map]
    exact h.filter _
  rw [← List.take_append_drop n (visible t i2b l), List.pairwise_append] at hp
  exact hp.2.2

/-! ## Ground position -/

/-- **C140 (direction).** What an update computes for the initial ground position is its direction from the spacecraft as two angles off the direction of sight, in the component's
axes, divided by the angles per pixel: zero, not the middle of the image, when the telescope points at it. -/
theorem C140_direction (t : Telescope) (hq : t.config.b2c.IsUnit) (i2b : Quat) (hi : i2b.IsUnit) (g : GroundInput)
    (hd : (g.j2000ToEcef * g.j2000ToEcef.transpose) = 1) (hne : t.ground ≠ g.position)
    (hx : t.groundX ≤ t.config.nx) (hy : t.groundY ≤ t.config.ny) :
    let los := i2b.frameConversion (g.j2000ToEcef.transpose.mulVec (t.ground - g.position))
    t.observeGround i2b (some g) = { t with
      groundX := Complex.arg ⟨dot los (axisX t.config.b2c), dot los (axisZ t.config.b2c)⟩ / t.config.px
      groundY := Complex.arg ⟨dot los (axisX t.config.b2c), dot los (axisY t.config.b2c)⟩ / t.config.py } := by
  intro los
  rw [Telescope.observeGround]
  simp only
  rw [if_neg (by push Not; exact ⟨hx, hy⟩)]
  obtain ⟨k, hk, he⟩ : ∃ k : ℝ, 0 < k ∧ t.groundC i2b g = k • t.config.b2c.frameConversion los := by
    have hw : t.ground - g.position ≠ 0 := sub_ne_zero.2 hne
    obtain ⟨l1, l2⟩ := Dist.normalized_len hw
    set w := t.ground - g.position with hwd
    have hlw := len_pos hw
    have e1 : vsub t.ground g.position = w := rfl
    have e2 : matVec (matTranspose g.j2000ToEcef) (calcNormalizedVector w) = g.j2000ToEcef.transpose.mulVec (calcNormalizedVector w) := by
      funext i; simp [matVec, matTranspose, Matrix.mulVec, dotProduct]
    set u := calcNormalizedVector w with hu
    have hlen : len (g.j2000ToEcef.transpose.mulVec u) = 1 := by
      apply Star.len_one
      have : dot3 (g.j2000ToEcef.transpose.mulVec u) (g.j2000ToEcef.transpose.mulVec u) = dotProduct (g.j2000ToEcef.transpose.mulVec u) (g.j2000ToEcef.transpose.mulVec u) := by
        simp [dot3, dotProduct, Fin.sum_univ_three]
      rw [this, Matrix.dotProduct_mulVec, ← Matrix.mulVec_transpose, Matrix.transpose_transpose, Matrix.mulVec_mulVec, hd, Matrix.one_mulVec]
      have h2 := len_sq u
      rw [l1] at h2
      simp only [dotProduct, Fin.sum_univ_three]
      simp only [dot] at h2
      linarith
    have e3 : calcNormalizedVector (g.j2000ToEcef.transpose.mulVec u) = g.j2000ToEcef.transpose.mulVec u := by
      have := Sun.normalized_of_unit hlen one_pos
      rwa [one_smul] at this
    refine ⟨1 / len w, by positivity, ?_⟩
    simp only [Telescope.groundC, e1, ← hu, e2, e3]
    have e4 : u = (1 / len w) • w := by
      have : (1 / len w) • (len w • u) = u := by rw [smul_smul, one_div_mul_cancel hlw.ne', one_smul]
      rw [l2] at this
      exact this.symm
    have lin : ∀ (q : Quat) (s : ℝ) (v : Vec 3), q.frameConversion (s • v) = s • q.frameConversion v := by
      intro q s v
      simp only [frame_explicit]
      apply vec3_ext <;> simp <;> ring
    rw [e4, Matrix.mulVec_smul, lin, lin]
  obtain ⟨c0, c1, c2⟩ := frame_comp t.config.b2c hq los
  simp only [he, Pi.smul_apply, smul_eq_mul, c0, c1, c2, atan2]
  have ar : ∀ x y : ℝ, Complex.arg ⟨k * x, k * y⟩ = Complex.arg ⟨x, y⟩ := by
    intro x y
    rw [show (⟨k * x, k * y⟩ : ℂ) = (k : ℂ) * ⟨x, y⟩ by apply Complex.ext <;> simp, Complex.arg_real_mul _ hk]
  rw [ar, ar]

/-- **C140 (out of the image).** After an update that found a position beyond the number of pixels, the next one reports (-1, -1) whatever the geometry, and the one after computes again:
as long as the ground position stays beyond the image on that side the reports alternate. Positions beyond the other side (negative) are reported as they are. Without an orbit
nothing is reported: the values stay. -/
theorem C140_beyond (t : Telescope) (i2b : Quat) (g : GroundInput) :
    (t.groundX > t.config.nx ∨ t.groundY > t.config.ny → t.observeGround i2b (some g) = { t with groundX := -1, groundY := -1 }) ∧
    (t.groundX > t.config.nx ∨ t.groundY > t.config.ny → 0 ≤ t.config.nx → 0 ≤ t.config.ny → ∀ i2b' g',
      (t.observeGround i2b (some g)).observeGround i2b' (some g') =
        { t with groundX := atan2 (t.groundC i2b' g' 2) (t.groundC i2b' g' 0) / t.config.px
                 groundY := atan2 (t.groundC i2b' g' 1) (t.groundC i2b' g' 0) / t.config.py }) ∧
    (t.groundX ≤ t.config.nx → t.groundY ≤ t.config.ny →
      t.observeGround i2b (some g) = { t with groundX := atan2 (t.groundC i2b g 2) (t.groundC i2b g 0) / t.config.px
                                              groundY := atan2 (t.groundC i2b g 1) (t.groundC i2b g 0) / t.config.py }) ∧
    t.observeGround i2b none = t := by
  have f1 : t.groundX > t.config.nx ∨ t.groundY > t.config.ny → t.observeGround i2b (some g) = { t with groundX := -1, groundY := -1 } := by
    intro h
    simp only [Telescope.observeGround, if_pos h]
  refine ⟨f1, fun h n1 n2 i2b' g' => ?_, fun h1 h2 => ?_, rfl⟩
  · rw [f1 h]
    have m1 : (0 : ℝ) ≤ t.config.nx := by exact_mod_cast n1
    have m2 : (0 : ℝ) ≤ t.config.ny := by exact_mod_cast n2
    simp only [Telescope.observeGround, Telescope.groundC]
    rw [if_neg (by push Not; constructor <;> linarith)]
  · simp only [Telescope.observeGround]
    rw [if_neg (by push Not; exact ⟨h1, h2⟩)]

/-! ## Histories -/

/-- What stays and what an update sets, in one place. -/
structure After (c : Config) (i : Input) (t : Telescope) : Prop where
  hconfig : t.config = c
  hfx : t.fx = c.nx * c.px
  hfy : t.fy = c.ny * c.py
  hsun : t.sunForbidden = true ↔ angle i.sun (axisX c.b2c) < c.sunAngle
  hearth : t.earthForbidden = true ↔ angle i.earth (axisX c.b2c) < c.earthAngle
  hmoon : t.moonForbidden = true ↔ angle i.moon (axisX c.b2c) < c.moonAngle
  hsunPos : t.sunPos = t.observe i.sun
  hearthPos : t.earthPos = t.observe i.earth
  hmoonPos : t.moonPos = t.observe i.moon
  hstars : i.catalogueEnabled = true → i.catalogue ≠ [] → c.b2c.IsUnit → i.i2b.IsUnit → 0 < t.fx → t.fx < Real.pi / 2 → 0 < t.fy → t.fy < Real.pi / 2 →
    t.stars = (visible t i.i2b i.catalogue).take c.logged ++ List.replicate (c.logged - (visible t i.i2b i.catalogue).length) blank

theorem observe_congr (t u : Telescope) (h1 : t.config = u.config) (h2 : t.fx = u.fx) (h3 : t.fy = u.fy) (v : Vec 3) : t.observe v = u.observe v := by
  simp only [Telescope.observe, h1, h2, h3]

theorem visible_congr (t u : Telescope) (h1 : t.config = u.config) (h2 : t.fx = u.fx) (h3 : t.fy = u.fy) (q : Quat) (l : List Hip.Star) :
    visible t q l = visible u q l := by
  obtain ⟨tc, tx, ty, _, _, _, _, _, _, _, _, _, _⟩ := t
  obtain ⟨uc, ux, uy, _, _, _, _, _, _, _, _, _, _⟩ := u
  simp only at h1 h2 h3
  subst h1 h2 h3
  rfl

theorem observeGround_same (t : Telescope) (q : Quat) (g : Option GroundInput) : ∃ a b, t.observeGround q g = { t with groundX := a, groundY := b } := by
  cases g with
  | none => exact ⟨t.groundX, t.groundY, rfl⟩
  | some g =>
    simp only [Telescope.observeGround]
    split
    · exact ⟨_, _, rfl⟩
    · exact ⟨_, _, rfl⟩

theorem update_after (c : Config) (t : Telescope) (hc : t.config = c) (hx : t.fx = c.nx * c.px) (hy : t.fy = c.ny * c.py) (i : Input) (t' : Telescope)
    (h : t.update i = .ok t') : After c i t' := by
  rw [Telescope.update] at h
  set t1 : Telescope := { t with
    sunForbidden := judge t.config.b2c i.sun t.config.sunAngle
    earthForbidden := judge t.config.b2c i.earth t.config.earthAngle
    moonForbidden := judge t.config.b2c i.moon t.config.moonAngle
    sunPos := t.observe i.sun
    earthPos := t.observe i.earth
    moonPos := t.observe i.moon } with ht1
  rcases hr : (if i.catalogueEnabled then t1.observeStars i.i2b i.catalogue else .ok t1) with u | _ | _ | _ <;> rw [hr] at h <;>
    simp only [Res.bind, reduceCtorEq] at h
  obtain rfl := Res.ok.inj h
  obtain ⟨a, b, hg⟩ := observeGround_same u i.i2b i.ground
  rw [hg]
  have hu : ∃ l, u = { t1 with stars := l } := by
    split at hr
    · rw [Telescope.observeStars] at hr
      rcases hs : t1.starLoop i.i2b i.catalogue 0 [] with l | _ | _ | _ <;> rw [hs] at hr <;> simp only [Res.bind, reduceCtorEq] at hr
      exact ⟨l, (Res.ok.inj hr).symm⟩
    · exact ⟨t1.stars, (Res.ok.inj hr).symm⟩
  obtain ⟨l, rfl⟩ := hu
  subst hc
  refine ⟨rfl, hx, hy, C138_forbidden _ _ _, C138_forbidden _ _ _, C138_forbidden _ _ _, observe_congr _ _ rfl rfl rfl _, observe_congr _ _ rfl rfl rfl _,
    observe_congr _ _ rfl rfl rfl _, ?_⟩
  intro he hl hq hi f1 f2 f3 f4
  rw [if_pos he, (C139_stars t1 hq i.i2b hi f1 f2 f3 f4 i.catalogue).1 hl] at hr
  have := congrArg Telescope.stars (Res.ok.inj hr)
  exact this.symm

/-- **C138 (histories).** After any history of updates the exclusion flags, image positions and logged stars are those of the inputs of the last update. -/
theorem C138_history (c : Config) (orbit : Option (Vec 3 × ℝ)) (t0 : Telescope) (h0 : Telescope.new c orbit = .ok t0) (before : List Input) (i : Input) (t : Telescope)
    (h : t0.run (before ++ [i]) = .ok t) : After c i t := by
  have hinv : t0.config = c ∧ t0.fx = c.nx * c.px ∧ t0.fy = c.ny * c.py := by
    rw [Telescope.new] at h0
    split at h0
    · obtain rfl := Res.ok.inj h0; exact ⟨rfl, rfl, rfl⟩
    · cases h0
  clear h0
  induction before generalizing t0 with
  | nil =>
    rw [List.nil_append, Telescope.run] at h
    rcases hu : t0.update i with u | _ | _ | _ <;> rw [hu] at h <;> simp only [Res.bind, Telescope.run, reduceCtorEq] at h
    obtain rfl := Res.ok.inj h
    exact update_after c t0 hinv.1 hinv.2.1 hinv.2.2 i u hu
  | cons j before ih =>
    rw [List.cons_append, Telescope.run] at h
    rcases hu : t0.update j with u | _ | _ | _ <;> rw [hu] at h <;> simp only [Res.bind, reduceCtorEq] at h
    have ha := update_after c t0 hinv.1 hinv.2.1 hinv.2.2 j u hu
    exact ih u h ⟨ha.hconfig, ha.hfx, ha.hfy⟩

/-- An update keeps the initial ground position. -/
theorem update_ground (t : Telescope) (i : Input) (t' : Telescope) (h : t.update i = .ok t') : t'.ground = t.ground := by
  rw [Telescope.update] at h
  set t1 : Telescope := { t with
    sunForbidden := judge t.config.b2c i.sun t.config.sunAngle
    earthForbidden := judge t.config.b2c i.earth t.config.earthAngle
    moonForbidden := judge t.config.b2c i.moon t.config.moonAngle
    sunPos := t.observe i.sun
    earthPos := t.observe i.earth
    moonPos := t.observe i.moon } with ht1
  rcases hr : (if i.catalogueEnabled then t1.observeStars i.i2b i.catalogue else .ok t1) with u | _ | _ | _ <;> rw [hr] at h <;>
    simp only [Res.bind, reduceCtorEq] at h
  obtain rfl := Res.ok.inj h
  obtain ⟨a, b, hg⟩ := observeGround_same u i.i2b i.ground
  rw [hg]
  split at hr
  · rw [Telescope.observeStars] at hr
    rcases hs : t1.starLoop i.i2b i.catalogue 0 [] with l | _ | _ | _ <;> rw [hs] at hr <;> simp only [Res.bind, reduceCtorEq] at hr
    obtain rfl := Res.ok.inj hr
    rfl
  · obtain rfl := Res.ok.inj hr
    rfl

/-- **C140 (initial ground position).** Throughout the simulation the ground point is the one fixed at construction: below the initial position of the spacecraft, seen from the Earth's
centre, at the equatorial radius if the distance from the centre is the altitude plus that radius (as above the equator). -/
theorem C140_initial (c : Config) (r : Vec 3) (alt : ℝ) (ha : -earthRadius < alt) (t0 : Telescope) (h0 : Telescope.new c (some (r, alt)) = .ok t0) (is : List Input) (t : Telescope)
    (h : t0.run is = .ok t) : (∃ k : ℝ, 0 < k ∧ t.ground = k • r) ∧ (len r = alt + earthRadius → len t.ground = earthRadius) := by
  have hR : 0 < earthRadius := by unfold earthRadius; norm_num
  have key : ∀ (is : List Input) (t0 t : Telescope), t0.run is = .ok t → t.ground = t0.ground := by
    intro is
    induction is with
    | nil => intro t0 t h; rw [Telescope.run] at h; obtain rfl := Res.ok.inj h; rfl
    | cons i rest ih =>
      intro t0 t h
      rw [Telescope.run] at h
      rcases hu : t0.update i with u | _ | _ | _ <;> rw [hu] at h <;> simp only [Res.bind, reduceCtorEq] at h
      rw [ih u t h, update_ground t0 i u hu]
  rw [key is t0 t h]
  rw [Telescope.new] at h0
  split_ifs at h0 with hc
  obtain rfl := Res.ok.inj h0
  have e : groundOf (some (r, alt)) = (earthRadius / (alt + earthRadius)) • r := by
    funext i
    simp only [groundOf, vdiv, scale, Pi.smul_apply, smul_eq_mul]
    ring
  dsimp only
  rw [e]
  have hp : 0 < alt + earthRadius := by linarith
  refine ⟨⟨_, div_pos hR hp, rfl⟩, fun hl => ?_⟩
  have h2 : len ((earthRadius / (alt + earthRadius)) • r) ^ 2 = earthRadius ^ 2 := by
    have h3 := len_sq r
    rw [hl] at h3
    rw [len_sq]
    have : dot ((earthRadius / (alt + earthRadius)) • r) ((earthRadius / (alt + earthRadius)) • r) = (earthRadius / (alt + earthRadius)) ^ 2 * dot r r := by
      simp only [dot, Pi.smul_apply, smul_eq_mul]; ring
    rw [this, ← h3]
    field_simp
  exact (pow_left_inj₀ (len_nonneg _) hR.le two_ne_zero).mp h2

/-! ## The hypotheses are satisfiable -/

/-- A telescope with 5 x 4 pixels of 1/10 rad. -/
noncomputable def exampleConfig : Config := ⟨⟨0, 0, 0, 1⟩, 1, 1, 1, 5, 4, 1 / 10, 1 / 10, 2⟩

theorem example_unit : exampleConfig.b2c.IsUnit := by simp [exampleConfig, Quat.IsUnit]

theorem example_angles : (0 : ℝ) < 5 * (1 / 10) ∧ (5 : ℝ) * (1 / 10) < Real.pi / 2 ∧ (0 : ℝ) < 4 * (1 / 10) ∧ (4 : ℝ) * (1 / 10) < Real.pi / 2 := by
  have := Real.pi_gt_three
  refine ⟨by norm_num, by linarith, by norm_num, by linarith⟩

theorem example_new : ∃ t, Telescope.new exampleConfig none = .ok t ∧ t.config = exampleConfig ∧ t.fx = 5 * (1 / 10) ∧ t.fy = 4 * (1 / 10) := by
  obtain ⟨t, h, h1, h2, h3, -⟩ := (C138_new exampleConfig none).1 (by
    have := Real.pi_gt_three
    simp only [exampleConfig]
    push_cast
    constructor <;> linarith)
  refine ⟨t, h, h1, ?_, ?_⟩
  · rw [h2]; simp [exampleConfig]
  · rw [h3]; simp [exampleConfig]

/-- A body straight ahead is imaged at (2, 2), although the image has 5 pixels in the first direction. -/
example : ∃ t, Telescope.new exampleConfig none = .ok t ∧ t.observe ![1, 0, 0] = ![2, 2] := by
  obtain ⟨t, h, h1, h2, h3⟩ := example_new
  obtain ⟨a1, a2, a3, a4⟩ := example_angles
  refine ⟨t, h, ?_⟩
  have hx : axisX t.config.b2c = ![1, 0, 0] := by rw [h1, axisX, inverse_explicit]; apply vec3_ext <;> simp [exampleConfig]
  have := (C138_field t (h1 ▸ example_unit) 0 (by simpa using Real.pi_pos.le) (h2 ▸ a1) (h2 ▸ a2) (h3 ▸ a3) (h3 ▸ a4)).1 (by rw [h2]; norm_num)
  rw [Real.cos_zero, Real.sin_zero, one_smul, zero_smul, add_zero, hx] at this
  rw [this, h1]
  simp [exampleConfig]

/-- Every star of a catalogue at the pole is out of the field of a telescope along the x axis, one at the vernal equinox is in it. -/
example : ∃ t, Telescope.new exampleConfig none = .ok t ∧ ∃ t', t.observeStars ⟨0, 0, 0, 1⟩ [⟨1, 1, 0, 90⟩, ⟨2, 2, 0, 0⟩] = .ok t' ∧
    t'.stars.map (fun s => s.data.id) = [2, -1] := by
  obtain ⟨t, h, h1, h2, h3⟩ := example_new
  obtain ⟨a1, a2, a3, a4⟩ := example_angles
  have hok := (C139_stars t (h1 ▸ example_unit) ⟨0, 0, 0, 1⟩ (by simp [Quat.IsUnit]) (h2 ▸ a1) (h2 ▸ a2) (h3 ▸ a3) (h3 ▸ a4) [⟨1, 1, 0, 90⟩, ⟨2, 2, 0, 0⟩]).1 (by simp)
  refine ⟨t, h, _, hok, ?_⟩
  have hx : axisX t.config.b2c = ![1, 0, 0] := by rw [h1, axisX, inverse_explicit]; apply vec3_ext <;> simp [exampleConfig]
  have hy : axisY t.config.b2c = ![0, 1, 0] := by rw [h1, axisY, inverse_explicit]; apply vec3_ext <;> simp [exampleConfig]
  have hz : axisZ t.config.b2c = ![0, 0, 1] := by rw [h1, axisZ, inverse_explicit]; apply vec3_ext <;> simp [exampleConfig]
  have hid : ∀ v : Vec 3, (⟨0, 0, 0, 1⟩ : Quat).frameConversion v = v := by
    intro v; rw [frame_explicit]; apply vec3_ext <;> simp
  have n1 : ¬InFieldOrEdge t.config.b2c t.fx t.fy ((⟨0, 0, 0, 1⟩ : Quat).frameConversion (starDirection ⟨1, 1, 0, 90⟩)) := by
    intro hc
    have := hc.1
    rw [hid, hx] at this
    simp [starDirection, dot] at this
    rw [show (90 : ℝ) * (Real.pi / 180) = Real.pi / 2 by ring, Real.cos_pi_div_two] at this
    exact lt_irrefl _ this
  have n2 : InFieldOrEdge t.config.b2c t.fx t.fy ((⟨0, 0, 0, 1⟩ : Quat).frameConversion (starDirection ⟨2, 2, 0, 0⟩)) := by
    have t1 : 0 < Real.tan t.fx := Real.tan_pos_of_pos_of_lt_pi_div_two (h2 ▸ a1) (h2 ▸ a2)
    have t2 : 0 < Real.tan t.fy := Real.tan_pos_of_pos_of_lt_pi_div_two (h3 ▸ a3) (h3 ▸ a4)
    rw [InFieldOrEdge, hid, hx, hy, hz]
    simp [starDirection, dot, t1.le, t2.le]
  have hv : visible t ⟨0, 0, 0, 1⟩ [⟨1, 1, 0, 90⟩, ⟨2, 2, 0, 0⟩] =
      [⟨⟨2, 2, 0, 0⟩, starImage t ((⟨0, 0, 0, 1⟩ : Quat).frameConversion (starDirection ⟨2, 2, 0, 0⟩))⟩] := by
    rw [visible, List.filter_cons_of_neg (by simpa using n1), List.filter_cons_of_pos (by simpa using n2)]
    rfl
  rw [hv, h1]
  simp [exampleConfig, blank]

example : ∃ t, Telescope.new exampleConfig (some (![7000000, 0, 0], 621863.4)) = .ok t ∧ t.ground ≠ ![7000000, 0, 0] ∧ t.groundX ≤ t.config.nx := by
  refine ⟨_, by rw [Telescope.new, if_pos (by
    have := Real.pi_gt_three
    simp only [exampleConfig]
    push_cast
    constructor <;> linarith)], ?_, ?_⟩
  · intro h
    have := congrFun h 0
    simp [groundOf, vdiv, scale, earthRadius] at this
    norm_num at this
  · simp [exampleConfig]

/-- A position beyond the image: the next report is (-1, -1). -/
example (t : Telescope) (h : t.groundX = t.config.nx + 1) (g : GroundInput) : (t.observeGround ⟨0, 0, 0, 1⟩ (some g)).groundX = -1 := by
  rw [(C140_beyond t _ g).1 (Or.inl (by rw [h]; linarith))]

example : ∃ (t0 t : Telescope), Telescope.new exampleConfig (some (![7000000, 0, 0], 621863.4)) = .ok t0 ∧ t0.run [] = .ok t ∧
    len (![7000000, 0, 0] : Vec 3) = 621863.4 + earthRadius := by
  refine ⟨_, _, by rw [Telescope.new, if_pos (by
    have := Real.pi_gt_three
    simp only [exampleConfig]
    push_cast
    constructor <;> linarith)], rfl, ?_⟩
  have : (7000000 : ℝ) = 621863.4 + earthRadius := by unfold earthRadius; norm_num
  rw [← this, len]
  simp

end S2E.Telescope
