import Verif.Model.ControlledAttitude
import Verif.Props.AttitudeRk4b
import Verif.Props.Lvlh
import Verif.Props.SurfaceForce
/-!
# C112, C113: `ControlledAttitude`
-/
namespace S2E.Att
open S2E.Lu S2E.TwoBody S2E.Rigid S2E.OrbitProp S2E.Kepler

theorem IsRotation.mul_transpose {a b : Mat 3 3} (ha : IsRotation a) (hb : IsRotation b) : IsRotation (matMul a (matTranspose b)) := by
  have e : matMul a (matTranspose b) = a * b.transpose := by
    funext i j; simp [matMul, matTranspose, Matrix.mul_apply]
  rw [e]
  have hb' : b * b.transpose = 1 := mul_eq_one_comm.1 hb.1
  constructor
  · rw [Matrix.transpose_mul, Matrix.transpose_transpose, Matrix.mul_assoc, ← Matrix.mul_assoc a.transpose, ha.1, Matrix.one_mul, hb']
  · rw [Matrix.det_mul, Matrix.det_transpose, ha.2, hb.2, one_mul]

theorem calcDcm_eq (m u : Fin 3 → ℝ) (hm : len m = 1) (hc : cross m u ≠ 0) :
    0 < len (cross m u) ∧ calcDcm m u = Matrix.of fun i j =>
      if j = 0 then m i else if j = 1 then (u i - dot m u * m i) / len (cross m u) else cross m u i / len (cross m u) := by
  have hs := len_pos hc
  refine ⟨hs, ?_⟩
  have hm2 : dot m m = 1 := by rw [← len_sq, hm]; norm_num
  have e1 : cross (cross m u) m = fun i => u i - dot m u * m i := by
    have h0 : m 0 * m 0 + m 1 * m 1 + m 2 * m 2 = 1 := hm2
    apply vec3_ext <;> simp [cross, dot] <;> clear * - h0 <;> grind
  have e2 : len (fun i => u i - dot m u * m i) = len (cross m u) := by
    apply (pow_left_inj₀ (len_nonneg _) (len_nonneg _) two_ne_zero).1
    have := len_cross_sq m u
    rw [hm] at this
    rw [len_sq] at this ⊢
    rw [len_sq] at this ⊢
    simp only [dot] at hm2 this ⊢
    simp only [cross] at this ⊢
    simp at this ⊢
    grind
  have e3 : calcNormalizedVector (outerProduct (outerProduct m u) m) = fun i => (u i - dot m u * m i) / len (cross m u) := by
    rw [outer_cross, outer_cross, e1, normalized_of_pos (by rw [e2]; exact hs), e2]
  have e4 : outerProduct m (fun i => (u i - dot m u * m i) / len (cross m u)) = fun i => cross m u i / len (cross m u) := by
    apply vec3_ext <;> simp [outerProduct, cross] <;> field_simp <;> ring
  have e5 : len (fun i => cross m u i / len (cross m u)) = 1 := by
    have : (fun i => cross m u i / len (cross m u)) = calcNormalizedVector (cross m u) := (normalized_of_pos hs).symm
    rw [this, (Dist.normalized_len hc).1]
  rw [calcDcm]
  simp only [e3, e4]
  rw [normalized_of_pos (by rw [e5]; exact one_pos), e5]
  simp

theorem calcDcm_rotation (m u : Fin 3 → ℝ) (hm : len m = 1) (hc : cross m u ≠ 0) : IsRotation (calcDcm m u) := by
  obtain ⟨hs, e⟩ := calcDcm_eq m u hm hc
  rw [e, isRotation_iff]
  have hm2 : dot m m = 1 := by rw [← len_sq, hm]; norm_num
  have h2 := len_sq (cross m u)
  generalize len (cross m u) = s at *
  have hs' := hs.ne'
  simp [dot, cross] at hm2 h2 ⊢
  refine ⟨?_, ?_, ?_, ?_, ?_, ?_, ?_⟩ <;> field_simp <;> grind

/-- The two directions in the triad. -/
theorem calcDcm_acts (m u : Fin 3 → ℝ) (hm : len m = 1) (hc : cross m u ≠ 0) :
    matVec (matTranspose (calcDcm m u)) m = ![1, 0, 0] ∧ matVec (matTranspose (calcDcm m u)) u = ![dot m u, len (cross m u), 0] ∧
    ∀ a b : ℝ, matVec (calcDcm m u) ![a, b, 0] = fun i => a * m i + b * ((u i - dot m u * m i) / len (cross m u)) := by
  obtain ⟨hs, e⟩ := calcDcm_eq m u hm hc
  have hm2 : dot m m = 1 := by rw [← len_sq, hm]; norm_num
  have h2 := len_sq (cross m u)
  rw [e]
  generalize len (cross m u) = s at *
  have hs' := hs.ne'
  refine ⟨?_, ?_, fun a b => ?_⟩
  · apply vec3_ext <;> simp [matVec, matTranspose, Fin.sum_univ_three, dot, cross] at hm2 h2 ⊢ <;> field_simp <;> grind
  · apply vec3_ext <;> simp [matVec, matTranspose, Fin.sum_univ_three, dot, cross] at hm2 h2 ⊢ <;> field_simp <;> grind
  · apply vec3_ext <;> simp [matVec, Fin.sum_univ_three] <;> ring

theorem matVec_mul (a b : Mat 3 3) (v : Vec 3) : matVec (matMul a b) v = matVec a (matVec b v) := by
  have e : matMul a b = a * b := by funext i j; simp [matMul, Matrix.mul_apply]
  rw [matVec_mulVec, matVec_mulVec, matVec_mulVec, e, Matrix.mulVec_mulVec]

theorem pointing_spec (mB uB mI uI : Fin 3 → ℝ) (hmB : len mB = 1) (hB : cross mB uB ≠ 0) (hmI : len mI = 1) (hI : cross mI uI ≠ 0) :
    (pointing mB uB mI uI).IsUnit ∧ (pointing mB uB mI uI).frameConversion mI = mB ∧
    (pointing mB uB mI uI).frameConversion uI =
      fun i => (dot mI uI - len (cross mI uI) * dot mB uB / len (cross mB uB)) * mB i + len (cross mI uI) / len (cross mB uB) * uB i := by
  obtain ⟨h1, h2⟩ := C67_dcm_roundtrip _ (IsRotation.mul_transpose (calcDcm_rotation mB uB hmB hB) (calcDcm_rotation mI uI hmI hI))
  obtain ⟨a1, a2, -⟩ := calcDcm_acts mI uI hmI hI
  obtain ⟨-, -, b3⟩ := calcDcm_acts mB uB hmB hB
  have act : ∀ v, (pointing mB uB mI uI).frameConversion v = matVec (calcDcm mB uB) (matVec (matTranspose (calcDcm mI uI)) v) := by
    intro v
    rw [← (C66_dcm_acts _ v).1, pointing, h1, matVec_mul]
  refine ⟨h2, ?_, ?_⟩
  · rw [act, a1, show (![1, 0, 0] : Vec 3) = ![(1 : ℝ), (0 : ℝ), 0] from rfl, b3]
    simp
  · rw [act, a2, b3]
    funext i
    ring

/-- Two linear maps that agree on two non-parallel vectors and on their cross product agree. -/
theorem agree_of_three (p q : Quat) (m u : Fin 3 → ℝ) (hc : cross m u ≠ 0) (h1 : p.frameConversion m = q.frameConversion m)
    (h2 : p.frameConversion u = q.frameConversion u) (h3 : p.frameConversion (cross m u) = q.frameConversion (cross m u)) (v : Vec 3) :
    p.frameConversion v = q.frameConversion v := by
  set N : Matrix (Fin 3) (Fin 3) ℝ := Matrix.of fun i j => if j = 0 then m i else if j = 1 then u i else cross m u i with hN
  have hd : N.det ≠ 0 := by
    have e : N.det = len (cross m u) ^ 2 := by
      rw [len_sq, Matrix.det_fin_three]
      simp [hN, dot, cross]
      ring
    rw [e]
    have := len_pos hc
    positivity
  have hPQ : p.toDcm * N = q.toDcm * N := by
    have col : ∀ (r : Quat) (x : Vec 3) (i : Fin 3), r.toDcm i 0 * x 0 + r.toDcm i 1 * x 1 + r.toDcm i 2 * x 2 = r.frameConversion x i := by
      intro r x i
      rw [← (C66_dcm_acts r x).1]; simp [matVec, Fin.sum_univ_three]
    funext i j
    rw [Matrix.mul_apply, Matrix.mul_apply, Fin.sum_univ_three, Fin.sum_univ_three]
    fin_cases j
    · have := congrFun h1 i; rw [← col, ← col] at this; simpa [hN] using this
    · have := congrFun h2 i; rw [← col, ← col] at this; simpa [hN] using this
    · have := congrFun h3 i; rw [← col, ← col] at this; simpa [hN] using this
  have hu : IsUnit N.det := isUnit_iff_ne_zero.2 hd
  have : p.toDcm = q.toDcm := by
    have := congrArg (· * N⁻¹) hPQ
    simpa [Matrix.mul_assoc, Matrix.mul_nonsing_inv _ hu] using this
  rw [← (C66_dcm_acts p v).1, this, (C66_dcm_acts q v).1]

/-- `q` points the body: the inertial direction `m` is turned exactly onto the body direction `mB`, and the inertial direction `u` into the
half plane that `mB` bounds and that contains `uB`. -/
def Points (q : Quat) (mB uB m u : Fin 3 → ℝ) : Prop :=
  q.IsUnit ∧ q.frameConversion m = len m • mB ∧ ∃ a b : ℝ, 0 < b ∧ q.frameConversion u = a • mB + b • uB

/-- There is only one attitude that points the body. -/
theorem points_unique {p q : Quat} {mB uB m u : Fin 3 → ℝ} (hmB : len mB = 1) (hB : cross mB uB ≠ 0) (hc : cross m u ≠ 0)
    (hp : Points p mB uB m u) (hq : Points q mB uB m u) (v : Vec 3) : p.frameConversion v = q.frameConversion v := by
  have hm0 : 0 < len m := by
    apply len_pos
    rintro rfl
    apply hc
    apply vec3_ext <;> simp [cross]
  have hsB := len_pos hB
  have key : ∀ r : Quat, Points r mB uB m u → ∀ a b : ℝ, 0 < b → r.frameConversion u = a • mB + b • uB →
      r.frameConversion (cross m u) = (len m * b) • cross mB uB ∧ len m * b * len (cross mB uB) = len (cross m u) ∧
      len m * (a + b * dot mB uB) = dot m u := by
    rintro r ⟨r1, r2, -⟩ a b hb hu
    obtain ⟨i1, i2⟩ := C64_isometry r r1 m u
    have e : r.frameConversion (cross m u) = (len m * b) • cross mB uB := by
      rw [← outer_cross, ← i2, r2, hu]
      apply vec3_ext <;> simp [outerProduct, cross] <;> ring
    have hB1 : dot mB mB = 1 := by rw [← len_sq, hmB]; norm_num
    refine ⟨e, ?_, ?_⟩
    · have := (C64_isometry r r1 (cross m u) (cross m u)).1
      rw [e] at this
      have hl : len (cross m u) ^ 2 = (len m * b * len (cross mB uB)) ^ 2 := by
        rw [len_sq, mul_pow, len_sq (cross mB uB)]
        simp only [dot3] at this
        simp only [dot]
        rw [← this]
        simp; ring
      exact ((pow_left_inj₀ (len_nonneg _) (by positivity) two_ne_zero).1 hl).symm
    · rw [r2, hu] at i1
      have : dot m u = dot3 m u := rfl
      rw [this, ← i1]
      have hB1' : mB 0 * mB 0 + mB 1 * mB 1 + mB 2 * mB 2 = 1 := hB1
      simp [dot3, dot]
      clear * - hB1'
      grind
  obtain ⟨p1, p2, a, b, hb, pu⟩ := hp
  obtain ⟨q1, q2, c, d, hd, qu⟩ := hq
  obtain ⟨x1, x2, x3⟩ := key p ⟨p1, p2, a, b, hb, pu⟩ a b hb pu
  obtain ⟨y1, y2, y3⟩ := key q ⟨q1, q2, c, d, hd, qu⟩ c d hd qu
  have hbd : b = d := by
    have : len m * len (cross mB uB) * b = len m * len (cross mB uB) * d := by linarith
    exact mul_left_cancel₀ (by positivity) this
  subst hbd
  have hac : a = c := by
    have : len m * a = len m * c := by linarith
    exact mul_left_cancel₀ hm0.ne' this
  subst hac
  exact agree_of_three p q m u hc (by rw [p2, q2]) (by rw [pu, qu]) (by rw [x1, y1]) v

theorem calcAngularVelocity_spec (s s' : Controlled) (t : ℝ) (h : s.calcAngularVelocity t = .ok (some s')) :
    s'.quat = s.quat ∧ s'.prevQuat = s.quat ∧ s'.prevTime = t ∧ s'.prevOmega = s'.omega ∧
    (s'.enabled = s.enabled ∧ s'.main = s.main ∧ s'.sub = s.sub ∧ s'.mainB = s.mainB ∧ s'.subB = s.subB ∧ s'.inertia = s.inertia) ∧
    (s.prevTime ≤ 0 → s'.omega = 0 ∧ s'.torque = s.torque) ∧
    (0 < s.prevTime → t ≠ s.prevTime ∧ s'.omega = differenceRate s.prevQuat s.quat (t - s.prevTime) ∧
      ∃ inv : Matrix (Fin 3) (Fin 3) ℝ, s.inertia * inv = 1 ∧
        s'.torque = s.torque + inv.mulVec ((1 / (t - s.prevTime)) • (s.prevOmega - s'.omega))) := by
  rw [Controlled.calcAngularVelocity] at h
  by_cases h2 : s.prevTime > 0
  · rw [if_pos h2] at h
    by_cases hd : s.inertia.det = 0
    · rw [(C73_inverse s.inertia).1 hd] at h
      simp [Res.bind] at h
    obtain ⟨inv, hinv, hl, -⟩ := (C73_inverse s.inertia).2 hd
    rw [hinv] at h
    simp only [Res.bind] at h
    by_cases h4 : t - s.prevTime = 0
    · rw [if_pos h4] at h
      simp at h
    · rw [if_neg h4] at h
      rw [← Option.some.inj (Res.ok.inj h)]
      refine ⟨rfl, rfl, rfl, rfl, ⟨rfl, rfl, rfl, rfl, rfl, rfl⟩, fun h5 => absurd h2 (not_lt.2 h5), fun _ => ⟨fun h5 => h4 (by rw [h5, sub_self]), rfl, inv, hl, ?_⟩⟩
      simp only [matVec_mulVec]
      funext i
      simp only [vadd, Pi.add_apply]
      congr 2
      funext j
      simp only [Pi.smul_apply, Pi.sub_apply, smul_eq_mul]
      ring
  · rw [if_neg h2] at h
    rw [← Option.some.inj (Res.ok.inj h)]
    refine ⟨rfl, rfl, rfl, rfl, ⟨rfl, rfl, rfl, rfl, rfl, rfl⟩, fun _ => ⟨rfl, ?_⟩, fun h5 => absurd h5 h2⟩
    funext i
    simp [vadd]

/-- **C112** (pointing). A `ControlledAttitude` in two different pointing modes whose target vectors `m` (main) and `u` (sub) are not parallel
holds, after every call of `Propagate`, the one attitude that turns the main target exactly onto the main body direction and the sub target
into the half plane on the side of the sub body direction. -/
theorem C112_pointing (s s' : Controlled) (w : World) (t : ℝ) (m u : Vec 3) (he : s.enabled = true) (hmain : s.main ≠ .inertialStabilize)
    (hm : targetVector w s.main = .ok m) (hu : targetVector w s.sub = .ok u) (h1 : len s.mainB = 1) (hB : cross s.mainB s.subB ≠ 0)
    (hc : cross m u ≠ 0) (h : s.propagate w t = .ok (some s')) :
    Points s'.quat s.mainB s.subB m u ∧ ∀ p, Points p s.mainB s.subB m u → ∀ v, p.frameConversion v = s'.quat.frameConversion v := by
  have hm0 : m ≠ 0 := by rintro rfl; apply hc; apply vec3_ext <;> simp [cross]
  have hu0 : u ≠ 0 := by rintro rfl; apply hc; apply vec3_ext <;> simp [cross]
  have hlm := len_pos hm0
  have hlu := len_pos hu0
  have em : calcNormalizedVector m = (1 / len m) • m := by rw [normalized_of_pos hlm]; funext i; simp; ring
  have eu : calcNormalizedVector u = (1 / len u) • u := by rw [normalized_of_pos hlu]; funext i; simp; ring
  have hc' : cross (calcNormalizedVector m) (calcNormalizedVector u) ≠ 0 := by
    intro h0
    apply hc
    rw [em, eu] at h0
    have e : cross ((1 / len m) • m) ((1 / len u) • u) = (1 / (len m * len u)) • cross m u := by
      apply vec3_ext <;> simp [cross] <;> field_simp
    rw [e, smul_eq_zero] at h0
    rcases h0 with h0 | h0
    · exfalso
      have : 0 < 1 / (len m * len u) := by positivity
      linarith
    · exact h0
  have hq : s'.quat = pointing s.mainB s.subB (calcNormalizedVector m) (calcNormalizedVector u) := by
    rw [Controlled.propagate, if_neg (by simp [he]), if_neg hmain, targetDirection, hm, targetDirection, hu] at h
    exact (calcAngularVelocity_spec _ s' t h).1
  obtain ⟨k1, k2, k3⟩ := pointing_spec s.mainB s.subB _ _ h1 hB (Dist.normalized_len hm0).1 hc'
  rw [← hq] at k1 k2 k3
  have hP : Points s'.quat s.mainB s.subB m u := by
    have lin : ∀ (c : ℝ) (x : Vec 3), s'.quat.frameConversion (c • x) = c • s'.quat.frameConversion x := by
      intro c x
      rw [frame_explicit, frame_explicit]
      apply vec3_ext <;> simp <;> ring
    refine ⟨k1, ?_, ?_⟩
    · conv_lhs => rw [← (Dist.normalized_len hm0).2]
      rw [lin, k2]
    · set a := dot (calcNormalizedVector m) (calcNormalizedVector u) -
        len (cross (calcNormalizedVector m) (calcNormalizedVector u)) * dot s.mainB s.subB / len (cross s.mainB s.subB)
      set b := len (cross (calcNormalizedVector m) (calcNormalizedVector u)) / len (cross s.mainB s.subB) with hb
      have hb0 : 0 < b := div_pos (len_pos hc') (len_pos hB)
      refine ⟨len u * a, len u * b, by positivity, ?_⟩
      conv_lhs => rw [← (Dist.normalized_len hu0).2]
      rw [lin, k3]
      funext i
      simp only [Pi.smul_apply, Pi.add_apply, smul_eq_mul]
      ring
  exact ⟨hP, fun p hp v => points_unique h1 hB hc hp hP v⟩

/-- **C112** (constructor). An enabled object that is not inertially stabilised has two different pointing modes, and for non-zero body
directions these are scaled to length one and at least 30 degrees apart from being parallel, as the pointing theorem needs. It stays enabled
exactly when the modes differ, neither is `kNoControl`, and the absolute cosine of the angle is at most cos 30°. -/
theorem C112_new (main sub : Mode) (q : Quat) (mB uB : Vec 3) (I : Mat 3 3) (q0 : Quat) (w0 : Vec 3) (hmain : main ≠ .inertialStabilize)
    (hm : mB ≠ 0) (hu : uB ≠ 0) :
    let s := Controlled.new main sub q mB uB I q0 w0
    (s.enabled = true ↔ main ≠ .noControl ∧ sub ≠ .noControl ∧ main ≠ sub ∧ |dot mB uB| ≤ Real.sqrt 3 / 2 * (len mB * len uB)) ∧
    (s.enabled = true → len s.mainB = 1 ∧ 1 / 2 ≤ len (cross s.mainB s.subB) ∧ len mB • s.mainB = mB ∧ len uB • s.subB = uB ∧
      s.main = main ∧ s.sub = sub ∧ s.prevTime = -1 ∧ s.inertia = I) := by
  intro s
  have c30 : Real.cos (30 * (Real.pi / 180)) = Real.sqrt 3 / 2 := by
    rw [show 30 * (Real.pi / 180) = Real.pi / 6 by ring, Real.cos_pi_div_six]
  obtain ⟨m1, m2⟩ := Dist.normalized_len hm
  obtain ⟨u1, u2⟩ := Dist.normalized_len hu
  have hlm := len_pos hm
  have hlu := len_pos hu
  have hdot : dot mB uB = len mB * len uB * dot (calcNormalizedVector mB) (calcNormalizedVector uB) := by
    conv_lhs => rw [← m2, ← u2]
    simp [dot]; ring
  have hcond : |innerProduct (calcNormalizedVector mB) (calcNormalizedVector uB)| > Real.cos (30 * (Real.pi / 180)) ↔
      ¬ |dot mB uB| ≤ Real.sqrt 3 / 2 * (len mB * len uB) := by
    rw [innerProduct_dot, c30, hdot, abs_mul, abs_of_pos (mul_pos hlm hlu), not_le, mul_comm (Real.sqrt 3 / 2),
      mul_lt_mul_iff_right₀ (mul_pos hlm hlu)]
  have hcross : |dot (calcNormalizedVector mB) (calcNormalizedVector uB)| ≤ Real.sqrt 3 / 2 →
      1 / 2 ≤ len (cross (calcNormalizedVector mB) (calcNormalizedVector uB)) := by
    intro h
    have h2 := len_cross_sq (calcNormalizedVector mB) (calcNormalizedVector uB)
    rw [m1, u1] at h2
    have h3 : dot (calcNormalizedVector mB) (calcNormalizedVector uB) ^ 2 ≤ 3 / 4 := by
      rw [← sq_abs]
      calc _ ≤ (Real.sqrt 3 / 2) ^ 2 := pow_le_pow_left₀ (abs_nonneg _) h 2
        _ = 3 / 4 := by rw [div_pow, Real.sq_sqrt (by norm_num)]; norm_num
    have := len_nonneg (cross (calcNormalizedVector mB) (calcNormalizedVector uB))
    nlinarith
  by_cases hn : main = .noControl ∨ sub = .noControl
  · have hs : s.enabled = false := by
      simp only [s, Controlled.new, Controlled.initializeModes, if_pos hn, if_neg hmain]
      split_ifs <;> rfl
    rw [hs]
    simp only [Bool.false_eq_true, false_iff, false_implies, and_true]
    rintro ⟨a, b, -, -⟩
    rcases hn with hn | hn
    · exact a hn
    · exact b hn
  · have hn' := not_or.1 hn
    by_cases hms : main = sub
    · have hs : s.enabled = false := by
        simp only [s, Controlled.new, Controlled.initializeModes, if_neg hn, if_neg hmain, if_pos hms]
      rw [hs]
      simp [hms]
    · by_cases hd : |innerProduct (calcNormalizedVector mB) (calcNormalizedVector uB)| > Real.cos (30 * (Real.pi / 180))
      · have hs : s.enabled = false := by
          simp only [s, Controlled.new, Controlled.initializeModes, if_neg hn, if_neg hmain, if_neg hms, if_pos hd]
        rw [hs]
        simp only [Bool.false_eq_true, false_iff, false_implies, and_true]
        rintro ⟨-, -, -, d⟩
        exact hcond.1 hd d
      · have hs : s =
            { enabled := true, main := main, sub := sub, mainB := calcNormalizedVector mB, subB := calcNormalizedVector uB,
              omega := fun _ => 0, quat := q, torque := fun _ => 0, inertia := I, prevTime := -1, prevQuat := q0, prevOmega := w0 } := by
          simp only [s, Controlled.new, Controlled.initializeModes, if_neg hn, if_neg hmain, if_neg hms, if_neg hd]
        rw [hs]
        refine ⟨⟨fun _ => ⟨hn'.1, hn'.2, hms, ?_⟩, fun _ => rfl⟩, fun _ => ⟨m1, hcross ?_, m2, u2, rfl, rfl, rfl, rfl⟩⟩
        · by_contra h; exact hd (hcond.2 h)
        · rw [innerProduct_dot, c30, gt_iff_lt, not_lt] at hd; exact hd

/-- Body axes as main and sub direction are accepted. -/
example : (![0, 0, 2] : Vec 3) ≠ 0 ∧ (![3, 0, 0] : Vec 3) ≠ 0 ∧
    |dot ![0, 0, 2] ![3, 0, 0]| ≤ Real.sqrt 3 / 2 * (len ![0, 0, 2] * len ![3, 0, 0]) := by
  refine ⟨fun h => by simpa using congrFun h 2, fun h => by simpa using congrFun h 0, ?_⟩
  simp [dot]
  have := len_nonneg ![0, 0, 2]
  have := len_nonneg ![3, 0, 0]
  positivity

/-- **C112** (outcomes of a call). A disabled or inertially stabilised object is not changed. Otherwise the call is undefined behaviour exactly
when one of the modes has no target (`kInertialStabilize` as sub mode is accepted by the constructor), and with two targets it throws exactly when a rate is computed
and the inertia tensor is singular, gives NaN exactly when it is called twice for the same (positive) time, and ends normally otherwise. -/
theorem C112_outcomes (s : Controlled) (w : World) (t : ℝ) :
    (s.enabled = false ∨ s.main = .inertialStabilize → s.propagate w t = .ok (some s)) ∧
    (s.enabled = true → s.main ≠ .inertialStabilize →
      (s.propagate w t = .ub ↔ s.main = .noControl ∨ s.sub = .inertialStabilize ∨ s.sub = .noControl) ∧
      ((s.main ≠ .noControl ∧ s.sub ≠ .inertialStabilize ∧ s.sub ≠ .noControl) →
        (s.propagate w t = .throws ↔ 0 < s.prevTime ∧ s.inertia.det = 0) ∧
        (s.propagate w t = .ok none ↔ 0 < s.prevTime ∧ s.inertia.det ≠ 0 ∧ t = s.prevTime) ∧
        ((∃ s', s.propagate w t = .ok (some s')) ↔ s.prevTime ≤ 0 ∨ (s.inertia.det ≠ 0 ∧ t ≠ s.prevTime)))) := by
  constructor
  · rintro (h | h)
    · rw [Controlled.propagate, if_pos h]
    · rw [Controlled.propagate]
      split_ifs <;> rfl
  intro he hmain
  have hP : s.propagate w t = (targetDirection w s.main).bind fun m => (targetDirection w s.sub).bind fun u =>
        Controlled.calcAngularVelocity { s with quat := pointing s.mainB s.subB m u } t := by
    rw [Controlled.propagate, if_neg (by simp [he]), if_neg hmain]
  have hok : ∀ m : Mode, m ≠ .inertialStabilize → m ≠ .noControl → ∃ v, targetDirection w m = .ok v := by
    intro m h1 h2
    cases m <;> first | exact absurd rfl h1 | exact absurd rfl h2 | exact ⟨_, rfl⟩
  have hub : ∀ m : Mode, m = .inertialStabilize ∨ m = .noControl → targetDirection w m = .ub := by
    rintro m (rfl | rfl) <;> rfl
  have hnub : (s.main ≠ .noControl ∧ s.sub ≠ .inertialStabilize ∧ s.sub ≠ .noControl) → ∃ q : Quat, s.propagate w t = Controlled.calcAngularVelocity { s with quat := q } t := by
    rintro ⟨h1, h2, h3⟩
    obtain ⟨v, hv⟩ := hok s.main hmain h1
    obtain ⟨u, hu⟩ := hok s.sub h2 h3
    exact ⟨_, by rw [hP, hv, hu]; rfl⟩
  have hcases : ∀ q : Quat, (s.prevTime ≤ 0 → ∃ s', Controlled.calcAngularVelocity { s with quat := q } t = .ok (some s')) ∧
      (0 < s.prevTime → s.inertia.det = 0 → Controlled.calcAngularVelocity { s with quat := q } t = .throws) ∧
      (0 < s.prevTime → s.inertia.det ≠ 0 → t = s.prevTime → Controlled.calcAngularVelocity { s with quat := q } t = .ok none) ∧
      (0 < s.prevTime → s.inertia.det ≠ 0 → t ≠ s.prevTime → ∃ s', Controlled.calcAngularVelocity { s with quat := q } t = .ok (some s')) := by
    intro q
    refine ⟨fun h => ?_, fun h hd => ?_, fun h hd ht => ?_, fun h hd ht => ?_⟩
    · rw [Controlled.calcAngularVelocity, if_neg (by simpa using h)]
      exact ⟨_, rfl⟩
    · rw [Controlled.calcAngularVelocity, if_pos (by simpa using h)]
      simp only [(C73_inverse s.inertia).1 hd]
      rfl
    · obtain ⟨inv, hinv, -, -⟩ := (C73_inverse s.inertia).2 hd
      rw [Controlled.calcAngularVelocity, if_pos (by simpa using h)]
      simp only [hinv, Res.bind, ht, sub_self, if_true]
    · obtain ⟨inv, hinv, -, -⟩ := (C73_inverse s.inertia).2 hd
      rw [Controlled.calcAngularVelocity, if_pos (by simpa using h)]
      simp only [hinv, Res.bind, if_neg (sub_ne_zero.2 ht)]
      exact ⟨_, rfl⟩
  refine ⟨⟨fun h => ?_, fun h => ?_⟩, fun hg => ?_⟩
  · by_contra hno
    simp only [not_or] at hno
    obtain ⟨q, hq⟩ := hnub hno
    obtain ⟨c1, c2, c3, c4⟩ := hcases q
    rw [hq] at h
    rcases le_or_gt s.prevTime 0 with h0 | h0
    · obtain ⟨s', hs'⟩ := c1 h0; rw [hs'] at h; simp at h
    · by_cases hd : s.inertia.det = 0
      · rw [c2 h0 hd] at h; simp at h
      · by_cases ht : t = s.prevTime
        · rw [c3 h0 hd ht] at h; simp at h
        · obtain ⟨s', hs'⟩ := c4 h0 hd ht; rw [hs'] at h; simp at h
  · rw [hP]
    rcases h with h | h | h
    · rw [hub s.main (Or.inr h)]; rfl
    · by_cases hn : s.main = .noControl
      · rw [hub s.main (Or.inr hn)]; rfl
      · obtain ⟨v, hv⟩ := hok s.main hmain hn
        rw [hv, hub s.sub (Or.inl h)]; rfl
    · by_cases hn : s.main = .noControl
      · rw [hub s.main (Or.inr hn)]; rfl
      · obtain ⟨v, hv⟩ := hok s.main hmain hn
        rw [hv, hub s.sub (Or.inr h)]; rfl
  · obtain ⟨q, hq⟩ := hnub hg
    obtain ⟨c1, c2, c3, c4⟩ := hcases q
    rw [hq]
    rcases le_or_gt s.prevTime 0 with h0 | h0
    · obtain ⟨s', hs'⟩ := c1 h0
      rw [hs']
      refine ⟨?_, ?_, ?_⟩ <;> simp [h0, not_lt.2 h0]
    · by_cases hd : s.inertia.det = 0
      · rw [c2 h0 hd]
        refine ⟨?_, ?_, ?_⟩ <;> simp [h0, hd, not_le.2 h0]
      · by_cases ht : t = s.prevTime
        · rw [c3 h0 hd ht]
          refine ⟨?_, ?_, ?_⟩ <;> simp [h0, hd, not_le.2 h0, ht]
        · obtain ⟨s', hs'⟩ := c4 h0 hd ht
          rw [hs']
          refine ⟨?_, ?_, ?_⟩ <;> simp [h0, hd, not_le.2 h0, ht]

/-- The mode names of the settings file: the seven documented names give the seven modes, every other text gives no control. -/
theorem C112_mode_names (s : String) :
    (Mode.ofString s = .inertialStabilize ↔ s = "INERTIAL_STABILIZE") ∧ (Mode.ofString s = .sunPointing ↔ s = "SUN_POINTING") ∧
      (Mode.ofString s = .earthCenterPointing ↔ s = "EARTH_CENTER_POINTING") ∧
      (Mode.ofString s = .velocityDirection ↔ s = "VELOCITY_DIRECTION_POINTING") ∧
      (Mode.ofString s = .groundSpeedDirection ↔ s = "GROUND_SPEED_DIRECTION_POINTING") ∧
      (Mode.ofString s = .orbitNormal ↔ s = "ORBIT_NORMAL_POINTING") ∧ (Mode.ofString s = .earthSurface ↔ s = "EARTH_SURFACE_POINTING") ∧
      (Mode.ofString s = .noControl ↔ s ∉ ["INERTIAL_STABILIZE", "SUN_POINTING", "EARTH_CENTER_POINTING", "VELOCITY_DIRECTION_POINTING",
        "GROUND_SPEED_DIRECTION_POINTING", "ORBIT_NORMAL_POINTING", "EARTH_SURFACE_POINTING"]) := by
  unfold Mode.ofString
  split_ifs <;> simp_all

example : Mode.ofString "ORBIT_NORMAL_POINTING" = .orbitNormal ∧ Mode.ofString "orbit" = .noControl := by decide

/-- The accepted configuration with undefined behaviour: Sun pointing with `INERTIAL_STABILIZE` as sub mode. -/
example (q q0 : Quat) (w0 : Vec 3) (I : Mat 3 3) (w : World) (t : ℝ) :
    (Controlled.new (Mode.ofString "SUN_POINTING") (Mode.ofString "INERTIAL_STABILIZE") q ![0, 0, 1] ![1, 0, 0] I q0 w0).propagate w t = .ub := by
  have hm : Mode.ofString "SUN_POINTING" = .sunPointing := by decide
  have hs : Mode.ofString "INERTIAL_STABILIZE" = .inertialStabilize := by decide
  rw [hm, hs]
  obtain ⟨h1, h2⟩ := C112_new .sunPointing .inertialStabilize q ![0, 0, 1] ![1, 0, 0] I q0 w0 (by decide) (fun h => by simpa using congrFun h 2)
    (fun h => by simpa using congrFun h 0)
  have he := h1.2 ⟨by decide, by decide, by decide, by
    simp [dot]
    have := len_nonneg ![0, 0, 1]
    have := len_nonneg ![1, 0, 0]
    positivity⟩
  obtain ⟨-, -, -, -, e1, e2, -, -⟩ := h2 he
  exact ((C112_outcomes _ w t).2 he (by rw [e1]; decide)).1.2 (Or.inr (Or.inl e2))

/-- **C112** (targets). What the target vectors are: the Sun and the Earth as seen from the spacecraft (also when the local information has not
been computed yet and is zero), the velocity, the normal of the orbit, and, for an orthogonal Earth rotation matrix, the vectors whose
Earth-fixed components are the Earth-fixed velocity and the Earth-fixed target position minus that of the spacecraft. -/
theorem C112_targets (w : World) (hs : w.sunLocal = 0 ∨ w.sunLocal = w.sunCenter - w.position)
    (hearth : w.earthLocal = 0 ∨ w.earthLocal = w.earthCenter - w.position) (hr : IsRotation w.dcmJ2000ToEcef) :
    targetVector w .sunPointing = .ok (w.sunCenter - w.position) ∧
    targetVector w .earthCenterPointing = .ok (w.earthCenter - w.position) ∧
    targetVector w .velocityDirection = .ok w.velocity ∧
    targetVector w .orbitNormal = .ok (cross w.position w.velocity) ∧
    (∃ g, targetVector w .groundSpeedDirection = .ok g ∧ w.dcmJ2000ToEcef.mulVec g = w.velocityEcef) ∧
    (∃ d, targetVector w .earthSurface = .ok d ∧ w.dcmJ2000ToEcef.mulVec (w.position + d) = w.targetEcef) := by
  have sel : ∀ l c p : Vec 3, (l = 0 ∨ l = c - p) → (if calcNorm l = 0 then vsub c p else l) = c - p := by
    rintro l c p h
    by_cases hl : calcNorm l = 0
    · rw [if_pos hl]; rfl
    · rw [if_neg hl]
      rcases h with rfl | h
      · exact absurd ((calcNorm_eq_zero (0 : Vec 3)).2 rfl) hl
      · exact h
  have hb' : w.dcmJ2000ToEcef * w.dcmJ2000ToEcef.transpose = 1 := mul_eq_one_comm.1 hr.1
  have et : matTranspose w.dcmJ2000ToEcef = w.dcmJ2000ToEcef.transpose := by funext i j; rfl
  refine ⟨by rw [targetVector, sel _ _ _ hs], by rw [targetVector, sel _ _ _ hearth], rfl, by rw [targetVector, outer_cross], ⟨_, rfl, ?_⟩, ⟨_, rfl, ?_⟩⟩
  · rw [matVec_mulVec, et, Matrix.mulVec_mulVec, hb', Matrix.one_mulVec]
  · have : w.position + vsub (matVec (matTranspose w.dcmJ2000ToEcef) w.targetEcef) w.position = matVec (matTranspose w.dcmJ2000ToEcef) w.targetEcef := by
      funext i; simp [vsub]
    rw [this, matVec_mulVec, et, Matrix.mulVec_mulVec, hb', Matrix.one_mulVec]

/-- A spacecraft 7 units from the Earth's centre, local information not yet computed, satisfies the hypotheses. -/
noncomputable def exampleWorld : World :=
  { sunLocal := 0, sunCenter := ![7, 0, 9], earthLocal := ![-7, 0, 0], earthCenter := 0, position := ![7, 0, 0], velocity := ![0, 2, 0],
    velocityEcef := ![0, 1, 0], dcmJ2000ToEcef := 1, targetEcef := ![6, 0, 0] }

example : (exampleWorld.sunLocal = 0 ∨ exampleWorld.sunLocal = exampleWorld.sunCenter - exampleWorld.position) ∧
    (exampleWorld.earthLocal = 0 ∨ exampleWorld.earthLocal = exampleWorld.earthCenter - exampleWorld.position) ∧ IsRotation exampleWorld.dcmJ2000ToEcef := by
  refine ⟨Or.inl rfl, Or.inr (by simp [exampleWorld]), ?_⟩
  constructor <;> simp [exampleWorld]

/-- In that world a new object that points its z axis to the Sun and its x axis towards the velocity meets the hypotheses of the pointing theorem. -/
example (q q0 : Quat) (w0 : Vec 3) : ∃ s s' : Controlled, ∃ m u : Vec 3, s = Controlled.new .sunPointing .velocityDirection q ![0, 0, 1] ![1, 0, 0] 1 q0 w0 ∧
    s.enabled = true ∧ s.main ≠ .inertialStabilize ∧ targetVector exampleWorld s.main = .ok m ∧ targetVector exampleWorld s.sub = .ok u ∧
    len s.mainB = 1 ∧ cross s.mainB s.subB ≠ 0 ∧ cross m u ≠ 0 ∧ s.propagate exampleWorld 1 = .ok (some s') := by
  obtain ⟨h1, h2⟩ := C112_new .sunPointing .velocityDirection q ![0, 0, 1] ![1, 0, 0] 1 q0 w0 (by decide) (fun h => by simpa using congrFun h 2)
    (fun h => by simpa using congrFun h 0)
  have he := h1.2 ⟨by decide, by decide, by decide, by
    simp [dot]
    have := len_nonneg ![0, 0, 1]
    have := len_nonneg ![1, 0, 0]
    positivity⟩
  obtain ⟨k1, k2, -, -, e1, e2, e3, -⟩ := h2 he
  have hmain : (Controlled.new .sunPointing .velocityDirection q ![0, 0, 1] ![1, 0, 0] 1 q0 w0).main ≠ .inertialStabilize := by rw [e1]; decide
  obtain ⟨s', hs'⟩ := (((C112_outcomes _ exampleWorld 1).2 he hmain).2 (by rw [e1, e2]; decide)).2.2.2 (Or.inl (by rw [e3]; norm_num))
  have ht := C112_targets exampleWorld (Or.inl rfl) (Or.inr (by simp [exampleWorld])) (by constructor <;> simp [exampleWorld])
  refine ⟨_, s', exampleWorld.sunCenter - exampleWorld.position, exampleWorld.velocity, rfl, he, hmain, by rw [e1]; exact ht.1, by rw [e2]; rfl, k1, ?_, ?_, hs'⟩
  · intro h0
    rw [h0] at k2
    norm_num [len] at k2
  · intro h0
    have := congrFun h0 0
    simp [cross, exampleWorld] at this

/-- The matrix a turn of the sub target about the common main axis leads to. -/
theorem pointing_z (c d : ℝ) (h : c ^ 2 + d ^ 2 = 1) :
    pointing ![0, 0, 1] ![1, 0, 0] ![0, 0, 1] ![c, d, 0] = Quat.fromDcm !![c, d, 0; -d, c, 0; 0, 0, 1] := by
  have l1 : len ![0, 0, 1] = 1 := by simp [len]
  have c1 : cross ![0, 0, 1] ![1, 0, 0] = ![0, 1, 0] := by apply vec3_ext <;> simp [cross]
  have c2 : cross ![0, 0, 1] ![c, d, 0] = ![-d, c, 0] := by apply vec3_ext <;> simp [cross]
  have l2 : len ![0, 1, 0] = 1 := by simp [len]
  have l3 : len ![-d, c, 0] = 1 := by simp [len, add_comm (d ^ 2), h]
  have n1 : cross ![0, 0, 1] ![1, 0, 0] ≠ 0 := by rw [c1]; intro h; simpa using congrFun h 1
  have n2 : cross ![0, 0, 1] ![c, d, 0] ≠ 0 := by
    rw [c2]; intro h0
    have : len ![-d, c, 0] = 0 := by rw [h0]; simp [len]
    rw [l3] at this; norm_num at this
  obtain ⟨-, e1⟩ := calcDcm_eq ![0, 0, 1] ![1, 0, 0] l1 n1
  obtain ⟨-, e2⟩ := calcDcm_eq ![0, 0, 1] ![c, d, 0] l1 n2
  rw [pointing, e1, e2, c1, c2, l2, l3]
  congr 1
  apply mat3_ext
  refine ⟨?_, ?_, ?_, ?_, ?_, ?_, ?_, ?_, ?_⟩ <;> simp [matMul, matTranspose, Fin.sum_univ_three, dot]

/-- **C112** (degenerate geometry). When the two targets are in the same direction (for instance the Sun ahead of the spacecraft, main mode
Sun, sub mode velocity), the resulting quaternion is not a unit quaternion. -/
theorem C112_degenerate : ¬ (pointing ![1, 0, 0] ![0, 1, 0] ![1, 0, 0] ![1, 0, 0]).IsUnit := by
  have l1 : len ![1, 0, 0] = 1 := by simp [len]
  have c1 : cross ![1, 0, 0] ![0, 1, 0] = ![0, 0, 1] := by apply vec3_ext <;> simp [cross]
  have c2 : cross ![1, 0, 0] ![1, 0, 0] = 0 := by apply vec3_ext <;> simp [cross]
  have c3 : ∀ a, cross 0 a = 0 := fun a => by apply vec3_ext <;> simp [cross]
  have c4 : ∀ a, cross a 0 = 0 := fun a => by apply vec3_ext <;> simp [cross]
  have l2 : len ![0, 0, 1] = 1 := by simp [len]
  have n1 : cross ![1, 0, 0] ![0, 1, 0] ≠ 0 := by rw [c1]; intro h; simpa using congrFun h 2
  obtain ⟨-, e1⟩ := calcDcm_eq ![1, 0, 0] ![0, 1, 0] l1 n1
  have hz : calcNormalizedVector (0 : Vec 3) = 0 := by
    rw [calcNormalizedVector, if_pos (by rw [calcNorm_len]; simp [len])]
  have e2 : calcDcm ![1, 0, 0] ![1, 0, 0] = !![1, 0, 0; 0, 0, 0; 0, 0, 0] := by
    rw [calcDcm]
    simp only [outer_cross, c2, c3, c4, hz]
    apply mat3_ext
    refine ⟨?_, ?_, ?_, ?_, ?_, ?_, ?_, ?_, ?_⟩ <;> simp
  have e3 : matMul (calcDcm ![1, 0, 0] ![0, 1, 0]) (matTranspose (calcDcm ![1, 0, 0] ![1, 0, 0])) = !![1, 0, 0; 0, 0, 0; 0, 0, (0 : ℝ)] := by
    rw [e1, e2, c1, l2]
    apply mat3_ext
    refine ⟨?_, ?_, ?_, ?_, ?_, ?_, ?_, ?_, ?_⟩ <;> simp [matMul, matTranspose, Fin.sum_univ_three, dot]
  rw [pointing, e3]
  have h2 : (0 : ℝ) < Real.sqrt 2 / 2 := by positivity
  intro h
  have hsq : (Real.sqrt 2) ^ 2 = 2 := Real.sq_sqrt (by norm_num)
  have hf : Quat.fromDcm !![1, 0, 0; 0, 0, 0; 0, 0, (0 : ℝ)] = ⟨Real.sqrt 2 / 2, 0, 0, 0⟩ := by
    have hmax : Quat.maxIndex (Real.sqrt 2 / 2) 0 0 (Real.sqrt 2 / 2) = 0 := by
      simp [Quat.maxIndex, not_lt.mpr (abs_nonneg (Real.sqrt 2 / 2))]
    have e : (1 : ℝ) + 1 = 2 := by norm_num
    simp [Quat.fromDcm, e, hmax]
  rw [hf] at h
  unfold Quat.IsUnit at h
  simp only at h
  nlinarith

/-! ## Angular velocity and torque -/

theorem differenceRate_mul (p d : Quat) (hp : p.IsUnit) (dt : ℝ) : differenceRate p (p.mul d) dt = ![2 / dt * d.x, 2 / dt * d.y, 2 / dt * d.z] := by
  have h : p.x ^ 2 + p.y ^ 2 + p.z ^ 2 + p.w ^ 2 = 1 := hp
  obtain ⟨a, b, c, e⟩ := p
  obtain ⟨x, y, z, w⟩ := d
  simp only at h
  apply vec3_ext <;> simp [differenceRate, Quat.conjugate, Quat.mul] <;> left <;> clear * - h <;> grind

theorem differenceRate_neg (p q : Quat) (dt : ℝ) : differenceRate p (Quat.smul (-1) q) dt = -differenceRate p q dt := by
  apply vec3_ext <;> simp [differenceRate, Quat.conjugate, Quat.mul, Quat.smul] <;> ring

/-- **C113** (reported rate). The angular velocity is zero until a call was made for a positive time. Afterwards, if since the previous call the
body turned by the angle `φ` about the body axis `n`, the reported angular velocity is `± (2 / dt) sin (φ / 2) n`: the sign is the right one
exactly when the two quaternions were taken with matching signs. -/
theorem C113_rate (s s' : Controlled) (t φ : ℝ) (n : Vec 3) (hq : s.prevQuat.IsUnit) (h : s.calcAngularVelocity t = .ok (some s')) :
    (s.prevTime ≤ 0 → s'.omega = 0) ∧
    (0 < s.prevTime → s.quat = s.prevQuat.mul ⟨n 0 * Real.sin (φ / 2), n 1 * Real.sin (φ / 2), n 2 * Real.sin (φ / 2), Real.cos (φ / 2)⟩ →
      s'.omega = (2 / (t - s.prevTime) * Real.sin (φ / 2)) • n) ∧
    (0 < s.prevTime → Quat.smul (-1) s.quat =
        s.prevQuat.mul ⟨n 0 * Real.sin (φ / 2), n 1 * Real.sin (φ / 2), n 2 * Real.sin (φ / 2), Real.cos (φ / 2)⟩ →
      s'.omega = -((2 / (t - s.prevTime) * Real.sin (φ / 2)) • n)) := by
  obtain ⟨-, -, -, -, -, h6, h7⟩ := calcAngularVelocity_spec s s' t h
  refine ⟨fun h0 => (h6 h0).1, fun h0 e => ?_, fun h0 e => ?_⟩
  · rw [(h7 h0).2.1, e, differenceRate_mul _ _ hq]
    apply vec3_ext <;> simp <;> ring
  · have : s.quat = Quat.smul (-1) (s.prevQuat.mul ⟨n 0 * Real.sin (φ / 2), n 1 * Real.sin (φ / 2), n 2 * Real.sin (φ / 2), Real.cos (φ / 2)⟩) := by
      rw [← e]; simp [Quat.smul]
    rw [(h7 h0).2.1, this, differenceRate_neg, differenceRate_mul _ _ hq]
    apply vec3_ext <;> simp <;> ring

/-- **C113** (limit). Along any differentiable attitude history with angular velocity `w` at time `t`, taken with a continuous choice of sign,
the difference quotient used by the program tends to `w` as the interval between the calls tends to zero. -/
theorem C113_limit (q : ℝ → Fin 4 → ℝ) (w : Fin 3 → ℝ) (t : ℝ) (hu : q t 0 ^ 2 + q t 1 ^ 2 + q t 2 ^ 2 + q t 3 ^ 2 = 1)
    (hq : HasDerivAt q (rate w (q t)) t) :
    Filter.Tendsto (fun dt => differenceRate ⟨q (t - dt) 0, q (t - dt) 1, q (t - dt) 2, q (t - dt) 3⟩ ⟨q t 0, q t 1, q t 2, q t 3⟩ dt)
      (nhdsWithin 0 {0}ᶜ) (nhds w) := by
  set g : ℝ → Fin 3 → ℝ := fun d =>
    let r := Quat.mul (Quat.conjugate ⟨q (t - d) 0, q (t - d) 1, q (t - d) 2, q (t - d) 3⟩) ⟨q t 0, q t 1, q t 2, q t 3⟩
    ![2 * r.x, 2 * r.y, 2 * r.z] with hg
  have a : ∀ i, HasDerivAt (fun d => q (t - d) i) (-(rate w (q t) i)) 0 := by
    intro i
    have h1 := hasDerivAt_pi.1 hq i
    have h2 : HasDerivAt (fun d : ℝ => t - d) (-1) 0 := by simpa using (hasDerivAt_id (0 : ℝ)).const_sub t
    have h3 : HasDerivAt (fun s => q s i) (rate w (q t) i) (t - 0) := by simpa using h1
    have h4 := h3.comp (0 : ℝ) h2
    rw [mul_neg_one] at h4
    exact h4
  have hd : HasDerivAt g w 0 := by
    rw [hasDerivAt_pi]
    have a0 := a 0
    have a1 := a 1
    have a2 := a 2
    have a3 := a 3
    have k0 : rate w (q t) 0 = (q t 3 * w 0 + q t 1 * w 2 - q t 2 * w 1) / 2 := rfl
    have k1 : rate w (q t) 1 = (q t 3 * w 1 + q t 2 * w 0 - q t 0 * w 2) / 2 := rfl
    have k2 : rate w (q t) 2 = (q t 3 * w 2 + q t 0 * w 1 - q t 1 * w 0) / 2 := rfl
    have k3 : rate w (q t) 3 = -(q t 0 * w 0 + q t 1 * w 1 + q t 2 * w 2) / 2 := rfl
    rw [k0] at a0
    rw [k1] at a1
    rw [k2] at a2
    rw [k3] at a3
    intro i
    fin_cases i
    · simp [hg, Quat.mul, Quat.conjugate]
      exact (((((a3.mul_const (q t 0)).sub (a2.neg.mul_const (q t 1))).add (a1.neg.mul_const (q t 2))).add (a0.neg.mul_const (q t 3))).const_mul 2).congr_deriv
        (by clear * - hu; grind) |>.congr_of_eventuallyEq (Filter.Eventually.of_forall fun d => by simp)
    · simp [hg, Quat.mul, Quat.conjugate]
      exact (((((a3.mul_const (q t 1)).add (a2.neg.mul_const (q t 0))).sub (a0.neg.mul_const (q t 2))).add (a1.neg.mul_const (q t 3))).const_mul 2).congr_deriv
        (by clear * - hu; grind) |>.congr_of_eventuallyEq (Filter.Eventually.of_forall fun d => by simp; ring)
    · simp [hg, Quat.mul, Quat.conjugate]
      exact (((((a3.mul_const (q t 2)).sub (a1.neg.mul_const (q t 0))).add (a0.neg.mul_const (q t 1))).add (a2.neg.mul_const (q t 3))).const_mul 2).congr_deriv
        (by clear * - hu; grind) |>.congr_of_eventuallyEq (Filter.Eventually.of_forall fun d => by simp; ring)
  have := hasDerivAt_iff_tendsto_slope_zero.1 hd
  refine this.congr' ?_
  filter_upwards [self_mem_nhdsWithin] with d hd0
  have hd0' : d ≠ 0 := hd0
  have g0 : g (0 + 0) = 0 := by
    apply vec3_ext <;> simp [hg, Quat.mul, Quat.conjugate] <;> ring
  rw [add_zero] at g0
  rw [g0, sub_zero, zero_add]
  apply vec3_ext <;> simp [hg, differenceRate] <;> ring

/-- Constant spin satisfies the hypotheses. -/
example (t : ℝ) : (fun t : ℝ => (![0, 0, Real.sin (t / 2), Real.cos (t / 2)] : Fin 4 → ℝ)) t 0 ^ 2 + 0 ^ 2 + Real.sin (t / 2) ^ 2 + Real.cos (t / 2) ^ 2 = 1 ∧
    HasDerivAt (fun t : ℝ => (![0, 0, Real.sin (t / 2), Real.cos (t / 2)] : Fin 4 → ℝ)) (rate ![0, 0, 1] ![0, 0, Real.sin (t / 2), Real.cos (t / 2)]) t :=
  ⟨by simp, (example_spin (t - 1) (t + 1)).kinematics t (by linarith) (by linarith)⟩

theorem fromDcm_a : Quat.fromDcm !![-7 / 25, -24 / 25, 0; -(-24 / 25), -7 / 25, 0; 0, 0, (1 : ℝ)] = ⟨0, 0, 4 / 5, -3 / 5⟩ := by
  have e0 : Real.sqrt (64 / 25) = 8 / 5 := by rw [show (64 / 25 : ℝ) = (8 / 5) ^ 2 by norm_num]; exact Real.sqrt_sq (by norm_num)
  have e1 : Real.sqrt (36 / 25) = 6 / 5 := by rw [show (36 / 25 : ℝ) = (6 / 5) ^ 2 by norm_num]; exact Real.sqrt_sq (by norm_num)
  have hmax : Quat.maxIndex 0 0 (8 / 5 / 2) (6 / 5 / 2) = 2 := by
    simp [Quat.maxIndex]; norm_num [abs_of_pos]
  have q0 : (1 : ℝ) + -7 / 25 - -7 / 25 - 1 = 0 := by norm_num
  have q1 : (1 : ℝ) - -7 / 25 + -7 / 25 - 1 = 0 := by norm_num
  have q2 : (1 : ℝ) - -7 / 25 - -7 / 25 + 1 = 64 / 25 := by norm_num
  have q3 : (1 : ℝ) + -7 / 25 + -7 / 25 + 1 = 36 / 25 := by norm_num
  set m : Mat 3 3 := !![-7 / 25, -24 / 25, 0; -(-24 / 25), -7 / 25, 0; 0, 0, (1 : ℝ)] with hm
  have m00 : m 0 0 = -7 / 25 := by simp [hm]
  have m11 : m 1 1 = -7 / 25 := by simp [hm]
  have m22 : m 2 2 = 1 := by simp [hm]
  have m01 : m 0 1 = -24 / 25 := by simp [hm]
  have m10 : m 1 0 = 24 / 25 := by simp [hm]; norm_num
  have m02 : m 0 2 = 0 := by simp [hm]
  have m20 : m 2 0 = 0 := by simp [hm]
  have m12 : m 1 2 = 0 := by simp [hm]
  have m21 : m 2 1 = 0 := by simp [hm]
  simp only [Quat.fromDcm, m00, m11, m22, m01, m10, m02, m20, m12, m21, q0, q1, q2, q3, e0, e1, Real.sqrt_zero, zero_div, hmax]
  norm_num

theorem fromDcm_b : Quat.fromDcm !![7 / 25, -24 / 25, 0; -(-24 / 25), 7 / 25, 0; 0, 0, (1 : ℝ)] = ⟨0, 0, -3 / 5, 4 / 5⟩ := by
  have e0 : Real.sqrt (64 / 25) = 8 / 5 := by rw [show (64 / 25 : ℝ) = (8 / 5) ^ 2 by norm_num]; exact Real.sqrt_sq (by norm_num)
  have e1 : Real.sqrt (36 / 25) = 6 / 5 := by rw [show (36 / 25 : ℝ) = (6 / 5) ^ 2 by norm_num]; exact Real.sqrt_sq (by norm_num)
  have hmax : Quat.maxIndex 0 0 (6 / 5 / 2) (8 / 5 / 2) = 3 := by
    simp [Quat.maxIndex]; norm_num [abs_of_pos]
  have q0 : (1 : ℝ) + 7 / 25 - 7 / 25 - 1 = 0 := by norm_num
  have q1 : (1 : ℝ) - 7 / 25 + 7 / 25 - 1 = 0 := by norm_num
  have q2 : (1 : ℝ) - 7 / 25 - 7 / 25 + 1 = 36 / 25 := by norm_num
  have q3 : (1 : ℝ) + 7 / 25 + 7 / 25 + 1 = 64 / 25 := by norm_num
  set m : Mat 3 3 := !![7 / 25, -24 / 25, 0; -(-24 / 25), 7 / 25, 0; 0, 0, (1 : ℝ)] with hm
  have m00 : m 0 0 = 7 / 25 := by simp [hm]
  have m11 : m 1 1 = 7 / 25 := by simp [hm]
  have m22 : m 2 2 = 1 := by simp [hm]
  have m01 : m 0 1 = -24 / 25 := by simp [hm]
  have m10 : m 1 0 = 24 / 25 := by simp [hm]; norm_num
  have m02 : m 0 2 = 0 := by simp [hm]
  have m20 : m 2 0 = 0 := by simp [hm]
  have m12 : m 1 2 = 0 := by simp [hm]
  have m21 : m 2 1 = 0 := by simp [hm]
  simp only [Quat.fromDcm, m00, m11, m22, m01, m10, m02, m20, m12, m21, q0, q1, q2, q3, e0, e1, Real.sqrt_zero, zero_div, hmax]
  norm_num

/-- **C113** (wrong sign). Between two pointing updates of one second the body turns about its z axis by a positive angle (the second attitude
is the first followed by the rotation with half angle sine 7/25, cosine 24/25), but the quaternions read off the matrices have opposite signs
and the reported rate is negative. -/
theorem C113_wrong_sign :
    let q1 := pointing ![0, 0, 1] ![1, 0, 0] ![0, 0, 1] ![-7 / 25, -24 / 25, 0]
    let q2 := pointing ![0, 0, 1] ![1, 0, 0] ![0, 0, 1] ![7 / 25, -24 / 25, 0]
    (∀ v, q2.frameConversion v = (q1.mul ⟨0, 0, 7 / 25, 24 / 25⟩).frameConversion v) ∧ differenceRate q1 q2 1 = ![0, 0, -14 / 25] := by
  intro q1 q2
  have e1 : q1 = ⟨0, 0, 4 / 5, -3 / 5⟩ := by
    rw [← fromDcm_a]; exact pointing_z _ _ (by norm_num)
  have e2 : q2 = ⟨0, 0, -3 / 5, 4 / 5⟩ := by
    rw [← fromDcm_b]; exact pointing_z _ _ (by norm_num)
  rw [e1, e2]
  constructor
  · intro v
    rw [frame_explicit, frame_explicit]
    apply vec3_ext <;> simp [Quat.mul] <;> ring_nf <;> simp
  · apply vec3_ext <;> simp [differenceRate, Quat.mul, Quat.conjugate] <;> norm_num

/-- **C113** (torque). The torque added is minus the inverse inertia tensor times the change of the reported rate per second, instead of the
inertia tensor times it: for a body with inertia `j` times the identity it is `-1 / j^2` times the torque `j (w' - w) / dt` that makes the
change. -/
theorem C113_torque (s s' : Controlled) (t j : ℝ) (hj : j ≠ 0) (hp : 0 < s.prevTime) (hI : s.inertia = j • (1 : Matrix (Fin 3) (Fin 3) ℝ))
    (h : s.calcAngularVelocity t = .ok (some s')) :
    s'.torque = s.torque + (-1 / j ^ 2) • ((j / (t - s.prevTime)) • (s'.omega - s.prevOmega)) := by
  obtain ⟨-, -, -, -, -, -, h7⟩ := calcAngularVelocity_spec s s' t h
  obtain ⟨-, -, inv, hinv, e⟩ := h7 hp
  have hinv' : inv = (1 / j) • (1 : Matrix (Fin 3) (Fin 3) ℝ) := by
    rw [hI, Matrix.smul_mul, Matrix.one_mul] at hinv
    rw [← hinv, smul_smul, one_div_mul_cancel hj, one_smul]
  rw [e, hinv', Matrix.smul_mulVec, Matrix.one_mulVec]
  funext i
  simp only [Pi.add_apply, Pi.smul_apply, Pi.sub_apply, smul_eq_mul]
  by_cases hd : t - s.prevTime = 0
  · simp [hd]
  · field_simp
    ring

/-- A unit cube that is brought from rest to one radian per second (roughly) in one second. -/
example : ∃ s s' : Controlled, 0 < s.prevTime ∧ s.inertia = (2 : ℝ) • (1 : Matrix (Fin 3) (Fin 3) ℝ) ∧ s.prevQuat.IsUnit ∧
    s.calcAngularVelocity 2 = .ok (some s') := by
  set s : Controlled := { enabled := true, main := .sunPointing, sub := .velocityDirection, mainB := ![0, 0, 1], subB := ![1, 0, 0], omega := 0,
                          quat := ⟨0, 0, 3 / 5, 4 / 5⟩, torque := 0, inertia := (2 : ℝ) • (1 : Matrix (Fin 3) (Fin 3) ℝ), prevTime := 1,
                          prevQuat := ⟨0, 0, 0, 1⟩, prevOmega := 0 } with hs
  obtain ⟨inv, hinv, -, -⟩ := (C73_inverse s.inertia).2 (by simp [hs])
  have hex : ∃ s', s.calcAngularVelocity 2 = .ok (some s') := by
    rw [Controlled.calcAngularVelocity, if_pos (by simp [hs]), hinv]
    simp only [Res.bind]
    rw [if_neg (by simp [hs]; norm_num)]
    exact ⟨_, rfl⟩
  obtain ⟨s', h'⟩ := hex
  exact ⟨s, s', by simp [hs], rfl, by simp [Quat.IsUnit, hs], h'⟩

end S2E.Att
