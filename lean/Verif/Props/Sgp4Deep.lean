import Verif.Proofs.Sgp4DeepTime
import Mathlib.Analysis.Real.Pi.Bounds

/-!
# C180: the deep-space part of SGP4
-/
namespace S2E.Sgp4

open S2E.InitOrbit (Wgs)
open Report

/-- C180: for every regular deep-space element set, every history of calls and every time, `sgp4` returns, and what it returns and writes are the code, the
position and the velocity of the deep-space theory: the secular rates of Sun and Moon are those of Lagrange's planetary equations for the potential averaged over
both orbits, the periodics are the integrals of what is left of the rates when only the orbit of the satellite is averaged, the orbits of 12 and 24 hours are in
resonance with the rotation of the Earth, and Kepler's equation is solved by the iteration described in the Report. `epoch` counts days from 1950 January 0.0. -/
theorem C180_deep (fuel fuel' : ℕ) (set : Wgs) (epoch : ℝ) (x : Elements) (hx : Deep.Regular (gravity set) x) (old s s' : Elset) (before : List ℝ) (t : ℝ)
    (hs : sgp4init fuel set epoch x.B x.e x.w x.i x.M x.no x.node old = .ok s) (hb : runs fuel set before s = .ok s') (hf : ⌊|t| / 720⌋₊ < fuel') :
    let g := gravity set
    let day := epoch + 18261.5
    ∃ cs cm q out, sgp4 fuel' set s' t = .ok out ∧
      ThirdBody.Periodics ThirdBody.sun (n g x) (a g x) x.e x.i x.node x.w cs ∧
      ThirdBody.Periodics (ThirdBody.moon day) (n g x) (a g x) x.e x.i x.node x.w cm ∧
      Deep.Corrected (Deep.together (cs (Deep.sunLongitude day t)) (cm (Deep.moonLongitude day t))) (Deep.mean g x day t) q ∧
      (0 < Deep.n1 g x day t → 1.5e-12 < |1 + Real.cos q.i| → (0.2 ≤ q.i → Real.sin q.i ≠ 0) → q.e ^ 2 ≠ 1 →
        ∃ E, Solved (Deep.Ul g (Deep.positive q)) (Deep.ax (Deep.positive q)) (Deep.ay g (Deep.positive q)) E ∧
          (0 < q.a → 0 < Deep.pl g (Deep.positive q) → out.elset.error = Deep.code g x day t (Deep.positive q) E ∧
            out.written = some (Deep.place g (Deep.positive q) E, Deep.speed g (Deep.positive q) E)) ∧
          (Deep.pl g (Deep.positive q) < 0 → out.elset.error = 6 ∧ out.written = none)) := by
  intro g day
  have hP := (deep_prepare set epoch x old hx).1
  have k1 : Same (prepare set epoch x.B x.e x.w x.i x.M x.no x.node old) s' := (init_same _ _ _ _ _ _ _ _ _ _ _ _ hs).trans (runs_same fuel set before s s' hb)
  have ho := k1.sgp4 fuel' set t
  generalize prepare set epoch x.B x.e x.w x.i x.M x.no x.node old = P at *
  obtain ⟨cs, cm, q, o, h1, h2, h3, h4, h5⟩ := deep_advance (consts_ok set) hx hP t 0 fuel' hf
  have h6 : sgp4 fuel' set P t = .ok o := h1
  rw [h6] at ho
  rcases h7 : sgp4 fuel' set s' t with out | _ | _ | _ <;> rw [h7] at ho <;> simp only [observe, reduceCtorEq, Res.ok.injEq, Prod.mk.injEq] at ho
  obtain ⟨e1, e2⟩ := ho
  refine ⟨cs, cm, q, out, rfl, h2, h3, h4, fun j1 j2 _ _ => ?_⟩
  rw [e1, e2]
  exact h5 j2 j1

/-- C180: `sgp4init` itself returns for such a set: with the code 5 and no propagation when the perigee is below the surface, and otherwise with the code of a
first call at the epoch. -/
theorem C180_init (fuel : ℕ) (set : Wgs) (epoch : ℝ) (x : Elements) (hx : Deep.Regular (gravity set) x) (old : Elset) (hf : 0 < fuel) :
    ∃ s, sgp4init fuel set epoch x.B x.e x.w x.i x.M x.no x.node old = .ok s ∧ s.method = 'd' ∧ s.init = 'n' ∧
      (perigee (gravity set) x < 1 → s.error = 5) ∧
      (1 ≤ perigee (gravity set) x → ∃ out, sgp4 fuel set s 0 = .ok out ∧ s.error = out.elset.error) := by
  obtain ⟨hP, he, -⟩ := deep_prepare set epoch x old hx
  have hs : ∀ s, sgp4init fuel set epoch x.B x.e x.w x.i x.M x.no x.node old = .ok s → Same (prepare set epoch x.B x.e x.w x.i x.M x.no x.node old) s :=
    fun s hs => init_same _ _ _ _ _ _ _ _ _ _ _ _ hs
  have hm := hP.method
  obtain ⟨cs, cm, q, o, h1, -⟩ := deep_advance (consts_ok set) hx hP 0 0 fuel (by simpa using hf)
  unfold sgp4init at hs ⊢
  dsimp only at hs ⊢
  generalize prepare set epoch x.B x.e x.w x.i x.M x.no x.node old = P at *
  have h5 : sgp4 fuel set P 0 = .ok o := h1
  by_cases hp : perigee (gravity set) x < 1
  · rw [if_pos hp] at he
    rw [if_neg (by rw [he]; norm_num)]
    exact ⟨_, rfl, hm, rfl, fun _ => he, fun h => absurd hp (not_lt.2 h)⟩
  · rw [if_neg hp] at he
    rw [if_pos he, h5] at hs ⊢
    have k := (hs _ rfl).sgp4 fuel set 0
    rw [h5] at k
    refine ⟨_, rfl, ?_, rfl, fun h => absurd h hp, fun _ => ?_⟩
    · exact (sgp4_same fuel set P 0 o h5).method.trans hm
    · rcases h7 : sgp4 fuel set { o.elset with init := 'n' } 0 with out | _ | _ | _ <;> rw [h7] at k <;> simp only [observe, reduceCtorEq, Res.ok.injEq, Prod.mk.injEq] at k
      exact ⟨out, rfl, k.1.symm⟩

/-- C180: the periodics are determined by their definition. -/
theorem C180_unique {b : ThirdBody.Body} {n a e i W w : ℝ} {c c' : ℝ → ThirdBody.Rates} (h : ThirdBody.Periodics b n a e i W w c)
    (h' : ThirdBody.Periodics b n a e i W w c') : c = c' := by
  have key : ∀ {y u v : ℝ → ℝ}, ThirdBody.IsPeriodic y u → ThirdBody.IsPeriodic y v → u = v := by
    rintro y u v ⟨u1, u2⟩ ⟨v1, v2⟩
    have hd : ∀ f, HasDerivAt (fun f => u f - v f) 0 f := fun f => ((u1 f).sub (v1 f)).congr_deriv (by ring)
    have hc : ∀ f, u f - v f = u 0 - v 0 := fun f =>
      is_const_of_deriv_eq_zero (fun f => (hd f).differentiableAt) (fun f => (hd f).deriv) f 0
    have cu : Continuous u := continuous_iff_continuousAt.2 fun f => (u1 f).continuousAt
    have cv : Continuous v := continuous_iff_continuousAt.2 fun f => (v1 f).continuousAt
    have hi : ∫ f in (0 : ℝ)..2 * Real.pi, (u f - v f) = 0 := by
      rw [intervalIntegral.integral_sub (cu.intervalIntegrable _ _) (cv.intervalIntegrable _ _), u2, v2, sub_zero]
    simp only [hc, intervalIntegral.integral_const, sub_zero, smul_eq_mul] at hi
    have h0 : u 0 - v 0 = 0 := (mul_eq_zero.1 hi).resolve_left Real.two_pi_pos.ne'
    funext f
    have := hc f
    linarith
  funext f
  exact ThirdBody.Rates.ext (congrFun (key h.ecc h'.ecc) f) (congrFun (key h.incl h'.incl) f) (congrFun (key h.anomaly h'.anomaly) f)
    (congrFun (key h.perigee h'.perigee) f) (congrFun (key h.ascending h'.ascending) f)

/-! Cases that meet the hypotheses: sets at the inclination where the mean motion needs no correction, without drag, of the semi-major axis `r^2`. -/

noncomputable def exDeep (r e : ℝ) : Elements := { no := 0.0743669161 / r ^ 3, e := e, i := Real.arccos (Real.sqrt (1 / 3)), M := 1, w := 2, node := 3, B := 0 }

theorem exDeep_th (r e : ℝ) : th (exDeep r e) ^ 2 = 1 / 3 ∧ 0 ≤ th (exDeep r e) := by
  have h1 : Real.sqrt (1 / 3) ^ 2 = 1 / 3 := Real.sq_sqrt (by norm_num)
  have h0 := Real.sqrt_nonneg (1 / 3)
  have : th (exDeep r e) = Real.sqrt (1 / 3) := Real.cos_arccos (by linarith) (by nlinarith)
  rw [this]; exact ⟨h1, h0⟩

theorem exDeep_n (r e : ℝ) (hr : 0 < r) : n (gravity .wgs72old) (exDeep r e) = 0.0743669161 / r ^ 3 ∧ a (gravity .wgs72old) (exDeep r e) = r ^ 2 ∧
    aOld (gravity .wgs72old) (exDeep r e) = r ^ 2 := by
  have hp : (r ^ 3) ^ (2 / 3 : ℝ) = r ^ 2 := by
    rw [← Real.rpow_natCast r 3, ← Real.rpow_mul hr.le, show ((3 : ℕ) : ℝ) * (2 / 3) = (2 : ℕ) by norm_num, Real.rpow_natCast]
  have h1 : a1 (gravity .wgs72old) (exDeep r e) = r ^ 2 := by
    unfold a1 gravity exDeep
    dsimp only
    rw [show (0.0743669161 : ℝ) / (0.0743669161 / r ^ 3) = r ^ 3 by field_simp, hp]
  have h3 : 3 * th (exDeep r e) ^ 2 - 1 = 0 := by rw [(exDeep_th r e).1]; norm_num
  have h4 : delta1 (gravity .wgs72old) (exDeep r e) = 0 := by unfold delta1; rw [h3]; ring
  have h5 : delta0 (gravity .wgs72old) (exDeep r e) = 0 := by unfold delta0; rw [h3]; ring
  have h6 : n (gravity .wgs72old) (exDeep r e) = (exDeep r e).no := by unfold n; rw [h5]; simp
  refine ⟨h6, ?_, by unfold aOld; rw [h1, h4]; norm_num⟩
  unfold a
  rw [h6]
  exact h1

theorem exDeep_regular (r e : ℝ) (hr : 1 < r) (h0 : 0 < e) (h1 : e < 1) (hd : 225 * (0.0743669161 / r ^ 3) ≤ 6.283) (hp : 1.1 ≤ r ^ 2 * (1 - e))
    (hpsi : r ^ 2 * e < r ^ 2 - 1.02) : Deep.Regular (gravity .wgs72old) (exDeep r e) := by
  obtain ⟨k1, k2, k3⟩ := exDeep_n r e (by linarith)
  have hr0 : 0 < r := by linarith
  have hs : Report.s (gravity .wgs72old) (exDeep r e) = 78 / 6378.135 + 1 := by
    have hh : 156 ≤ height (gravity .wgs72old) (exDeep r e) := by
      unfold height perigee
      rw [k2]
      have : (1.1 - 1) * 6378.135 ≤ (r ^ 2 * (1 - (exDeep r e).e) - 1) * (gravity .wgs72old).radius := by
        change (1.1 - 1) * 6378.135 ≤ (r ^ 2 * (1 - e) - 1) * 6378.135
        nlinarith
      norm_num at this ⊢
      linarith
    unfold Report.s
    rw [if_neg (by linarith), if_neg (by linarith)]; rfl
  have heta : eta (gravity .wgs72old) (exDeep r e) = r ^ 2 * e * (1 / (r ^ 2 - (78 / 6378.135 + 1))) := by
    unfold eta xi; rw [k2, hs]; rfl
  have hden : 0 < r ^ 2 - (78 / 6378.135 + 1) := by
    have : (78 / 6378.135 + 1 : ℝ) < 1.02 := by norm_num
    nlinarith
  have heta1 : eta (gravity .wgs72old) (exDeep r e) < 1 := by
    rw [heta, mul_one_div, div_lt_one hden]
    have : (78 / 6378.135 + 1 : ℝ) < 1.02 := by norm_num
    linarith
  have heta0 : 0 < eta (gravity .wgs72old) (exDeep r e) := by rw [heta]; positivity
  have hi : Real.sin (exDeep r e).i ≠ 0 := by
    have h2 := Real.sin_sq_add_cos_sq (exDeep r e).i
    have h3 : Real.cos (exDeep r e).i ^ 2 = 1 / 3 := (exDeep_th r e).1
    intro h4
    rw [h4, h3] at h2
    norm_num at h2
  refine ⟨h0, h1, ?_, ?_, ?_, ?_, hi, ?_, ?_, ?_⟩
  · change (0 : ℝ) < 0.0743669161 / r ^ 3
    positivity
  · rw [k1]; positivity
  · rw [k1, le_div_iff₀ (by positivity)]
    have := Real.pi_gt_d4
    linarith
  · have := (exDeep_th r e).2
    rw [abs_of_pos (by linarith)]
    norm_num at this ⊢
    linarith
  · rw [k3]; positivity
  · rw [k2, hs]; linarith
  · unfold psi
    rw [abs_ne_zero]
    nlinarith

/-- An orbit without resonance, one of 24 hours and one of 12 hours. -/
theorem exDeep_cases : let g := gravity .wgs72old
    (Deep.Regular g (exDeep 1.4 0.01) ∧ ¬Deep.HalfDay g (exDeep 1.4 0.01) ∧ ¬Deep.Synchronous g (exDeep 1.4 0.01)) ∧
    (Deep.Regular g (exDeep 2.6 0.1) ∧ ¬Deep.HalfDay g (exDeep 2.6 0.1) ∧ Deep.Synchronous g (exDeep 2.6 0.1)) ∧
    (Deep.Regular g (exDeep 2.04 0.7) ∧ Deep.HalfDay g (exDeep 2.04 0.7)) := by
  intro g
  unfold Deep.HalfDay Deep.Synchronous
  rw [(exDeep_n 1.4 0.01 (by norm_num)).1, (exDeep_n 2.6 0.1 (by norm_num)).1, (exDeep_n 2.04 0.7 (by norm_num)).1]
  refine ⟨⟨exDeep_regular _ _ (by norm_num) (by norm_num) (by norm_num) (by norm_num) (by norm_num) (by norm_num), by norm_num, by norm_num⟩,
    ⟨exDeep_regular _ _ (by norm_num) (by norm_num) (by norm_num) (by norm_num) (by norm_num) (by norm_num), by norm_num, by norm_num⟩,
    ⟨exDeep_regular _ _ (by norm_num) (by norm_num) (by norm_num) (by norm_num) (by norm_num) (by norm_num), by norm_num, by norm_num, by norm_num [exDeep]⟩⟩

/-! A whole call with the first of these sets. -/

theorem abs_dot3 {a b c x y z p q r : ℝ} (ha : |a| ≤ p) (hb : |b| ≤ q) (hc : |c| ≤ r) (hx : |x| ≤ 2) (hy : |y| ≤ 2) (hz : |z| ≤ 1) : |a * x + b * y + c * z| ≤ 2 * p + 2 * q + r := by
  have h1 : |a * x| ≤ p * 2 := by rw [abs_mul]; exact mul_le_mul ha hx (abs_nonneg _) ((abs_nonneg _).trans ha)
  have h2 : |b * y| ≤ q * 2 := by rw [abs_mul]; exact mul_le_mul hb hy (abs_nonneg _) ((abs_nonneg _).trans hb)
  have h3 : |c * z| ≤ r * 1 := by rw [abs_mul]; exact mul_le_mul hc hz (abs_nonneg _) ((abs_nonneg _).trans hc)
  have := abs_add_three (a * x) (b * y) (c * z)
  linarith

theorem abs_mul_le_one {x y : ℝ} (hx : |x| ≤ 1) (hy : |y| ≤ 1) : |x * y| ≤ 1 := by
  rw [abs_mul]; exact mul_le_one₀ hx (abs_nonneg _) hy

theorem abs_two {x y z : ℝ} (h : x = y + z) (hy : |y| ≤ 1) (hz : |z| ≤ 1) : |x| ≤ 2 := by
  rw [h]; have := abs_add_le y z; linarith

/-- Crude bounds of the products of the axes. -/
theorem axes_bound {cg sg ci si ch sh : ℝ} (h1 : |cg| ≤ 1) (h2 : |sg| ≤ 1) (h3 : |ci| ≤ 1) (h4 : |si| ≤ 1) (h5 : |ch| ≤ 1) (h6 : |sh| ≤ 1) (i W w : ℝ) :
    |ThirdBody.dot (ThirdBody.P i W w) (ThirdBody.axisA cg sg ci si ch sh)| ≤ 9 ∧ |ThirdBody.dot (ThirdBody.P i W w) (ThirdBody.axisB cg sg ci si ch sh)| ≤ 9 ∧
    |ThirdBody.dot (ThirdBody.Q i W w) (ThirdBody.axisA cg sg ci si ch sh)| ≤ 9 ∧ |ThirdBody.dot (ThirdBody.Q i W w) (ThirdBody.axisB cg sg ci si ch sh)| ≤ 9 ∧
    |ThirdBody.dot (ThirdBody.N i W) (ThirdBody.axisA cg sg ci si ch sh)| ≤ 5 ∧ |ThirdBody.dot (ThirdBody.N i W) (ThirdBody.axisB cg sg ci si ch sh)| ≤ 5 := by
  have m := @abs_mul_le_one
  have ng : ∀ {y : ℝ}, |y| ≤ 1 → |-y| ≤ 1 := fun h => by rwa [abs_neg]
  have s := Real.abs_sin_le_one
  have c := Real.abs_cos_le_one
  have A0 : |cg * ch - sg * ci * sh| ≤ 2 := abs_two (sub_eq_add_neg _ _) (m h1 h5) (ng (m (m h2 h3) h6))
  have A1 : |cg * sh + sg * ci * ch| ≤ 2 := abs_two rfl (m h1 h6) (m (m h2 h3) h5)
  have A2 : |sg * si| ≤ 1 := m h2 h4
  have B0 : |-sg * ch - cg * ci * sh| ≤ 2 := abs_two (sub_eq_add_neg _ _) (m (ng h2) h5) (ng (m (m h1 h3) h6))
  have B1 : |-sg * sh + cg * ci * ch| ≤ 2 := abs_two rfl (m (ng h2) h6) (m (m h1 h3) h5)
  have B2 : |cg * si| ≤ 1 := m h1 h4
  have P0 : |Real.cos W * Real.cos w - Real.sin W * Real.cos i * Real.sin w| ≤ 2 := abs_two (sub_eq_add_neg _ _) (m (c _) (c _)) (ng (m (m (s _) (c _)) (s _)))
  have P1 : |Real.sin W * Real.cos w + Real.cos W * Real.cos i * Real.sin w| ≤ 2 := abs_two rfl (m (s _) (c _)) (m (m (c _) (c _)) (s _))
  have P2 : |Real.sin i * Real.sin w| ≤ 1 := m (s _) (s _)
  have Q0 : |-Real.cos W * Real.sin w - Real.sin W * Real.cos i * Real.cos w| ≤ 2 := abs_two (sub_eq_add_neg _ _) (m (ng (c _)) (s _)) (ng (m (m (s _) (c _)) (c _)))
  have Q1 : |-Real.sin W * Real.sin w + Real.cos W * Real.cos i * Real.cos w| ≤ 2 := abs_two rfl (m (ng (s _)) (s _)) (m (m (c _) (c _)) (c _))
  have Q2 : |Real.sin i * Real.cos w| ≤ 1 := m (s _) (c _)
  have N0 : |Real.sin W * Real.sin i| ≤ 1 := m (s _) (s _)
  have N1 : |-Real.cos W * Real.sin i| ≤ 1 := m (ng (c _)) (s _)
  have N2 : |Real.cos i| ≤ 1 := c _
  simp only [ThirdBody.dot, ThirdBody.P, ThirdBody.Q, ThirdBody.N, ThirdBody.axisA, ThirdBody.axisB, Matrix.cons_val]
  refine ⟨?_, ?_, ?_, ?_, ?_, ?_⟩
  · have := abs_dot3 P0 P1 P2 A0 A1 A2; linarith
  · have := abs_dot3 P0 P1 P2 B0 B1 B2; linarith
  · have := abs_dot3 Q0 Q1 Q2 A0 A1 A2; linarith
  · have := abs_dot3 Q0 Q1 Q2 B0 B1 B2; linarith
  · have := abs_dot3 N0 N1 N2 A0 A1 A2; linarith
  · have := abs_dot3 N0 N1 N2 B0 B1 B2; linarith

theorem abs_lin {u v x y : ℝ} {U X : ℝ} (hu : |u| ≤ U) (hv : |v| ≤ U) (hx : |x| ≤ X) (hy : |y| ≤ X) : |u * x + v * y| ≤ 2 * (U * X) := by
  have h1 : |u * x| ≤ U * X := by rw [abs_mul]; exact mul_le_mul hu hx (abs_nonneg _) ((abs_nonneg _).trans hu)
  have h2 : |v * y| ≤ U * X := by rw [abs_mul]; exact mul_le_mul hv hy (abs_nonneg _) ((abs_nonneg _).trans hv)
  have := abs_add_le (u * x) (v * y)
  linarith

theorem body_bound {b : Body} {C n e w pA pB qA qB mA mB ecc : ℝ} (h : BodyOk b C n e w pA pB qA qB mA mB) (hp : |pA| ≤ 9 ∧ |pB| ≤ 9 ∧ |qA| ≤ 9 ∧ |qB| ≤ 9 ∧ |mA| ≤ 5 ∧ |mB| ≤ 5)
    (hk : 0 ≤ C / n) (h0 : 0 ≤ e) (h1 : e ≤ 0.01) (f : ℝ) : |(corrections b e ecc f).e| ≤ 25 * (C / n) ∧ |(corrections b e ecc f).i| ≤ 600 * (C / n) := by
  obtain ⟨p1, p2, p3, p4, p5, p6⟩ := hp
  have hsc := Real.sin_sq_add_cos_sq f
  have f2 : |0.5 * Real.sin f * Real.sin f - 0.25| ≤ 0.25 := by
    rw [abs_le]; constructor <;> nlinarith [sq_nonneg (Real.sin f), sq_nonneg (Real.cos f)]
  have f3 : |-0.5 * Real.sin f * Real.cos f| ≤ 0.25 := by
    rw [abs_le]; constructor <;> nlinarith [sq_nonneg (Real.sin f + Real.cos f), sq_nonneg (Real.sin f - Real.cos f)]
  have hη0 : 0.99 ≤ Real.sqrt (1 - e ^ 2) := Real.le_sqrt_of_sq_le (by nlinarith)
  have hη1 : Real.sqrt (1 - e ^ 2) ≤ 1 := Real.sqrt_le_one.2 (by nlinarith)
  have s1 : |b.s1| ≤ 0.15 * (C / n) := by
    have k1 : C / n * Real.sqrt (1 - e ^ 2) ≤ C / n := mul_le_of_le_one_right hk hη1
    have k2 : 0 ≤ C / n * Real.sqrt (1 - e ^ 2) := by positivity
    have k3 : e * (C / n * Real.sqrt (1 - e ^ 2)) ≤ 0.01 * (C / n) := mul_le_mul h1 k1 k2 (by norm_num)
    have k4 : 0 ≤ e * (C / n * Real.sqrt (1 - e ^ 2)) := by positivity
    rw [h.s1, abs_le]
    constructor <;> linarith
  have s2 : |b.s2| ≤ 0.51 * (C / n) := by
    have k1 : b.s2 * Real.sqrt (1 - e ^ 2) = -1 / 2 * (C / n) := by rw [h.s2]; field_simp
    have k2 : |b.s2| * Real.sqrt (1 - e ^ 2) = 1 / 2 * (C / n) := by
      have k3 : |b.s2 * Real.sqrt (1 - e ^ 2)| = |-1 / 2 * (C / n)| := by rw [k1]
      rw [abs_mul, abs_mul, abs_of_nonneg hk, abs_of_pos (by linarith : 0 < Real.sqrt (1 - e ^ 2))] at k3
      rw [k3]; norm_num
    nlinarith [abs_nonneg b.s2]
  have s6 : |b.s6| ≤ 162 := by
    rw [h.s6]; have := abs_lin p2 p1 p3 p4; linarith
  have s7 : |b.s7| ≤ 162 := by
    rw [h.s7, show pB * qB - pA * qA = pB * qB + -pA * qA by ring]
    have := abs_lin p2 (by rwa [abs_neg] : |-pA| ≤ 9) p4 p3; linarith
  have e2 : 0 ≤ e ^ 2 ∧ e ^ 2 ≤ 0.0001 := ⟨sq_nonneg _, by nlinarith⟩
  have hcw := Real.abs_cos_le_one w
  have hsw := Real.abs_sin_le_one w
  have u1 : |(1 + 4 * e ^ 2) * Real.cos w| ≤ 1.01 := by
    rw [abs_mul, abs_of_pos (by linarith)]; nlinarith [abs_nonneg (Real.cos w), e2.1, e2.2]
  have u2 : |-(1 - e ^ 2) * Real.sin w| ≤ 1.01 := by
    rw [abs_mul, abs_neg, abs_of_pos (by linarith)]; nlinarith [abs_nonneg (Real.sin w), e2.1, e2.2]
  have big : ∀ x y : ℝ, |x| ≤ 90 → |y| ≤ 90 → |-6 * ((1 + 4 * e ^ 2) * Real.cos w * x - (1 - e ^ 2) * Real.sin w * y)| ≤ 1100 := fun x y hx hy => by
    have := abs_lin u1 u2 hx hy
    rw [show -6 * ((1 + 4 * e ^ 2) * Real.cos w * x - (1 - e ^ 2) * Real.sin w * y) = -6 * ((1 + 4 * e ^ 2) * Real.cos w * x + -(1 - e ^ 2) * Real.sin w * y) by ring, abs_mul]
    norm_num at this ⊢
    linarith
  have z12 : |b.z12| ≤ 1100 := by
    rw [h.z12]
    refine big _ _ ?_ ?_
    · have : |pA * mB + pB * mA| ≤ 2 * (9 * 5) := abs_lin p1 p2 p6 p5
      linarith
    · have : |qA * mB + qB * mA| ≤ 2 * (9 * 5) := abs_lin p3 p4 p6 p5
      linarith
  have z13 : |b.z13 - b.z11| ≤ 1100 := by
    rw [h.z13, h.z11]
    have := big (pB * mB - pA * mA) (qB * mB - qA * mA) ?_ ?_
    · rwa [show -6 * ((1 + 4 * e ^ 2) * Real.cos w * (pB * mB) - (1 - e ^ 2) * Real.sin w * (qB * mB)) - -6 * ((1 + 4 * e ^ 2) * Real.cos w * (pA * mA) - (1 - e ^ 2) * Real.sin w * (qA * mA))
        = -6 * ((1 + 4 * e ^ 2) * Real.cos w * (pB * mB - pA * mA) - (1 - e ^ 2) * Real.sin w * (qB * mB - qA * mA)) by ring]
    · rw [show pB * mB - pA * mA = pB * mB + -pA * mA by ring]
      have : |pB * mB + -pA * mA| ≤ 2 * (9 * 5) := abs_lin p2 (by rwa [abs_neg]) p6 p5
      linarith
    · rw [show qB * mB - qA * mA = qB * mB + -qA * mA by ring]
      have : |qB * mB + -qA * mA| ≤ 2 * (9 * 5) := abs_lin p4 (by rwa [abs_neg]) p6 p5
      linarith
  constructor
  · have e1 : (corrections b e ecc f).e = b.s1 * (2 * (b.s6 * (0.5 * Real.sin f * Real.sin f - 0.25) + b.s7 * (-0.5 * Real.sin f * Real.cos f))) := by
      unfold corrections; ring
    have := abs_lin s6 s7 f2 f3
    rw [e1, abs_mul, abs_mul]
    norm_num at this ⊢
    nlinarith [abs_nonneg b.s1, abs_nonneg (b.s6 * (0.5 * Real.sin f * Real.sin f - 0.25) + b.s7 * (-0.5 * Real.sin f * Real.cos f))]
  · have e1 : (corrections b e ecc f).i = b.s2 * (2 * (b.z12 * (0.5 * Real.sin f * Real.sin f - 0.25) + (b.z13 - b.z11) * (-0.5 * Real.sin f * Real.cos f))) := by
      unfold corrections; ring
    have := abs_lin z12 z13 f2 f3
    rw [e1, abs_mul, abs_mul]
    norm_num at this ⊢
    nlinarith [abs_nonneg b.s2, abs_nonneg (b.z12 * (0.5 * Real.sin f * Real.sin f - 0.25) + (b.z13 - b.z11) * (-0.5 * Real.sin f * Real.cos f))]

theorem moon_axes (day : ℝ) : |ThirdBody.moonCosI day| ≤ 1 ∧ |ThirdBody.moonSinI day| ≤ 1 ∧ |ThirdBody.moonCosH day| ≤ 1 ∧ |ThirdBody.moonSinH day| ≤ 1 := by
  have hc := abs_le.1 (Real.abs_cos_le_one (ThirdBody.moonNode day))
  have h1 : 0 ≤ ThirdBody.moonCosI day ∧ ThirdBody.moonCosI day ≤ 0.95 := by unfold ThirdBody.moonCosI; constructor <;> linarith [hc.1, hc.2]
  have h2 : ThirdBody.moonSinI day ≤ 1 := by unfold ThirdBody.moonSinI; exact Real.sqrt_le_one.2 (by nlinarith [sq_nonneg (ThirdBody.moonCosI day)])
  have h3 : 0.3 ≤ ThirdBody.moonSinI day := by unfold ThirdBody.moonSinI; exact Real.le_sqrt_of_sq_le (by nlinarith [h1.1, h1.2])
  have h4 : |ThirdBody.moonSinH day| ≤ 1 := by
    unfold ThirdBody.moonSinH
    rw [abs_div, abs_of_pos (by linarith : 0 < ThirdBody.moonSinI day), div_le_one (by linarith), abs_mul]
    have := Real.abs_sin_le_one (ThirdBody.moonNode day)
    norm_num
    linarith
  refine ⟨abs_le.2 ⟨by linarith [h1.1], by linarith [h1.2]⟩, abs_le.2 ⟨by linarith, h2⟩, ?_, h4⟩
  have h5 : ThirdBody.moonCosH day ≤ 1 := by unfold ThirdBody.moonCosH; exact Real.sqrt_le_one.2 (by nlinarith [sq_nonneg (ThirdBody.moonSinH day)])
  have h6 : 0 ≤ ThirdBody.moonCosH day := Real.sqrt_nonneg _
  exact abs_le.2 ⟨by linarith, h5⟩


theorem bodies_bound {b : Body} {cg sg ci si ch sh C n e i W w ecc : ℝ} {T : ThirdBody.Body} (hA : T.A = ThirdBody.axisA cg sg ci si ch sh) (hB : T.B = ThirdBody.axisB cg sg ci si ch sh)
    (h1 : |cg| ≤ 1) (h2 : |sg| ≤ 1) (h3 : |ci| ≤ 1) (h4 : |si| ≤ 1) (h5 : |ch| ≤ 1) (h6 : |sh| ≤ 1) (hC : T.C = C) (h : BodyFor b T n e i W w) (hk : 0 ≤ C / n) (h0 : 0 ≤ e) (h1' : e ≤ 0.01)
    (f : ℝ) : |(corrections b e ecc f).e| ≤ 25 * (C / n) ∧ |(corrections b e ecc f).i| ≤ 600 * (C / n) := by
  obtain ⟨k1, k2, k3, k4, k5, k6⟩ := axes_bound h1 h2 h3 h4 h5 h6 i W w
  unfold BodyFor at h
  rw [hA, hB, hC] at h
  exact body_bound h ⟨k1, k2, k3, k4, k5, k6⟩ hk h0 h1' f

/-- At a small eccentricity the last part writes a position. -/
theorem last_bound (q : Deep.Last) (ha : 1.9 ≤ q.a ∧ q.a ≤ 2.1) (h0 : 0 ≤ q.e) (h1 : q.e ≤ 0.02) (E : ℝ) :
    0 < Deep.pl (gravity .wgs72old) q ∧ 1 ≤ Deep.rs (gravity .wgs72old) q E := by
  have hg : A30 (gravity .wgs72old) = 0.253881e-5 ∧ k2 (gravity .wgs72old) = 0.001082616 / 2 := by
    unfold A30 k2 gravity; norm_num
  have hs := abs_le.1 (Real.abs_sin_le_one q.i)
  have hδ : |A30 (gravity .wgs72old) * Real.sin q.i / (4 * k2 (gravity .wgs72old) * q.a * (1 - q.e ^ 2))| ≤ 0.001 := by
    have hd : 0.99 ≤ 1 - q.e ^ 2 := by nlinarith
    have hd' : 1.8 ≤ q.a * (1 - q.e ^ 2) := by nlinarith [ha.1]
    rw [hg.1, hg.2, mul_assoc _ q.a, abs_div, abs_of_pos (by linarith : 0 < 4 * (0.001082616 / 2) * (q.a * (1 - q.e ^ 2))), div_le_iff₀ (by linarith), abs_le]
    constructor <;> linarith
  have hax : |Deep.ax q| ≤ 0.02 := by
    unfold Deep.ax
    rw [abs_mul, abs_of_nonneg h0]
    nlinarith [Real.abs_cos_le_one q.w, abs_nonneg (Real.cos q.w)]
  have hay : |Deep.ay (gravity .wgs72old) q| ≤ 0.021 := by
    unfold Deep.ay
    have k1 : |q.e * Real.sin q.w| ≤ 0.02 := by
      rw [abs_mul, abs_of_nonneg h0]
      nlinarith [Real.abs_sin_le_one q.w, abs_nonneg (Real.sin q.w)]
    have := abs_add_le (q.e * Real.sin q.w) (A30 (gravity .wgs72old) * Real.sin q.i / (4 * k2 (gravity .wgs72old) * q.a * (1 - q.e ^ 2)))
    linarith
  have hel : Deep.el (gravity .wgs72old) q ^ 2 = Deep.ax q ^ 2 + Deep.ay (gravity .wgs72old) q ^ 2 := Real.sq_sqrt (by positivity)
  have hel1 : Deep.el (gravity .wgs72old) q ^ 2 ≤ 0.001 := by
    have k1 := abs_le.1 hax
    have k2 := abs_le.1 hay
    rw [hel]; nlinarith
  have hel0 := sq_nonneg (Deep.el (gravity .wgs72old) q)
  have hpl : 1.85 ≤ Deep.pl (gravity .wgs72old) q ∧ Deep.pl (gravity .wgs72old) q ≤ 2.1 := by unfold Deep.pl; constructor <;> nlinarith [ha.1, ha.2]
  refine ⟨by linarith [hpl.1], ?_⟩
  have hrl : 1.8 ≤ Deep.rl (gravity .wgs72old) q E := by
    have k1 : |Deep.ax q * Real.cos E| ≤ 0.02 := by rw [abs_mul]; nlinarith [Real.abs_cos_le_one E, abs_nonneg (Real.cos E), abs_nonneg (Deep.ax q)]
    have k2 : |Deep.ay (gravity .wgs72old) q * Real.sin E| ≤ 0.021 := by rw [abs_mul]; nlinarith [Real.abs_sin_le_one E, abs_nonneg (Real.sin E), abs_nonneg (Deep.ay (gravity .wgs72old) q)]
    have k3 := (abs_le.1 k1).2
    have k4 := (abs_le.1 k2).2
    unfold Deep.rl Deep.ecE
    nlinarith [ha.1]
  unfold Deep.rs
  rw [hg.2]
  have hη1 : Real.sqrt (1 - Deep.el (gravity .wgs72old) q ^ 2) ≤ 1 := Real.sqrt_le_one.2 (by linarith)
  have hη0 := Real.sqrt_nonneg (1 - Deep.el (gravity .wgs72old) q ^ 2)
  have hc1 := Real.cos_sq_le_one q.i
  have hc0 := sq_nonneg (Real.cos q.i)
  have hu : |Real.sqrt (1 - Deep.el (gravity .wgs72old) q ^ 2) / Deep.pl (gravity .wgs72old) q ^ 2| ≤ 1 := by
    rw [abs_div, abs_of_nonneg hη0, abs_of_pos (by nlinarith [hpl.1]), div_le_one (by nlinarith [hpl.1])]; nlinarith [hpl.1]
  have k5 : |Real.sqrt (1 - Deep.el (gravity .wgs72old) q ^ 2) / Deep.pl (gravity .wgs72old) q ^ 2 * (3 * Real.cos q.i ^ 2 - 1)| ≤ 2 := by
    rw [abs_mul]
    have : |3 * Real.cos q.i ^ 2 - 1| ≤ 2 := by rw [abs_le]; constructor <;> linarith
    nlinarith [abs_nonneg (3 * Real.cos q.i ^ 2 - 1), abs_nonneg (Real.sqrt (1 - Deep.el (gravity .wgs72old) q ^ 2) / Deep.pl (gravity .wgs72old) q ^ 2)]
  have k6 : |(1 - Real.cos q.i ^ 2) * Real.cos (2 * Deep.ul (gravity .wgs72old) q E)| ≤ 1 :=
    abs_mul_le_one (by rw [abs_le]; constructor <;> linarith) (Real.abs_cos_le_one _)
  have k7 : 0 ≤ 0.001082616 / 2 / (2 * Deep.pl (gravity .wgs72old) q) ∧ 0.001082616 / 2 / (2 * Deep.pl (gravity .wgs72old) q) ≤ 0.001 := by
    refine ⟨by have := hpl.1; positivity, ?_⟩
    rw [div_le_iff₀ (by linarith [hpl.1])]; linarith [hpl.1]
  have k8 := (abs_le.1 k5).2
  have k9 := (abs_le.1 k6).1
  rw [mul_assoc (3 / 2 * (0.001082616 / 2) : ℝ), mul_assoc (0.001082616 / 2 / (2 * Deep.pl (gravity .wgs72old) q))]
  generalize Real.sqrt (1 - Deep.el (gravity .wgs72old) q ^ 2) / Deep.pl (gravity .wgs72old) q ^ 2 * (3 * Real.cos q.i ^ 2 - 1) = y at *
  generalize (1 - Real.cos q.i ^ 2) * Real.cos (2 * Deep.ul (gravity .wgs72old) q E) = z at *
  generalize 0.001082616 / 2 / (2 * Deep.pl (gravity .wgs72old) q) = k at *
  generalize Deep.rl (gravity .wgs72old) q E = r at *
  have m1 : 0.99 ≤ 1 - 3 / 2 * (0.001082616 / 2) * y := by linarith
  have m2 : -0.001 ≤ k * z := by nlinarith [k7.1, k7.2]
  nlinarith

theorem exDeep_incl (r e : ℝ) : 0.5 ≤ (exDeep r e).i ∧ (exDeep r e).i ≤ 1.571 := by
  have h1 := exDeep_th r e
  have hp := Real.pi_lt_d4
  have h0 : 0 ≤ (exDeep r e).i := Real.arccos_nonneg _
  constructor
  · by_contra h
    push Not at h
    have := Real.one_sub_sq_div_two_le_cos (x := (exDeep r e).i)
    have h2 : 0.8 ≤ th (exDeep r e) := by
      change 0.8 ≤ Real.cos _
      nlinarith
    nlinarith [h1.1]
  · have h3 : (exDeep r e).i ≤ Real.pi / 2 := Real.arccos_le_pi_div_two.2 (Real.sqrt_nonneg _)
    linarith

/-- At the epoch of such an orbit without resonance, of moderate inclination and a semi-major axis of about two Earth radii, all conditions hold and the code is 0. -/
theorem small_good (x : Elements) (hx : Deep.Regular (gravity .wgs72old) x) (hH : ¬Deep.HalfDay (gravity .wgs72old) x) (hS : ¬Deep.Synchronous (gravity .wgs72old) x)
    (hn' : 0.025 ≤ n (gravity .wgs72old) x) (ha' : 1.9 ≤ a (gravity .wgs72old) x ∧ a (gravity .wgs72old) x ≤ 2.1) (hxe : x.e = 0.01) (hi : 0.5 ≤ x.i ∧ x.i ≤ 1.571)
    (old : Elset) (day : ℝ) (cs cm : ℝ → ThirdBody.Rates) (q : Deep.Last)
    (h2 : ThirdBody.Periodics ThirdBody.sun (n (gravity .wgs72old) x) (a (gravity .wgs72old) x) x.e x.i x.node x.w cs)
    (h3 : ThirdBody.Periodics (ThirdBody.moon day) (n (gravity .wgs72old) x) (a (gravity .wgs72old) x) x.e x.i x.node x.w cm)
    (h4 : Deep.Corrected (Deep.together (cs (Deep.sunLongitude day 0)) (cm (Deep.moonLongitude day 0))) (Deep.mean (gravity .wgs72old) x day 0) q) :
    0 < Deep.n1 (gravity .wgs72old) x day 0 ∧ 1.5e-12 < |1 + Real.cos q.i| ∧ (0.2 ≤ q.i → Real.sin q.i ≠ 0) ∧ q.e ^ 2 ≠ 1 ∧ Deep.positive q = q ∧ 0 < q.a ∧
      0 < Deep.pl (gravity .wgs72old) q ∧ ∀ E, Deep.code (gravity .wgs72old) x day 0 q E = 0 := by
  have hn0 := hx.n_pos
  obtain ⟨bs, bm, b1, b2, -⟩ := (deep_prepare .wgs72old (day - 18261.5) x old hx).1.bodies
  rw [sub_add_cancel] at b2
  have ha0 : a (gravity .wgs72old) x ≠ 0 := by linarith [ha'.1]
  have he2 : x.e ^ 2 < 1 := by rw [hxe]; norm_num
  have c1 := C180_unique h2 (b1.periodics hx.n_pos.ne' ha0 hx.e0.ne' he2 hx.sin_ne (by norm_num [ThirdBody.sun]))
  have c2 := C180_unique h3 (b2.periodics hx.n_pos.ne' ha0 hx.e0.ne' he2 hx.sin_ne (by norm_num [ThirdBody.moon]))
  have z1 := bodies_bound (C := 2.9864797e-6) (ecc := ThirdBody.sun.ecc) (T := ThirdBody.sun) rfl rfl (by norm_num [abs_le]) (by norm_num [abs_le]) (by norm_num [abs_le]) (by norm_num [abs_le])
    (by norm_num) (by norm_num) rfl b1 (by positivity) (by rw [hxe]; norm_num) hxe.le (Deep.sunLongitude day 0)
  obtain ⟨m1, m2, m3, m4⟩ := moon_axes day
  have z2 := bodies_bound (C := 4.7968065e-7) (ecc := (ThirdBody.moon day).ecc) (T := ThirdBody.moon day) rfl rfl (Real.abs_cos_le_one _) (Real.abs_sin_le_one _) m1 m2 m3 m4 rfl b2
    (by positivity) (by rw [hxe]; norm_num) hxe.le (Deep.moonLongitude day 0)
  rw [← c1] at z1
  rw [← c2] at z2
  have w1 : 2.9864797e-6 / n (gravity .wgs72old) x ≤ 0.00012 := by rw [div_le_iff₀ hn0]; norm_num at hn' ⊢; linarith
  have w2 : 4.7968065e-7 / n (gravity .wgs72old) x ≤ 0.00002 := by rw [div_le_iff₀ hn0]; norm_num at hn' ⊢; linarith
  have n1 : Deep.n1 (gravity .wgs72old) x day 0 = n (gravity .wgs72old) x := by unfold Deep.n1; rw [if_neg hH, if_neg hS]
  have a2 : Deep.a2 (gravity .wgs72old) x day 0 = a (gravity .wgs72old) x := by
    have : ((gravity .wgs72old).ke / n (gravity .wgs72old) x) ^ (2 / 3 : ℝ) = a (gravity .wgs72old) x := rfl
    unfold Deep.a2
    rw [n1, this]
    ring
  have e2r : Deep.e2Raw (gravity .wgs72old) x day 0 = 0.01 := by unfold Deep.e2Raw Deep.e1; rw [hxe]; norm_num
  have e2 : Deep.e2 (gravity .wgs72old) x day 0 = 0.01 := by unfold Deep.e2; rw [e2r]; norm_num
  have i1 : Deep.i1 (gravity .wgs72old) x day 0 = x.i := by unfold Deep.i1; ring
  have ce : |(Deep.together (cs (Deep.sunLongitude day 0)) (cm (Deep.moonLongitude day 0))).e| ≤ 0.005 := by
    refine (abs_add_le _ _).trans ((add_le_add z1.1 z2.1).trans ?_)
    linarith
  have ci : |(Deep.together (cs (Deep.sunLongitude day 0)) (cm (Deep.moonLongitude day 0))).i| ≤ 0.1 := by
    refine (abs_add_le _ _).trans ((add_le_add z1.2 z2.2).trans ?_)
    linarith
  have ce' := abs_le.1 ce
  have ci' := abs_le.1 ci
  have hq : q.a = a (gravity .wgs72old) x ∧ (0.005 ≤ q.e ∧ q.e ≤ 0.015) ∧ 0.4 ≤ q.i ∧ q.i ≤ 1.671 := by
    have p1 : (Deep.mean (gravity .wgs72old) x day 0).a = a (gravity .wgs72old) x := a2
    have p2 : (Deep.mean (gravity .wgs72old) x day 0).e = 0.01 := e2
    have p3 : (Deep.mean (gravity .wgs72old) x day 0).i = x.i := i1
    rcases h4 with ⟨far, qa, qe, qi, -, -, -⟩ | ⟨W, near, -⟩
    · rw [qa, qe, qi, p1, p2, p3]
      refine ⟨rfl, ⟨?_, ?_⟩, ?_, ?_⟩ <;> linarith
    · rw [p3] at near
      linarith
  obtain ⟨qa, ⟨qe0, qe1⟩, qi0, qi1⟩ := hq
  have hpi := Real.pi_gt_d4
  have hcos : -0.5 ≤ Real.cos q.i := by
    have := Real.one_sub_sq_div_two_le_cos (x := q.i)
    nlinarith
  have hpos : Deep.positive q = q := by unfold Deep.positive; rw [if_neg (by linarith)]
  have hl := fun E => last_bound q (by rw [qa]; exact ha') (by linarith) (by linarith) E
  refine ⟨by rw [n1]; exact hn0, by rw [abs_of_pos (by linarith)]; linarith, fun _ => (Real.sin_pos_of_pos_of_lt_pi (by linarith) (by linarith)).ne', by nlinarith, hpos,
    by rw [qa]; linarith [ha'.1], (hl 0).1, fun E => ?_⟩
  have l2 := (hl E).2
  unfold Deep.code
  rw [if_neg (by linarith), if_neg (by push Not; constructor <;> linarith), if_neg]
  rw [e2r, a2]
  push Not
  refine ⟨by norm_num, by norm_num, by linarith [ha'.1]⟩

/-- C180, a whole call: for every epoch and history the first of these sets is read, propagated, and a position is written with the code 0. -/
theorem exDeep_call (epoch : ℝ) (old : Elset) : let x := exDeep 1.4 0.01
    ∃ s out r v, sgp4init 1 .wgs72old epoch x.B x.e x.w x.i x.M x.no x.node old = .ok s ∧ sgp4 1 .wgs72old s 0 = .ok out ∧ out.elset.error = 0 ∧ out.written = some (r, v) := by
  intro x
  have hx : Deep.Regular (gravity .wgs72old) x := exDeep_cases.1.1
  obtain ⟨hn, ha, -⟩ := exDeep_n 1.4 0.01 (by norm_num)
  obtain ⟨s, hs, -⟩ := C180_init 1 .wgs72old epoch x hx old (by norm_num)
  obtain ⟨cs, cm, q, out, h1, h2, h3, h4, h5⟩ := C180_deep 1 1 .wgs72old epoch x hx old s s [] 0 hs rfl (by norm_num)
  obtain ⟨g1, g2, g3, g4, g5, g6, g7, g8⟩ := small_good x hx exDeep_cases.1.2.1 exDeep_cases.1.2.2 (by rw [hn]; norm_num) (by rw [ha]; norm_num) rfl (exDeep_incl _ _) old _ cs cm q h2 h3 h4
  obtain ⟨E, -, h6, -⟩ := h5 g1 g2 g3 g4
  rw [g5] at h6
  obtain ⟨h7, h8⟩ := h6 g6 g7
  exact ⟨s, out, _, _, hs, h1, h7.trans (g8 E), h8⟩

end S2E.Sgp4
