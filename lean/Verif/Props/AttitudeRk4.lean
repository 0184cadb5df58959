import Verif.Model.Attitude
import Verif.Spec.RigidBody
import Verif.Props.Lu
import Verif.Props.Quaternion3
import Verif.Proofs.OdeLoop
/-!
# C110, C111: `AttitudeRk4`
-/
namespace S2E.Att
open S2E.Lu S2E.Integ S2E.TwoBody S2E.Rigid S2E.OrbitProp

/-- The quaternion of the program as four numbers. -/
def comps (q : Quat) : Fin 4 → ℝ := ![q.x, q.y, q.z, q.w]

theorem matVec_mulVec (m : Mat 3 3) (v : Vec 3) : matVec m v = m.mulVec v := by
  funext i; simp [matVec, Matrix.mulVec, dotProduct]

theorem outer_cross (a b : Vec 3) : outerProduct a b = cross a b := by
  apply vec3_ext <;> simp [outerProduct, cross]

/-- **C110** (right-hand side). For a constant invertible inertia tensor the derivative function of the propagator is Euler's equation and the
quaternion kinematics. -/
theorem C110_derivative (I inv : Mat 3 3) (h1 : I * inv = 1) (h2 : inv * I = 1) (torque wheel w : Vec 3) (q : Quat) :
    let d := derivative I inv torque wheel 0 (pack w q)
    I.mulVec (unpackOmega d) = torque - cross w (I.mulVec w + wheel) ∧
    comps (unpackQuat d) = rate w (comps q) := by
  intro d
  constructor
  · have e : unpackOmega d = inv.mulVec (torque - cross w (I.mulVec w + wheel)) := by
      have e0 : unpackOmega (pack w q) = w := by apply vec3_ext <;> rfl
      have e1 : unpackOmega d = matVec inv (vsub (vsub torque (outerProduct w (vadd (matVec I w) wheel))) 0) := by
        simp only [d, derivative, e0]
        apply vec3_ext <;> rfl
      rw [e1, matVec_mulVec, matVec_mulVec, outer_cross]
      congr 1
      funext i
      simp [vsub, vadd]
      rfl
    rw [e, Matrix.mulVec_mulVec, h1, Matrix.one_mulVec]
  · funext i
    fin_cases i <;> simp [d, comps, unpackQuat, derivative, matVec, rate, angularVelocityMatrix, Fin.sum_univ_four, pack, unpackOmega] <;> ring

/-! ## The normalisation in every step can be postponed to the end -/

/-- Multiply the quaternion by `c` and leave the angular velocity. -/
def scaleQ (c : ℝ) (x : Vec 7) : Vec 7 := ![x 0, x 1, x 2, c * x 3, c * x 4, c * x 5, c * x 6]

theorem vec7_ext {x y : Vec 7} (h0 : x 0 = y 0) (h1 : x 1 = y 1) (h2 : x 2 = y 2) (h3 : x 3 = y 3) (h4 : x 4 = y 4) (h5 : x 5 = y 5)
    (h6 : x 6 = y 6) : x = y := by
  funext i
  fin_cases i <;> assumption

theorem scaleQ_linear (c s : ℝ) (x y : Vec 7) : scaleQ c (x + s • y) = scaleQ c x + s • scaleQ c y := by
  apply vec7_ext <;> simp [scaleQ] <;> ring

theorem scaleQ_one (x : Vec 7) : scaleQ 1 x = x := by
  apply vec7_ext <;> simp [scaleQ]

theorem scaleQ_scaleQ (a b : ℝ) (x : Vec 7) : scaleQ a (scaleQ b x) = scaleQ (a * b) x := by
  apply vec7_ext <;> simp [scaleQ] <;> ring

theorem derivative_scaleQ (P inv : Mat 3 3) (torque wheel change : Vec 3) (c : ℝ) (x : Vec 7) :
    derivative P inv torque wheel change (scaleQ c x) = scaleQ c (derivative P inv torque wheel change x) := by
  have e : unpackOmega (scaleQ c x) = unpackOmega x := by apply vec3_ext <;> simp [unpackOmega, scaleQ]
  simp only [derivative, e]
  apply vec7_ext <;> simp [scaleQ, matVec, unpackQuat, Fin.sum_univ_four, angularVelocityMatrix] <;> ring

theorem rungeKutta_scaleQ {f : Vec 7 → Vec 7} (hf : ∀ c x, f (scaleQ c x) = scaleQ c (f x)) (dt c : ℝ) (x : Vec 7) :
    rungeKutta f dt (scaleQ c x) = scaleQ c (rungeKutta f dt x) := by
  have add : ∀ a b : Vec 7, scaleQ c (a + b) = scaleQ c a + scaleQ c b := fun a b => by simpa using scaleQ_linear c 1 a b
  simp only [rungeKutta, hf, ← scaleQ_linear, ← add]

theorem rungeKutta_ode (f : Vec 7 → Vec 7) (dt t : ℝ) (x : Vec 7) : rungeKutta f dt x = (odeUpdate (fun _ => f) dt t x).2 := by
  simp only [rungeKutta, odeUpdate]
  have a1 : ∀ v : Vec 7, (1 / 2 : ℝ) • dt • v = (dt / 2) • v := fun v => by rw [smul_smul]; congr 1; ring
  simp only [a1]
  rw [show ∀ k1 k2 k3 k4 : Vec 7, (1 / 6 : ℝ) • (dt • k1 + (2 : ℝ) • (dt • k2 + dt • k3) + dt • k4) =
    (dt / 6) • (k1 + (2 : ℝ) • k2 + (2 : ℝ) • k3 + k4) from fun k1 k2 k3 k4 => by funext i; simp; ring]

theorem pack_unpack (x : Vec 7) : pack (unpackOmega x) (unpackQuat x) = x := by
  apply vec7_ext <;> rfl

theorem unpackOmega_scaleQ (c : ℝ) (x : Vec 7) : unpackOmega (scaleQ c x) = unpackOmega x := by
  apply vec3_ext <;> simp [unpackOmega, scaleQ]

theorem normSq_nonneg (q : Quat) : 0 ≤ q.normSq := by unfold Quat.normSq; positivity

theorem pack_normalize (x : Vec 7) : ∃ c : ℝ, 0 < c ∧ pack (unpackOmega x) (unpackQuat x).normalize = scaleQ c x ∧
    ((unpackQuat x).normSq ≠ 0 → c = 1 / Real.sqrt (unpackQuat x).normSq) := by
  by_cases h : (unpackQuat x).normSq = 0
  · refine ⟨1, one_pos, ?_, fun h' => absurd h h'⟩
    rw [scaleQ_one, Quat.normalize, if_pos h, pack_unpack]
  · have hp : 0 < (unpackQuat x).normSq := lt_of_le_of_ne (normSq_nonneg _) (Ne.symm h)
    refine ⟨1 / Real.sqrt (unpackQuat x).normSq, by positivity, ?_, fun _ => rfl⟩
    rw [Quat.normalize, if_neg h]
    generalize 1 / Real.sqrt (unpackQuat x).normSq = c
    apply vec7_ext <;> simp [pack, unpackOmega, unpackQuat, scaleQ] <;> ring

/-- One step on a scaled state. -/
theorem oneStep_scaleQ {f : Vec 7 → Vec 7} (hf : ∀ c x, f (scaleQ c x) = scaleQ c (f x)) (dt t c : ℝ) (hc : 0 < c) (z : Vec 3 × Quat) (x : Vec 7)
    (hz : pack z.1 z.2 = scaleQ c x) :
    ∃ c', 0 < c' ∧ pack (oneStep f dt z).1 (oneStep f dt z).2 = scaleQ c' (odeUpdate (fun _ => f) dt t x).2 := by
  obtain ⟨d, hd, e, _⟩ := pack_normalize (rungeKutta f dt (pack z.1 z.2))
  refine ⟨d * c, mul_pos hd hc, ?_⟩
  rw [oneStep]
  simp only
  rw [e, hz, rungeKutta_scaleQ hf, scaleQ_scaleQ, rungeKutta_ode f dt t]

theorem loop_ode {f : Vec 7 → Vec 7} (hf : ∀ c x, f (scaleQ c x) = scaleQ c (f x)) (e step : ℝ) (fuel : ℕ) :
    ∀ (p c : ℝ) (z : Vec 3 × Quat) (y : ℝ × Vec 7), 0 < c → pack z.1 z.2 = scaleQ c y.2 →
      (∀ r, odeLoop (fun _ => f) e step fuel p y = .ok r →
        ∃ z' c', 0 < c' ∧ pack z'.1 z'.2 = scaleQ c' r.2.2 ∧ loop f e step fuel p z = .ok (r.1, z')) := by
  induction fuel with
  | zero => intro p c z y _ _ r h; simp [odeLoop] at h
  | succ k ih =>
    intro p c z y hc hz r h
    rw [odeLoop] at h
    rw [loop]
    split_ifs at h ⊢ with hcond
    · obtain ⟨c', hc', e'⟩ := oneStep_scaleQ hf step y.1 c hc z y.2 hz
      exact ih _ c' _ _ hc' e' r h
    · obtain rfl := Res.ok.inj h
      exact ⟨z, c, hc, hz, rfl⟩

/-- The quaternion after a step is a unit quaternion or zero. -/
theorem oneStep_unit (f : Vec 7 → Vec 7) (dt : ℝ) (z : Vec 3 × Quat) :
    (oneStep f dt z).2.IsUnit ∨ (oneStep f dt z).2 = ⟨0, 0, 0, 0⟩ := by
  simp only [oneStep]
  generalize unpackQuat (rungeKutta f dt (pack z.1 z.2)) = q
  by_cases h : q = ⟨0, 0, 0, 0⟩
  · right; rw [(C69_normalize q).2.1 h, h]
  · left; exact ((C69_normalize q).1 h).1

/-- Whatever the derivative, the loop and the last step give the unnormalised Runge-Kutta solution, with its quaternion scaled to length one. -/
theorem propagate_ode {f : Vec 7 → Vec 7} (hf : ∀ c x, f (scaleQ c x) = scaleQ c (f x)) (e step p : ℝ) (fuel : ℕ) (w : Vec 3) (q : Quat)
    (y : ℝ × Vec 7) (h : odePropagate (fun _ => f) e step fuel p (p, pack w q) = .ok y) :
    ∃ r, loop f e step fuel p (w, q) = .ok r ∧ (oneStep f (e - r.1) r.2).1 = unpackOmega y.2 ∧
      ((unpackQuat y.2).normSq ≠ 0 → (oneStep f (e - r.1) r.2).2 = (unpackQuat y.2).normalize) := by
  rw [odePropagate] at h
  obtain ⟨r, h1, h2⟩ : ∃ r, odeLoop (fun _ => f) e step fuel p (p, pack w q) = .ok r ∧
      odeUpdate (fun _ => f) (e - r.1) r.2.1 r.2.2 = y := by
    rcases h1 : odeLoop (fun _ => f) e step fuel p (p, pack w q) with v | _ | _ | _ <;>
      simp only [h1, Bind.bind, Res.bind, reduceCtorEq, Res.ok.injEq] at h
    exact ⟨v, rfl, h⟩
  obtain ⟨z', c', hc', e1, e2⟩ := loop_ode hf e step fuel p 1 (w, q) (p, pack w q) one_pos (by rw [scaleQ_one]) r h1
  obtain ⟨c2, hc2, e3⟩ := oneStep_scaleQ hf (e - r.1) r.2.1 c' hc' z' r.2.2 e1
  rw [h2] at e3
  refine ⟨(r.1, z'), e2, ?_, fun hne => ?_⟩
  · have := congrArg unpackOmega e3
    rw [unpackOmega_scaleQ] at this
    rw [← this]
    apply vec3_ext <;> rfl
  · set o := oneStep f (e - r.1) z' with ho
    have hq : o.2 = ⟨c2 * y.2 3, c2 * y.2 4, c2 * y.2 5, c2 * y.2 6⟩ := by
      have q3 := congrFun e3 3
      have q4 := congrFun e3 4
      have q5 := congrFun e3 5
      have q6 := congrFun e3 6
      simp only [pack, scaleQ] at q3 q4 q5 q6
      have : o.2 = ⟨o.2.x, o.2.y, o.2.z, o.2.w⟩ := rfl
      rw [this]
      congr
    have hu : o.2.IsUnit := by
      rcases oneStep_unit f (e - r.1) z' with hu | hu
      · exact hu
      · rw [← ho, hq] at hu
        exfalso
        apply hne
        simp only [Quat.mk.injEq, mul_eq_zero, hc2.ne', false_or] at hu
        simp [Quat.normSq, unpackQuat, hu]
    have hn : c2 ^ 2 * (unpackQuat y.2).normSq = 1 := by
      have : o.2.normSq = 1 := hu
      rw [hq] at this
      rw [← this]
      simp only [Quat.normSq, unpackQuat]; ring
    have hc : c2 = 1 / Real.sqrt (unpackQuat y.2).normSq := by
      have hp : 0 < (unpackQuat y.2).normSq := lt_of_le_of_ne (normSq_nonneg _) (Ne.symm hne)
      have hs : 0 < Real.sqrt (unpackQuat y.2).normSq := Real.sqrt_pos.2 hp
      have h3 : (c2 * Real.sqrt (unpackQuat y.2).normSq) ^ 2 = 1 := by rw [mul_pow, Real.sq_sqrt hp.le, hn]
      have h4 : c2 * Real.sqrt (unpackQuat y.2).normSq = 1 := by
        have : 0 < c2 * Real.sqrt (unpackQuat y.2).normSq := mul_pos hc2 hs
        nlinarith
      field_simp
      linarith
    change o.2 = _
    rw [hq, Quat.normalize, if_neg hne, ← hc]
    simp only [unpackQuat, mul_comm c2]

/-! ## Convergence -/

/-- Scaling a nearly exact quaternion to length one at most triples its error. -/
theorem normalize_near (q : Quat) (p : Fin 4 → ℝ) (hp : p 0 ^ 2 + p 1 ^ 2 + p 2 ^ 2 + p 3 ^ 2 = 1) {ε : ℝ} (hε : ε < 1 / 2)
    (h : ∀ i, |comps q i - p i| ≤ ε) : q.normSq ≠ 0 ∧ ∀ i, |comps q.normalize i - p i| ≤ 3 * ε := by
  obtain ⟨a, b, c, d⟩ := q
  have h0 : |a - p 0| ≤ ε := h 0
  have h1 : |b - p 1| ≤ ε := h 1
  have h2 : |c - p 2| ≤ ε := h 2
  have h3 : |d - p 3| ≤ ε := h 3
  have hnn : 0 ≤ (⟨a, b, c, d⟩ : Quat).normSq := normSq_nonneg _
  have hne : ∀ n : ℝ, n = Real.sqrt (⟨a, b, c, d⟩ : Quat).normSq → |n - 1| ≤ 2 * ε := by
    intro n hn
    have hn0 : 0 ≤ n := hn ▸ Real.sqrt_nonneg _
    have hn2 : n ^ 2 = a ^ 2 + b ^ 2 + c ^ 2 + d ^ 2 := by rw [hn, Real.sq_sqrt hnn]; rfl
    have s1 : ∀ x y z u r : ℝ, 0 ≤ r → r ^ 2 = x ^ 2 + y ^ 2 + z ^ 2 + u ^ 2 → |x| + |y| + |z| + |u| ≤ 2 * r := by
      intro x y z u r hr e
      apply le_of_pow_le_pow_left₀ (n := 2) (by norm_num) (by positivity)
      rw [mul_pow, e, ← sq_abs x, ← sq_abs y, ← sq_abs z, ← sq_abs u]
      nlinarith [sq_nonneg (|x| - |y|), sq_nonneg (|x| - |z|), sq_nonneg (|x| - |u|), sq_nonneg (|y| - |z|), sq_nonneg (|y| - |u|),
        sq_nonneg (|z| - |u|)]
    have k1 := s1 a b c d n hn0 hn2
    have k2 := s1 (p 0) (p 1) (p 2) (p 3) 1 zero_le_one (by rw [hp]; norm_num)
    have hε0 : 0 ≤ ε := (abs_nonneg _).trans h0
    have m : ∀ x y : ℝ, |x - y| ≤ ε → |x ^ 2 - y ^ 2| ≤ ε * (|x| + |y|) := by
      intro x y hxy
      rw [show x ^ 2 - y ^ 2 = (x - y) * (x + y) by ring, abs_mul]
      exact mul_le_mul hxy (abs_add_le x y) (abs_nonneg _) hε0
    have e : (n - 1) * (n + 1) = (a ^ 2 - p 0 ^ 2) + (b ^ 2 - p 1 ^ 2) + (c ^ 2 - p 2 ^ 2) + (d ^ 2 - p 3 ^ 2) := by
      rw [show (n - 1) * (n + 1) = n ^ 2 - 1 by ring, hn2, ← hp]; ring
    have t : |n - 1| * (n + 1) ≤ 2 * ε * (n + 1) := by
      rw [← abs_of_pos (show 0 < n + 1 by linarith), ← abs_mul, e, abs_of_pos (show 0 < n + 1 by linarith)]
      have := m a (p 0) h0
      have := m b (p 1) h1
      have := m c (p 2) h2
      have := m d (p 3) h3
      have a1 := abs_add_le ((a ^ 2 - p 0 ^ 2) + (b ^ 2 - p 1 ^ 2) + (c ^ 2 - p 2 ^ 2)) (d ^ 2 - p 3 ^ 2)
      have a2 := abs_add_le ((a ^ 2 - p 0 ^ 2) + (b ^ 2 - p 1 ^ 2)) (c ^ 2 - p 2 ^ 2)
      have a3 := abs_add_le (a ^ 2 - p 0 ^ 2) (b ^ 2 - p 1 ^ 2)
      have : ε * (|a| + |b| + |c| + |d|) ≤ ε * (2 * n) := mul_le_mul_of_nonneg_left k1 hε0
      have : ε * (|p 0| + |p 1| + |p 2| + |p 3|) ≤ ε * (2 * 1) := mul_le_mul_of_nonneg_left k2 hε0
      nlinarith
    exact le_of_mul_le_mul_right t (by linarith)
  have hns : (⟨a, b, c, d⟩ : Quat).normSq ≠ 0 := by
    intro hz
    have := hne 0 (by rw [hz, Real.sqrt_zero])
    norm_num at this
    linarith
  refine ⟨hns, ?_⟩
  have hnpos : 0 < Real.sqrt (⟨a, b, c, d⟩ : Quat).normSq := Real.sqrt_pos.2 (lt_of_le_of_ne hnn (Ne.symm hns))
  have hn1 := hne _ rfl
  have hn2 : Real.sqrt (⟨a, b, c, d⟩ : Quat).normSq ^ 2 = a ^ 2 + b ^ 2 + c ^ 2 + d ^ 2 := by rw [Real.sq_sqrt hnn]; rfl
  rw [Quat.normalize, if_neg hns]
  simp only
  set n := Real.sqrt (⟨a, b, c, d⟩ : Quat).normSq
  have key : ∀ x y : ℝ, |x - y| ≤ ε → x ^ 2 ≤ n ^ 2 → |x * (1 / n) - y| ≤ 3 * ε := by
    intro x y hxy hx
    have hxn : |x| ≤ n := abs_le_of_sq_le_sq hx hnpos.le
    have e : x * (1 / n) - y = (x - y) + x / n * (1 - n) := by field_simp; ring
    have hq : |x / n| ≤ 1 := by rw [abs_div, abs_of_pos hnpos]; exact (div_le_one hnpos).2 hxn
    have hm : |x / n * (1 - n)| ≤ 2 * ε := by
      rw [abs_mul, abs_sub_comm (1 : ℝ) n]
      calc |x / n| * |n - 1| ≤ 1 * |n - 1| := mul_le_mul_of_nonneg_right hq (abs_nonneg _)
        _ ≤ 2 * ε := by linarith
    rw [e]
    have := abs_add_le (x - y) (x / n * (1 - n))
    linarith
  intro i
  fin_cases i
  · exact key a (p 0) h0 (by rw [hn2]; nlinarith [sq_nonneg b, sq_nonneg c, sq_nonneg d])
  · exact key b (p 1) h1 (by rw [hn2]; nlinarith [sq_nonneg a, sq_nonneg c, sq_nonneg d])
  · exact key c (p 2) h2 (by rw [hn2]; nlinarith [sq_nonneg a, sq_nonneg b, sq_nonneg d])
  · exact key d (p 3) h3 (by rw [hn2]; nlinarith [sq_nonneg a, sq_nonneg b, sq_nonneg c])

theorem smooth_derivative (P inv : Mat 3 3) (torque wheel change : Vec 3) (z : ℝ × Vec 7) :
    ContDiffAt ℝ 5 (fun z : ℝ × Vec 7 => derivative P inv torque wheel change z.2) z := by
  have hc : ∀ i : Fin 7, ContDiff ℝ 5 (fun z : ℝ × Vec 7 => z.2 i) := fun i => by fun_prop
  apply ContDiff.contDiffAt
  rw [contDiff_pi]
  intro i
  fin_cases i <;>
    simp [derivative, matVec, vsub, vadd, outerProduct, unpackOmega, unpackQuat, angularVelocityMatrix, Fin.sum_univ_three, Fin.sum_univ_four] <;>
    fun_prop

/-- The exact motion as a curve in the seven-dimensional state space. -/
def curve (w : ℝ → Fin 3 → ℝ) (q : ℝ → Fin 4 → ℝ) (t : ℝ) : Vec 7 := ![w t 0, w t 1, w t 2, q t 0, q t 1, q t 2, q t 3]

theorem curve_solution {I inv : Mat 3 3} (h1 : I * inv = 1) (h2 : inv * I = 1) {τ h : Fin 3 → ℝ} {lo hi : ℝ} {w : ℝ → Fin 3 → ℝ}
    {q : ℝ → Fin 4 → ℝ} (hM : SpinOn I τ h lo hi w q) (t : ℝ) (hlo : lo < t) (hhi : t < hi) :
    HasDerivAt (curve w q) (derivative I inv τ h 0 (curve w q t)) t := by
  obtain ⟨a, ha, hI⟩ := hM.dynamics t hlo hhi
  obtain ⟨e1, e2⟩ := C110_derivative I inv h1 h2 τ h (w t) ⟨q t 0, q t 1, q t 2, q t 3⟩
  have ep : pack (w t) ⟨q t 0, q t 1, q t 2, q t 3⟩ = curve w q t := by apply vec7_ext <;> rfl
  rw [ep] at e1 e2
  have ec : comps ⟨q t 0, q t 1, q t 2, q t 3⟩ = q t := by funext i; fin_cases i <;> rfl
  rw [ec] at e2
  have ea : unpackOmega (derivative I inv τ h 0 (curve w q t)) = a := by
    rw [← hI] at e1
    have := congrArg inv.mulVec e1
    rwa [Matrix.mulVec_mulVec, Matrix.mulVec_mulVec, h2, Matrix.one_mulVec, Matrix.one_mulVec] at this
  have hk := hM.kinematics t hlo hhi
  rw [← e2] at hk
  rw [← ea] at ha
  have hw := hasDerivAt_pi.1 ha
  have hq := hasDerivAt_pi.1 hk
  rw [hasDerivAt_pi]
  intro i
  fin_cases i
  · exact hw 0
  · exact hw 1
  · exact hw 2
  · exact hq 0
  · exact hq 1
  · exact hq 2
  · exact hq 3

theorem curve_dist (w : Vec 3) (q : Quat) (W : ℝ → Fin 3 → ℝ) (Q : ℝ → Fin 4 → ℝ) (t : ℝ) {ε : ℝ} (hε : 0 ≤ ε) :
    ‖pack w q - curve W Q t‖ ≤ ε ↔ (∀ i, |w i - W t i| ≤ ε) ∧ ∀ i, |comps q i - Q t i| ≤ ε := by
  rw [pi_norm_le_iff_of_nonneg hε]
  constructor
  · intro h
    constructor
    · intro i; fin_cases i
      · exact h 0
      · exact h 1
      · exact h 2
    · intro i; fin_cases i
      · exact h 3
      · exact h 4
      · exact h 5
      · exact h 6
  · rintro ⟨h1, h2⟩ i
    fin_cases i
    · exact h1 0
    · exact h1 1
    · exact h1 2
    · exact h2 0
    · exact h2 1
    · exact h2 2
    · exact h2 3

/-- Distance between a state of the program and an exact angular velocity and attitude (largest component). -/
noncomputable def away (s : Attitude) (w : Fin 3 → ℝ) (q : Fin 4 → ℝ) : ℝ := ‖pack s.omega s.quat - curve (fun _ => w) (fun _ => q) 0‖

theorem change_zero (I : Mat 3 3) (c : ℝ) (w : Vec 3) : matVec (Matrix.of fun i j => c * (I i j - I i j)) w = 0 := by
  funext i; simp [matVec]

theorem spin_converges {I : Mat 3 3} (hI : I.det ≠ 0) {t t' : ℝ} {w w' : Fin 3 → ℝ} {q q' : Fin 4 → ℝ} {l : List (ℝ × (Fin 3 → ℝ) × (Fin 3 → ℝ))}
    (hsp : Spin I t w q l t' w' q') :
    ∃ C h0, 0 ≤ C ∧ 0 < h0 ∧ ∀ s : Attitude, s.inertia = I → s.prevInertia = I → s.enabled = true → s.time = t → s.quat.IsUnit →
      0 < s.step → s.step + 1e-6 ≤ h0 → away s w q ≤ h0 →
      ∃ (N : ℕ) (s' : Attitude), (∀ fuel, N ≤ fuel → runSpin fuel l s = .ok (some s')) ∧ s'.time = t' ∧ s'.quat.IsUnit ∧
        away s' w' q' ≤ C * (away s w q + (s.step + 1e-6) ^ 4) := by
  obtain ⟨inv, hinv, hl, hr⟩ := (C73_inverse I).2 hI
  induction hsp with
  | done t w q =>
    refine ⟨1, 1, zero_le_one, one_pos, fun s _ _ _ h4 h5 h6 _ _ => ⟨0, s, fun fuel _ => rfl, h4, h5, ?_⟩⟩
    have : (0 : ℝ) ≤ (s.step + 1e-6) ^ 4 := by positivity
    linarith
  | @arc t e lo hi t' τ h W Q rest w' q' hte hlo hhi hM _ ih =>
    obtain ⟨C2, h2, hC2, hh2, H2⟩ := ih
    obtain ⟨C1, h1, hC1, hh1, H1⟩ := odePropagate_converges (fun _ => derivative I inv τ h 0) (fun _ _ _ => rfl) (curve W Q) hte.le
      (fun s hs => smooth_derivative I inv τ h 0 (s, curve W Q s))
      (fun s hs => by
        have : ∀ᶠ u in nhds s, u ∈ Set.Ioo lo hi := Ioo_mem_nhds (by linarith [hs.1]) (by linarith [hs.2])
        exact this.mono fun u hu => curve_solution hl hr hM u hu.1 hu.2)
    have hpos : 0 < min h2 (1 : ℝ) := by positivity
    refine ⟨C2 * (3 * C1 + 1), min (min h1 h2) (min 1 (min h2 1 / (8 * C1 + 1))), by positivity, by positivity, ?_⟩
    intro s e1 e2 e3 e4 e5 e6 e7 e8
    have k1 := e7.trans ((min_le_left _ _).trans (min_le_left _ _))
    have k2 := e7.trans ((min_le_left _ _).trans (min_le_right _ _))
    have k3 := e7.trans ((min_le_right _ _).trans (min_le_left _ _))
    have k4 := e7.trans ((min_le_right _ _).trans (min_le_right _ _))
    have n1 := e8.trans ((min_le_left _ _).trans (min_le_left _ _))
    have n4 := e8.trans ((min_le_right _ _).trans (min_le_right _ _))
    obtain ⟨N1, z, hz1, hz2⟩ := H1 s.step e6 k1 (s.time, pack s.omega s.quat) n1
    change ‖z.2 - curve W Q e‖ ≤ C1 * (away s (W t) (Q t) + (s.step + 1e-6) ^ 4) at hz2
    have hε : (0 : ℝ) < 1e-6 := by norm_num
    have hHpos : 0 < s.step + 1e-6 := by linarith
    have hH4 : (s.step + 1e-6) ^ 4 ≤ s.step + 1e-6 := by
      calc (s.step + 1e-6) ^ 4 ≤ (s.step + 1e-6) ^ 1 := pow_le_pow_of_le_one hHpos.le k3 (by omega)
        _ = _ := pow_one _
    set δ := C1 * (away s (W t) (Q t) + (s.step + 1e-6) ^ 4) with hδ
    have hA0 : 0 ≤ away s (W t) (Q t) := norm_nonneg _
    have hδ0 : 0 ≤ δ := by positivity
    have hsmall : 4 * δ ≤ min h2 1 := by
      have hq : min h2 1 / (8 * C1 + 1) * (8 * C1 + 1) = min h2 1 := by field_simp
      have hq0 : 0 ≤ min h2 1 / (8 * C1 + 1) := by positivity
      have : δ ≤ C1 * (2 * (min h2 1 / (8 * C1 + 1))) := by rw [hδ]; gcongr; linarith
      nlinarith
    have hd1 : δ < 1 / 2 := by linarith [min_le_right h2 (1 : ℝ)]
    rw [show curve W Q e = curve (fun _ => W e) (fun _ => Q e) 0 from rfl, ← pack_unpack z.2, curve_dist _ _ _ _ _ hδ0] at hz2
    obtain ⟨hzw, hzq⟩ := hz2
    obtain ⟨hns, hnq⟩ := normalize_near (unpackQuat z.2) (Q e) (hM.unit e (by linarith) hhi) hd1 hzq
    have hne : (unpackQuat z.2) ≠ ⟨0, 0, 0, 0⟩ := by
      intro h0; apply hns; rw [h0]; simp [Quat.normSq]
    set s1 : Attitude := Attitude.calcAngularMomentum
      { s with enabled := true, torque := τ, wheel := h, omega := unpackOmega z.2, quat := (unpackQuat z.2).normalize, torqueChange := 0, inverse := inv,
               time := e, prevInertia := s.inertia } with hs1
    have haway : away s1 (W e) (Q e) ≤ 3 * δ := by
      refine (curve_dist (unpackOmega z.2) (unpackQuat z.2).normalize (fun _ => W e) (fun _ => Q e) 0 (by positivity)).2 ⟨fun i => ?_, hnq⟩
      exact (hzw i).trans (by linarith)
    obtain ⟨N2, s', g1, g2, g3, g4⟩ := H2 s1 e1 e1 rfl rfl ((C69_normalize _).1 hne).1 e6 k2
      (haway.trans (by linarith [min_le_left h2 (1 : ℝ)]))
    refine ⟨max N1 N2, s', fun fuel hf => ?_, g2, g3, g4.trans ?_⟩
    · have hp : ((s.setTorque τ).setWheel h).propagate fuel e = .ok (some s1) := by
        have en : ((s.setTorque τ).setWheel h).enabled = true := e3
        rw [Attitude.propagate, en, if_neg (by simp)]
        change Res.bind (calcInverseMatrix s.inertia) _ = _
        rw [e1, hinv]
        simp only [Res.bind]
        rw [if_neg (by change e - s.time ≠ 0; rw [e4]; linarith)]
        have hch : matVec (Matrix.of fun i j => 1 / (e - ((s.setTorque τ).setWheel h).time) *
            (((s.setTorque τ).setWheel h).inertia i j - ((s.setTorque τ).setWheel h).prevInertia i j)) ((s.setTorque τ).setWheel h).omega = 0 := by
          change matVec (Matrix.of fun i j => 1 / (e - s.time) * (s.inertia i j - s.prevInertia i j)) s.omega = 0
          rw [e1, e2, change_zero]
        rw [hch]
        have hz := hz1 fuel (le_trans (le_max_left _ _) hf)
        rw [← e4] at hz
        obtain ⟨r, r1, r2, r3⟩ := propagate_ode (fun c x => derivative_scaleQ I inv τ h 0 c x) e s.step s.time fuel s.omega s.quat z hz
        change Res.bind (loop (derivative s.prevInertia inv τ h 0) e s.step fuel s.time (s.omega, s.quat)) _ = _
        rw [e2, r1]
        have q2 : (oneStep (derivative ((s.setTorque τ).setWheel h).prevInertia inv ((s.setTorque τ).setWheel h).torque
            ((s.setTorque τ).setWheel h).wheel 0) (e - r.1) r.2).1 = unpackOmega z.2 := by
          change (oneStep (derivative s.prevInertia inv τ h 0) (e - r.1) r.2).1 = _
          rw [e2]; exact r2
        have q3 : (oneStep (derivative ((s.setTorque τ).setWheel h).prevInertia inv ((s.setTorque τ).setWheel h).torque
            ((s.setTorque τ).setWheel h).wheel 0) (e - r.1) r.2).2 = (unpackQuat z.2).normalize := by
          change (oneStep (derivative s.prevInertia inv τ h 0) (e - r.1) r.2).2 = _
          rw [e2]; exact r3 hns
        rw [hs1, ← q2, ← q3]
        rfl
      change Res.bind (((s.setTorque τ).setWheel h).propagate fuel e) _ = _
      rw [hp]
      exact g1 fuel (le_trans (le_max_right _ _) hf)
    · have hst : s1.step = s.step := rfl
      rw [hst, mul_assoc]
      gcongr
      have hA : 0 ≤ (s.step + 1e-6) ^ 4 := by positivity
      rw [hδ] at haway
      nlinarith

/-- **C110** (convergence). Let a rotation of a rigid body with a constant invertible inertia tensor be given: any number of consecutive arcs,
each with a constant body torque and wheel momentum. There are `C` and `h0` such that, for every step width with `step + 1e-6 ≤ h0`, an
`AttitudeRk4` started with the initial angular velocity and attitude and taken through the same schedule terminates at the final time with a
unit quaternion, and every component of angular velocity and quaternion is within `C (step + 1e-6)^4` of the exact one. -/
theorem C110_converges {I : Matrix (Fin 3) (Fin 3) ℝ} (hI : I.det ≠ 0) {t' : ℝ} {w w' : Fin 3 → ℝ} {q : Quat} {q' : Fin 4 → ℝ} (hq : q.IsUnit)
    {l : List (ℝ × (Fin 3 → ℝ) × (Fin 3 → ℝ))} (hsp : Spin I 0 w (comps q) l t' w' q') (τ0 : Vec 3) :
    ∃ C h0, 0 < h0 ∧ ∀ step, 0 < step → step + 1e-6 ≤ h0 → ∃ s0, Attitude.new w q I τ0 step = .ok s0 ∧ ∃ (N : ℕ) (s' : Attitude),
      (∀ fuel, N ≤ fuel → runSpin fuel l s0 = .ok (some s')) ∧ s'.time = t' ∧ s'.quat.IsUnit ∧
      (∀ i, |s'.omega i - w' i| ≤ C * (step + 1e-6) ^ 4) ∧ ∀ i, |comps s'.quat i - q' i| ≤ C * (step + 1e-6) ^ 4 := by
  obtain ⟨C, h0, hC, hpos, H⟩ := spin_converges hI hsp
  obtain ⟨inv, hinv, -, -⟩ := (C73_inverse I).2 hI
  refine ⟨C, h0, hpos, fun step hs hle => ?_⟩
  refine ⟨_, by rw [Attitude.new, hinv]; rfl, ?_⟩
  set s0 := Attitude.calcAngularMomentum
      { enabled := true, step := step, omega := w, quat := q, torque := τ0, inertia := I, wheel := fun _ => 0,
        totalMomentumI := fun _ => 0, totalMomentum := 0, kineticEnergy := 0, time := 0, prevInertia := I, inverse := inv,
        torqueChange := fun _ => 0 }
  have h00 : away s0 w (comps q) = 0 := by
    have : pack s0.omega s0.quat = curve (fun _ => w) (fun _ => comps q) 0 := by apply vec7_ext <;> rfl
    rw [away, this, sub_self, norm_zero]
  obtain ⟨N, s', g1, g2, g3, g4⟩ := H s0 rfl rfl rfl rfl hq hs hle (by rw [h00]; exact hpos.le)
  refine ⟨N, s', g1, g2, g3, ?_⟩
  rw [h00, zero_add] at g4
  exact (curve_dist _ _ (fun _ => w') (fun _ => q') 0 (by positivity)).1 g4

end S2E.Att
