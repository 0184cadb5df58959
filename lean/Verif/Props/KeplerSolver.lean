import Verif.Model.Kepler
import Mathlib.Analysis.SpecialFunctions.Trigonometric.Deriv
import Mathlib.Analysis.SpecialFunctions.Trigonometric.Bounds
import Mathlib.Analysis.Calculus.Deriv.MeanValue
import Mathlib.Topology.Order.IntermediateValue
import Mathlib.Analysis.Real.Pi.Bounds
import Mathlib.Tactic.Linarith
import Mathlib.Tactic.NormNum
import Mathlib.Tactic.FieldSimp
/-!
# Angle wrapping and Kepler's equation (C90)
-/
namespace S2E.Kepler

/-! ## `WrapTo2Pi` -/

theorem wrapUp_spec (n : ℕ) : ∀ x : ℝ, ⌈-x / tau⌉₊ ≤ n → x < tau → 0 ≤ wrapUp x ∧ wrapUp x < tau ∧ ∃ k : ℕ, wrapUp x = x + k * tau := by
  induction n with
  | zero =>
    intro x hx hxt
    have h : 0 ≤ x := by
      have := Nat.ceil_eq_zero.mp (Nat.le_zero.mp hx)
      by_contra hneg
      have := div_pos (neg_pos.mpr (not_le.mp hneg)) tau_pos
      linarith
    rw [wrapUp, if_neg (not_lt.mpr h)]
    exact ⟨h, hxt, 0, by simp⟩
  | succ n ih =>
    intro x hx hxt
    by_cases h : x < 0
    · rw [wrapUp, if_pos h]
      have h2 : -(x + tau) / tau = -x / tau - 1 := by field_simp [tau_pos.ne']; ring
      have h3 : ⌈-(x + tau) / tau⌉₊ ≤ n := by
        rw [h2, Nat.ceil_le]
        have := Nat.ceil_le.mp hx
        push_cast at this
        linarith
      obtain ⟨a, b, k, hk⟩ := ih (x + tau) h3 (by linarith)
      exact ⟨a, b, k + 1, by rw [hk]; push_cast; ring⟩
    · rw [wrapUp, if_neg h]
      exact ⟨not_lt.mp h, hxt, 0, by simp⟩

theorem wrapDown_spec (n : ℕ) : ∀ x : ℝ, ⌈x / tau⌉₊ ≤ n → 0 ≤ x → 0 ≤ wrapDown x ∧ wrapDown x ≤ tau ∧ ∃ k : ℕ, wrapDown x = x - k * tau := by
  induction n with
  | zero =>
    intro x hx h0
    have h : x ≤ tau := by
      have := Nat.ceil_eq_zero.mp (Nat.le_zero.mp hx)
      rw [div_le_iff₀ tau_pos] at this
      have := tau_pos
      linarith
    rw [wrapDown, if_neg (not_lt.mpr h)]
    exact ⟨h0, h, 0, by simp⟩
  | succ n ih =>
    intro x hx h0
    by_cases h : x > tau
    · rw [wrapDown, if_pos h]
      have h2 : (x - tau) / tau = x / tau - 1 := by field_simp [tau_pos.ne']
      have h3 : ⌈(x - tau) / tau⌉₊ ≤ n := by
        rw [h2, Nat.ceil_le]
        have := Nat.ceil_le.mp hx
        push_cast at this
        linarith
      obtain ⟨a, b, k, hk⟩ := ih (x - tau) h3 (by linarith)
      exact ⟨a, b, k + 1, by rw [hk]; push_cast; ring⟩
    · rw [wrapDown, if_neg h]
      exact ⟨h0, not_lt.mp h, 0, by simp⟩

/-- `WrapTo2Pi` returns an angle in `[0, 2π]` differing from its argument by a whole number of turns, and leaves angles already there
unchanged. -/
theorem C90_wrap (x : ℝ) :
    0 ≤ wrapTo2Pi x ∧ wrapTo2Pi x ≤ 2 * Real.pi ∧ (∃ k : ℤ, wrapTo2Pi x = x + k * (2 * Real.pi)) ∧
      (0 ≤ x → x ≤ 2 * Real.pi → wrapTo2Pi x = x) := by
  have hp := tau_pos
  have ht : tau = 2 * Real.pi := rfl
  unfold wrapTo2Pi
  by_cases h : x < 0
  · rw [if_pos h]
    obtain ⟨a, b, k, hk⟩ := wrapUp_spec _ x le_rfl (by linarith)
    exact ⟨a, by linarith, ⟨k, by rw [hk, ht]; push_cast; ring⟩, fun h0 => by linarith⟩
  · rw [if_neg h]
    by_cases h' : x > tau
    · rw [if_pos h']
      obtain ⟨a, b, k, hk⟩ := wrapDown_spec _ x le_rfl (by linarith)
      exact ⟨a, by linarith, ⟨-k, by rw [hk, ht]; push_cast; ring⟩, fun _ h2 => by linarith⟩
    · rw [if_neg h']
      exact ⟨by linarith, by linarith, ⟨0, by simp⟩, fun _ _ => rfl⟩

theorem cos_wrap (x : ℝ) : Real.cos (wrapTo2Pi x) = Real.cos x := by
  obtain ⟨_, _, ⟨k, hk⟩, _⟩ := C90_wrap x
  rw [hk, Real.cos_add_int_mul_two_pi]

theorem sin_wrap (x : ℝ) : Real.sin (wrapTo2Pi x) = Real.sin x := by
  obtain ⟨_, _, ⟨k, hk⟩, _⟩ := C90_wrap x
  rw [hk, Real.sin_add_int_mul_two_pi]

/-- The end point is not unique: a full turn is kept, a negative full turn becomes zero. -/
theorem C90_wrap_ends : wrapTo2Pi (2 * Real.pi) = 2 * Real.pi ∧ wrapTo2Pi (-(2 * Real.pi)) = 0 := by
  have hp := Real.pi_pos
  refine ⟨(C90_wrap _).2.2.2 (by positivity) le_rfl, ?_⟩
  unfold wrapTo2Pi
  have h1 : -(2 * Real.pi) < 0 := by linarith
  rw [if_pos h1, wrapUp, if_pos h1, wrapUp, show -(2 * Real.pi) + tau = 0 by unfold tau; ring, if_neg (lt_irrefl _)]

/-! ## Kepler's equation -/

theorem abs_sin_sub_le (x y : ℝ) : |Real.sin x - Real.sin y| ≤ |x - y| := by
  rw [Real.sin_sub_sin, abs_mul, abs_mul]
  have h1 := Real.abs_cos_le_one ((x + y) / 2)
  have h2 := Real.abs_sin_le_abs (x := (x - y) / 2)
  rw [abs_div, abs_of_pos (by norm_num : (0 : ℝ) < 2)] at h2
  rw [abs_of_pos (by norm_num : (0 : ℝ) < 2)]
  have h3 := abs_nonneg (Real.sin ((x - y) / 2))
  have h4 := abs_nonneg (Real.cos ((x + y) / 2))
  nlinarith

theorem abs_cos_sub_le (x y : ℝ) : |Real.cos x - Real.cos y| ≤ |x - y| := by
  have := abs_sin_sub_le (x + Real.pi / 2) (y + Real.pi / 2)
  rw [Real.sin_add_pi_div_two, Real.sin_add_pi_div_two] at this
  convert this using 2
  ring

/-- `κ(E) = E - e sin E` grows at least like `(1 - e) E`. -/
theorem kappa_expand {e : ℝ} (he : 0 ≤ e) (x y : ℝ) :
    (1 - e) * |x - y| ≤ |(x - e * Real.sin x) - (y - e * Real.sin y)| := by
  have h := abs_sin_sub_le x y
  have h1 : |x - y| - |e * (Real.sin x - Real.sin y)| ≤ |(x - y) - e * (Real.sin x - Real.sin y)| := abs_sub_abs_le_abs_sub _ _
  rw [abs_mul, abs_of_nonneg he] at h1
  have h2 : (x - e * Real.sin x) - (y - e * Real.sin y) = (x - y) - e * (Real.sin x - Real.sin y) := by ring
  rw [h2]
  nlinarith

/-- Kepler's equation has exactly one solution for every mean anomaly, within `e` of the mean anomaly. -/
theorem C90_kepler_unique (e m : ℝ) (he : 0 ≤ e) (he1 : e < 1) :
    ∃ E, (E - e * Real.sin E = m ∧ |E - m| ≤ e) ∧ ∀ E', E' - e * Real.sin E' = m → E' = E := by
  have hc : ContinuousOn (fun x => x - e * Real.sin x) (Set.Icc (m - e) (m + e)) := by fun_prop
  have h := intermediate_value_Icc (by linarith : m - e ≤ m + e) hc
  have hm : m ∈ Set.Icc ((m - e) - e * Real.sin (m - e)) ((m + e) - e * Real.sin (m + e)) := by
    constructor
    · nlinarith [Real.neg_one_le_sin (m - e)]
    · nlinarith [Real.sin_le_one (m + e)]
  obtain ⟨E, hE, h2⟩ := h hm
  refine ⟨E, ⟨h2, abs_le.mpr ⟨by linarith [hE.1], by linarith [hE.2]⟩⟩, fun E' h' => ?_⟩
  have h3 := kappa_expand he E' E
  have h4 : E' - e * Real.sin E' - (E - e * Real.sin E) = 0 := by simp only at h2; rw [h', h2, sub_self]
  rw [h4, abs_zero] at h3
  have h5 : |E' - E| ≤ 0 := by
    by_contra hh
    have : 0 < (1 - e) * |E' - E| := mul_pos (by linarith) (not_le.mp hh)
    linarith
  linarith [abs_le.mp h5 |>.1, abs_le.mp h5 |>.2]

/-! ## Newton's iteration -/

theorem sin_taylor_nonneg (u d : ℝ) (hd : 0 ≤ d) : |Real.sin (u + d) - Real.sin u - d * Real.cos u| ≤ d ^ 2 / 2 := by
  have key : ∀ s : ℝ, |s| ≤ 1 → 0 ≤ d ^ 2 / 2 + s * (Real.sin (u + d) - Real.sin u - d * Real.cos u) := by
    intro s hs
    have hD : ∀ x : ℝ, HasDerivAt (fun x => x ^ 2 / 2 + s * (Real.sin (u + x) - Real.sin u - x * Real.cos u))
        (x + s * (Real.cos (u + x) - Real.cos u)) x := by
      intro x
      have h1 : HasDerivAt (fun x : ℝ => x ^ 2 / 2) x x := by
        have := (hasDerivAt_pow 2 x).div_const 2
        simpa using this
      have h2 : HasDerivAt (fun x : ℝ => Real.sin (u + x)) (Real.cos (u + x)) x := by
        have := ((hasDerivAt_id x).const_add u).sin
        simpa using this
      have h3 : HasDerivAt (fun x : ℝ => x * Real.cos u) (Real.cos u) x := by
        simpa using (hasDerivAt_id x).mul_const (Real.cos u)
      exact h1.add (((h2.sub_const _).sub h3).const_mul s)
    have hmono : MonotoneOn (fun x => x ^ 2 / 2 + s * (Real.sin (u + x) - Real.sin u - x * Real.cos u)) (Set.Ici 0) := by
      refine monotoneOn_of_deriv_nonneg (convex_Ici 0) (fun x _ => (hD x).continuousAt.continuousWithinAt)
        (fun x _ => (hD x).differentiableAt.differentiableWithinAt) fun x hx => ?_
      rw [(hD x).deriv]
      rw [interior_Ici] at hx
      have h4 := abs_cos_sub_le (u + x) u
      have h5 : |s * (Real.cos (u + x) - Real.cos u)| ≤ x := by
        rw [abs_mul]
        have : |u + x - u| = x := by rw [add_sub_cancel_left, abs_of_pos hx]
        rw [this] at h4
        calc |s| * |Real.cos (u + x) - Real.cos u| ≤ 1 * x := mul_le_mul hs h4 (abs_nonneg _) zero_le_one
          _ = x := one_mul x
      linarith [(abs_le.mp h5).1]
    have := hmono (Set.mem_Ici.mpr le_rfl) (Set.mem_Ici.mpr hd) hd
    simpa using this
  have k1 := key 1 (by simp)
  have k2 := key (-1) (by simp)
  rw [abs_le]
  constructor <;> linarith

theorem sin_taylor (u d : ℝ) : |Real.sin (u + d) - Real.sin u - d * Real.cos u| ≤ d ^ 2 / 2 := by
  rcases le_total 0 d with h | h
  · exact sin_taylor_nonneg u d h
  · have := sin_taylor_nonneg (-u) (-d) (by linarith)
    rw [← neg_add, Real.sin_neg, Real.sin_neg, Real.cos_neg] at this
    rw [abs_sub_comm] at this
    rw [neg_sq] at this
    calc |Real.sin (u + d) - Real.sin u - d * Real.cos u| = |-d * Real.cos u - (-Real.sin (u + d) - -Real.sin u)| := by
          congr 1; ring
      _ ≤ _ := this

/-- One Newton step: the error is at most `e/(2(1-e))` times its square and at most `2e/(1-e)` times itself. -/
theorem newton_step {e m E : ℝ} (he : 0 ≤ e) (he1 : e < 1) (hE : E - e * Real.sin E = m) (u : ℝ) :
    |u - (u - e * Real.sin u - m) / (1 - e * Real.cos u) - E| ≤ e / (2 * (1 - e)) * |u - E| ^ 2 ∧
      |u - (u - e * Real.sin u - m) / (1 - e * Real.cos u) - E| ≤ 2 * e / (1 - e) * |u - E| := by
  have hden : 1 - e ≤ 1 - e * Real.cos u := by nlinarith [Real.cos_le_one u]
  have hpos : 0 < 1 - e := by linarith
  have hpos' : 0 < 1 - e * Real.cos u := by linarith
  have hid : u - (u - e * Real.sin u - m) / (1 - e * Real.cos u) - E =
      -(e * (Real.sin (u + (E - u)) - Real.sin u - (E - u) * Real.cos u)) / (1 - e * Real.cos u) := by
    rw [← hE]
    field_simp
    rw [add_sub_cancel]
    ring
  have hT := sin_taylor u (E - u)
  have hL : |Real.sin (u + (E - u)) - Real.sin u - (E - u) * Real.cos u| ≤ 2 * |u - E| := by
    have h1 := abs_sin_sub_le (u + (E - u)) u
    have h2 : |(E - u) * Real.cos u| ≤ |u - E| := by
      rw [abs_mul, abs_sub_comm E u]
      exact mul_le_of_le_one_right (abs_nonneg _) (Real.abs_cos_le_one u)
    have h3 := abs_sub (Real.sin (u + (E - u)) - Real.sin u) ((E - u) * Real.cos u)
    rw [show u + (E - u) - u = -(u - E) by ring, abs_neg] at h1
    linarith
  rw [hid, abs_div, abs_neg, abs_mul, abs_of_nonneg he, abs_of_pos hpos']
  have hsq : (E - u) ^ 2 = |u - E| ^ 2 := by rw [sq_abs]; ring
  rw [hsq] at hT
  generalize |Real.sin (u + (E - u)) - Real.sin u - (E - u) * Real.cos u| = T at hT hL
  have hn := abs_nonneg (u - E)
  generalize |u - E| = d at hT hL hn
  have main : ∀ B, T ≤ B → 0 ≤ B → e * T / (1 - e * Real.cos u) ≤ e * B / (1 - e) := by
    intro B h1 h0
    exact div_le_div₀ (mul_nonneg he h0) (mul_le_mul_of_nonneg_left h1 he) hpos hden
  constructor
  · refine (main _ hT (by positivity)).trans (le_of_eq ?_)
    field_simp
  · refine (main _ hL (by positivity)).trans (le_of_eq ?_)
    field_simp

/-- Quarter eccentricity: the two rates are at most `1/6` (quadratic) and `2/3` (linear). -/
theorem newton_step_quarter {e m E : ℝ} (he : 0 ≤ e) (he1 : e ≤ 1 / 4) (hE : E - e * Real.sin E = m) (u : ℝ) :
    |u - (u - e * Real.sin u - m) / (1 - e * Real.cos u) - E| ≤ 1 / 6 * |u - E| ^ 2 ∧
      |u - (u - e * Real.sin u - m) / (1 - e * Real.cos u) - E| ≤ 2 / 3 * |u - E| := by
  obtain ⟨h1, h2⟩ := newton_step he (by linarith) hE u
  constructor
  · refine h1.trans (mul_le_mul_of_nonneg_right ?_ (sq_nonneg _))
    rw [div_le_div_iff₀ (by linarith) (by norm_num)]; linarith
  · refine h2.trans (mul_le_mul_of_nonneg_right ?_ (abs_nonneg _))
    rw [div_le_div_iff₀ (by linarith) (by norm_num)]; linarith

theorem newtonLoop_succ (e m l : ℝ) (k : ℕ) (u : ℝ) :
    newtonLoop e m l (k + 1) u u =
      if |u - (u - e * Real.sin u - m) / (1 - e * Real.cos u) - u| < l then u - (u - e * Real.sin u - m) / (1 - e * Real.cos u)
      else newtonLoop e m l k (u - (u - e * Real.sin u - m) / (1 - e * Real.cos u)) (u - (u - e * Real.sin u - m) / (1 - e * Real.cos u)) :=
  rfl

/-- One iteration of the loop: leaving early gives an error below `2e-10`. -/
theorem loop_step {e m E : ℝ} (he : 0 ≤ e) (he1 : e ≤ 1 / 4) (hE : E - e * Real.sin E = m) (k : ℕ) (b b' : ℝ)
    (hb : min (1 / 6 * b ^ 2) (2 / 3 * b) ≤ b')
    (ih : ∀ u, |u - E| ≤ b' → |newtonLoop e m (1 / 100000) k u u - E| ≤ 2 / 10 ^ 10) (u : ℝ) (hu : |u - E| ≤ b) :
    |newtonLoop e m (1 / 100000) (k + 1) u u - E| ≤ 2 / 10 ^ 10 := by
  obtain ⟨h1, h2⟩ := newton_step_quarter he he1 hE u
  rw [newtonLoop_succ]
  generalize u - (u - e * Real.sin u - m) / (1 - e * Real.cos u) = u' at h1 h2
  have hn := abs_nonneg (u - E)
  split_ifs with hl
  · have h3 : |u - E| ≤ |u' - E| + |u' - u| := by
      have := abs_sub_le u u' E
      rw [abs_sub_comm u u'] at this
      linarith
    have h4 : |u - E| ≤ 3 / 100000 := by linarith
    refine h1.trans ?_
    have : |u - E| ^ 2 ≤ (3 / 100000) ^ 2 := pow_le_pow_left₀ hn h4 2
    norm_num at this ⊢
    linarith
  · apply ih
    refine le_trans ?_ hb
    refine le_min (h1.trans ?_) (h2.trans ?_)
    · exact mul_le_mul_of_nonneg_left (pow_le_pow_left₀ hn hu 2) (by norm_num)
    · linarith

/-- Starting anywhere within one turn and a third of the solution, nine further iterations suffice. -/
theorem loop_nine {e m E : ℝ} (he : 0 ≤ e) (he1 : e ≤ 1 / 4) (hE : E - e * Real.sin E = m) (u : ℝ) (hu : |u - E| ≤ 6.62) :
    |newtonLoop e m (1 / 100000) 9 u u - E| ≤ 2 / 10 ^ 10 := by
  refine loop_step he he1 hE 8 6.62 4.42 (min_le_of_right_le (by norm_num)) ?_ u hu
  refine loop_step he he1 hE 7 4.42 2.95 (min_le_of_right_le (by norm_num)) ?_
  refine loop_step he he1 hE 6 2.95 1.46 (min_le_of_left_le (by norm_num)) ?_
  refine loop_step he he1 hE 5 1.46 0.36 (min_le_of_left_le (by norm_num)) ?_
  refine loop_step he he1 hE 4 0.36 0.022 (min_le_of_left_le (by norm_num)) ?_
  refine loop_step he he1 hE 3 0.022 0.0001 (min_le_of_left_le (by norm_num)) ?_
  refine loop_step he he1 hE 2 0.0001 0.000000002 (min_le_of_left_le (by norm_num)) ?_
  refine loop_step he he1 hE 1 0.000000002 0.000000001 (min_le_of_left_le (by norm_num)) ?_
  refine loop_step he he1 hE 0 0.000000001 (2 / 10 ^ 10) (min_le_of_left_le (by norm_num)) ?_
  intro u hu
  exact hu

theorem first_iterate {e m : ℝ} (he : 0 ≤ e) (he1 : e ≤ 1 / 4) :
    0 - (m - e * Real.sin m - m) / (1 - e * Real.cos m) = e * Real.sin m / (1 - e * Real.cos m) ∧ 3 / 4 ≤ 1 - e * Real.cos m := by
  constructor
  · rw [show m - e * Real.sin m - m = -(e * Real.sin m) by ring, neg_div, zero_sub, neg_neg]
  · nlinarith [Real.cos_le_one m]

/-- For eccentricities up to 1/4 the solver used by `CalcOrbit` returns, for every wrapped mean anomaly, the solution of Kepler's equation
within 2e-5 rad; unless the mean anomaly is below 1.5e-5 rad, even within 2e-10 rad. -/
theorem C90_solver (e m E : ℝ) (he : 0 ≤ e) (he1 : e ≤ 1 / 4) (hm : 0 ≤ m) (hm2 : m ≤ 2 * Real.pi) (hE : E - e * Real.sin E = m) :
    |solveKeplerNewtonMethod e m (1 / 100000) 10 - E| ≤ 2 / 100000 ∧
      (15 / 1000000 < m → |solveKeplerNewtonMethod e m (1 / 100000) 10 - E| ≤ 2 / 10 ^ 10) := by
  obtain ⟨hf, hden⟩ := first_iterate (m := m) he he1
  have hpos : 0 < 1 - e * Real.cos m := by linarith
  have hrange : 0 ≤ E ∧ E ≤ 2 * Real.pi := by
    constructor
    · by_contra h
      push Not at h
      have h1 : |Real.sin E| ≤ |E| := Real.abs_sin_le_abs
      rw [abs_of_neg h] at h1
      nlinarith [(abs_le.mp h1).1]
    · by_contra h
      push Not at h
      have h1 := abs_sin_sub_le E (2 * Real.pi)
      rw [Real.sin_two_pi, sub_zero, abs_of_pos (by linarith : 0 < E - 2 * Real.pi)] at h1
      nlinarith [(abs_le.mp h1).2]
  have hloop : solveKeplerNewtonMethod e m (1 / 100000) 10 =
      if |e * Real.sin m / (1 - e * Real.cos m) - m| < 1 / 100000 then e * Real.sin m / (1 - e * Real.cos m)
      else newtonLoop e m (1 / 100000) 9 (e * Real.sin m / (1 - e * Real.cos m)) (e * Real.sin m / (1 - e * Real.cos m)) := by
    have : solveKeplerNewtonMethod e m (1 / 100000) 10 =
        if |0 - (m - e * Real.sin m - m) / (1 - e * Real.cos m) - m| < 1 / 100000 then 0 - (m - e * Real.sin m - m) / (1 - e * Real.cos m)
        else newtonLoop e m (1 / 100000) 9 (0 - (m - e * Real.sin m - m) / (1 - e * Real.cos m))
          (0 - (m - e * Real.sin m - m) / (1 - e * Real.cos m)) := rfl
    rw [this, hf]
  rw [hloop]
  have hu : |e * Real.sin m / (1 - e * Real.cos m)| ≤ 1 / 3 ∧ |e * Real.sin m / (1 - e * Real.cos m)| ≤ m / 3 := by
    rw [abs_div, abs_mul, abs_of_nonneg he, abs_of_pos hpos]
    constructor
    · rw [div_le_iff₀ hpos]
      have := Real.abs_sin_le_one m
      have := abs_nonneg (Real.sin m)
      nlinarith
    · rw [div_le_iff₀ hpos]
      have := Real.abs_sin_le_abs (x := m)
      rw [abs_of_nonneg hm] at this
      have := abs_nonneg (Real.sin m)
      nlinarith
  generalize e * Real.sin m / (1 - e * Real.cos m) = u at hu
  have hrest : |newtonLoop e m (1 / 100000) 9 u u - E| ≤ 2 / 10 ^ 10 := by
    apply loop_nine he he1 hE
    have := Real.pi_lt_d4
    have h1 := abs_le.mp hu.1
    rw [abs_le]
    constructor <;> norm_num at * <;> linarith [hrange.1, hrange.2]
  split_ifs with h
  · have h1 := abs_le.mp hu.2
    have h2 := abs_lt.mp h
    have h3 : m < 15 / 1000000 := by linarith
    have h4 : E ≤ 4 / 3 * m := by
      have := Real.abs_sin_le_abs (x := E)
      rw [abs_of_nonneg hrange.1] at this
      nlinarith [(abs_le.mp this).2]
    refine ⟨?_, fun h5 => by linarith⟩
    rw [abs_le]
    constructor
    · linarith
    · linarith [hrange.1]
  · refine ⟨hrest.trans (by norm_num), fun _ => hrest⟩

/-- The solution is unique, so the theorem says what is returned: a concrete instance with a known solution, perigee. -/
example : |solveKeplerNewtonMethod (1 / 10) Real.pi (1 / 100000) 10 - Real.pi| ≤ 2 / 10 ^ 10 :=
  (C90_solver (1 / 10) Real.pi Real.pi (by norm_num) (by norm_num) Real.pi_pos.le (by linarith [Real.pi_pos]) (by simp)).2
    (by linarith [Real.pi_gt_three])

/-- With eccentricity 1/2 the solver is wrong near perigee: its first iterate happens to lie close to the mean anomaly (the correction is
added to 0 instead of the mean anomaly), the loop stops at once and returns about the mean anomaly, while the solution is about twice
that. -/
theorem C90_solver_fails (m E : ℝ) (hm : 0 < m) (hm2 : m ≤ 1 / 100) (hE : E - 1 / 2 * Real.sin E = m) (k : ℕ) :
    |solveKeplerNewtonMethod (1 / 2) m (1 / 100000) (k + 1) - m| ≤ 1 / 1000000 ∧ 19 / 10 * m < E ∧
      9 / 10 * m < E - solveKeplerNewtonMethod (1 / 2) m (1 / 100000) (k + 1) := by
  have hs1 := Real.sin_gt_sub_cube hm
  have hs2 := Real.sin_lt hm
  have hc1 := Real.one_sub_sq_div_two_le_cos (x := m)
  have hc2 := Real.cos_le_one m
  have hpos : 1 / 2 ≤ 1 - 1 / 2 * Real.cos m := by linarith
  have hfirst : 0 - (m - 1 / 2 * Real.sin m - m) / (1 - 1 / 2 * Real.cos m) = 1 / 2 * Real.sin m / (1 - 1 / 2 * Real.cos m) := by
    rw [show m - 1 / 2 * Real.sin m - m = -(1 / 2 * Real.sin m) by ring, neg_div, zero_sub, neg_neg]
  have hcube : m ^ 3 ≤ 1 / 10000 * m := by nlinarith
  have hupper : 1 / 2 * Real.sin m / (1 - 1 / 2 * Real.cos m) ≤ m := by
    rw [div_le_iff₀ (by linarith)]
    nlinarith
  have hlower : m - 1 / 1000000 ≤ 1 / 2 * Real.sin m / (1 - 1 / 2 * Real.cos m) := by
    rw [le_div_iff₀ (by linarith)]
    nlinarith
  have hloop : solveKeplerNewtonMethod (1 / 2) m (1 / 100000) (k + 1) = 1 / 2 * Real.sin m / (1 - 1 / 2 * Real.cos m) := by
    have : solveKeplerNewtonMethod (1 / 2) m (1 / 100000) (k + 1) =
        if |0 - (m - 1 / 2 * Real.sin m - m) / (1 - 1 / 2 * Real.cos m) - m| < 1 / 100000
        then 0 - (m - 1 / 2 * Real.sin m - m) / (1 - 1 / 2 * Real.cos m)
        else newtonLoop (1 / 2) m (1 / 100000) k (0 - (m - 1 / 2 * Real.sin m - m) / (1 - 1 / 2 * Real.cos m))
          (0 - (m - 1 / 2 * Real.sin m - m) / (1 - 1 / 2 * Real.cos m)) := rfl
    rw [this, hfirst, if_pos]
    rw [abs_lt]
    constructor <;> linarith
  have hEbig : 19 / 10 * m < E := by
    by_contra h
    push Not at h
    have h1 := kappa_expand (e := 1 / 2) (by norm_num) (19 / 10 * m) E
    have hs := Real.sin_gt_sub_cube (x := 19 / 10 * m) (by linarith)
    have h2 : 19 / 10 * m - 1 / 2 * Real.sin (19 / 10 * m) < m := by nlinarith
    have h3 := abs_sin_sub_le (19 / 10 * m) E
    rw [abs_of_nonneg (by linarith : 0 ≤ 19 / 10 * m - E)] at h3
    have := (abs_le.mp h3).2
    linarith
  rw [hloop]
  refine ⟨abs_le.mpr ⟨by linarith, by linarith⟩, hEbig, by linarith⟩

/-- Such mean anomalies and solutions exist. -/
example : ∃ E : ℝ, E - 1 / 2 * Real.sin E = 1 / 100 ∧ 9 / 1000 < E - solveKeplerNewtonMethod (1 / 2) (1 / 100) (1 / 100000) 10 := by
  obtain ⟨E, ⟨h, _⟩, _⟩ := C90_kepler_unique (1 / 2) (1 / 100) (by norm_num) (by norm_num)
  exact ⟨E, h, by have := (C90_solver_fails (1 / 100) E (by norm_num) le_rfl h 9).2.2; linarith⟩

end S2E.Kepler
