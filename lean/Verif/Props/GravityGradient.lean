import Verif.Model.Disturbance
import Verif.Spec.TwoBody
import Verif.Proofs.Linearization
import Verif.Props.OrbitalElements
/-!
# C101: the gravity gradient torque is the torque of Newton's attraction on the mass points of the spacecraft
-/
namespace S2E.Dist
open S2E.TwoBody

/-- Specification: a rigid body as finitely many mass points (mass, position relative to the centre of mass, body frame). -/
abbrev Body := List (ℝ × (Fin 3 → ℝ))

/-- The positions are relative to the centre of mass. -/
def Body.Centered (b : Body) : Prop := (b.map fun p => p.1 • p.2).sum = 0

/-- Inertia tensor: sum of m (|rho|^2 1 - rho rho^T). -/
def Body.inertia (b : Body) : Matrix (Fin 3) (Fin 3) ℝ :=
  (b.map fun p => Matrix.of fun i j => p.1 * ((if i = j then dot p.2 p.2 else 0) - p.2 i * p.2 j)).sum

/-- The same body made `eps` times as large. -/
def Body.scaled (eps : ℝ) (b : Body) : Body := b.map fun p => (p.1, eps • p.2)

/-- Torque about the centre of mass of the exact attraction by a point centre at `R` with gravity constant `mu`: the mass point at `rho` is
pulled with `mu m (R - rho) / |R - rho|^3`. -/
noncomputable def Body.exactTorque (mu : ℝ) (R : Fin 3 → ℝ) (b : Body) : Fin 3 → ℝ :=
  (b.map fun p => cross p.2 ((mu * p.1 / len (R - p.2) ^ 3) • (R - p.2))).sum

theorem gravityGradient_eq (mu : ℝ) {R : Fin 3 → ℝ} (hR : R ≠ 0) (I : Mat 3 3) :
    gravityGradient mu R I = (3 * mu / len R ^ 5) • cross R (matVec I R) := by
  have hr := len_pos hR
  simp only [gravityGradient, S2E.Kepler.calcNorm_len]
  funext i
  fin_cases i <;> simp [scale, vdiv, outerProduct, cross, matVec, Fin.sum_univ_three] <;> field_simp

theorem matVec_sum (l : List (Mat 3 3)) (v : Vec 3) : matVec l.sum v = (l.map fun m => matVec m v).sum := by
  induction l with
  | nil => funext i; simp [matVec]
  | cons m l ih =>
    rw [List.sum_cons, List.map_cons, List.sum_cons, ← ih]
    funext i
    simp [matVec, add_mul, Finset.sum_add_distrib]

theorem cross_sum_right (R : Fin 3 → ℝ) (l : List (Fin 3 → ℝ)) : cross R l.sum = (l.map (cross R)).sum := by
  induction l with
  | nil => funext i; fin_cases i <;> simp [cross]
  | cons m l ih =>
    rw [List.sum_cons, List.map_cons, List.sum_cons, ← ih]
    funext i
    fin_cases i <;> simp [cross] <;> ring

theorem cross_sum_left (R : Fin 3 → ℝ) (l : List (Fin 3 → ℝ)) : cross l.sum R = (l.map fun x => cross x R).sum := by
  induction l with
  | nil => funext i; fin_cases i <;> simp [cross]
  | cons m l ih =>
    rw [List.sum_cons, List.map_cons, List.sum_cons, ← ih]
    funext i
    fin_cases i <;> simp [cross] <;> ring

theorem cross_inertia (b : Body) (R : Fin 3 → ℝ) : cross R (matVec b.inertia R) = (b.map fun p => (p.1 * dot p.2 R) • cross p.2 R).sum := by
  rw [Body.inertia, matVec_sum, cross_sum_right, List.map_map, List.map_map]
  congr 1
  apply List.map_congr_left
  intro p _
  funext i
  fin_cases i <;> simp [cross, matVec, Fin.sum_univ_three, dot] <;> ring

theorem inertia_scaled (eps : ℝ) (b : Body) : (b.scaled eps).inertia = eps ^ 2 • b.inertia := by
  induction b with
  | nil => simp [Body.inertia, Body.scaled]
  | cons p b ih =>
    have h1 : ∀ (p : ℝ × (Fin 3 → ℝ)) (b : Body), Body.inertia (p :: b) =
        (Matrix.of fun i j => p.1 * ((if i = j then dot p.2 p.2 else 0) - p.2 i * p.2 j)) + b.inertia := by
      intro p b; simp [Body.inertia]
    have h2 : Body.scaled eps (p :: b) = (p.1, eps • p.2) :: Body.scaled eps b := rfl
    rw [h2, h1, h1, ih, smul_add]
    congr 1
    ext i j
    by_cases h : i = j <;> simp [h, dot] <;> ring

/-- The inverse cube of the distance, to first order in the size of the body. -/
theorem inverse_cube (R rho : Fin 3 → ℝ) (hR : R ≠ 0) :
    ∃ K r, 0 ≤ K ∧ 0 < r ∧ ∀ e : ℝ, |e| < r →
      |1 / len (R - e • rho) ^ 3 - 1 / len R ^ 3 - 3 * e * dot R rho / len R ^ 5| ≤ K * |e| ^ 2 := by
  set F : ℝ → ℝ := fun e => 1 / len (R - e • rho) ^ 3 with hF
  have hr := len_pos hR
  have hline : ContDiffAt ℝ 2 (fun e : ℝ => R - e • rho) 0 := by fun_prop
  have hl : ContDiffAt ℝ 2 (fun e : ℝ => len (R - e • rho)) 0 :=
    ContDiffAt.comp (g := len) (f := fun e : ℝ => R - e • rho) 0 (by simpa using contDiffAt_len hR 2) hline
  have hC : ContDiffAt ℝ 2 F 0 := contDiffAt_const.div (hl.pow 3) (by simpa using hr.ne')
  obtain ⟨K, r, hK, hr0, hq⟩ := S2E.Linearization.quadratic hC
  -- the derivative
  have hsq : HasDerivAt (fun e : ℝ => (R 0 - e * rho 0) ^ 2 + (R 1 - e * rho 1) ^ 2 + (R 2 - e * rho 2) ^ 2) (-2 * dot R rho) 0 := by
    have h : ∀ i : Fin 3, HasDerivAt (fun e : ℝ => (R i - e * rho i) ^ 2) (-2 * (R i * rho i)) 0 := by
      intro i
      exact ((((hasDerivAt_id (0:ℝ)).mul_const (rho i)).const_sub (R i)).pow 2).congr_deriv (by simp; ring)
    exact (((h 0).add (h 1)).add (h 2)).congr_deriv (by rw [dot]; ring)
  have hpos : (R 0 - 0 * rho 0) ^ 2 + (R 1 - 0 * rho 1) ^ 2 + (R 2 - 0 * rho 2) ^ 2 ≠ 0 := by
    have := len_sq R
    rw [dot] at this
    have h2 : 0 < len R ^ 2 := by positivity
    intro h
    nlinarith
  have hlen0 : Real.sqrt ((R 0 - 0 * rho 0) ^ 2 + (R 1 - 0 * rho 1) ^ 2 + (R 2 - 0 * rho 2) ^ 2) = len R := by simp [len]
  have hlen : HasDerivAt (fun e : ℝ => len (R - e • rho)) (-dot R rho / len R) 0 := by
    have := hsq.sqrt hpos
    rw [hlen0] at this
    refine (this.congr_deriv (by field_simp)).congr_of_eventuallyEq (Filter.Eventually.of_forall fun e => ?_)
    simp [len]
  have hF' : HasDerivAt F (3 * dot R rho / len R ^ 5) 0 := by
    have h0 : len (R - (0:ℝ) • rho) = len R := by simp
    have := ((hlen.pow 3).inv (by simpa using hr.ne'))
    refine (this.congr_deriv ?_).congr_of_eventuallyEq (Filter.Eventually.of_forall fun e => by simp [F])
    simp only [Pi.pow_apply, h0]
    field_simp
    norm_num
    ring
  refine ⟨K, r, hK, hr0, fun e he => ?_⟩
  have := hq e (by simpa using he)
  rw [hF'.hasFDerivAt.fderiv] at this
  have hF0 : F 0 = 1 / len R ^ 3 := by simp [F]
  rw [hF0] at this
  simp only [Real.norm_eq_abs, ContinuousLinearMap.toSpanSingleton_apply, smul_eq_mul] at this
  convert this using 2
  ring

/-- C101 (Newton): shrink any centred rigid body of mass points by the factor `eps`. The torque reported for its inertia tensor differs from
the exact torque of the point-mass attraction by at most a constant times `eps^3`, while the torque itself is of order `eps^2`: the
formula is the exact leading term, whatever the body and wherever the centre is. -/
theorem C101_newton (mu : ℝ) (R : Vec 3) (hR : R ≠ 0) (b : Body) (hb : b.Centered) :
    ∃ K r, 0 < r ∧ ∀ eps : ℝ, |eps| < r →
      (∀ i, |(b.scaled eps).exactTorque mu R i - gravityGradient mu R (b.scaled eps).inertia i| ≤ K * |eps| ^ 3) ∧
      gravityGradient mu R (b.scaled eps).inertia = eps ^ 2 • gravityGradient mu R b.inertia := by
  have hr := len_pos hR
  -- per point remainder
  have hpoint : ∀ p : ℝ × (Fin 3 → ℝ), ∃ K r, 0 ≤ K ∧ 0 < r ∧ ∀ e : ℝ, |e| < r → ∀ i,
      |(cross (e • p.2) ((mu * p.1 / len (R - e • p.2) ^ 3) • (R - e • p.2))
        - ((e * mu / len R ^ 3) • cross (p.1 • p.2) R + (e ^ 2 * (3 * mu / len R ^ 5)) • ((p.1 * dot p.2 R) • cross p.2 R))) i| ≤ K * |e| ^ 3 := by
    intro p
    obtain ⟨K, r, hK, hr0, hq⟩ := inverse_cube R p.2 hR
    refine ⟨K * |mu * p.1| * (|cross p.2 R 0| + |cross p.2 R 1| + |cross p.2 R 2|), r, by positivity, hr0, fun e he i => ?_⟩
    have h := hq e he
    have heq : (cross (e • p.2) ((mu * p.1 / len (R - e • p.2) ^ 3) • (R - e • p.2))
        - ((e * mu / len R ^ 3) • cross (p.1 • p.2) R + (e ^ 2 * (3 * mu / len R ^ 5)) • ((p.1 * dot p.2 R) • cross p.2 R))) i =
        e * (mu * p.1) * cross p.2 R i * (1 / len (R - e • p.2) ^ 3 - 1 / len R ^ 3 - 3 * e * dot R p.2 / len R ^ 5) := by
      have hd : dot p.2 R = dot R p.2 := by simp [dot]; ring
      rw [hd]
      generalize dot R p.2 = d
      generalize len (R - e • p.2) = L
      generalize len R = l
      fin_cases i <;> simp [cross] <;> ring
    rw [heq, abs_mul, abs_mul, abs_mul]
    have hi : |cross p.2 R i| ≤ |cross p.2 R 0| + |cross p.2 R 1| + |cross p.2 R 2| := by
      fin_cases i <;> simp <;> linarith [abs_nonneg (cross p.2 R 0), abs_nonneg (cross p.2 R 1), abs_nonneg (cross p.2 R 2)]
    calc |e| * |mu * p.1| * |cross p.2 R i| * |1 / len (R - e • p.2) ^ 3 - 1 / len R ^ 3 - 3 * e * dot R p.2 / len R ^ 5|
        ≤ |e| * |mu * p.1| * (|cross p.2 R 0| + |cross p.2 R 1| + |cross p.2 R 2|) * (K * |e| ^ 2) := by gcongr
      _ = _ := by ring
  -- sum
  have hsum : ∀ b : Body, ∃ K r, 0 ≤ K ∧ 0 < r ∧ ∀ e : ℝ, |e| < r → ∀ i,
      |(b.scaled e).exactTorque mu R i - ((e * mu / len R ^ 3) • cross (b.map fun p => p.1 • p.2).sum R
        + (e ^ 2 * (3 * mu / len R ^ 5)) • (b.map fun p => (p.1 * dot p.2 R) • cross p.2 R).sum) i| ≤ K * |e| ^ 3 := by
    intro b
    induction b with
    | nil => exact ⟨0, 1, le_rfl, one_pos, fun e _ i => by fin_cases i <;> simp [Body.scaled, Body.exactTorque, cross]⟩
    | cons p b ih =>
      obtain ⟨K1, r1, hK1, hr1, h1⟩ := hpoint p
      obtain ⟨K2, r2, hK2, hr2, h2⟩ := ih
      refine ⟨K1 + K2, min r1 r2, by positivity, lt_min hr1 hr2, fun e he i => ?_⟩
      have a1 := h1 e (he.trans_le (min_le_left _ _)) i
      have a2 := h2 e (he.trans_le (min_le_right _ _)) i
      have e1 : Body.exactTorque mu R (Body.scaled e (p :: b)) =
          cross (e • p.2) ((mu * p.1 / len (R - e • p.2) ^ 3) • (R - e • p.2)) + Body.exactTorque mu R (Body.scaled e b) := by
        simp [Body.exactTorque, Body.scaled]
      have e2 : ∀ x y : Fin 3 → ℝ, cross (x + y) R = cross x R + cross y R := by
        intro x y; funext i; fin_cases i <;> simp [cross] <;> ring
      rw [e1]
      simp only [List.map_cons, List.sum_cons, e2]
      have := abs_add_le _ _ |>.trans (add_le_add a1 a2)
      rw [← add_mul] at this
      refine le_trans (le_of_eq ?_) this
      congr 1
      simp only [Pi.add_apply, Pi.sub_apply, Pi.smul_apply, smul_eq_mul]
      ring
  obtain ⟨K, r, hK, hr0, h⟩ := hsum b
  have hscale : ∀ e : ℝ, gravityGradient mu R (b.scaled e).inertia = e ^ 2 • gravityGradient mu R b.inertia := by
    intro e
    rw [gravityGradient_eq mu hR, gravityGradient_eq mu hR, inertia_scaled]
    funext i
    fin_cases i <;> simp [cross, matVec, Fin.sum_univ_three] <;> ring
  refine ⟨K, r, hr0, fun e he => ⟨fun i => ?_, hscale e⟩⟩
  have := h e he i
  rw [show (b.map fun p => p.1 • p.2).sum = 0 from hb] at this
  rw [hscale, gravityGradient_eq mu hR, cross_inertia]
  convert this using 3
  simp [cross]
  fin_cases i <;> simp <;> ring

/-- C101: the torque has no component along the direction of the centre, vanishes exactly when that direction is a principal axis, is
unchanged when the centre is mirrored, and falls with the cube of the distance. -/
theorem C101_shape (mu : ℝ) (R : Vec 3) (hR : R ≠ 0) (I : Mat 3 3) :
    dot R (gravityGradient mu R I) = 0 ∧
    (mu ≠ 0 → (gravityGradient mu R I = 0 ↔ ∃ k : ℝ, matVec I R = k • R)) ∧
    gravityGradient mu (-R) I = gravityGradient mu R I ∧
    (∀ k : ℝ, 0 < k → gravityGradient mu (k • R) I = (1 / k ^ 3) • gravityGradient mu R I) := by
  have hr := len_pos hR
  have hkR : ∀ k : ℝ, k ≠ 0 → k • R ≠ 0 := fun k hk => smul_ne_zero hk hR
  have hlen : ∀ k : ℝ, len (k • R) = |k| * len R := by
    intro k
    have : (k • R) 0 ^ 2 + (k • R) 1 ^ 2 + (k • R) 2 ^ 2 = k ^ 2 * (R 0 ^ 2 + R 1 ^ 2 + R 2 ^ 2) := by simp; ring
    rw [len, this, Real.sqrt_mul (sq_nonneg k), Real.sqrt_sq_eq_abs, len]
  have hmv : ∀ k : ℝ, cross (k • R) (matVec I (k • R)) = k ^ 2 • cross R (matVec I R) := by
    intro k; funext i; fin_cases i <;> simp [cross, matVec, Fin.sum_univ_three] <;> ring
  refine ⟨?_, fun hmu => ?_, ?_, fun k hk => ?_⟩
  · rw [gravityGradient_eq mu hR]
    simp [dot, cross]
    ring
  · rw [gravityGradient_eq mu hR, smul_eq_zero_iff_right (by positivity)]
    constructor
    · intro h
      refine ⟨dot R (matVec I R) / len R ^ 2, ?_⟩
      have h0 := congrFun h 0
      have h1 := congrFun h 1
      have h2 := congrFun h 2
      simp only [cross, Matrix.cons_val_zero, Matrix.cons_val_one, Matrix.cons_val, Pi.zero_apply] at h0 h1 h2
      have hl : len R ^ 2 = R 0 * R 0 + R 1 * R 1 + R 2 * R 2 := by rw [len_sq, dot]
      have hne : R 0 * R 0 + R 1 * R 1 + R 2 * R 2 ≠ 0 := by rw [← hl]; positivity
      rw [hl]
      generalize matVec I R = w at *
      clear hl hr hkR hlen hmv h
      funext i
      fin_cases i <;> simp [dot] <;> field_simp <;> grind
    · rintro ⟨k, hk⟩
      rw [hk]
      funext i
      fin_cases i <;> simp [cross] <;> ring
  · have := hkR (-1) (by norm_num)
    rw [show -R = (-1 : ℝ) • R by simp, gravityGradient_eq mu this, gravityGradient_eq mu hR, hlen, hmv]
    simp
  · rw [gravityGradient_eq mu (hkR k hk.ne'), gravityGradient_eq mu hR, hlen, hmv, abs_of_pos hk, smul_smul, smul_smul]
    congr 1
    field_simp

/-- Non-vacuity: a dumbbell along the diagonal of the x-y plane feels a torque about z when the centre is on the x axis. -/
example : Body.Centered [(1, ![1, 1, 0]), (1, ![-1, -1, 0])] ∧ (![2, 0, 0] : Vec 3) ≠ 0 ∧
    gravityGradient 1 ![2, 0, 0] (Body.inertia [(1, ![1, 1, 0]), (1, ![-1, -1, 0])]) = ![0, 0, -(3 / 4)] := by
  have hne : (![2, 0, 0] : Vec 3) ≠ 0 := fun h => by have := congrFun h 0; norm_num at this
  refine ⟨?_, hne, ?_⟩
  · funext i; fin_cases i <;> simp
  · have : len ![(2:ℝ), 0, 0] = 2 := by
      rw [len]; simp
    rw [gravityGradient_eq 1 hne, this, cross_inertia]
    funext i
    fin_cases i <;> simp [cross, dot] <;> norm_num

end S2E.Dist
