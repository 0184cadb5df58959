import Verif.Proofs.GravityPartial
/-!
# C130: the gravity field of a body
-/
namespace S2E.Gravity
open Polynomial TwoBody GravityModel

/-- The table `c` contains, for every degree up to `N` and every order up to the degree, the coefficient `c'`. -/
def Listed (c : List (List ℝ)) (N : ℕ) (c' : ℕ → ℕ → ℝ) : Prop := ∀ n m, m ≤ n → n ≤ N → ∃ row, c[n]? = some row ∧ row[m]? = some (c' n m)

theorem Listed.holds {c : Coefs} {N : ℕ} {c' : ℕ → ℕ → ℝ} (h : Listed c N c') : Holds c N c' := by
  intro n m hm hn
  obtain ⟨row, h1, h2⟩ := h n m hm hn
  simp [Coefs.at, h1, h2]

theorem new_degree (N : ℕ) (c s : Coefs) (mu R : ℝ) (h : 2 ≤ N) : Potential.new N c s mu R = ⟨N, c, s, mu, R⟩ := by
  rw [Potential.new, if_neg (by omega)]

/-- For every maximum degree from 2 on, all coefficients, every gravity constant, reference radius and position other than the centre, the acceleration
returned is the gradient, at that position, of the spherical harmonic potential up to that degree. -/
theorem C130_acceleration (N : ℕ) (hN : 2 ≤ N) (hbig : N < 384307168202282324) (c s : List (List ℝ)) (c' s' : ℕ → ℕ → ℝ) (hc : Listed c N c')
    (hs : Listed s N s') (mu R : ℝ) (hR : R ≠ 0) (p : Vec 3) (hp : p ≠ 0) :
    ∃ a, (Potential.new N c s mu R).calcAcceleration p = .ok a ∧ IsGradient (potential mu R N c' s') p a := by
  rw [new_degree N c s mu R hN]
  exact ⟨_, calcAcceleration_eq ⟨N, c, s, mu, R⟩ (show 1 ≤ N by omega) (show N + 2 ≤ _ by omega) hR p c' s' hc.holds hs.holds, isGradient_accel mu R N c' s' hp⟩

/-- The coefficient tables of a field with only the central term and the oblateness. -/
def oblate (c00 c20 : ℝ) : List (List ℝ) := [[c00], [0, 0], [c20, 0, 0]]
@[inherit_doc oblate] def zeros : List (List ℝ) := [[0], [0, 0], [0, 0, 0]]
/-- The same as a function of degree and order. -/
def oblate' (c00 c20 : ℝ) (n m : ℕ) : ℝ := if n = 0 ∧ m = 0 then c00 else if n = 2 ∧ m = 0 then c20 else 0

theorem oblate_listed (c00 c20 : ℝ) : Listed (oblate c00 c20) 2 (oblate' c00 c20) ∧ Listed zeros 2 (fun _ _ => 0) := by
  constructor
  · intro n m hm hn
    interval_cases n <;> interval_cases m <;> simp [oblate, oblate']
  · intro n m hm hn
    interval_cases n <;> interval_cases m <;> simp [zeros]

/-- The hypotheses are met by a field with oblateness. -/
example : ∃ a, (Potential.new 2 (oblate 1 (-4.84e-4)) zeros 3.986e14 6378137).calcAcceleration ![7000000, 0, 0] = .ok a ∧
    IsGradient (potential 3.986e14 6378137 2 (oblate' 1 (-4.84e-4)) (fun _ _ => 0)) ![7000000, 0, 0] a :=
  C130_acceleration 2 le_rfl (by norm_num) _ _ _ _ (oblate_listed _ _).1 (oblate_listed 0 0).2 _ _ (by norm_num) _
    (fun h => absurd (congrFun h 0) (by norm_num))

theorem dl_10 : dl 1 0 = X := by simpa [dl_00] using dl_first 0
theorem dl_11 : dl 1 1 = 1 := by simpa [dl_00] using dl_diag 0
theorem dl_21 : dl 2 1 = 3 * X := by
  have h := dl_first 1
  rw [dl_11] at h
  rw [h]; push_cast; ring
theorem dl_20 : 2 * dl 2 0 = 3 * X ^ 2 - 1 := by
  have h := dl_rec 0 0
  simp only [dl_00, dl_10, zero_add] at h
  push_cast at h
  linear_combination h
theorem dl_31 : 2 * dl 3 1 = 15 * X ^ 2 - 3 := by
  have h := dl_B 2 0
  rw [zero_add, dl_21] at h
  push_cast at h
  linear_combination 2 * h + 3 * dl_20
theorem dl_30 : 2 * dl 3 0 = 5 * X ^ 3 - 3 * X := by
  have h := dl_rec 1 0
  simp only [dl_10] at h
  norm_num at h
  have e : (3 : ℝ[X]) ≠ 0 := by
    intro h0
    have := congrArg (eval 0) h0
    norm_num at this
  refine mul_left_cancel₀ e ?_
  linear_combination 2 * h + 5 * X * dl_20

/-- With only the central term and the oblateness, the acceleration is the textbook expression, `J₂ = -√5 c₂₀`. -/
theorem C130_oblateness (c00 c20 mu R : ℝ) (hR : R ≠ 0) (p : Vec 3) (hp : p ≠ 0) :
    ∃ a, (Potential.new 2 (oblate c00 c20) zeros mu R).calcAcceleration p = .ok a ∧
      a = fun i => -c00 * mu / len p ^ 3 * p i +
        3 / 2 * (Real.sqrt 5 * c20) * mu * R ^ 2 / len p ^ 5 * p i * ((if i = 2 then 3 else 1) - 5 * p 2 ^ 2 / len p ^ 2) := by
  rw [new_degree 2 _ _ mu R le_rfl]
  refine ⟨_, calcAcceleration_eq ⟨2, _, _, mu, R⟩ (show 1 ≤ 2 by omega) (show 2 + 2 ≤ _ by omega) hR p _ _ (oblate_listed c00 c20).1.holds
    (oblate_listed c00 c20).2.holds, ?_⟩
  have hl := len_pos hp
  have e31 : ∀ u : ℝ, (dl 3 1).eval u = (15 * u ^ 2 - 3) / 2 := fun u => by
    have := congrArg (eval u) dl_31
    simp at this
    linarith
  have e30 : ∀ u : ℝ, (dl 3 0).eval u = (5 * u ^ 3 - 3 * u) / 2 := fun u => by
    have := congrArg (eval u) dl_30
    simp at this
    linarith
  have n20 : normalisation 2 0 = Real.sqrt 5 := by simp [normalisation]; norm_num [Nat.factorial]
  funext i
  simp only [accel, Finset.sum_range_succ, Finset.sum_range_zero, oblate', gterm]
  simp only [gsv, sv, sw, radial, cosPart, n20, norm_00, rec, e31, e30, dl_10, dl_11]
  generalize Real.sqrt 5 = f
  generalize len p = l at *
  fin_cases i
  · simp [cosPart, dl_10, dl_11]
    field_simp
    ring
  · simp [cosPart, dl_10, dl_11]
    field_simp
    ring
  · simp [cosPart, dl_10, dl_11]
    field_simp
    ring

/-- A potential of maximum degree 0 or 1 gives no acceleration and no partial derivatives, whatever its coefficients. -/
theorem C130_low_degree (N : ℕ) (hN : N ≤ 1) (c s : List (List ℝ)) (mu R : ℝ) (p : Vec 3) :
    (Potential.new N c s mu R).calcAcceleration p = .ok 0 ∧ (Potential.new N c s mu R).calcPartialDerivative p = .ok 0 := by
  rw [Potential.new, if_pos hN]
  exact ⟨rfl, rfl⟩

theorem at_cases (c : Coefs) (n m : ℕ) : (∃ x, c.at n m = .ok x) ∨ c.at n m = .ub := by
  unfold Coefs.at
  split
  · exact Or.inr rfl
  · split
    · exact Or.inr rfl
    · exact Or.inl ⟨_, rfl⟩

theorem forLoop_ub {A : Type} (body : A → ℕ → Res A) (h : ∀ a n, (∃ b, body a n = .ok b) ∨ body a n = .ub) (l : List ℕ) (n : ℕ) (hn : n ∈ l)
    (hu : ∀ a, body a n = .ub) (a : A) : forLoop body l a = .ub := by
  induction l generalizing a with
  | nil => simp at hn
  | cons k l ih =>
    rw [forLoop]
    rcases h a k with ⟨b, hb⟩ | hb
    · rw [hb, Res.bind]
      rcases List.mem_cons.1 hn with e | e
      · subst e
        rw [hu a] at hb
        cases hb
      · exact ih e b
    · rw [hb]; rfl

theorem forLoop_cases {A : Type} (body : A → ℕ → Res A) (h : ∀ a n, (∃ b, body a n = .ok b) ∨ body a n = .ub) (l : List ℕ) (a : A) :
    (∃ b, forLoop body l a = .ok b) ∨ forLoop body l a = .ub := by
  induction l generalizing a with
  | nil => exact Or.inl ⟨a, rfl⟩
  | cons k l ih =>
    rw [forLoop]
    rcases h a k with ⟨b, hb⟩ | hb
    · rw [hb]; exact ih b
    · rw [hb]; exact Or.inr rfl

theorem accelOrder_cases (g : Potential) (t : Tables) (n : ℕ) (a : Vec 3) (m : ℕ) :
    (∃ b, accelOrder g t n a m = .ok b) ∨ accelOrder g t n a m = .ub := by
  unfold accelOrder
  rcases at_cases g.c n m with ⟨x, hx⟩ | hx <;> rcases at_cases g.s n m with ⟨y, hy⟩ | hy <;> simp [hx, hy, Res.bind]

theorem accelOrder0_cases (g : Potential) (t : Tables) (n : ℕ) (a : Vec 3) :
    (∃ b, accelOrder0 g t n a = .ok b) ∨ accelOrder0 g t n a = .ub := by
  unfold accelOrder0
  rcases at_cases g.c n 0 with ⟨x, hx⟩ | hx <;> rcases at_cases g.s n 0 with ⟨y, hy⟩ | hy <;> simp [hx, hy, Res.bind]

theorem accelDegree_cases (g : Potential) (t : Tables) (a : Vec 3) (n : ℕ) :
    (∃ b, accelDegree g t a n = .ok b) ∨ accelDegree g t a n = .ub := by
  unfold accelDegree
  rcases accelOrder0_cases g t n a with ⟨b, hb⟩ | hb
  · rw [hb]; exact forLoop_cases _ (accelOrder_cases g t n) _ b
  · rw [hb]; exact Or.inr rfl

/-- An entry is missing: the row of degree `n` or the cell of order `m` does not exist. -/
def Missing (c : List (List ℝ)) (n m : ℕ) : Prop := c[n]? = none ∨ ∃ row, c[n]? = some row ∧ row[m]? = none

theorem Missing.at {c : Coefs} {n m : ℕ} (h : Missing c n m) : c.at n m = .ub := by
  rcases h with h | ⟨row, h1, h2⟩ <;> simp [Coefs.at, *]

/-- If the maximum degree exceeds the tables passed, so that a coefficient of degree `n ≤ N`, order `m ≤ n` is missing in one of them, computing the
acceleration is undefined behaviour. -/
theorem C130_missing (N : ℕ) (hN : 2 ≤ N) (hbig : N < 384307168202282324) (c s : List (List ℝ)) (n m : ℕ) (hm : m ≤ n) (hn : n ≤ N)
    (h : Missing c n m ∨ Missing s n m) (mu R : ℝ) (p : Vec 3) : (Potential.new N c s mu R).calcAcceleration p = .ub := by
  rw [new_degree N c s mu R hN, Potential.calcAcceleration]
  simp only
  rw [if_neg (by omega), if_neg (by omega), if_neg (by omega)]
  rw [forLoop_ub _ (accelDegree_cases _ _) _ n (by simp; omega)]
  · rfl
  · intro a
    rw [accelDegree]
    cases m with
    | zero =>
      have e : accelOrder0 ⟨N, c, s, mu, R⟩ (tables R p (N + 1)) n a = .ub := by
        unfold accelOrder0
        rcases h with h | h
        · simp [h.at, Res.bind]
        · rcases at_cases c n 0 with ⟨x, hx⟩ | hx <;> simp [h.at, hx, Res.bind]
      rw [e]; rfl
    | succ m =>
      rcases accelOrder0_cases ⟨N, c, s, mu, R⟩ (tables R p (N + 1)) n a with ⟨b, hb⟩ | hb
      · rw [hb, Res.bind]
        refine forLoop_ub _ (accelOrder_cases _ _ n) _ (m + 1) (by rw [List.mem_range'_1]; omega) ?_ b
        intro b
        unfold accelOrder
        rcases h with h | h
        · simp [h.at, Res.bind]
        · rcases at_cases c n (m + 1) with ⟨x, hx⟩ | hx <;> simp [h.at, hx, Res.bind]
      · rw [hb]; rfl

/-- Degree 3 with tables of degree 2. -/
example (p : Vec 3) : (Potential.new 3 (oblate 1 0) zeros 1 1).calcAcceleration p = .ub :=
  C130_missing 3 (by norm_num) (by norm_num) _ _ 3 0 (by norm_num) le_rfl (Or.inl (Or.inl rfl)) 1 1 p

/-! ### Partial derivatives -/

theorem upper_mul (k : ℝ) (a : Matrix (Fin 3) (Fin 3) ℝ) : upper (k • a) = k • upper a := by
  ext i j; fin_cases i <;> fin_cases j <;> simp [upper]

theorem partialOrder_eq (g : Potential) (p : Vec 3) (D n m : ℕ) (hn : n + 2 ≤ D) (hm : m ≤ n) (c s : ℝ) (hc : g.c.at n m = .ok c)
    (hs : g.s.at n m = .ok s) (a : Mat 3 3) :
    partialOrder g (tables g.radius p D) n a m = .ok (a + g.radius ^ (n + 3) • upper (hterm c s p n m)) := by
  have key : (partialXy (tables g.radius p D) n m c s).1 = g.radius ^ (n + 3) * hterm c s p n m 0 0 ∧
    (partialXy (tables g.radius p D) n m c s).2.1 = g.radius ^ (n + 3) * hterm c s p n m 1 1 ∧
    (partialXy (tables g.radius p D) n m c s).2.2 = g.radius ^ (n + 3) * hterm c s p n m 0 1 ∧
    (partialZ (tables g.radius p D) n m c s).1 = g.radius ^ (n + 3) * hterm c s p n m 0 2 ∧
    (partialZ (tables g.radius p D) n m c s).2 = g.radius ^ (n + 3) * hterm c s p n m 1 2 ∧
    partialZz (tables g.radius p D) n m c s = g.radius ^ (n + 3) * hterm c s p n m 2 2 := by
    match m, hm with
    | 0, _ => exact partial0 g p D n hn c s
    | 1, hm => exact partial1 g p D n hn hm c s
    | m + 2, hm => exact partial2 g p D n m hn hm c s
  obtain ⟨h1, h2, h3, h4, h5, h6⟩ := key
  simp only [partialOrder, hc, hs, Res.bind, h1, h2, h3, h4, h5, h6]
  congr 2
  ext i j
  fin_cases i <;> fin_cases j <;> simp [upper]

/-- The matrix of second derivatives, as a sum over the harmonics. -/
noncomputable def hessian (mu R : ℝ) (N : ℕ) (c s : ℕ → ℕ → ℝ) (p : Fin 3 → ℝ) : Matrix (Fin 3) (Fin 3) ℝ :=
  ∑ n ∈ Finset.range (N + 1), ∑ m ∈ Finset.range (n + 1), (mu * R ^ n) • hterm (c n m) (s n m) p n m

theorem hessian_apply (mu R : ℝ) (N : ℕ) (c s : ℕ → ℕ → ℝ) (p : Fin 3 → ℝ) (i j : Fin 3) : hessian mu R N c s p i j =
    ∑ n ∈ Finset.range (N + 1), ∑ m ∈ Finset.range (n + 1), (mu * R ^ n) * hterm (c n m) (s n m) p n m i j := by
  simp [hessian, Matrix.sum_apply]

theorem calcPartialDerivative_eq (g : Potential) (h2 : 1 ≤ g.degree) (hbig : g.degree + 3 ≤ 384307168202282325) (hR : g.radius ≠ 0) (p : Vec 3)
    (c s : ℕ → ℕ → ℝ) (hc : Holds g.c g.degree c) (hs : Holds g.s g.degree s) :
    g.calcPartialDerivative p = .ok (hessian g.mu g.radius g.degree c s p) := by
  rw [Potential.calcPartialDerivative, if_neg (by omega), if_neg (by omega), if_neg (by omega)]
  rw [forLoop_sum (A := Mat 3 3) _ (fun n => ∑ m ∈ Finset.range (n + 1), g.radius ^ (n + 3) • upper (hterm (c n m) (s n m) p n m))]
  · rw [Res.bind, list_sum_range, zero_add]
    have key : ∀ i j, i ≤ j → g.mu / g.radius ^ 3 * (∑ n ∈ Finset.range (g.degree + 1), ∑ m ∈ Finset.range (n + 1),
        g.radius ^ (n + 3) • upper (hterm (c n m) (s n m) p n m)) i j = hessian g.mu g.radius g.degree c s p i j := by
      intro i j hij
      rw [hessian_apply]
      simp only [Matrix.sum_apply, Matrix.smul_apply, smul_eq_mul, Finset.mul_sum]
      refine Finset.sum_congr rfl fun n _ => Finset.sum_congr rfl fun m _ => ?_
      have e : upper (hterm (c n m) (s n m) p n m) i j = hterm (c n m) (s n m) p n m i j := by
        fin_cases i <;> fin_cases j <;> simp_all [upper]
      rw [e]
      field_simp
      ring
    have hsym : ∀ i j, hessian g.mu g.radius g.degree c s p i j = hessian g.mu g.radius g.degree c s p j i := by
      intro i j
      rw [hessian_apply, hessian_apply]
      exact Finset.sum_congr rfl fun n _ => Finset.sum_congr rfl fun m _ => by rw [hterm_symm]
    simp only [key 0 0 (by decide), key 0 1 (by decide), key 0 2 (by decide), key 1 1 (by decide), key 1 2 (by decide), key 2 2 (by decide)]
    refine congrArg Res.ok (Matrix.ext fun i j => ?_)
    fin_cases i <;> fin_cases j <;> simp [hsym 1 0, hsym 2 0, hsym 2 1]
  · intro n hn a
    rw [List.mem_range] at hn
    rw [forLoop_sum (A := Mat 3 3) _ (fun m => g.radius ^ (n + 3) • upper (hterm (c n m) (s n m) p n m)), list_sum_range]
    intro m hm a
    rw [List.mem_range] at hm
    exact partialOrder_eq g p _ n m (by omega) (by omega) _ _ (hc n m (by omega) (by omega)) (hs n m (by omega) (by omega)) a

theorem isGradient_hessian (mu R : ℝ) (N : ℕ) (c s : ℕ → ℕ → ℝ) {p : Fin 3 → ℝ} (hp : p ≠ 0) (i : Fin 3) :
    IsGradient (fun q => accel mu R N c s q i) p (hessian mu R N c s p i) := by
  refine (IsGradient.sum (Finset.range (N + 1)) fun n _ => IsGradient.sum (Finset.range (n + 1)) fun m _ =>
    (((isGradient_hsv n m hp i).const_mul (c n m)).add ((isGradient_hsw n m hp i).const_mul (s n m))).const_mul (normalisation n m)
      |>.const_mul (mu * R ^ n)).of_eq ?_ ?_
  · intro q
    simp [accel, gterm, mul_add]
  · intro j
    rw [hessian_apply]
    simp [hterm]

/-- The matrix returned by `CalcPartialDerivative_xcxf_s2` is the Jacobian matrix of the acceleration: row `i` is the gradient of component `i` of the
field that `CalcAcceleration_xcxf_m_s2` returns. It is symmetric and its trace is zero (the potential is harmonic). -/
theorem C130_partial_derivatives (N : ℕ) (hN : 2 ≤ N) (hbig : N < 384307168202282323) (c s : List (List ℝ)) (c' s' : ℕ → ℕ → ℝ)
    (hc : Listed c N c') (hs : Listed s N s') (mu R : ℝ) (hR : R ≠ 0) (p : Vec 3) (hp : p ≠ 0) :
    ∃ (J : Mat 3 3) (a : Vec 3 → Vec 3), (Potential.new N c s mu R).calcPartialDerivative p = .ok J ∧
      (∀ q, (Potential.new N c s mu R).calcAcceleration q = .ok (a q)) ∧ (∀ i, IsGradient (fun q => a q i) p (J i)) ∧
      (∀ i j, J i j = J j i) ∧ J 0 0 + J 1 1 + J 2 2 = 0 := by
  rw [new_degree N c s mu R hN]
  refine ⟨_, fun q => accel mu R N c' s' q,
    calcPartialDerivative_eq ⟨N, c, s, mu, R⟩ (show 1 ≤ N by omega) (show N + 3 ≤ _ by omega) hR p c' s' hc.holds hs.holds, ?_, ?_, ?_, ?_⟩
  · intro q
    exact calcAcceleration_eq ⟨N, c, s, mu, R⟩ (show 1 ≤ N by omega) (show N + 2 ≤ _ by omega) hR q c' s' hc.holds hs.holds
  · exact fun i => isGradient_hessian mu R N c' s' hp i
  · intro i j
    rw [hessian_apply, hessian_apply]
    exact Finset.sum_congr rfl fun n _ => Finset.sum_congr rfl fun m _ => by rw [hterm_symm]
  · simp only [hessian_apply]
    rw [← Finset.sum_add_distrib, ← Finset.sum_add_distrib]
    refine Finset.sum_eq_zero fun n _ => ?_
    rw [← Finset.sum_add_distrib, ← Finset.sum_add_distrib]
    refine Finset.sum_eq_zero fun m _ => ?_
    rw [← mul_add, ← mul_add, hterm_trace, mul_zero]

example : ∃ (J : Mat 3 3) (a : Vec 3 → Vec 3),
    (Potential.new 2 (oblate 1 (-4.84e-4)) zeros 3.986e14 6378137).calcPartialDerivative ![7000000, 0, 0] = .ok J ∧
      (∀ q, (Potential.new 2 (oblate 1 (-4.84e-4)) zeros 3.986e14 6378137).calcAcceleration q = .ok (a q)) ∧
      (∀ i, IsGradient (fun q => a q i) ![7000000, 0, 0] (J i)) ∧ (∀ i j, J i j = J j i) ∧ J 0 0 + J 1 1 + J 2 2 = 0 :=
  C130_partial_derivatives 2 le_rfl (by norm_num) _ _ _ _ (oblate_listed _ _).1 (oblate_listed 0 0).2 _ _ (by norm_num) _
    (fun h => absurd (congrFun h 0) (by norm_num))

end S2E.Gravity
