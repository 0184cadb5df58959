import Verif.Props.Interpolation
import Mathlib.Analysis.SpecialFunctions.Complex.Circle
import Mathlib.Algebra.BigOperators.Field

/-!
# C87: trigonometric interpolation

Specification: a trigonometric polynomial of degree at most `m` with angular frequency `w` is a function
`x ↦ ∑_{k ≤ m} a_k cos (k w x) + b_k sin (k w x)`. The parameter the code calls `period` is the angular frequency `w`.
-/
namespace S2E.Interp
open Polynomial Finset

/-- Trigonometric polynomial of degree at most `m` and angular frequency `w`. -/
def TrigPoly (m : ℕ) (w : ℝ) (f : ℝ → ℝ) : Prop :=
  ∃ a b : ℕ → ℝ, ∀ x, f x = ∑ k ∈ range (m + 1), (a k * Real.cos (k * (w * x)) + b k * Real.sin (k * (w * x)))

/-- No two points differ by a whole number of periods `2π / w`. -/
def Separated (w : ℝ) (v : ℕ → ℝ) (s : Finset ℕ) : Prop :=
  ∀ i ∈ s, ∀ j ∈ s, i ≠ j → Real.sin (w * (v i - v j) / 2) ≠ 0

/-! ## the loops as finite products and sums -/

/-- One factor of the product. -/
noncomputable def ratio (v : ℕ → ℝ) (w x : ℝ) (i j : ℕ) : ℝ :=
  Real.sin (w * (x - v j) / 2) / Real.sin (w * (v i - v j) / 2)

theorem prod_list (f : ℕ → ℝ) (a b : ℕ) : ((List.range' a (b - a)).map f).prod = ∏ i ∈ Ico a b, f i := rfl
theorem sum_list (f : ℕ → ℝ) (a b : ℕ) : ((List.range' a (b - a)).map f).sum = ∑ i ∈ Ico a b, f i := rfl

theorem trigFactor_list (v : ℕ → ℝ) (x w : ℝ) (i : ℕ) (l : List ℕ) (t : ℝ)
    (h : ∀ j ∈ l, i ≠ j → Real.sin (w * (v i - v j) / 2) ≠ 0) :
    l.foldl (fun t j => t.bind fun t => if i = j then some t
      else if Real.sin (w * (v i - v j) / 2) = 0 then none
      else some (t * (Real.sin (w * (x - v j) / 2) / Real.sin (w * (v i - v j) / 2)))) (some t) =
      some (t * (l.map fun j => if i = j then 1 else ratio v w x i j).prod) := by
  induction l generalizing t with
  | nil => simp
  | cons j l ih =>
    have hl := fun k hk => h k (List.mem_cons_of_mem j hk)
    by_cases hij : i = j
    · subst hij
      simp only [List.foldl_cons, Option.bind_some, if_pos, List.map_cons, List.prod_cons, one_mul]
      exact ih t hl
    · have h0 := h j List.mem_cons_self hij
      simp only [List.foldl_cons, Option.bind_some, if_neg hij, if_neg h0, List.map_cons, List.prod_cons]
      rw [ih _ hl, ratio, mul_assoc]

theorem trigFactor_eq (v : ℕ → ℝ) (x w : ℝ) (a b i : ℕ) (hi : i ∈ Ico a b) (hs : Separated w v (Ico a b)) :
    trigFactor v x w a b i = some (∏ j ∈ (Ico a b).erase i, ratio v w x i j) := by
  unfold trigFactor
  rw [trigFactor_list v x w i _ 1 (fun j hj hij => hs i hi j (by
    rw [List.mem_range'_1] at hj; rw [mem_Ico] at hi ⊢; omega) hij), one_mul, prod_list, ← mul_prod_erase _ _ hi, if_pos rfl, one_mul]
  congr 1
  refine prod_congr rfl fun j hj => ?_
  rw [if_neg (ne_of_mem_erase hj).symm]

theorem trigSum_list (g : ℕ → ℝ) (F : ℕ → Option ℝ) (G : ℕ → ℝ) (l : List ℕ) (acc : ℝ) (h : ∀ i ∈ l, F i = some (G i)) :
    l.foldl (fun acc i => acc.bind fun acc => (F i).map fun t => acc + t * g i) (some acc) =
      some (acc + (l.map fun i => G i * g i).sum) := by
  induction l generalizing acc with
  | nil => simp
  | cons i l ih =>
    simp only [List.foldl_cons, Option.bind_some, h i List.mem_cons_self, Option.map_some, List.map_cons, List.sum_cons]
    rw [ih _ fun k hk => h k (List.mem_cons_of_mem i hk), add_assoc]

theorem calcTrig_eq (s : Interpolation ℝ) (hs : WellFormed s) (hpos : 0 < s.degree) (x w : ℝ)
    (hsep : Separated w (fun i => s.xs.getD i 0) (Ico (trigRange s x).1 (trigRange s x).2)) :
    calcTrigonometric s x w = .ok (some (∑ i ∈ Ico (trigRange s x).1 (trigRange s x).2,
      (∏ j ∈ (Ico (trigRange s x).1 (trigRange s x).2).erase i, ratio (fun i => s.xs.getD i 0) w x i j) * s.ys.getD i 0)) := by
  obtain ⟨h1, h2⟩ := hs
  have hne : s.xs ≠ [] := by intro h; simp [h] at h1; omega
  have hr : (trigRange s x).2 ≤ s.degree := by unfold trigRange; split <;> [split; skip] <;> simp
  unfold calcTrigonometric
  simp only
  rw [if_neg (by simp [hne]; omega), trigSum_list (fun i => s.ys.getD i 0) _
    (fun i => ∏ j ∈ (Ico (trigRange s x).1 (trigRange s x).2).erase i, ratio (fun i => s.xs.getD i 0) w x i j) _ 0
    (fun i hi => trigFactor_eq _ x w _ _ i (by rw [List.mem_range'_1] at hi; rw [mem_Ico]; omega) hsep), zero_add, sum_list]

/-! ## passage to the unit circle -/

/-- `e^{i w x / 2}`. -/
noncomputable def e (w x : ℝ) : ℂ := Complex.exp (((w * x / 2 : ℝ) : ℂ) * Complex.I)

/-- `e^{i w x}`. -/
noncomputable def z (w x : ℝ) : ℂ := e w x ^ 2

theorem e_ne (w x : ℝ) : e w x ≠ 0 := Complex.exp_ne_zero _
theorem z_ne (w x : ℝ) : z w x ≠ 0 := pow_ne_zero _ (e_ne w x)

theorem z_pow (w x : ℝ) (k : ℕ) : z w x ^ k = ((Real.cos (k * (w * x)) : ℝ) : ℂ) + ((Real.sin (k * (w * x)) : ℝ) : ℂ) * Complex.I := by
  rw [z, e, ← pow_mul, ← Complex.exp_nat_mul]
  rw [show ((2 * k : ℕ) : ℂ) * (((w * x / 2 : ℝ) : ℂ) * Complex.I) = ((k * (w * x) : ℝ) : ℂ) * Complex.I by push_cast; ring]
  rw [Complex.exp_mul_I]
  push_cast
  rfl

theorem sin_half (w a b : ℝ) : ((Real.sin (w * (a - b) / 2) : ℝ) : ℂ) = (z w a - z w b) / (2 * Complex.I * e w a * e w b) := by
  have ha := e_ne w a
  have hb := e_ne w b
  rw [Complex.ofReal_sin, Complex.sin]
  have e1 : Complex.exp (-(((w * (a - b) / 2 : ℝ) : ℂ)) * Complex.I) = e w b / e w a := by
    rw [e, e, ← Complex.exp_sub]; congr 1; push_cast; ring
  have e2 : Complex.exp ((((w * (a - b) / 2 : ℝ) : ℂ)) * Complex.I) = e w a / e w b := by
    rw [e, e, ← Complex.exp_sub]; congr 1; push_cast; ring
  rw [e1, e2, z, z]
  have hI := Complex.I_ne_zero
  field_simp
  linear_combination (e w b ^ 2 - e w a ^ 2) * Complex.I_sq

theorem ratio_eq (v : ℕ → ℝ) (w x : ℝ) (i j : ℕ) (h : Real.sin (w * (v i - v j) / 2) ≠ 0) :
    ((ratio v w x i j : ℝ) : ℂ) = (z w x - z w (v j)) / (z w (v i) - z w (v j)) * (e w (v i) / e w x) := by
  have h0 : ((Real.sin (w * (v i - v j) / 2) : ℝ) : ℂ) ≠ 0 := by exact_mod_cast h
  rw [sin_half] at h0
  have h1 : z w (v i) - z w (v j) ≠ 0 := fun h => h0 (by rw [h, zero_div])
  rw [ratio, Complex.ofReal_div, sin_half, sin_half]
  have hx := e_ne w x
  have hi := e_ne w (v i)
  have hj := e_ne w (v j)
  have hI := Complex.I_ne_zero
  field_simp

theorem z_injOn {w : ℝ} {v : ℕ → ℝ} {s : Finset ℕ} (hs : Separated w v s) : Set.InjOn (fun i => z w (v i)) s := by
  intro i hi j hj hij
  by_contra hne
  have := hs i hi j hj hne
  have h0 : ((Real.sin (w * (v i - v j) / 2) : ℝ) : ℂ) ≠ 0 := by exact_mod_cast this
  rw [sin_half] at h0
  exact h0 (by simp only at hij; rw [hij, sub_self, zero_div])

theorem factor_basis {w : ℝ} {v : ℕ → ℝ} {s : Finset ℕ} (hs : Separated w v s) (m : ℕ) (hm : s.card = 2 * m + 1) (x : ℝ) (i : ℕ)
    (hi : i ∈ s) : ((∏ j ∈ s.erase i, ratio v w x i j : ℝ) : ℂ) * z w x ^ m =
      z w (v i) ^ m * (Lagrange.basis s (fun i => z w (v i)) i).eval (z w x) := by
  rw [Lagrange.basis, Polynomial.eval_prod, Complex.ofReal_prod]
  rw [prod_congr rfl fun j hj => ratio_eq v w x i j (hs i hi j (mem_of_mem_erase hj) (ne_of_mem_erase hj).symm)]
  rw [prod_mul_distrib, prod_const, card_erase_of_mem hi, hm, Nat.add_sub_cancel]
  have hx := e_ne w x
  have e1 : (e w (v i) / e w x) ^ (2 * m) * z w x ^ m = z w (v i) ^ m := by
    rw [z, z, ← pow_mul, ← pow_mul, div_pow, div_mul_cancel₀ _ (pow_ne_zero _ hx)]
  rw [mul_assoc, e1, mul_comm]
  congr 1
  refine prod_congr rfl fun j hj => ?_
  simp only [Lagrange.basisDivisor, eval_mul, eval_C, eval_sub, eval_X]
  rw [div_eq_inv_mul]

theorem sum_interpolate {w : ℝ} {v r : ℕ → ℝ} {s : Finset ℕ} (hs : Separated w v s) (m : ℕ) (hm : s.card = 2 * m + 1) (x : ℝ) :
    ((∑ i ∈ s, (∏ j ∈ s.erase i, ratio v w x i j) * r i : ℝ) : ℂ) * z w x ^ m =
      (Lagrange.interpolate s (fun i => z w (v i)) (fun i => (r i : ℂ) * z w (v i) ^ m)).eval (z w x) := by
  rw [Lagrange.interpolate_apply, eval_finsetSum, Complex.ofReal_sum, sum_mul]
  refine sum_congr rfl fun i hi => ?_
  rw [eval_mul, eval_C, Complex.ofReal_mul]
  have := factor_basis hs m hm x i hi
  linear_combination (r i : ℂ) * this

/-- The polynomial on the circle belonging to a trigonometric polynomial. -/
theorem circle_poly {m : ℕ} {w : ℝ} {f : ℝ → ℝ} (hf : TrigPoly m w f) :
    ∃ Q : ℂ[X], Q.degree < (2 * m + 1 : ℕ) ∧ ∀ x, ((f x : ℝ) : ℂ) * z w x ^ m = Q.eval (z w x) := by
  obtain ⟨a, b, h⟩ := hf
  refine ⟨∑ k ∈ range (m + 1), (C ((a k : ℂ) / 2) * (X ^ (m + k) + X ^ (m - k)) + C ((b k : ℂ) / (2 * Complex.I)) *
    (X ^ (m + k) - X ^ (m - k))), ?_, fun x => ?_⟩
  · refine lt_of_le_of_lt (Polynomial.degree_sum_le _ _) ?_
    rw [Finset.sup_lt_iff (WithBot.bot_lt_coe _)]
    intro k hk
    have hk := mem_range.1 hk
    have hX : ∀ j, j ≤ 2 * m → (X ^ j : ℂ[X]).degree < ((2 * m + 1 : ℕ) : WithBot ℕ) := fun j hj => by
      rw [degree_X_pow]; exact_mod_cast Nat.lt_succ_of_le hj
    have hmul : ∀ (c : ℂ) (p : ℂ[X]), p.degree < ((2 * m + 1 : ℕ) : WithBot ℕ) → (C c * p).degree < ((2 * m + 1 : ℕ) : WithBot ℕ) :=
      fun c p hp => by rw [← smul_eq_C_mul]; exact lt_of_le_of_lt (Polynomial.degree_smul_le c p) hp
    refine lt_of_le_of_lt (degree_add_le _ _) (max_lt (hmul _ _ ?_) (hmul _ _ ?_))
    · exact lt_of_le_of_lt (degree_add_le _ _) (max_lt (hX _ (by omega)) (hX _ (by omega)))
    · exact lt_of_le_of_lt (degree_sub_le _ _) (max_lt (hX _ (by omega)) (hX _ (by omega)))
  · rw [h, Complex.ofReal_sum, sum_mul, eval_finsetSum]
    refine sum_congr rfl fun k hk => ?_
    have hk := mem_range.1 hk
    simp only [eval_add, eval_mul, eval_sub, eval_C, eval_pow, eval_X]
    obtain ⟨d, rfl⟩ : ∃ d, m = k + d := ⟨m - k, by omega⟩
    rw [Nat.add_sub_cancel_left, show k + d + k = 2 * k + d by omega]
    have hz := z_pow w x k
    have hcs : ((Real.cos (k * (w * x)) : ℝ) : ℂ) ^ 2 + ((Real.sin (k * (w * x)) : ℝ) : ℂ) ^ 2 = 1 := by
      rw [← Complex.ofReal_pow, ← Complex.ofReal_pow, ← Complex.ofReal_add, Real.cos_sq_add_sin_sq, Complex.ofReal_one]
    rw [pow_add _ (2 * k) d, pow_add _ k d, mul_comm 2 k, pow_mul, hz, Complex.ofReal_add, Complex.ofReal_mul, Complex.ofReal_mul]
    generalize ((Real.cos (k * (w * x)) : ℝ) : ℂ) = c at *
    generalize ((Real.sin (k * (w * x)) : ℝ) : ℂ) = s at *
    generalize z w x ^ d = y
    have hI := Complex.I_ne_zero
    have hI2 := Complex.I_sq
    generalize Complex.I = I at *
    field_simp
    grind

/-- Reproduction on an index set with an odd number of points. -/
theorem reproduces_on {w : ℝ} {v r : ℕ → ℝ} {s : Finset ℕ} (hs : Separated w v s) (m : ℕ) (hm : s.card = 2 * m + 1) {f : ℝ → ℝ}
    (hf : TrigPoly m w f) (hr : ∀ i ∈ s, f (v i) = r i) (x : ℝ) :
    ∑ i ∈ s, (∏ j ∈ s.erase i, ratio v w x i j) * r i = f x := by
  obtain ⟨Q, hQ, hQe⟩ := circle_poly hf
  have hi := Lagrange.eq_interpolate_of_eval_eq (fun i => (r i : ℂ) * z w (v i) ^ m) (z_injOn hs) (f := Q) (by rw [hm]; exact hQ)
    (fun i hi => by rw [← hQe, hr i hi])
  have := sum_interpolate (r := r) hs m hm x
  rw [← hi, ← hQe] at this
  exact_mod_cast mul_right_cancel₀ (pow_ne_zero m (z_ne w x)) this

theorem trigRange_card (s : Interpolation ℝ) (hpos : 0 < s.degree) (x : ℝ) :
    (Ico (trigRange s x).1 (trigRange s x).2).card = 2 * ((s.degree - 1) / 2) + 1 ∧ (trigRange s x).2 ≤ s.degree := by
  unfold trigRange
  split
  · split <;> simp <;> omega
  · simp; omega

/-- Every trigonometric polynomial of degree at most `(points - 1) / 2` is reproduced from its samples at every `x`, for any number of
points (odd or even) that do not coincide modulo the period. -/
theorem C87_reproduces (w : ℝ) (xs : List ℝ) (hne : xs ≠ []) (f : ℝ → ℝ) (hf : TrigPoly ((xs.length - 1) / 2) w f)
    (hs : Separated w (fun i => xs.getD i 0) (range xs.length)) (x : ℝ) :
    calcTrigonometric (new xs (xs.map f)) x w = .ok (some (f x)) := by
  have hpos : 0 < (new xs (xs.map f)).degree := List.length_pos_iff.2 hne
  obtain ⟨hc, hr⟩ := trigRange_card (new xs (xs.map f)) hpos x
  have hsub : ∀ i ∈ Ico (trigRange (new xs (xs.map f)) x).1 (trigRange (new xs (xs.map f)) x).2, i < xs.length := fun i hi => by
    rw [mem_Ico] at hi; exact lt_of_lt_of_le hi.2 hr
  have hsep : Separated w (fun i => xs.getD i 0) (Ico (trigRange (new xs (xs.map f)) x).1 (trigRange (new xs (xs.map f)) x).2) :=
    fun i hi j hj hij => hs i (mem_range.2 (hsub i hi)) j (mem_range.2 (hsub j hj)) hij
  rw [calcTrig_eq _ ⟨rfl, by simp [new]⟩ hpos x w hsep]
  refine congrArg (fun y => Res.ok (some y)) (reproduces_on hsep _ hc hf (fun i hi => ?_) x)
  have := hsub i hi
  simp [new, List.getD_eq_getElem?_getD, this]

theorem trigRange_node (s : Interpolation ℝ) (w : ℝ) (hs : WellFormed s) (hsep : Separated w (fun i => s.xs.getD i 0) (range s.degree))
    (i : ℕ) (hi : i < s.degree) :
    i ∈ Ico (trigRange s (s.xs.getD i 0)).1 (trigRange s (s.xs.getD i 0)).2 := by
  have hnear : findNearestPoint s (s.xs.getD i 0) = i := by
    obtain ⟨h1, h2, h3⟩ := C86_nearest s (s.xs.getD i 0) (by omega)
    have := h2 i hi
    rw [sub_self, abs_zero] at this
    have h0 : s.xs.getD i 0 = s.xs.getD (findNearestPoint s (s.xs.getD i 0)) 0 :=
      sub_eq_zero.1 (abs_eq_zero.1 (le_antisymm this (abs_nonneg _)))
    by_contra hne
    refine hsep i (mem_range.2 hi) _ (mem_range.2 h1) (Ne.symm hne) ?_
    simp only
    rw [← h0]; simp
  unfold trigRange
  rw [hnear]
  split
  · split <;> simp <;> omega
  · simp; omega

/-- The data points themselves are returned unchanged, although with an even number of points one end point is ignored. -/
theorem C87_at_nodes (s : Interpolation ℝ) (w : ℝ) (hs : WellFormed s) (hsep : Separated w (fun i => s.xs.getD i 0) (range s.degree))
    (i : ℕ) (hi : i < s.degree) : calcTrigonometric s (s.xs.getD i 0) w = .ok (some (s.ys.getD i 0)) := by
  have hmem := trigRange_node s w hs hsep i hi
  obtain ⟨-, hr⟩ := trigRange_card s (by omega) (s.xs.getD i 0)
  have hsub : ∀ j ∈ Ico (trigRange s (s.xs.getD i 0)).1 (trigRange s (s.xs.getD i 0)).2, j < s.degree := fun j hj => by
    rw [mem_Ico] at hj; omega
  rw [calcTrig_eq s hs (by omega) _ w fun a ha b hb => hsep a (mem_range.2 (hsub a ha)) b (mem_range.2 (hsub b hb))]
  congr 2
  rw [sum_eq_single_of_mem i hmem]
  · rw [prod_eq_one, one_mul]
    intro j hj
    exact div_self (hsep i (mem_range.2 hi) j (mem_range.2 (hsub j (mem_of_mem_erase hj))) (ne_of_mem_erase hj).symm)
  · intro j hj hji
    rw [prod_eq_zero (mem_erase.2 ⟨hji.symm, hmem⟩), zero_mul]
    simp [ratio]

/-! ## what the result is -/

theorem TrigPoly.add {m : ℕ} {w : ℝ} {f g : ℝ → ℝ} (hf : TrigPoly m w f) (hg : TrigPoly m w g) : TrigPoly m w fun x => f x + g x := by
  obtain ⟨a, b, h⟩ := hf
  obtain ⟨a', b', h'⟩ := hg
  refine ⟨fun k => a k + a' k, fun k => b k + b' k, fun x => ?_⟩
  show f x + g x = _
  rw [h, h', ← sum_add_distrib]
  exact sum_congr rfl fun k _ => by ring

theorem TrigPoly.zero (m : ℕ) (w : ℝ) : TrigPoly m w fun _ => 0 := ⟨0, 0, fun x => by simp⟩

theorem TrigPoly.sum {m : ℕ} {w : ℝ} {ι : Type} (s : Finset ι) (f : ι → ℝ → ℝ) (h : ∀ i ∈ s, TrigPoly m w (f i)) :
    TrigPoly m w fun x => ∑ i ∈ s, f i x := by
  classical
  induction s using Finset.induction_on with
  | empty => simpa using TrigPoly.zero m w
  | insert i s hi ih =>
    simp only [sum_insert hi]
    exact (h i (mem_insert_self i s)).add (ih fun j hj => h j (mem_insert_of_mem hj))

theorem TrigPoly.term {m : ℕ} {w : ℝ} (k : ℕ) (hk : k ≤ m) (a b : ℝ) :
    TrigPoly m w fun x => a * Real.cos (k * (w * x)) + b * Real.sin (k * (w * x)) := by
  refine ⟨fun j => if j = k then a else 0, fun j => if j = k then b else 0, fun x => ?_⟩
  rw [sum_eq_single_of_mem k (mem_range.2 (by omega))]
  · simp
  · intro j _ hj; simp [hj]

theorem trigPoly_on {w : ℝ} {v r : ℕ → ℝ} {s : Finset ℕ} (hs : Separated w v s) (m : ℕ) (hm : s.card = 2 * m + 1) :
    TrigPoly m w fun x => ∑ i ∈ s, (∏ j ∈ s.erase i, ratio v w x i j) * r i := by
  have hQ := Lagrange.degree_interpolate_lt (fun i => (r i : ℂ) * z w (v i) ^ m) (z_injOn hs)
  have hsum := fun x => sum_interpolate (r := r) hs m hm x
  generalize Lagrange.interpolate s (fun i => z w (v i)) (fun i => (r i : ℂ) * z w (v i) ^ m) = Q at *
  rw [hm] at hQ
  have hdeg : Q.natDegree < 2 * m + 1 := by
    rcases eq_or_ne Q 0 with rfl | h0
    · simp
    · exact (natDegree_lt_iff_degree_lt h0).2 hQ
  have hval : ∀ x, ∑ i ∈ s, (∏ j ∈ s.erase i, ratio v w x i j) * r i =
      ∑ k ∈ range (2 * m + 1), (Q.coeff k * (z w x ^ k / z w x ^ m)).re := by
    intro x
    have h1 := hsum x
    have h2 := eq_div_of_mul_eq (pow_ne_zero m (z_ne w x)) h1
    rw [eval_eq_sum_range' hdeg, sum_div] at h2
    have h3 := congrArg Complex.re h2
    rw [Complex.ofReal_re, Complex.re_sum] at h3
    rw [h3]
    exact sum_congr rfl fun k _ => by rw [mul_div_assoc]
  simp only [hval]
  refine TrigPoly.sum _ _ fun k hk => ?_
  have hk := mem_range.1 hk
  rcases le_total m k with h | h
  · have : ∀ x, (Q.coeff k * (z w x ^ k / z w x ^ m)).re =
        (Q.coeff k).re * Real.cos ((k - m : ℕ) * (w * x)) + -(Q.coeff k).im * Real.sin ((k - m : ℕ) * (w * x)) := fun x => by
      rw [div_eq_mul_inv, ← pow_sub₀ _ (z_ne w x) h, z_pow]
      generalize Real.cos ((k - m : ℕ) * (w * x)) = c
      generalize Real.sin ((k - m : ℕ) * (w * x)) = d
      simp [Complex.mul_re, Complex.add_re, Complex.add_im]
      ring
    simp only [this]
    exact TrigPoly.term _ (by omega) _ _
  · have : ∀ x, (Q.coeff k * (z w x ^ k / z w x ^ m)).re =
        (Q.coeff k).re * Real.cos ((m - k : ℕ) * (w * x)) + (Q.coeff k).im * Real.sin ((m - k : ℕ) * (w * x)) := fun x => by
      have hinv : z w x ^ k / z w x ^ m = ((Real.cos ((m - k : ℕ) * (w * x)) : ℝ) : ℂ) -
          ((Real.sin ((m - k : ℕ) * (w * x)) : ℝ) : ℂ) * Complex.I := by
        have hp := z_pow w x (m - k)
        rw [div_eq_iff (pow_ne_zero m (z_ne w x)), show z w x ^ m = z w x ^ k * z w x ^ (m - k) by rw [← pow_add]; congr 1; omega, hp]
        have hcs : ((Real.cos ((m - k : ℕ) * (w * x)) : ℝ) : ℂ) ^ 2 + ((Real.sin ((m - k : ℕ) * (w * x)) : ℝ) : ℂ) ^ 2 = 1 := by
          rw [← Complex.ofReal_pow, ← Complex.ofReal_pow, ← Complex.ofReal_add, Real.cos_sq_add_sin_sq, Complex.ofReal_one]
        linear_combination -(z w x ^ k) * hcs + z w x ^ k * ((Real.sin ((m - k : ℕ) * (w * x)) : ℝ) : ℂ) ^ 2 * Complex.I_sq
      rw [hinv]
      generalize Real.cos ((m - k : ℕ) * (w * x)) = c
      generalize Real.sin ((m - k : ℕ) * (w * x)) = d
      simp [Complex.mul_re, Complex.sub_re, Complex.sub_im]
    simp only [this]
    exact TrigPoly.term _ (by omega) _ _

/-- With an odd number of points the result is one function of `x`: the only trigonometric polynomial of degree `(points - 1) / 2` through
all the data. -/
theorem C87_odd (s : Interpolation ℝ) (w : ℝ) (hs : WellFormed s) (hodd : s.degree % 2 = 1)
    (hsep : Separated w (fun i => s.xs.getD i 0) (range s.degree)) :
    ∃! f : ℝ → ℝ, (TrigPoly ((s.degree - 1) / 2) w f ∧ ∀ i < s.degree, f (s.xs.getD i 0) = s.ys.getD i 0) ∧
      ∀ x, calcTrigonometric s x w = .ok (some (f x)) := by
  have hpos : 0 < s.degree := by omega
  have hr : ∀ x, trigRange s x = (0, s.degree) := fun x => by unfold trigRange; rw [if_neg (by omega)]
  have hI : Ico 0 s.degree = range s.degree := by ext; simp
  have heq := fun x => calcTrig_eq s hs hpos x w (by rw [hr]; simpa only [hI] using hsep)
  simp only [hr, hI] at heq
  have hc : (range s.degree).card = 2 * ((s.degree - 1) / 2) + 1 := by rw [card_range]; omega
  refine ⟨fun x => ∑ i ∈ range s.degree, (∏ j ∈ (range s.degree).erase i, ratio (fun i => s.xs.getD i 0) w x i j) * s.ys.getD i 0,
    ⟨⟨trigPoly_on hsep _ hc, fun i hi => ?_⟩, heq⟩, fun g hg => ?_⟩
  · have h1 := heq (s.xs.getD i 0)
    rw [C87_at_nodes s w hs hsep i hi] at h1
    exact (Option.some.inj (Res.ok.inj h1)).symm
  · funext x
    exact (reproduces_on hsep _ hc hg.1.1 (fun i hi => hg.1.2 i (mem_range.1 hi)) x).symm

/-- With an even number of points the end point further from `x` is ignored: the result is that of the odd number of remaining points. -/
theorem C87_even (s : Interpolation ℝ) (w x : ℝ) (hs : WellFormed s) (hev : s.degree % 2 = 0) (hpos : 0 < s.degree)
    (hsep : Separated w (fun i => s.xs.getD i 0) (range s.degree)) :
    calcTrigonometric s x w =
      if findNearestPoint s x * 2 < s.degree then calcTrigonometric (new s.xs.dropLast s.ys.dropLast) x w
      else calcTrigonometric (new s.xs.tail s.ys.tail) x w := by
  obtain ⟨h1, h2⟩ := hs
  have key : ∀ (a : ℕ) (t : Interpolation ℝ), t.degree = s.degree - 1 → WellFormed t →
      trigRange s x = (a, a + (s.degree - 1)) → a + (s.degree - 1) ≤ s.degree →
      (∀ i < s.degree - 1, t.xs.getD i 0 = s.xs.getD (a + i) 0 ∧ t.ys.getD i 0 = s.ys.getD (a + i) 0) →
      calcTrigonometric s x w = calcTrigonometric t x w := by
    intro a t ht hwf hr ha hget
    have hrt : trigRange t x = (0, s.degree - 1) := by unfold trigRange; rw [if_neg (by omega), ht]
    have hsub : Separated w (fun i => s.xs.getD i 0) (Ico a (a + (s.degree - 1))) := fun i hi j hj hij => by
      rw [mem_Ico] at hi hj
      exact hsep i (mem_range.2 (by omega)) j (mem_range.2 (by omega)) hij
    have hsubt : Separated w (fun i => t.xs.getD i 0) (Ico 0 (s.degree - 1)) := fun i hi j hj hij => by
      rw [mem_Ico] at hi hj
      simp only
      rw [(hget i hi.2).1, (hget j hj.2).1]
      exact hsep (a + i) (mem_range.2 (by omega)) (a + j) (mem_range.2 (by omega)) (by omega)
    rw [calcTrig_eq s ⟨h1, h2⟩ hpos x w (by rw [hr]; exact hsub), calcTrig_eq t hwf (by omega) x w (by rw [hrt]; exact hsubt), hr, hrt]
    simp only
    congr 2
    have himg : Ico a (a + (s.degree - 1)) = (Ico 0 (s.degree - 1)).map (addLeftEmbedding a) := by
      rw [Finset.map_add_left_Ico, Nat.add_zero]
    rw [himg, sum_map]
    refine sum_congr rfl fun i hi => ?_
    rw [mem_Ico] at hi
    rw [(hget i hi.2).2]
    congr 1
    rw [← map_erase, prod_map]
    refine prod_congr rfl fun j hj => ?_
    have hj := mem_Ico.1 (mem_of_mem_erase hj)
    simp only [ratio, addLeftEmbedding_apply]
    rw [(hget i hi.2).1, (hget j hj.2).1]
  split
  · rename_i hlt
    refine key 0 _ (by simp [new]; omega) ⟨rfl, by simp [new]; omega⟩ (by unfold trigRange; rw [if_pos hev, if_pos hlt, Nat.zero_add])
      (by omega) fun i hi => ?_
    have hx : i < s.xs.length - 1 := by omega
    have hy : i < s.ys.length - 1 := by omega
    have hx' : i < s.xs.length := by omega
    have hy' : i < s.ys.length := by omega
    simp [hx', hy', new, List.getD_eq_getElem?_getD, List.getElem?_dropLast, hx, hy]
  · rename_i hlt
    refine key 1 _ (by simp [new]; omega) ⟨rfl, by simp [new]; omega⟩
      (by unfold trigRange; rw [if_pos hev, if_neg hlt, show 1 + (s.degree - 1) = s.degree by omega]) (by omega) fun i hi => ?_
    simp [new, List.getD_eq_getElem?_getD, List.getElem?_tail, Nat.add_comm 1 i]

/-- With angular frequency `0`, the default of `InterpolationOrbit::CalcPositionWithTrigonometric`, and three points or more the result
is never a finite number. -/
theorem C87_zero_frequency (s : Interpolation ℝ) (x : ℝ) (hs : WellFormed s) (h3 : 3 ≤ s.degree) :
    calcTrigonometric s x 0 = .ok none := by
  obtain ⟨h1, h2⟩ := hs
  have hne : s.xs ≠ [] := by intro h; simp [h] at h1; omega
  obtain ⟨hc, hr⟩ := trigRange_card s (by omega) x
  have hlen : 3 ≤ (trigRange s x).2 - (trigRange s x).1 := by rw [Nat.card_Ico] at hc; omega
  unfold calcTrigonometric
  simp only
  rw [if_neg (by simp [hne]; omega)]
  generalize (trigRange s x).1 = a at *
  generalize (trigRange s x).2 = b at *
  obtain ⟨n, hn⟩ : ∃ n, b - a = n + 1 + 1 := ⟨b - a - 2, by omega⟩
  have hnone : ∀ (l : List ℕ) (F : ℝ → ℕ → Option ℝ), l.foldl (fun acc i => acc.bind fun acc => F acc i) none = none := by
    intro l F
    induction l with
    | nil => rfl
    | cons i l ih => simpa using ih
  have hf : trigFactor (fun i => s.xs.getD i 0) x 0 a b a = none := by
    unfold trigFactor
    rw [hn, List.range'_succ, List.range'_succ]
    simp only [List.foldl_cons, Option.bind_some, if_true, zero_mul, zero_div, Real.sin_zero]
    rw [if_neg (by omega)]
    exact hnone _ _
  rw [hn, List.range'_succ, List.foldl_cons, Option.bind_some, hf, Option.map_none]
  rw [hnone _ fun acc i => (trigFactor (fun i => s.xs.getD i 0) x 0 a b i).map fun t => acc + t * s.ys.getD i 0]

/-! ## Examples -/

/-- Points at different times within less than one period meet the separation hypothesis. -/
theorem separated_of_close {w : ℝ} {v : ℕ → ℝ} {s : Finset ℕ} (hw : 0 < w) (hv : Set.InjOn v s)
    (h : ∀ i ∈ s, ∀ j ∈ s, v i - v j < 2 * Real.pi / w) : Separated w v s := by
  have key : ∀ i ∈ s, ∀ j ∈ s, v i < v j → Real.sin (w * (v j - v i) / 2) ≠ 0 := by
    intro i hi j hj hlt
    have h1 : 0 < w * (v j - v i) / 2 := by have := mul_pos hw (sub_pos.2 hlt); linarith
    have h2 : w * (v j - v i) / 2 < Real.pi := by
      have := mul_lt_mul_of_pos_left (h j hj i hi) hw
      rw [mul_div_cancel₀ _ hw.ne'] at this
      linarith
    exact (Real.sin_pos_of_pos_of_lt_pi h1 h2).ne'
  intro i hi j hj hij
  rcases lt_or_gt_of_ne (fun he => hij (hv hi hj he)) with hlt | hlt
  · have := key i hi j hj hlt
    rw [show w * (v i - v j) / 2 = -(w * (v j - v i) / 2) by ring, Real.sin_neg]
    exact neg_ne_zero.2 this
  · exact key j hj i hi hlt

example : Separated 1 (fun i => [0, 1, (2 : ℝ)].getD i 0) (range [0, 1, (2 : ℝ)].length) := by
  refine separated_of_close one_pos ?_ ?_
  · intro i hi j hj hij
    simp only [List.length_cons, List.length_nil, coe_range, Set.mem_Iio] at hi hj
    have : (i = 0 ∨ i = 1 ∨ i = 2) ∧ (j = 0 ∨ j = 1 ∨ j = 2) := by omega
    rcases this with ⟨rfl | rfl | rfl, rfl | rfl | rfl⟩ <;> simp_all
  · intro i hi j hj
    have hpi := Real.two_le_pi
    simp only [List.length_cons, List.length_nil, mem_range] at hi hj
    have : (i = 0 ∨ i = 1 ∨ i = 2) ∧ (j = 0 ∨ j = 1 ∨ j = 2) := by omega
    rcases this with ⟨rfl | rfl | rfl, rfl | rfl | rfl⟩ <;> simp <;> linarith

example : TrigPoly (([0, 1, (2 : ℝ)].length - 1) / 2) 1 fun x => 1 + Real.sin x :=
  ⟨fun k => if k = 0 then 1 else 0, fun k => if k = 1 then 1 else 0, fun x => by simp [sum_range_succ]⟩

end S2E.Interp
