import Verif.Model.Interpolation
import Mathlib.LinearAlgebra.Lagrange
import Mathlib.Tactic.LinearCombination
import Mathlib.Tactic.FieldSimp
import Mathlib.Data.Rat.Floor

/-!
# C86: polynomial interpolation (Neville's algorithm)

Specification: Mathlib's polynomials `K[X]`, their degree and evaluation.
-/
namespace S2E.Interp
open Polynomial

section
variable {K : Type} [Field K] [LinearOrder K]

/-- Length consistency, which the constructor does not check but every use needs. -/
def WellFormed (s : Interpolation K) : Prop := s.xs.length = s.degree ∧ s.ys.length = s.degree

/-! ## the nearest point -/

theorem nearestLoop_spec (v : ℕ → K) (x : K) (n : ℕ) :
    let r := nearestLoop v n x
    r.2 = |x - v r.1| ∧ (0 < n → r.1 < n) ∧ (∀ i < n, |x - v r.1| ≤ |x - v i|) ∧ (∀ i < r.1, |x - v r.1| < |x - v i|) ∧
      |x - v r.1| ≤ |x - v 0| := by
  induction n with
  | zero => simp [nearestLoop]
  | succ n ih =>
    obtain ⟨h1, h2, h3, h4, h5⟩ := ih
    have e : nearestLoop v (n + 1) x = (fun p i => if |x - v i| < p.2 then (i, |x - v i|) else p) (nearestLoop v n x) n := by
      simp only [nearestLoop, List.range_succ, List.foldl_append, List.foldl_cons, List.foldl_nil]
      rfl
    simp only [e]
    by_cases hlt : |x - v n| < (nearestLoop v n x).2
    · rw [if_pos hlt]
      rw [h1] at hlt
      refine ⟨rfl, fun _ => Nat.lt_succ_self n, fun i hi => ?_, fun i hi => hlt.trans_le (h3 i hi), hlt.le.trans h5⟩
      rcases Nat.lt_succ_iff_lt_or_eq.1 hi with hi | rfl
      · exact hlt.le.trans (h3 i hi)
      · exact le_rfl
    · rw [if_neg hlt]
      rw [h1] at hlt
      refine ⟨h1, fun _ => ?_, fun i hi => ?_, h4, h5⟩
      · rcases Nat.eq_zero_or_pos n with rfl | hn
        · simp [nearestLoop]
        · exact (h2 hn).trans (Nat.lt_succ_self n)
      · rcases Nat.lt_succ_iff_lt_or_eq.1 hi with hi | rfl
        · exact h3 i hi
        · exact not_lt.1 hlt

/-- The nearest point is an index of the list at minimal distance, the smallest one among equals. -/
theorem C86_nearest (s : Interpolation K) (x : K) (hpos : 0 < s.degree) :
    findNearestPoint s x < s.degree ∧
    (∀ i < s.degree, |x - s.xs.getD (findNearestPoint s x) 0| ≤ |x - s.xs.getD i 0|) ∧
    (∀ i < findNearestPoint s x, |x - s.xs.getD (findNearestPoint s x) 0| < |x - s.xs.getD i 0|) := by
  obtain ⟨-, h2, h3, h4, -⟩ := nearestLoop_spec (fun i => s.xs.getD i 0) x s.degree
  exact ⟨h2 hpos, h3, h4⟩

/-! ## Neville's scheme -/

theorem innerLoop_spec (v : ℕ → K) (x : K) (m k : ℕ) (d u : ℕ → K) (h : ∀ i < k, v i ≠ v (i + m)) :
    innerLoop v x m k (some (d, u)) = some
      (fun i => if i < k then (v i - x) * (d (i + 1) - u i) / (v i - v (i + m)) else d i,
       fun i => if i < k then (v (i + m) - x) * (d (i + 1) - u i) / (v i - v (i + m)) else u i) := by
  induction k with
  | zero => simp [innerLoop]
  | succ k ih =>
    have ih := ih fun i hi => h i (hi.trans (Nat.lt_succ_self k))
    unfold innerLoop at ih ⊢
    rw [List.range_succ, List.foldl_append, ih]
    have hk := sub_ne_zero.2 (h k (Nat.lt_succ_self k))
    simp only [List.foldl_cons, List.foldl_nil, Option.bind_some, if_neg hk, Option.some.injEq, Prod.mk.injEq]
    constructor
    · funext i
      by_cases hi : i = k
      · subst hi; simp
      · rw [Function.update_of_ne hi]
        have : i < k + 1 ↔ i < k := by omega
        simp only [this]
    · funext i
      by_cases hi : i = k
      · subst hi; simp
      · rw [Function.update_of_ne hi]
        have : i < k + 1 ↔ i < k := by omega
        simp only [this]

theorem innerLoop_none (v : ℕ → K) (x : K) (m k : ℕ) : innerLoop v x m k none = none := by
  unfold innerLoop
  induction k with
  | zero => rfl
  | succ k ih => rw [List.range_succ, List.foldl_append, ih]; rfl

theorem innerLoop_zero (v : ℕ → K) (x : K) (m k : ℕ) (st : Option ((ℕ → K) × (ℕ → K))) {i : ℕ} (hi : i < k) (h : v i = v (i + m)) :
    innerLoop v x m k st = none := by
  induction k with
  | zero => omega
  | succ k ih =>
    unfold innerLoop at ih ⊢
    rw [List.range_succ, List.foldl_append]
    rcases Nat.lt_succ_iff_lt_or_eq.1 hi with hi | rfl
    · rw [ih hi]; rfl
    · generalize List.foldl _ st (List.range i) = o
      rcases o with _ | o
      · rfl
      · simp [h]

/-- Value at `x` of the polynomial through the points `i..i+m`. -/
noncomputable def P (v r : ℕ → K) (x : K) (i m : ℕ) : K := (Lagrange.interpolate (Finset.Icc i (i + m)) v r).eval x

theorem P_zero (v r : ℕ → K) (x : K) (i : ℕ) : P v r x i 0 = r i := by simp [P, Lagrange.interpolate_singleton]

theorem P_succ (v r : ℕ → K) (x : K) (n i m : ℕ) (hv : Set.InjOn v (Finset.range n)) (hi : i + (m + 1) < n) :
    (v i - v (i + (m + 1))) * P v r x i (m + 1) = (x - v (i + (m + 1))) * P v r x i m + (v i - x) * P v r x (i + 1) m := by
  have hs : ((Finset.Icc i (i + (m + 1)) : Finset ℕ) : Set ℕ) ⊆ (Finset.range n : Finset ℕ) := by
    intro a ha; simp only [Finset.coe_Icc, Set.mem_Icc, Finset.coe_range, Set.mem_Iio] at ha ⊢; omega
  have hne : v i ≠ v (i + (m + 1)) := fun h => by
    have := hv (by simp; omega) (by simp; omega) h
    omega
  have := Lagrange.interpolate_eq_add_interpolate_erase r (hv.mono hs) (i := i) (j := i + (m + 1)) (by simp) (by simp) (by omega)
  have e1 : (Finset.Icc i (i + (m + 1))).erase (i + (m + 1)) = Finset.Icc i (i + m) := by
    ext a; simp only [Finset.mem_erase, Finset.mem_Icc]; omega
  have e2 : (Finset.Icc i (i + (m + 1))).erase i = Finset.Icc (i + 1) (i + 1 + m) := by
    ext a; simp only [Finset.mem_erase, Finset.mem_Icc]; omega
  rw [e1, e2] at this
  have h2 := congrArg (Polynomial.eval x) this
  simp only [Polynomial.eval_add, Polynomial.eval_mul, Lagrange.basisDivisor, Polynomial.eval_C, Polynomial.eval_sub,
    Polynomial.eval_X] at h2
  simp only [P]
  rw [h2]
  have hne' := sub_ne_zero.2 hne
  have hne'' := sub_ne_zero.2 hne.symm
  have hinv : (v (i + (m + 1)) - v i)⁻¹ = -(v i - v (i + (m + 1)))⁻¹ := by rw [← neg_sub, inv_neg]
  rw [hinv]
  generalize eval x (Lagrange.interpolate (Finset.Icc i (i + m)) v r) = A
  generalize eval x (Lagrange.interpolate (Finset.Icc (i + 1) (i + 1 + m)) v r) = B
  field_simp
  ring

/-- Correction of level `m` from above / below. -/
noncomputable def dn (v r : ℕ → K) (x : K) : ℕ → ℕ → K
  | 0, i => r i
  | m + 1, i => P v r x i (m + 1) - P v r x i m

@[inherit_doc dn] noncomputable def upc (v r : ℕ → K) (x : K) : ℕ → ℕ → K
  | 0, i => r i
  | m + 1, i => P v r x i (m + 1) - P v r x (i + 1) m

theorem dn_sub_up (v r : ℕ → K) (x : K) (m i : ℕ) : dn v r x m (i + 1) - upc v r x m i = P v r x (i + 1) m - P v r x i m := by
  cases m with
  | zero => simp [dn, upc, P_zero]
  | succ m => simp [dn, upc]

theorem neville (v r : ℕ → K) (x : K) (n near : ℕ) (hn : near < n) (hv : Set.InjOn v (Finset.range n)) (M : ℕ) (hM : M + 1 ≤ n) :
    ∃ d u, (List.range' 1 M).foldl (outerBody v n x near) (some ⟨r near, r, r, 1⟩) =
      some ⟨P v r x (near - M) M, d, u, min M near + 1⟩ ∧
      (∀ i, i + M < n → d i = dn v r x M i ∧ u i = upc v r x M i) := by
  induction M with
  | zero => exact ⟨r, r, by simp [P_zero], fun i _ => by simp [dn, upc]⟩
  | succ M ih =>
    obtain ⟨d, u, he, hdu⟩ := ih (by omega)
    have hne : ∀ i < n - (M + 1), v i ≠ v (i + (M + 1)) := fun i hi h => by
      have := hv (by simp; omega) (by simp; omega) h
      omega
    rw [List.range'_1_concat, List.foldl_append, he]
    simp only [List.foldl_cons, List.foldl_nil, outerBody, Option.bind_some]
    rw [show 1 + M = M + 1 by omega, innerLoop_spec v x (M + 1) _ d u hne]
    have key : ∀ i, i + (M + 1) < n →
        (v i - x) * (d (i + 1) - u i) / (v i - v (i + (M + 1))) = P v r x i (M + 1) - P v r x i M ∧
        (v (i + (M + 1)) - x) * (d (i + 1) - u i) / (v i - v (i + (M + 1))) = P v r x i (M + 1) - P v r x (i + 1) M := by
      intro i hi
      rw [(hdu (i + 1) (by omega)).1, (hdu i (by omega)).2, dn_sub_up]
      have h1 := P_succ v r x n i M hv hi
      have h2 := sub_ne_zero.2 (hne i (by omega))
      constructor
      · rw [div_eq_iff h2]; linear_combination -h1
      · rw [div_eq_iff h2]; linear_combination -h1
    refine ⟨fun i => if i < n - (M + 1) then (v i - x) * (d (i + 1) - u i) / (v i - v (i + (M + 1))) else d i,
      fun i => if i < n - (M + 1) then (v (i + (M + 1)) - x) * (d (i + 1) - u i) / (v i - v (i + (M + 1))) else u i, ?_, ?_⟩
    · simp only [Option.map_some, Option.some.injEq]
      by_cases hnear : near ≥ M + 1
      · rw [if_pos hnear]
        have hm : min M near = M := by omega
        have hm' : min (M + 1) near = M + 1 := by omega
        rw [hm, hm', if_pos (by omega), (key (near - (M + 1)) (by omega)).2]
        have : near - (M + 1) + 1 = near - M := by omega
        rw [this]
        simp
      · rw [if_neg hnear]
        have hm : min M near = near := by omega
        have hm' : min (M + 1) near = near := by omega
        rw [hm, hm', if_pos (by omega), (key 0 (by omega)).1]
        have e1 : near - M = 0 := by omega
        have e2 : near - (M + 1) = 0 := by omega
        rw [e1, e2]
        simp
    · intro i hi
      simp only
      rw [if_pos (by omega), if_pos (by omega)]
      exact key i hi

theorem injOn_of_nodup {l : List K} (h : l.Nodup) : Set.InjOn (fun i => l.getD i 0) (Finset.range l.length) := by
  intro i hi j hj hij
  simp only [Finset.coe_range, Set.mem_Iio] at hi hj
  simp only [List.getD_eq_getElem?_getD, List.getElem?_eq_getElem hi, List.getElem?_eq_getElem hj, Option.getD_some] at hij
  exact (List.Nodup.getElem_inj_iff h).1 hij

theorem calcPolynomial_eq (s : Interpolation K) (hs : WellFormed s) (hpos : 0 < s.degree) (hd : s.xs.Nodup) (x : K) :
    calcPolynomial s x = .ok (some ((Lagrange.interpolate (Finset.range s.degree) (fun i => s.xs.getD i 0)
      (fun i => s.ys.getD i 0)).eval x)) := by
  obtain ⟨h1, h2⟩ := hs
  have hne : s.xs ≠ [] := by intro h; simp [h] at h1; omega
  unfold calcPolynomial
  rw [if_neg (by simp [hne]; omega)]
  have hinj := injOn_of_nodup hd
  rw [h1] at hinj
  obtain ⟨d, u, he, -⟩ := neville _ (fun i => s.ys.getD i 0) x s.degree _ (C86_nearest s x hpos).1 hinj (s.degree - 1) (by omega)
  simp only [he, Option.map_some, Res.ok.injEq, Option.some.injEq]
  have hnear := (C86_nearest s x hpos).1
  have e : findNearestPoint s x - (s.degree - 1) = 0 := by omega
  have e' : Finset.Icc 0 (0 + (s.degree - 1)) = Finset.range s.degree := by
    ext a; simp only [Finset.mem_Icc, Finset.mem_range]; omega
  rw [e, P, e']

/-- `CalcPolynomial` evaluates the polynomial through the data: for pairwise different independent variables there is exactly one
polynomial of degree less than the number of points taking the given values, and at every `x` its value is returned. -/
theorem C86_polynomial (s : Interpolation K) (hs : WellFormed s) (hpos : 0 < s.degree) (hd : s.xs.Nodup) :
    ∃! p : K[X], (p.degree < s.degree ∧ ∀ i < s.degree, p.eval (s.xs.getD i 0) = s.ys.getD i 0) ∧
      ∀ x, calcPolynomial s x = .ok (some (p.eval x)) := by
  have hinj := injOn_of_nodup hd
  rw [hs.1] at hinj
  have hiff := fun f : K[X] => Lagrange.eq_interpolate_iff (f := f) (fun i => s.ys.getD i 0) hinj
  simp only [Finset.card_range, Finset.mem_range] at hiff
  refine ⟨_, ⟨(hiff _).2 rfl, fun x => calcPolynomial_eq s hs hpos hd x⟩, fun q hq => (hiff q).1 hq.1⟩

/-- A polynomial of degree less than the number of points is reproduced everywhere from its samples. -/
theorem C86_reproduces (p : K[X]) (xs : List K) (hd : xs.Nodup) (hne : xs ≠ []) (hp : p.degree < xs.length) (x : K) :
    calcPolynomial (new xs (xs.map fun t => p.eval t)) x = .ok (some (p.eval x)) := by
  have hpos : 0 < (new xs (xs.map fun t => p.eval t)).degree := List.length_pos_iff.2 hne
  have hwf : WellFormed (new xs (xs.map fun t => p.eval t)) := ⟨rfl, by simp [new]⟩
  obtain ⟨q, ⟨⟨hq1, hq2⟩, hq3⟩, hq⟩ := C86_polynomial _ hwf hpos hd
  have hinj := injOn_of_nodup hd
  have : p = q := by
    have hiff := fun f : K[X] => Lagrange.eq_interpolate_iff (f := f)
      (fun i => (new xs (xs.map fun t => p.eval t)).ys.getD i 0) hinj
    simp only [Finset.card_range, Finset.mem_range] at hiff
    rw [(hiff p).1 ⟨hp, fun i hi => by simp [new, List.getD_eq_getElem?_getD, hi]⟩, (hiff q).1 ⟨hq1, hq2⟩]
  rw [this, ← this]
  exact this ▸ hq3 x

/-- The data points themselves are returned unchanged. -/
theorem C86_at_nodes (s : Interpolation K) (hs : WellFormed s) (hd : s.xs.Nodup) (i : ℕ) (hi : i < s.degree) :
    calcPolynomial s (s.xs.getD i 0) = .ok (some (s.ys.getD i 0)) := by
  obtain ⟨p, ⟨⟨-, h2⟩, h3⟩, -⟩ := C86_polynomial s hs (by omega) hd
  rw [h3, h2 i hi]

theorem outer_none (v : ℕ → K) (n : ℕ) (x : K) (near : ℕ) (l : List ℕ) : l.foldl (outerBody v n x near) none = none := by
  induction l with
  | nil => rfl
  | cons a l ih => simpa [outerBody] using ih

/-- With two equal independent variables the result is not a finite number, whatever `x` is. -/
theorem C86_duplicate (s : Interpolation K) (hs : WellFormed s) (i j : ℕ) (hij : i < j) (hj : j < s.degree)
    (h : s.xs.getD i 0 = s.xs.getD j 0) (x : K) : calcPolynomial s x = .ok none := by
  obtain ⟨h1, h2⟩ := hs
  have hne : s.xs ≠ [] := by intro h; simp [h] at h1; omega
  unfold calcPolynomial
  rw [if_neg (by simp [hne]; omega)]
  have hmem : List.range' 1 (s.degree - 1) = List.range' 1 (j - i - 1) ++ (j - i) :: List.range' (j - i + 1) (s.degree - 1 - (j - i)) := by
    have e1 : List.range' 1 (s.degree - 1) = List.range' 1 (j - i - 1) ++ List.range' (j - i) (s.degree - (j - i)) := by
      have := List.range'_append_1 (s := 1) (m := j - i - 1) (n := s.degree - (j - i))
      rw [show 1 + (j - i - 1) = j - i by omega] at this
      rw [this]; congr 1; omega
    rw [e1, show s.degree - (j - i) = (s.degree - 1 - (j - i)) + 1 by omega, List.range'_succ]
  simp only [hmem, List.foldl_append, List.foldl_cons]
  generalize List.foldl _ _ (List.range' 1 (j - i - 1)) = st
  have : outerBody (fun i => s.xs.getD i 0) s.degree x (findNearestPoint s x) st (j - i) = none := by
    unfold outerBody
    rcases st with _ | st
    · rfl
    · rw [Option.bind_some, innerLoop_zero (i := i) _ _ _ _ _ (by omega)]
      · rfl
      · rw [show i + (j - i) = j by omega]; exact h
  rw [this, outer_none]; rfl

/-- The object is read out of range exactly when it is empty or was built from a shorter list of dependent variables. -/
theorem C86_ub (xs ys : List K) (x : K) : calcPolynomial (new xs ys) x = .ub ↔ xs = [] ∨ ys.length < xs.length := by
  unfold calcPolynomial new
  simp only [lt_irrefl, false_or]
  split <;> simp_all

end

/-! ## Examples -/

example : calcPolynomial (new [0, 1, 3, (4 : ℚ)] [1, 2, 28, 65]) 2 = .ok (some 9) := by decide +kernel
example : WellFormed (new [0, 1, 3, (4 : ℚ)] [1, 2, 28, 65]) ∧ (new [0, 1, 3, (4 : ℚ)] [1, 2, 28, 65]).xs.Nodup :=
  ⟨⟨rfl, rfl⟩, by decide +kernel⟩
example : (X ^ 3 + 1 : ℚ[X]).degree < [0, 1, 3, (4 : ℚ)].length := by
  refine lt_of_le_of_lt (Polynomial.degree_add_le _ _) ?_
  rw [Polynomial.degree_X_pow]
  simp only [List.length_cons, List.length_nil, max_lt_iff]
  exact ⟨by norm_num, lt_of_le_of_lt Polynomial.degree_one_le (by norm_num)⟩
example : calcPolynomial (new [0, 1, 1, (4 : ℚ)] [1, 2, 28, 65]) 2 = .ok none := by decide +kernel
example : calcPolynomial (new [0, 1, 3, (4 : ℚ)] [1, 2, 28]) 2 = .ub := by decide +kernel

end S2E.Interp
