import Verif.Spec.Butcher
import Mathlib.Analysis.Calculus.TaylorIntegral
import Mathlib.Analysis.Calculus.MeanValue
import Mathlib.Analysis.Asymptotics.Lemmas
import Mathlib.Analysis.Normed.Module.Multilinear.Basic
import Mathlib.Tactic.Ring
import Mathlib.Tactic.FieldSimp

/-! # Butcher's theorem: the order conditions give the local error bound -/

namespace S2E.Butcher

open Asymptotics Filter Topology Finset

namespace Tree

theorem one_le_size (τ : Tree) : 1 ≤ τ.size := by
  cases τ; simp [size]

theorem density_ne_zero (τ : Tree) : τ.density ≠ 0 := by
  induction τ with
  | node m c ih =>
    simp only [density]
    refine mul_ne_zero ?_ (Finset.prod_ne_zero_iff.2 fun l _ => ih l)
    exact_mod_cast (by omega : (1 + ∑ l, (c l).size) ≠ 0)

end Tree

open Classical in
/-- All trees with at most `n` vertices. -/
noncomputable def upTo : ℕ → Finset Tree
  | 0 => ∅
  | n + 1 => (range (n + 1)).biUnion fun m =>
      ((Fintype.piFinset fun _ : Fin m => upTo n).image (Tree.node m)).filter (·.size ≤ n + 1)

theorem mem_upTo (n : ℕ) (τ : Tree) : τ ∈ upTo n ↔ τ.size ≤ n := by
  induction n generalizing τ with
  | zero =>
    have := τ.one_le_size
    simp [upTo]; omega
  | succ n ih =>
    classical
    obtain ⟨m, c⟩ := τ
    simp only [upTo, mem_biUnion, mem_filter, mem_image, Fintype.mem_piFinset, mem_range]
    constructor
    · rintro ⟨k, hk, ⟨-, h⟩⟩; exact h
    · intro h
      refine ⟨m, ?_, ⟨c, fun l => ?_, rfl⟩, h⟩
      · have : ∑ l : Fin m, 1 ≤ ∑ l, (c l).size := sum_le_sum fun l _ => (c l).one_le_size
        simp only [sum_const, card_univ, Fintype.card_fin, smul_eq_mul, mul_one] at this
        simp only [Tree.size] at h; omega
      · rw [ih]
        have : (c l).size ≤ ∑ l, (c l).size :=
          single_le_sum (f := fun l => (c l).size) (fun _ _ => Nat.zero_le _) (mem_univ l)
        simp only [Tree.size] at h; omega

theorem sum_upTo_succ {M : Type*} [AddCommMonoid M] (n : ℕ) (g : Tree → M) :
    ∑ τ ∈ upTo (n + 1), g τ = ∑ m ∈ range (n + 1),
      ∑ c ∈ (Fintype.piFinset fun _ : Fin m => upTo n) with (Tree.node m c).size ≤ n + 1,
        g (Tree.node m c) := by
  classical
  have e : upTo (n + 1) = (range (n + 1)).biUnion fun m =>
      ((Fintype.piFinset fun _ : Fin m => upTo n).image (Tree.node m)).filter (·.size ≤ n + 1) := by
    ext τ; simp only [upTo, mem_biUnion, mem_filter, mem_image]
  rw [e, sum_biUnion]
  · refine sum_congr rfl fun m _ => ?_
    rw [filter_image, sum_image]
    intro a _ b _ h
    simpa using h
  · intro a _ b _ hab
    simp only [Function.onFun]
    rw [disjoint_left]
    intro τ h1 h2
    simp only [mem_filter, mem_image] at h1 h2
    obtain ⟨⟨c1, _, rfl⟩, _⟩ := h1
    obtain ⟨⟨c2, _, h⟩, _⟩ := h2
    exact hab (by injection h with h _; exact h.symm)

variable {E : Type*} [NormedAddCommGroup E] [NormedSpace ℝ E]

/-- Elementary differential of a tree for the Taylor coefficients `q`. -/
def elem (q : FormalMultilinearSeries ℝ E E) : Tree → E
  | .node m c => q m fun l => elem q (c l)

/-- Product of `c` over the subtrees at the root. -/
def rootProd (c : Tree → ℝ) : Tree → ℝ
  | .node _ ch => ∏ l, c (ch l)

theorem pow_isBigO_pow {m n : ℕ} (h : n ≤ m) : (fun x : ℝ => x ^ m) =O[𝓝 0] fun x : ℝ => x ^ n := by
  obtain ⟨k, rfl⟩ := Nat.exists_eq_add_of_le h
  have : (fun x : ℝ => x ^ k) =O[𝓝 0] fun _ => (1 : ℝ) :=
    ((continuous_pow k).tendsto 0).isBigO_one ℝ
  simpa [pow_add] using (isBigO_refl (fun x : ℝ => x ^ n) (𝓝 0)).mul this

theorem smul_pow_isBigO {m n : ℕ} (h : n ≤ m) (v : E) :
    (fun x : ℝ => x ^ m • v) =O[𝓝 0] fun x : ℝ => x ^ n := by
  refine IsBigO.trans ?_ (pow_isBigO_pow h)
  refine isBigO_iff.2 ⟨‖v‖, Eventually.of_forall fun x => ?_⟩
  rw [norm_smul, mul_comm]

/-- Substituting an expansion into a multilinear map. -/
theorem multilinear_diff {m n : ℕ} (g : E [×m]→L[ℝ] E) (u v : ℝ → E)
    (hv : v =O[𝓝 0] fun x : ℝ => x) (huv : (fun x => u x - v x) =O[𝓝 0] fun x : ℝ => x ^ (n + 1)) :
    (fun x => (g fun _ => u x) - g fun _ => v x) =O[𝓝 0] fun x : ℝ => x ^ (n + 1) := by
  have hu : u =O[𝓝 0] fun x : ℝ => x := by
    have := huv.trans (pow_isBigO_pow (show 1 ≤ n + 1 by omega))
    simp only [pow_one] at this
    simpa using this.add hv
  have h1 : (fun _ : ℝ => (1 : ℝ)) =O[𝓝 0] fun _ : ℝ => (1 : ℝ) := isBigO_refl _ _
  have hid : (fun x : ℝ => x) =O[𝓝 0] fun _ : ℝ => (1 : ℝ) := by
    simpa using pow_isBigO_pow (m := 1) (n := 0) (by omega)
  obtain ⟨C1, hC1⟩ := (hu.trans hid).bound
  obtain ⟨C2, hC2⟩ := (hv.trans hid).bound
  refine IsBigO.trans ?_ huv
  set C := max 0 (max C1 C2)
  refine isBigO_iff.2 ⟨‖g‖ * m * C ^ (m - 1), ?_⟩
  filter_upwards [hC1, hC2] with x h1 h2
  have := g.norm_image_sub_le (fun _ => u x) (fun _ => v x)
  simp only [Fintype.card_fin] at this
  refine this.trans ?_
  have e : ‖(fun _ : Fin m => u x) - fun _ => v x‖ ≤ ‖u x - v x‖ := by
    have : ((fun _ : Fin m => u x) - fun _ => v x) = fun _ => u x - v x := rfl
    rw [this]
    exact pi_norm_const_le (u x - v x)
  have b : max ‖fun _ : Fin m => u x‖ ‖fun _ : Fin m => v x‖ ≤ C := by
    simp only [norm_one, mul_one] at h1 h2
    refine max_le ((pi_norm_const_le _).trans (h1.trans ?_)) ((pi_norm_const_le _).trans (h2.trans ?_))
    · exact (le_max_left _ _).trans (le_max_right _ _)
    · exact (le_max_right _ _).trans (le_max_right _ _)
  gcongr

/-- The Taylor hypothesis: `f (y₀ + u)` agrees with the `q`-polynomial up to `O(‖u‖ⁿ)`, `n ≤ p`. -/
def Taylor (f : E → E) (y0 : E) (q : FormalMultilinearSeries ℝ E E) (p : ℕ) : Prop :=
  ∀ n ≤ p, (fun u : E => f (y0 + u) - ∑ m ∈ range n, q m fun _ => u) =O[𝓝 0] fun u => ‖u‖ ^ n

theorem expansion_small {n : ℕ} (q : FormalMultilinearSeries ℝ E E) (c : Tree → ℝ) :
    (fun x : ℝ => ∑ τ ∈ upTo n, (x ^ τ.size * c τ) • elem q τ) =O[𝓝 0] fun x : ℝ => x := by
  refine IsBigO.fun_sum fun τ _ => ?_
  have := smul_pow_isBigO τ.one_le_size (c τ • elem q τ)
  simpa [mul_smul] using this

/-- Key step: an expansion of `u` over trees gives one of `f (y₀ + u)`. -/
theorem compose_expansion {f : E → E} {y0 : E} {q : FormalMultilinearSeries ℝ E E} {p n : ℕ}
    (hf : Taylor f y0 q p) (hn : n < p) (c : Tree → ℝ) (u : ℝ → E)
    (hu : (fun x => u x - ∑ τ ∈ upTo n, (x ^ τ.size * c τ) • elem q τ) =O[𝓝 0]
      fun x : ℝ => x ^ (n + 1)) :
    (fun x => f (y0 + u x) - ∑ τ ∈ upTo (n + 1), (x ^ (τ.size - 1) * rootProd c τ) • elem q τ)
      =O[𝓝 0] fun x : ℝ => x ^ (n + 1) := by
  classical
  set v : ℝ → E := fun x => ∑ τ ∈ upTo n, (x ^ τ.size * c τ) • elem q τ with hvdef
  have hv : v =O[𝓝 0] fun x : ℝ => x := expansion_small q c
  have hu1 : u =O[𝓝 0] fun x : ℝ => x := by
    have := hu.trans (pow_isBigO_pow (show 1 ≤ n + 1 by omega))
    simp only [pow_one] at this
    have h2 := this.add hv
    simp only [hvdef, sub_add_cancel] at h2
    exact h2
  have hu0 : Tendsto u (𝓝 0) (𝓝 0) := hu1.trans_tendsto tendsto_id
  -- Taylor
  have t1 : (fun x => f (y0 + u x) - ∑ m ∈ range (n + 1), q m fun _ => u x) =O[𝓝 0]
      fun x : ℝ => x ^ (n + 1) := by
    refine ((hf (n + 1) (by omega)).comp_tendsto hu0).trans ?_
    simpa [Function.comp_def] using (hu1.norm_left.pow (n + 1))
  -- replace u by v
  have t2 : (fun x => (∑ m ∈ range (n + 1), q m fun _ => u x) - ∑ m ∈ range (n + 1), q m fun _ => v x)
      =O[𝓝 0] fun x : ℝ => x ^ (n + 1) := by
    simp only [← sum_sub_distrib]
    exact IsBigO.fun_sum fun m _ => multilinear_diff (q m) u v hv hu
  -- expand
  have t3 : (fun x => (∑ m ∈ range (n + 1), q m fun _ => v x) -
      ∑ τ ∈ upTo (n + 1), (x ^ (τ.size - 1) * rootProd c τ) • elem q τ)
      =O[𝓝 0] fun x : ℝ => x ^ (n + 1) := by
    have key : ∀ (x : ℝ) (m : ℕ), (q m fun _ => v x) =
        ∑ r ∈ Fintype.piFinset fun _ : Fin m => upTo n,
          (x ^ ((Tree.node m r).size - 1) * rootProd c (Tree.node m r)) • elem q (Tree.node m r) := by
      intro x m
      have := (q m).toMultilinearMap.map_sum_finset
        (fun _ τ => (x ^ τ.size * c τ) • elem q τ) (fun _ : Fin m => upTo n)
      refine (this.trans (sum_congr rfl fun r _ => ?_))
      rw [MultilinearMap.map_smul_univ]
      congr 1
      rw [prod_mul_distrib, prod_pow_eq_pow_sum]
      simp [Tree.size, rootProd]
    simp only [sum_upTo_succ, key, ← sum_sub_distrib]
    refine IsBigO.fun_sum fun m _ => ?_
    simp only [sum_filter]
    simp only [← sum_sub_distrib]
    refine IsBigO.fun_sum fun r _ => ?_
    by_cases h : (Tree.node m r).size ≤ n + 1
    · simp only [h, if_true, sub_self]
      exact isBigO_zero _ _
    · simp only [h, if_false, sub_zero]
      have := smul_pow_isBigO (n := n + 1) (m := (Tree.node m r).size - 1) (by omega)
        (rootProd c (Tree.node m r) • elem q (Tree.node m r))
      simpa [mul_smul] using this
  simpa using (t1.add t2).add t3

/-- If `g 0 = 0` and `g' = O(xⁿ)` then `g = O(xⁿ⁺¹)`. -/
theorem integrate_isBigO {n : ℕ} {g g' : ℝ → E} (h0 : g 0 = 0)
    (hd : ∀ᶠ x in 𝓝 (0 : ℝ), HasDerivAt g (g' x) x) (hO : g' =O[𝓝 0] fun x : ℝ => x ^ n) :
    g =O[𝓝 0] fun x : ℝ => x ^ (n + 1) := by
  obtain ⟨C, hC⟩ := hO.bound
  obtain ⟨ε, hε, hball⟩ := Metric.eventually_nhds_iff_ball.1 (hd.and hC)
  refine isBigO_iff.2 ⟨C, ?_⟩
  filter_upwards [Metric.ball_mem_nhds 0 hε] with x hx
  have hxε : |x| < ε := by simpa using hx
  have hsub : ∀ y ∈ Metric.closedBall (0 : ℝ) |x|, y ∈ Metric.ball (0 : ℝ) ε := fun y hy => by
    simp only [Metric.mem_closedBall, dist_zero_right, Real.norm_eq_abs, Metric.mem_ball] at hy ⊢
    exact hy.trans_lt hxε
  have := (convex_closedBall (0 : ℝ) |x|).norm_image_sub_le_of_norm_hasDerivWithin_le
    (f := g) (f' := g') (C := C * |x| ^ n) (x := 0) (y := x)
    (fun y hy => (hball y (hsub y hy)).1.hasDerivWithinAt)
    (fun y hy => by
      refine (hball y (hsub y hy)).2.trans ?_
      have hC0 : 0 ≤ C * ‖y ^ n‖ := (norm_nonneg _).trans (hball y (hsub y hy)).2
      simp only [Metric.mem_closedBall, dist_zero_right, Real.norm_eq_abs] at hy
      rw [norm_pow, Real.norm_eq_abs] at hC0 ⊢
      rcases lt_or_ge C 0 with h | h
      · have : |y| ^ n = 0 := le_antisymm (by
          by_contra hne
          push Not at hne
          exact absurd hC0 (not_le.2 (mul_neg_of_neg_of_pos h hne))) (by positivity)
        have h00 := (hball 0 (by simpa using hε)).2
        have h1 : 0 ≤ C * ‖(0:ℝ) ^ n‖ := (norm_nonneg _).trans h00
        rcases Nat.eq_zero_or_pos n with rfl | hn
        · simp at this
        · have hx' := (hball x hx).2
          have h2 : 0 ≤ C * ‖x ^ n‖ := (norm_nonneg _).trans hx'
          rw [norm_pow, Real.norm_eq_abs] at h2
          rw [this]; simpa using h2
      · gcongr)
    (by simp) (by simp)
  rw [h0, sub_zero, sub_zero] at this
  refine this.trans (le_of_eq ?_)
  rw [norm_pow, Real.norm_eq_abs]; ring

theorem Taylor.isBigO_one {f : E → E} {y0 : E} {q : FormalMultilinearSeries ℝ E E} {p : ℕ}
    (hf : Taylor f y0 q p) {u : ℝ → E} (hu : Tendsto u (𝓝 0) (𝓝 0)) :
    (fun x => f (y0 + u x)) =O[𝓝 0] fun _ => (1 : ℝ) := by
  simpa [Function.comp_def] using (hf 0 (Nat.zero_le _)).comp_tendsto hu

theorem smul_isBigO_one {v : ℝ → E} (hv : v =O[𝓝 0] fun _ => (1 : ℝ)) :
    (fun x => x • v x) =O[𝓝 0] fun x : ℝ => x := by
  simpa using (isBigO_refl (fun x : ℝ => x) (𝓝 0)).smul hv

/-- The slopes of an explicit Runge-Kutta method, expanded over trees. -/
theorem stage_expansion {f : E → E} {y0 : E} {q : FormalMultilinearSeries ℝ E E} {p s : ℕ}
    (hf : Taylor f y0 q p) (a : ℕ → ℕ → ℚ) (hexp : ∀ i j, i ≤ j → a i j = 0) (K : ℝ → ℕ → E)
    (hK : ∀ h, ∀ i < s, K h i = f (y0 + h • ∑ j ∈ range s, (a i j : ℝ) • K h j)) :
    ∀ n ≤ p, ∀ i < s,
      (fun h => K h i - ∑ τ ∈ upTo n, (h ^ (τ.size - 1) * (τ.weight s a i : ℝ)) • elem q τ)
        =O[𝓝 0] fun h : ℝ => h ^ n := by
  have hbdd : ∀ i < s, (fun h => K h i) =O[𝓝 0] fun _ => (1 : ℝ) := by
    intro i
    induction i using Nat.strong_induction_on with
    | _ i ih =>
      intro hi
      simp only [hK _ i hi]
      have h1 : (fun h => ∑ j ∈ range s, (a i j : ℝ) • K h j) =O[𝓝 0] fun _ => (1 : ℝ) := by
        refine IsBigO.fun_sum fun j hj => ?_
        rcases lt_or_ge j i with h | h
        · exact (ih j h (mem_range.1 hj)).const_smul_left _
        · simp only [hexp i j h, Rat.cast_zero, zero_smul]
          exact isBigO_zero _ _
      exact hf.isBigO_one ((smul_isBigO_one h1).trans_tendsto tendsto_id)
  intro n
  induction n with
  | zero => intro _ i hi; simpa [upTo] using hbdd i hi
  | succ n ih =>
    intro hn i hi
    set c : Tree → ℝ := fun τ => ∑ j ∈ range s, (a i j : ℝ) * (τ.weight s a j : ℝ) with hc
    have hu : (fun h : ℝ => h • (∑ j ∈ range s, (a i j : ℝ) • K h j) -
        ∑ τ ∈ upTo n, (h ^ τ.size * c τ) • elem q τ) =O[𝓝 0] fun h : ℝ => h ^ (n + 1) := by
      have h1 : (fun h : ℝ => ∑ j ∈ range s, (a i j : ℝ) • (K h j -
          ∑ τ ∈ upTo n, (h ^ (τ.size - 1) * (τ.weight s a j : ℝ)) • elem q τ))
          =O[𝓝 0] fun h : ℝ => h ^ n :=
        IsBigO.fun_sum fun j hj => (ih (by omega) j (mem_range.1 hj)).const_smul_left _
      have h2 := (isBigO_refl (fun x : ℝ => x) (𝓝 0)).smul h1
      simp only [smul_eq_mul, ← pow_succ'] at h2
      refine h2.congr_left fun h => ?_
      simp only [smul_sub, sum_sub_distrib]
      congr 1
      simp only [smul_sum]
      rw [sum_comm]
      refine sum_congr rfl fun τ _ => ?_
      simp only [smul_smul, ← sum_smul, hc]
      congr 1
      rw [mul_sum]
      refine sum_congr rfl fun j _ => ?_
      obtain ⟨k, hk⟩ := Nat.exists_eq_add_of_le τ.one_le_size
      rw [hk, Nat.add_sub_cancel_left, pow_add, pow_one]; ring
    have := compose_expansion hf (by omega : n < p) c _ hu
    refine this.congr_left fun h => ?_
    rw [hK h i hi]
    congr 1
    refine sum_congr rfl fun τ _ => ?_
    congr 2
    cases τ with
    | node m ch => simp [rootProd, Tree.weight, hc]

/-- The exact solution, expanded over trees. -/
theorem exact_expansion {f : E → E} {y0 : E} {q : FormalMultilinearSeries ℝ E E} {p : ℕ}
    (hf : Taylor f y0 q p) (y : ℝ → E) (h0 : y 0 = y0)
    (hy : ∀ᶠ h in 𝓝 (0 : ℝ), HasDerivAt y (f (y h)) h) :
    ∀ n ≤ p, (fun h => y h - y0 - ∑ τ ∈ upTo n, (h ^ τ.size * (1 / (τ.density : ℝ))) • elem q τ)
      =O[𝓝 0] fun h : ℝ => h ^ (n + 1) := by
  have hcont : Tendsto (fun h => y h - y0) (𝓝 0) (𝓝 0) := by
    have := hy.self_of_nhds.continuousAt.tendsto
    rw [h0] at this
    simpa using this.sub_const y0
  have hfy : ∀ h, f (y0 + (y h - y0)) = f (y h) := fun h => by simp
  intro n
  induction n with
  | zero =>
    intro _
    have hb := hf.isBigO_one hcont
    simp only [hfy] at hb
    have := integrate_isBigO (n := 0) (g := fun h => y h - y0) (g' := fun h => f (y h))
      (by simp [h0]) (hy.mono fun x hx => hx.sub_const y0) (by simpa using hb)
    simpa [upTo] using this
  | succ n ih =>
    intro hn
    have hu := ih (by omega)
    have := compose_expansion hf (by omega : n < p) (fun τ => 1 / (τ.density : ℝ)) _ hu
    simp only [hfy] at this
    refine integrate_isBigO ?_ ?_ this
    · simp only [h0, sub_self, zero_sub, neg_eq_zero]
      refine sum_eq_zero fun τ _ => ?_
      rw [zero_pow (by have := τ.one_le_size; omega), zero_mul, zero_smul]
    · filter_upwards [hy] with x hx
      refine (hx.sub_const y0).sub (HasDerivAt.fun_sum fun τ _ => ?_)
      refine HasDerivAt.smul_const ?_ _
      refine ((hasDerivAt_pow τ.size x).mul_const _).congr_deriv ?_
      cases τ with
      | node m ch =>
        have hne : ∀ l, ((ch l).density : ℝ) ≠ 0 := fun l => by
          exact_mod_cast (ch l).density_ne_zero
        simp only [rootProd, Tree.density, Tree.size, Rat.cast_mul, Rat.cast_natCast, Rat.cast_prod,
          one_div, mul_inv, prod_inv_distrib]
        have hs : ((1 + ∑ l, (ch l).size : ℕ) : ℝ) ≠ 0 := by
          exact_mod_cast (by omega : (1 + ∑ l, (ch l).size) ≠ 0)
        field_simp

/-- Butcher's theorem with a scale: if `∑ᵢ βᵢ Φᵢ(τ) = σ^|τ| / γ(τ)` for all trees with at most `p`
vertices then `y₀ + h ∑ᵢ βᵢ kᵢ` approximates `y (σ h)` to `O(h^(p+1))`. -/
theorem local_error {f : E → E} {y0 : E} {q : FormalMultilinearSeries ℝ E E} {p s : ℕ}
    (hf : Taylor f y0 q p) (a : ℕ → ℕ → ℚ) (hexp : ∀ i j, i ≤ j → a i j = 0) (K : ℝ → ℕ → E)
    (hK : ∀ h, ∀ i < s, K h i = f (y0 + h • ∑ j ∈ range s, (a i j : ℝ) • K h j))
    (y : ℝ → E) (h0 : y 0 = y0) (hy : ∀ᶠ h in 𝓝 (0 : ℝ), HasDerivAt y (f (y h)) h)
    (σ : ℝ) (β : ℕ → ℝ)
    (hord : ∀ τ : Tree, τ.size ≤ p →
      ∑ i ∈ range s, β i * (τ.weight s a i : ℝ) = σ ^ τ.size / (τ.density : ℝ)) :
    (fun h => y (σ * h) - (y0 + h • ∑ i ∈ range s, β i • K h i)) =O[𝓝 0]
      fun h : ℝ => h ^ (p + 1) := by
  have hs := stage_expansion hf a hexp K hK p le_rfl
  have he := exact_expansion hf y h0 hy p le_rfl
  have hσ : Tendsto (fun h : ℝ => σ * h) (𝓝 0) (𝓝 0) := by
    simpa using (continuous_const_mul σ).tendsto 0
  have he' := he.comp_tendsto hσ
  have e1 : (fun h : ℝ => y (σ * h) - y0 -
      ∑ τ ∈ upTo p, ((σ * h) ^ τ.size * (1 / (τ.density : ℝ))) • elem q τ) =O[𝓝 0]
      fun h : ℝ => h ^ (p + 1) := by
    refine he'.trans ?_
    refine isBigO_iff.2 ⟨|σ| ^ (p + 1), Eventually.of_forall fun x => ?_⟩
    simp [Function.comp_def, mul_pow]
  have h1 : (fun h : ℝ => ∑ i ∈ range s, β i • (K h i -
      ∑ τ ∈ upTo p, (h ^ (τ.size - 1) * (τ.weight s a i : ℝ)) • elem q τ)) =O[𝓝 0]
      fun h : ℝ => h ^ p :=
    IsBigO.fun_sum fun i hi => (hs i (mem_range.1 hi)).const_smul_left _
  have h2 := (isBigO_refl (fun x : ℝ => x) (𝓝 0)).smul h1
  simp only [smul_eq_mul, ← pow_succ'] at h2
  refine (e1.sub h2).congr_left fun h => ?_
  have e : h • ∑ i ∈ range s, β i •
      ∑ τ ∈ upTo p, (h ^ (τ.size - 1) * (τ.weight s a i : ℝ)) • elem q τ =
      ∑ τ ∈ upTo p, ((σ * h) ^ τ.size * (1 / (τ.density : ℝ))) • elem q τ := by
    simp only [smul_sum]
    rw [sum_comm]
    refine sum_congr rfl fun τ hτ => ?_
    simp only [smul_smul, ← sum_smul]
    congr 1
    have := hord τ ((mem_upTo _ _).1 hτ)
    rw [mul_pow, mul_assoc, mul_comm (h ^ _), ← mul_assoc, mul_one_div, ← this, sum_mul]
    refine sum_congr rfl fun j _ => ?_
    obtain ⟨k, hk⟩ := Nat.exists_eq_add_of_le τ.one_le_size
    rw [hk, Nat.add_sub_cancel_left, pow_add, pow_one]; ring
  rw [← e]
  simp only [smul_sub, sum_sub_distrib]
  abel

/-- A `Cᵖ` map satisfies the Taylor hypothesis. -/
theorem taylor_of_contDiffAt [CompleteSpace E] {f : E → E} {y0 : E} {p : ℕ}
    (hf : ContDiffAt ℝ p f y0) :
    Taylor f y0 (fun m => ((m.factorial : ℝ)⁻¹) • iteratedFDeriv ℝ m f y0) p := by
  intro n hn
  rcases n with _ | n
  · have : ContinuousAt f y0 := hf.continuousAt
    have h2 : Tendsto (fun u => f (y0 + u)) (𝓝 0) (𝓝 (f y0)) := by
      have h3 : Tendsto (fun u => y0 + u) (𝓝 0) (𝓝 y0) := by
        simpa using (continuous_const_add y0).tendsto 0
      exact this.tendsto.comp h3
    simpa using h2.isBigO_one ℝ
  have hf' : ContDiffAt ℝ ((n : WithTop ℕ∞) + 1) f y0 := hf.of_le (by exact_mod_cast hn)
  have hev : ∀ᶠ z in 𝓝 y0, ContDiffAt ℝ ((n : WithTop ℕ∞) + 1) f z := by
    have := hf'.eventually (by
      rw [show ((n : WithTop ℕ∞) + 1) = ((n + 1 : ℕ) : WithTop ℕ∞) by push_cast; rfl]
      exact_mod_cast ENat.natCast_ne_top (n + 1))
    exact this
  have hcont : ContinuousAt (iteratedFDeriv ℝ (n + 1) f) y0 :=
    hf'.continuousAt_iteratedFDeriv (by exact_mod_cast le_rfl)
  have hb : ∀ᶠ z in 𝓝 y0, ‖iteratedFDeriv ℝ (n + 1) f z‖ < ‖iteratedFDeriv ℝ (n + 1) f y0‖ + 1 :=
    hcont.norm.eventually_lt continuousAt_const (by linarith)
  obtain ⟨ε, hε, hball⟩ := Metric.eventually_nhds_iff_ball.1 (hev.and hb)
  set M := ‖iteratedFDeriv ℝ (n + 1) f y0‖ + 1
  refine isBigO_iff.2 ⟨((n.factorial : ℝ))⁻¹ * M, ?_⟩
  filter_upwards [Metric.ball_mem_nhds (0 : E) hε] with u hu
  have hin : ∀ t ∈ Set.Icc (0 : ℝ) 1, y0 + t • u ∈ Metric.ball y0 ε := fun t ht => by
    simp only [Metric.mem_ball, dist_zero_right] at hu
    simp only [Metric.mem_ball, dist_self_add_left, norm_smul, Real.norm_eq_abs, abs_of_nonneg ht.1]
    exact (mul_le_of_le_one_left (norm_nonneg _) ht.2).trans_lt hu
  have key := map_add_eq_sum_add_integral_iteratedFDeriv (f := f) (x := y0) (y := u) (n := n)
    fun t ht => (hball _ (hin t ht)).1
  have e : f (y0 + u) - ∑ m ∈ range (n + 1),
      (((m.factorial : ℝ)⁻¹) • iteratedFDeriv ℝ m f y0 : E [×m]→L[ℝ] E) (fun _ => u) =
      (n.factorial : ℝ)⁻¹ • ∫ t in (0 : ℝ)..1, (1 - t) ^ n •
        iteratedFDeriv ℝ (n + 1) f (y0 + t • u) (fun _ => u) := by
    rw [key]; simp
  rw [e, norm_smul]
  have hI : ‖∫ t in (0 : ℝ)..1, (1 - t) ^ n •
      iteratedFDeriv ℝ (n + 1) f (y0 + t • u) (fun _ => u)‖ ≤ (M * ‖u‖ ^ (n + 1)) * |1 - 0| := by
    refine intervalIntegral.norm_integral_le_of_norm_le_const fun t ht => ?_
    rw [Set.uIoc_of_le zero_le_one] at ht
    have ht' : t ∈ Set.Icc (0 : ℝ) 1 := ⟨ht.1.le, ht.2⟩
    rw [norm_smul]
    have b1 : ‖(1 - t) ^ n‖ ≤ 1 := by
      rw [norm_pow, Real.norm_eq_abs, abs_of_nonneg (by linarith [ht.2])]
      exact pow_le_one₀ (by linarith [ht.2]) (by linarith [ht.1])
    have b2 : ‖iteratedFDeriv ℝ (n + 1) f (y0 + t • u) (fun _ => u)‖ ≤ M * ‖u‖ ^ (n + 1) := by
      refine (ContinuousMultilinearMap.le_opNorm _ _).trans ?_
      simp only [prod_const, card_univ, Fintype.card_fin]
      have := (hball _ (hin t ht')).2.le
      gcongr
    calc _ ≤ 1 * (M * ‖u‖ ^ (n + 1)) := mul_le_mul b1 b2 (norm_nonneg _) zero_le_one
      _ = _ := one_mul _
  rw [sub_zero, abs_one, mul_one] at hI
  rw [Real.norm_of_nonneg (by positivity), Real.norm_of_nonneg (by positivity), mul_assoc]
  gcongr

end S2E.Butcher
