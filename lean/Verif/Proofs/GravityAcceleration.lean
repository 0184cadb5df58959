import Verif.Proofs.GravityTables
/-!
# The loops of the acceleration add up the gradients of the harmonics
-/
namespace S2E.Gravity
open Polynomial TwoBody GravityModel

/-- Gradient of `sv n m`. -/
noncomputable def gsv (p : Fin 3 → ℝ) (n : ℕ) : ℕ → Fin 3 → ℝ
  | 0 => ![-(sv (n + 1) 1 p), -(sw (n + 1) 1 p), -(n + 1) * sv (n + 1) 0 p]
  | m + 1 => ![(-(sv (n + 1) (m + 2) p) + (n - m + 1) * (n - m) * sv (n + 1) m p) / 2,
      (-(sw (n + 1) (m + 2) p) - (n - m + 1) * (n - m) * sw (n + 1) m p) / 2, -(n - m) * sv (n + 1) (m + 1) p]

/-- Gradient of `sw n m`. -/
noncomputable def gsw (p : Fin 3 → ℝ) (n : ℕ) : ℕ → Fin 3 → ℝ
  | 0 => 0
  | m + 1 => ![(-(sw (n + 1) (m + 2) p) + (n - m + 1) * (n - m) * sw (n + 1) m p) / 2,
      (sv (n + 1) (m + 2) p + (n - m + 1) * (n - m) * sv (n + 1) m p) / 2, -(n - m) * sw (n + 1) (m + 1) p]

theorem isGradient_gsv (n m : ℕ) {p : Fin 3 → ℝ} (hp : p ≠ 0) : IsGradient (sv n m) p (gsv p n m) := by
  cases m with
  | zero => exact isGradient_sv_zero n hp
  | succ m => exact isGradient_sv n m hp

theorem isGradient_gsw (n m : ℕ) {p : Fin 3 → ℝ} (hp : p ≠ 0) : IsGradient (sw n m) p (gsw p n m) := by
  cases m with
  | zero => exact isGradient_sw_zero n p
  | succ m => exact isGradient_sw n m hp

/-- The contribution of one harmonic to the acceleration, without the gravity constant. -/
noncomputable def gterm (c s : ℝ) (p : Fin 3 → ℝ) (n m : ℕ) : Fin 3 → ℝ := normalisation n m • (c • gsv p n m + s • gsw p n m)

theorem forLoop_sum {A : Type} [AddCommMonoid A] (body : A → ℕ → Res A) (f : ℕ → A) (l : List ℕ) (a : A)
    (h : ∀ n ∈ l, ∀ a, body a n = .ok (a + f n)) : forLoop body l a = .ok (a + (l.map f).sum) := by
  induction l generalizing a with
  | nil => simp [forLoop]
  | cons n l ih =>
    rw [forLoop, h n (by simp), Res.bind]
    rw [ih _ fun k hk => h k (List.mem_cons_of_mem n hk)]
    simp [add_assoc]

theorem order0 (g : Potential) (p : Vec 3) (D n : ℕ) (hn : n + 1 ≤ D) (c s : ℝ) (hc : g.c.at n 0 = .ok c) (hs : g.s.at n 0 = .ok s) (a : Vec 3) :
    accelOrder0 g (tables g.radius p D) n a = .ok (a + g.radius ^ (n + 2) • gterm c s p n 0) := by
  have h1 := norm_xy0 n
  have h2 := norm_z0 n
  simp only [accelOrder0, hc, hs, Res.bind, (tables_spec g.radius p D (n + 1) 1 hn (by omega)).1,
    (tables_spec g.radius p D (n + 1) 1 hn (by omega)).2, (tables_spec g.radius p D (n + 1) 0 hn (by omega)).1,
    (tables_spec g.radius p D (n + 1) 0 hn (by omega)).2, tv, tw, sw_zero]
  congr 1
  funext i
  generalize Real.sqrt ((2 * (n : ℝ) + 1) / (2 * n + 3)) = k at *
  generalize Real.sqrt (((n : ℝ) + 2) * (n + 1) / 2) = k1 at *
  fin_cases i
  · simp [gterm, gsv, gsw]
    linear_combination -(g.radius ^ (n + 2) * c * sv (n + 1) 1 p) * h1
  · simp [gterm, gsv, gsw]
    linear_combination -(g.radius ^ (n + 2) * c * sw (n + 1) 1 p) * h1
  · simp [gterm, gsv, gsw]
    linear_combination g.radius ^ (n + 2) * c * (n + 1) * sv (n + 1) 0 p * h2

theorem order (g : Potential) (p : Vec 3) (D n m : ℕ) (hn : n + 1 ≤ D) (hm : m + 1 ≤ n) (c s : ℝ) (hc : g.c.at n (m + 1) = .ok c)
    (hs : g.s.at n (m + 1) = .ok s) (a : Vec 3) :
    accelOrder g (tables g.radius p D) n a (m + 1) = .ok (a + g.radius ^ (n + 2) • gterm c s p n (m + 1)) := by
  have h1 := norm_xy1 n m hm
  have h2 := norm_xy2 n m hm
  have h3 := norm_z n (m + 1) hm
  simp only [accelOrder, hc, hs, Res.bind, Nat.add_sub_cancel, (tables_spec g.radius p D (n + 1) (m + 1 + 1) hn (by omega)).1,
    (tables_spec g.radius p D (n + 1) (m + 1 + 1) hn (by omega)).2, (tables_spec g.radius p D (n + 1) (m + 1) hn (by omega)).1,
    (tables_spec g.radius p D (n + 1) (m + 1) hn (by omega)).2, (tables_spec g.radius p D (n + 1) m hn (by omega)).1,
    (tables_spec g.radius p D (n + 1) m hn (by omega)).2, tv, tw]
  simp only [Nat.cast_add, Nat.cast_one] at *
  generalize Real.sqrt ((2 * (n : ℝ) + 1) / (2 * n + 3)) = k at *
  generalize Real.sqrt (((n : ℝ) + (m + 1) + 1) * (n + (m + 1) + 2)) = k1 at *
  generalize (if m + 1 = 1 then k * Real.sqrt (((n : ℝ) - (m + 1) + 1) * (n - (m + 1) + 2)) * Real.sqrt 2
      else k * Real.sqrt (((n : ℝ) - (m + 1) + 1) * (n - (m + 1) + 2))) = k2 at *
  generalize Real.sqrt (((n : ℝ) + (m + 1) + 1) / (n - (m + 1) + 1)) = k3 at *
  congr 1
  funext i
  have e : (n : ℝ) - (m + 1) + 1 = n - m := by ring
  have e2 : (n : ℝ) - (m + 1) + 2 = n - m + 1 := by ring
  rw [e, e2] at *
  fin_cases i
  · simp [gterm, gsv, gsw]
    linear_combination g.radius ^ (n + 2) / 2 * ((c * sv (n + 1) (m + 2) p + s * sw (n + 1) (m + 2) p) * h1
      - (c * sv (n + 1) m p + s * sw (n + 1) m p) * h2)
  · simp [gterm, gsv, gsw]
    linear_combination g.radius ^ (n + 2) / 2 * ((c * sw (n + 1) (m + 2) p - s * sv (n + 1) (m + 2) p) * h1
      - (-c * sw (n + 1) m p + s * sv (n + 1) m p) * h2)
  · simp [gterm, gsv, gsw]
    linear_combination g.radius ^ (n + 2) * (n - m) * (c * sv (n + 1) (m + 1) p + s * sw (n + 1) (m + 1) p) * h3

theorem list_sum_range {A : Type} [AddCommMonoid A] (f : ℕ → A) (n : ℕ) : ((List.range n).map f).sum = ∑ i ∈ Finset.range n, f i := by
  rw [Finset.sum_range, ← List.sum_ofFn, List.ofFn_eq_map, ← List.map_coe_finRange_eq_range, List.map_map]
  rfl

/-- The coefficient tables have the entries up to degree `N`, and these are `c'`. -/
def Holds (c : Coefs) (N : ℕ) (c' : ℕ → ℕ → ℝ) : Prop := ∀ n m, m ≤ n → n ≤ N → c.at n m = .ok (c' n m)

theorem degree_step (g : Potential) (p : Vec 3) (D n : ℕ) (hn : n + 1 ≤ D) (N : ℕ) (hN : n ≤ N) (c s : ℕ → ℕ → ℝ) (hc : Holds g.c N c)
    (hs : Holds g.s N s) (a : Vec 3) : accelDegree g (tables g.radius p D) a n =
      .ok (a + ∑ m ∈ Finset.range (n + 1), g.radius ^ (n + 2) • gterm (c n m) (s n m) p n m) := by
  rw [accelDegree, order0 g p D n hn (c n 0) (s n 0) (hc n 0 (by omega) hN) (hs n 0 (by omega) hN), Res.bind]
  rw [forLoop_sum (A := Vec 3) _ (fun m => g.radius ^ (n + 2) • gterm (c n m) (s n m) p n m)]
  · rw [List.range'_eq_map_range, List.map_map, list_sum_range, Finset.sum_range_succ' _ n, add_assoc]
    congr 2
    rw [add_comm]
    congr 1
    refine Finset.sum_congr rfl fun i _ => ?_
    simp only [Function.comp]
    rw [show 1 + i = i + 1 by ring]
  · intro m hm a
    rw [List.mem_range'_1] at hm
    obtain ⟨i, rfl⟩ : ∃ i, m = i + 1 := ⟨m - 1, by omega⟩
    exact order g p D n i hn (by omega) _ _ (hc n (i + 1) (by omega) hN) (hs n (i + 1) (by omega) hN) a

/-- The acceleration, as a sum over the harmonics. -/
noncomputable def accel (mu R : ℝ) (N : ℕ) (c s : ℕ → ℕ → ℝ) (p : Fin 3 → ℝ) : Fin 3 → ℝ :=
  ∑ n ∈ Finset.range (N + 1), ∑ m ∈ Finset.range (n + 1), (mu * R ^ n) • gterm (c n m) (s n m) p n m

theorem calcAcceleration_eq (g : Potential) (h2 : 1 ≤ g.degree) (hbig : g.degree + 2 ≤ 384307168202282325) (hR : g.radius ≠ 0) (p : Vec 3)
    (c s : ℕ → ℕ → ℝ) (hc : Holds g.c g.degree c) (hs : Holds g.s g.degree s) :
    g.calcAcceleration p = .ok (accel g.mu g.radius g.degree c s p) := by
  rw [Potential.calcAcceleration, if_neg (by omega), if_neg (by omega), if_neg (by omega)]
  have h0 : (fun _ => 0 : Vec 3) = 0 := rfl
  rw [h0, forLoop_sum (A := Vec 3) _ (fun n => ∑ m ∈ Finset.range (n + 1), g.radius ^ (n + 2) • gterm (c n m) (s n m) p n m)]
  · rw [Res.bind, list_sum_range, zero_add, accel]
    congr 1
    have e : ∀ v : Vec 3, scale (g.mu / g.radius ^ 2) v = (g.mu / g.radius ^ 2) • v := fun v => rfl
    rw [e, Finset.smul_sum]
    refine Finset.sum_congr rfl fun n _ => ?_
    rw [Finset.smul_sum]
    refine Finset.sum_congr rfl fun m _ => ?_
    rw [smul_smul]
    congr 1
    field_simp
    ring
  · intro n hn a
    rw [List.mem_range] at hn
    exact degree_step g p _ n (by omega) g.degree (by omega) c s hc hs a

theorem potential_eq (mu R : ℝ) (N : ℕ) (c s : ℕ → ℕ → ℝ) {p : Fin 3 → ℝ} (hp : p ≠ 0) : potential mu R N c s p =
    ∑ n ∈ Finset.range (N + 1), ∑ m ∈ Finset.range (n + 1), (mu * R ^ n) * (normalisation n m * (c n m * sv n m p + s n m * sw n m p)) := by
  rw [potential, Finset.mul_sum]
  refine Finset.sum_congr rfl fun n _ => ?_
  rw [Finset.mul_sum]
  refine Finset.sum_congr rfl fun m _ => ?_
  rw [(spherical n m hp).1, (spherical n m hp).2, div_pow, div_eq_mul_inv, div_eq_mul_inv, pow_succ, inv_pow]
  ring

theorem isGradient_accel (mu R : ℝ) (N : ℕ) (c s : ℕ → ℕ → ℝ) {p : Fin 3 → ℝ} (hp : p ≠ 0) :
    IsGradient (potential mu R N c s) p (accel mu R N c s p) := by
  refine IsGradient.congr_of_ne hp ?_ (fun q hq => potential_eq mu R N c s hq)
  refine IsGradient.congr (IsGradient.sum (Finset.range (N + 1)) fun n _ => IsGradient.sum (Finset.range (n + 1)) fun m _ =>
    (((isGradient_gsv n m hp).const_mul (c n m)).add ((isGradient_gsw n m hp).const_mul (s n m))).const_mul (normalisation n m)
      |>.const_mul (mu * R ^ n)) ?_
  intro i
  simp [accel, gterm, mul_add]

end S2E.Gravity
