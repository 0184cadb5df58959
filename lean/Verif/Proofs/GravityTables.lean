import Verif.Model.GravityPotential
import Verif.Proofs.SolidHarmonics
import Verif.Proofs.GravityNorm
/-!
# The tables hold the normalised solid harmonics
-/
namespace S2E.Gravity
open Polynomial TwoBody GravityModel

/-- Contents of `v[n][m]`, `w[n][m]`. -/
noncomputable def tv (R : ℝ) (p : Fin 3 → ℝ) (n m : ℕ) : ℝ := R ^ (n + 1) * (normalisation n m * sv n m p)
@[inherit_doc tv] noncomputable def tw (R : ℝ) (p : Fin 3 → ℝ) (n m : ℕ) : ℝ := R ^ (n + 1) * (normalisation n m * sw n m p)

theorem calcNorm_rec (p : Vec 3) : calcNorm p = len p := by
  simp [calcNorm, len, Fin.sum_univ_three]

theorem radial_diag (m : ℕ) (p : Fin 3 → ℝ) : radial (m + 1) (m + 1) p = (2 * m + 1) * rec p ^ 2 * radial m m p := by
  simp only [radial, dl_diag]
  simp
  ring

theorem sv_diag (m : ℕ) (p : Fin 3 → ℝ) : sv (m + 1) (m + 1) p = (2 * m + 1) * rec p ^ 2 * (p 0 * sv m m p - p 1 * sw m m p) ∧
    sw (m + 1) (m + 1) p = (2 * m + 1) * rec p ^ 2 * (p 0 * sw m m p + p 1 * sv m m p) := by
  simp only [sv, sw, radial_diag, cosPart]
  constructor <;> ring

theorem radial_first (m : ℕ) (p : Fin 3 → ℝ) : radial (m + 1) m p = (2 * m + 1) * p 2 * rec p ^ 2 * radial m m p := by
  simp only [radial, dl_first]
  simp
  ring

theorem radial_next (n m : ℕ) (p : Fin 3 → ℝ) : (n + 2 - m) * radial (n + 2) m p =
    (2 * n + 3) * p 2 * rec p ^ 2 * radial (n + 1) m p - (n + m + 1) * rec p ^ 2 * radial n m p := by
  have h : (n + 2 - m) * (dl (n + 2) m).eval (p 2 * rec p) = (2 * n + 3) * (p 2 * rec p) * (dl (n + 1) m).eval (p 2 * rec p)
      - (n + m + 1) * (dl n m).eval (p 2 * rec p) := by
    simpa using congrArg (eval (p 2 * rec p)) (dl_rec n m)
  simp only [radial]
  rw [show n + 2 + m + 1 = n + m + 1 + 2 by ring, show n + 1 + m + 1 = n + m + 1 + 1 by ring]
  simp only [pow_succ _ (n + m + 1), pow_add _ (n + m + 1) 2]
  linear_combination rec p ^ (n + m + 1) * rec p ^ 2 * h

theorem div_len (R : ℝ) (p : Fin 3 → ℝ) : R / len p ^ 2 = R * rec p ^ 2 := by rw [rec, inv_pow, div_eq_mul_inv]

theorem nn_target (R : ℝ) (p : Vec 3) (m : ℕ) :
    nnUpdate R (len p) p (m + 1) (tv R p m m) (tw R p m m) = (tv R p (m + 1) (m + 1), tw R p (m + 1) (m + 1)) := by
  obtain ⟨h1, h2⟩ := sv_diag m p
  have hk : (2 * m + 1) * normalisation (m + 1) (m + 1) = (if m + 1 = 1 then (2 * ((m + 1 : ℕ) : ℝ) - 1) * Real.sqrt (2 * ((m + 1 : ℕ) : ℝ) + 1)
      else Real.sqrt ((2 * ((m + 1 : ℕ) : ℝ) + 1) / (2 * ((m + 1 : ℕ) : ℝ)))) * normalisation m m := by
    cases m with
    | zero =>
      rw [norm_diag_0, norm_00]
      norm_num
    | succ m =>
      have h := norm_diag m
      rw [if_neg (by omega)]
      push_cast at *
      rw [show (m : ℝ) + 1 + 1 = m + 2 by ring]
      exact h
  simp only [nnUpdate, tv, tw, h1, h2, div_len]
  generalize (if m + 1 = 1 then (2 * ((m + 1 : ℕ) : ℝ) - 1) * Real.sqrt (2 * ((m + 1 : ℕ) : ℝ) + 1)
      else Real.sqrt ((2 * ((m + 1 : ℕ) : ℝ) + 1) / (2 * ((m + 1 : ℕ) : ℝ)))) = k at *
  refine Prod.ext ?_ ?_
  · show _ = _
    linear_combination -(R ^ (m + 2) * rec p ^ 2 * (p 0 * sv m m p - p 1 * sw m m p)) * hk
  · show _ = _
    linear_combination -(R ^ (m + 2) * rec p ^ 2 * (p 0 * sw m m p + p 1 * sv m m p)) * hk

theorem nm_first (R : ℝ) (p : Vec 3) (m : ℕ) :
    nmUpdate R (len p) p (m + 1) m (tv R p m m) (tw R p m m) 0 0 = (tv R p (m + 1) m, tw R p (m + 1) m) := by
  have h := radial_first m p
  have hk := norm_up m m le_rfl
  simp only [nmUpdate, tv, tw, sv, sw, h, div_len]
  push_cast
  rw [hk]
  generalize Real.sqrt (((2 * ((m : ℝ) + 1) + 1) * ((m : ℝ) + 1 - m)) / ((2 * ((m : ℝ) + 1) - 1) * ((m : ℝ) + 1 + m))) = k
  rw [show (m : ℝ) + 1 - m = 1 by ring]
  refine Prod.ext ?_ ?_ <;> ring

theorem nm_next (R : ℝ) (p : Vec 3) (n m : ℕ) (hm : m ≤ n) :
    nmUpdate R (len p) p (n + 2) m (tv R p (n + 1) m) (tw R p (n + 1) m) (tv R p n m) (tw R p n m) = (tv R p (n + 2) m, tw R p (n + 2) m) := by
  have h := radial_next n m p
  have hk := norm_up (n + 1) m (by omega)
  have hk2 := norm_up2 n m hm
  have hd : (n : ℝ) + 2 - m ≠ 0 := by
    have : (m : ℝ) ≤ n := by exact_mod_cast hm
    intro h0; linarith
  simp only [nmUpdate, tv, tw, sv, sw, div_len]
  rw [if_neg (by omega)]
  push_cast at *
  rw [show ((n : ℝ) + 1 + 1) = n + 2 by ring] at hk
  rw [show n + 1 + 1 = n + 2 by ring] at hk
  generalize Real.sqrt (((2 * ((n : ℝ) + 2) + 1) * ((n : ℝ) + 2 - m)) / ((2 * ((n : ℝ) + 2) - 1) * ((n : ℝ) + 2 + m))) = k at *
  generalize Real.sqrt (((2 * ((n : ℝ) + 2) - 1) * ((n : ℝ) + 2 - m - 1)) / ((2 * ((n : ℝ) + 2) - 3) * ((n : ℝ) + 2 + m - 1))) = k2 at *
  rw [hk]
  have h' : radial (n + 2) m p = ((2 * n + 3) * p 2 * rec p ^ 2 * radial (n + 1) m p - (n + m + 1) * rec p ^ 2 * radial n m p) / (n + 2 - m) := by
    rw [eq_div_iff hd]; linear_combination h
  rw [h']
  generalize radial n m p = a at *
  generalize radial (n + 1) m p = b at *
  generalize normalisation (n + 1) m = N1 at *
  subst hk2
  refine Prod.ext ?_ ?_
  · show _ = _
    simp only
    field_simp
    ring
  · show _ = _
    simp only
    field_simp
    ring

/-- The entries of column `j`, up to row `n`, are as they should be. -/
def GoodUpTo (R : ℝ) (p : Vec 3) (t : Tables) (j n : ℕ) : Prop := ∀ i, j ≤ i → i ≤ n → t.v i j = tv R p i j ∧ t.w i j = tw R p i j

theorem columnStep_good (R : ℝ) (p : Vec 3) (m n : ℕ) (t : Tables) (hm : m ≤ n) (h : GoodUpTo R p t m n) :
    GoodUpTo R p (columnStep R (len p) p m t (n + 1)) m (n + 1) := by
  intro i hi hi'
  unfold columnStep
  have hn := h n hm le_rfl
  split
  · have : n = m := by omega
    subst this
    simp only [Tables.set, Nat.add_sub_cancel, hn.1, hn.2, nm_first]
    by_cases e : i = n + 1
    · simp [e]
    · simp only [e, false_and, if_false]
      exact h i hi (by omega)
  · obtain ⟨k, rfl⟩ : ∃ k, n = k + 1 := ⟨n - 1, by omega⟩
    have hk := h k (by omega) (by omega)
    simp only [Tables.set, show k + 1 + 1 - 1 = k + 1 by omega, show k + 1 + 1 - 2 = k by omega, hn.1, hn.2, hk.1, hk.2,
      nm_next R p k m (by omega)]
    by_cases e : i = k + 1 + 1
    · simp [e]
    · simp only [e, false_and, if_false]
      exact h i hi (by omega)

theorem columnStep_other (R r : ℝ) (p : Vec 3) (m n : ℕ) (t : Tables) {i j : ℕ} (hj : j ≠ m) :
    (columnStep R r p m t n).v i j = t.v i j ∧ (columnStep R r p m t n).w i j = t.w i j := by
  unfold columnStep
  split <;> simp [Tables.set, hj]

theorem column_good (R : ℝ) (p : Vec 3) (m l : ℕ) (t : Tables) (h : GoodUpTo R p t m m) :
    GoodUpTo R p ((List.range' (m + 1) l).foldl (columnStep R (len p) p m) t) m (m + l) ∧
    ∀ i j, j ≠ m → ((List.range' (m + 1) l).foldl (columnStep R (len p) p m) t).v i j = t.v i j ∧
      ((List.range' (m + 1) l).foldl (columnStep R (len p) p m) t).w i j = t.w i j := by
  induction l with
  | zero => exact ⟨h, fun i j _ => ⟨rfl, rfl⟩⟩
  | succ l ih =>
    rw [List.range'_concat, List.foldl_append]
    simp only [List.foldl_cons, List.foldl_nil]
    obtain ⟨ih1, ih2⟩ := ih
    refine ⟨?_, ?_⟩
    · have := columnStep_good R p m (m + l) _ (by omega) ih1
      rwa [show m + 1 + 1 * l = m + l + 1 by ring, show m + (l + 1) = m + l + 1 by ring]
    · intro i j hj
      have h1 := columnStep_other R (len p) p m (m + 1 + 1 * l) ((List.range' (m + 1) l).foldl (columnStep R (len p) p m) t) (i := i) hj
      exact ⟨h1.1.trans (ih2 i j hj).1, h1.2.trans (ih2 i j hj).2⟩

theorem tables_inv (R : ℝ) (p : Vec 3) (D k : ℕ) (hk : k ≤ D) :
    let t := (List.range k).foldl (tablesStep R (len p) p D) (tablesInit R (len p))
    (∀ j < k, GoodUpTo R p t j D) ∧ GoodUpTo R p t k k := by
  induction k with
  | zero =>
    refine ⟨fun j hj => absurd hj (by omega), ?_⟩
    intro i hi hi'
    obtain rfl : i = 0 := by omega
    simp only [List.range_zero, List.foldl_nil, tablesInit, Tables.set, and_self, if_true, tv, tw, sw_zero]
    constructor
    · simp [norm_00, sv, radial, cosPart, dl_00, rec, div_eq_mul_inv]
    · ring
  | succ k ih =>
    obtain ⟨h1, h2⟩ := ih (by omega)
    rw [List.range_succ, List.foldl_append]
    simp only [List.foldl_cons, List.foldl_nil]
    generalize (List.range k).foldl (tablesStep R (len p) p D) (tablesInit R (len p)) = t at *
    obtain ⟨c1, c2⟩ := column_good R p k (D - k) t h2
    rw [show k + (D - k) = D by omega] at c1
    simp only [tablesStep, column]
    generalize (List.range' (k + 1) (D - k)).foldl (columnStep R (len p) p k) t = t' at *
    have hd := c1 k le_rfl (by omega)
    rw [hd.1, hd.2, nn_target]
    refine ⟨?_, ?_⟩
    · intro j hj i hi hi'
      simp only [Tables.set, show ¬ (i = k + 1 ∧ j = k + 1) by omega, if_false]
      by_cases e : j = k
      · subst e; exact c1 i hi hi'
      · have := h1 j (by omega) i hi hi'
        rw [(c2 i j e).1, (c2 i j e).2]
        exact this
    · intro i hi hi'
      obtain rfl : i = k + 1 := by omega
      simp [Tables.set]

/-- Every entry of the tables is the normalised solid harmonic. -/
theorem tables_spec (R : ℝ) (p : Vec 3) (D n m : ℕ) (hn : n ≤ D) (hm : m ≤ n) :
    (tables R p D).v n m = tv R p n m ∧ (tables R p D).w n m = tw R p n m := by
  have h := tables_inv R p D D le_rfl
  rw [tables, calcNorm_rec]
  by_cases e : m < D
  · exact h.1 m e n hm hn
  · obtain rfl : m = D := by omega
    obtain rfl : n = m := by omega
    exact h.2 n le_rfl le_rfl

end S2E.Gravity
