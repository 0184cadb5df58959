import Verif.Model.Quantization
import Mathlib.Tactic.Linarith
import Mathlib.Tactic.NormNum
import Mathlib.Tactic.FieldSimp
import Mathlib.Tactic.Push
import Mathlib.Tactic.Ring
import Mathlib.Data.Rat.Floor
/-!
# Property C19: quantization
-/
namespace S2E

variable {K : Type} [Field K] [LinearOrder K] [IsStrictOrderedRing K] [FloorRing K]

theorem truncZ_nonneg {x : K} (h : 0 ≤ x) : 0 ≤ truncZ x ∧ (truncZ x : K) ≤ x ∧ x < truncZ x + 1 := by
  simp only [truncZ, h, if_true]
  exact ⟨Int.floor_nonneg.2 h, Int.floor_le x, Int.lt_floor_add_one x⟩

theorem truncZ_neg (x : K) : truncZ (-x) = -truncZ x := by
  unfold truncZ
  rcases lt_trichotomy x 0 with h | h | h
  · rw [if_pos (by linarith), if_neg (by linarith), Int.floor_neg]
  · subst h; simp
  · rw [if_neg (by linarith), if_pos h.le, Int.ceil_neg]

theorem truncZ_mono {x y : K} (h : x ≤ y) : truncZ x ≤ truncZ y := by
  unfold truncZ
  split_ifs with h1 h2 h2
  · exact Int.floor_le_floor h
  · linarith
  · push Not at h1
    have : ⌈x⌉ ≤ 0 := Int.ceil_le.2 (by simpa using h1.le)
    exact this.trans (Int.floor_nonneg.2 h2)
  · exact Int.ceil_le_ceil h

theorem truncZ_int (n : ℤ) : truncZ (n : K) = n := by
  unfold truncZ; split_ifs <;> simp

/-- The quotient is in the range where the conversion to `int` is defined. -/
def InRange (x q : K) : Prop := -(2 ^ 31 : K) - 1 < x / q ∧ x / q < 2 ^ 31

theorem toInt32_ok_iff (x : K) : (toInt32 x = .ok (truncZ x) ↔ -(2 ^ 31 : K) - 1 < x ∧ x < 2 ^ 31) ∧
    (toInt32 x = .ok (truncZ x) ∨ toInt32 x = .ub) := by
  constructor
  · unfold toInt32
    have hiff : (-2 ^ 31 ≤ truncZ x ∧ truncZ x ≤ 2 ^ 31 - 1) ↔ (-(2 ^ 31 : K) - 1 < x ∧ x < 2 ^ 31) := by
      rcases le_or_gt 0 x with h | h
      · obtain ⟨h1, h2, h3⟩ := truncZ_nonneg h
        constructor
        · rintro ⟨_, h5⟩
          have h6 : (truncZ x : K) ≤ 2 ^ 31 - 1 := by exact_mod_cast h5
          exact ⟨by linarith [show (0 : K) < 2 ^ 31 by positivity], by linarith⟩
        · rintro ⟨_, h5⟩
          have h6 : truncZ x < 2 ^ 31 := by
            have : (truncZ x : K) < ((2 ^ 31 : ℤ) : K) := by push_cast; linarith
            exact_mod_cast this
          exact ⟨by linarith [show (0 : ℤ) < 2 ^ 31 by norm_num], by omega⟩
      · obtain ⟨h1, h2, h3⟩ := truncZ_nonneg (show 0 ≤ -x by linarith)
        rw [truncZ_neg] at h1 h2 h3
        push_cast at h2 h3
        constructor
        · rintro ⟨h4, _⟩
          have h6 : (-(2 ^ 31 : K)) ≤ truncZ x := by exact_mod_cast h4
          exact ⟨by linarith, by linarith [show (0 : K) < 2 ^ 31 by positivity]⟩
        · rintro ⟨h4, _⟩
          have h6 : -(2 ^ 31 : ℤ) - 1 < truncZ x := by
            have : (((-(2 ^ 31) - 1 : ℤ)) : K) < (truncZ x : K) := by push_cast; linarith
            exact_mod_cast this
          exact ⟨by omega, by omega⟩
    constructor
    · intro h
      by_contra hc
      rw [if_neg (fun h' => hc (hiff.1 h'))] at h
      cases h
    · intro h; rw [if_pos (hiff.2 h)]
  · unfold toInt32; split_ifs <;> simp

/-- **C19.** For a resolution `q > 0` and `x/q` in the convertible range, `quantization(x, q)` is an integer multiple of `q`
that differs from `x` by less than `q` and lies between 0 and `x`. Outside the range the conversion is undefined. -/
theorem C19_quantization_grid (x q : K) (hq : 0 < q) :
    (InRange x q → ∃ n : ℤ, quantization x q = .ok (n * q) ∧ |x - n * q| < q ∧
      (0 ≤ x → 0 ≤ n * q ∧ n * q ≤ x) ∧ (x ≤ 0 → x ≤ n * q ∧ n * q ≤ 0)) ∧
    (¬ InRange x q → quantization x q = .ub) := by
  have hq0 : q ≠ 0 := ne_of_gt hq
  have hx : x = x / q * q := by field_simp
  constructor
  · intro h
    have h0 := (toInt32_ok_iff (x / q)).1.2 h
    refine ⟨truncZ (x / q), by simp [quantization, hq0, h0], ?_, ?_, ?_⟩
    · rcases le_or_gt 0 (x / q) with h1 | h1
      · obtain ⟨_, h3, h4⟩ := truncZ_nonneg h1
        rw [abs_lt]
        constructor
        · nlinarith
        · nlinarith
      · obtain ⟨_, h3, h4⟩ := truncZ_nonneg (show 0 ≤ -(x / q) by linarith)
        rw [truncZ_neg] at h3 h4
        push_cast at h3 h4
        rw [abs_lt]
        constructor
        · nlinarith
        · nlinarith
    · intro h1
      obtain ⟨h2, h3, h4⟩ := truncZ_nonneg (div_nonneg h1 hq.le)
      have : (0 : K) ≤ truncZ (x / q) := by exact_mod_cast h2
      exact ⟨by positivity, by nlinarith⟩
    · intro h1
      have : 0 ≤ -(x / q) := by rw [← neg_div]; exact div_nonneg (by linarith) hq.le
      obtain ⟨h2, h3, h4⟩ := truncZ_nonneg this
      rw [truncZ_neg] at h2 h3 h4
      push_cast at h3 h4
      have h5 : (truncZ (x / q) : K) ≤ 0 := by exact_mod_cast (by omega : truncZ (x / q) ≤ 0)
      exact ⟨by nlinarith, by nlinarith⟩
  · intro h
    have h0 : ¬ toInt32 (x / q) = .ok (truncZ (x / q)) := fun e => h ((toInt32_ok_iff (x / q)).1.1 e)
    have h1 := (toInt32_ok_iff (x / q)).2.resolve_left h0
    simp [quantization, hq0, h1]

/-- **C19 (idempotent, odd, monotone).** -/
theorem C19_quantization_structure (q : K) (hq : 0 < q) :
    (∀ x y, quantization x q = .ok y → quantization y q = .ok y) ∧
    (∀ x, InRange x q → InRange (-x) q → ∃ y, quantization x q = .ok y ∧ quantization (-x) q = .ok (-y)) ∧
    (∀ x y a b, quantization x q = .ok a → quantization y q = .ok b → x ≤ y → a ≤ b) := by
  have hq0 : q ≠ 0 := ne_of_gt hq
  have hval : ∀ x y, quantization x q = .ok y → y = truncZ (x / q) * q ∧ toInt32 (x / q) = .ok (truncZ (x / q)) := by
    intro x y h
    simp only [quantization, hq0, if_false] at h
    rcases (toInt32_ok_iff (x / q)).2 with h1 | h1
    · rw [h1] at h; simp only [Res.bind_ok, Res.ok.injEq] at h; exact ⟨h.symm, h1⟩
    · rw [h1] at h; simp at h
  refine ⟨?_, ?_, ?_⟩
  · intro x y h
    obtain ⟨h1, h2⟩ := hval x y h
    have h3 : y / q = (truncZ (x / q) : K) := by rw [h1]; field_simp
    have h4 : toInt32 (y / q) = .ok (truncZ (x / q)) := by
      rw [h3]
      unfold toInt32 at h2 ⊢
      rw [truncZ_int]
      split_ifs at h2 with h5
      · rw [if_pos h5]
    simp only [quantization, hq0, if_false, h4, Res.bind_ok]
    rw [← h1]
  · intro x h h'
    have h0 := (toInt32_ok_iff (x / q)).1.2 h
    have h1 := (toInt32_ok_iff (-x / q)).1.2 h'
    refine ⟨truncZ (x / q) * q, by simp [quantization, hq0, h0], ?_⟩
    have e : -x / q = -(x / q) := neg_div q x
    simp only [quantization, hq0, if_false, h1, Res.bind_ok]
    rw [e, truncZ_neg]
    push_cast; congr 1; ring
  · intro x y a b ha hb hxy
    obtain ⟨h1, _⟩ := hval x a ha
    obtain ⟨h2, _⟩ := hval y b hb
    rw [h1, h2]
    have : truncZ (x / q) ≤ truncZ (y / q) := truncZ_mono (by gcongr)
    have : (truncZ (x / q) : K) ≤ truncZ (y / q) := by exact_mod_cast this
    exact mul_le_mul_of_nonneg_right this hq.le

/-- Non-vacuity of C19: an in-range and an out-of-range case. -/
example : InRange (-7 / 2 : ℚ) 1 ∧ quantization (-7 / 2 : ℚ) 1 = .ok (-3) ∧ ¬ InRange (2 ^ 40 : ℚ) 1 := by
  refine ⟨by constructor <;> norm_num, ?_, by rintro ⟨_, h⟩; norm_num at h⟩
  have h : (⌈(-7 / 2 : ℚ)⌉ : ℤ) = -3 := by rw [Int.ceil_eq_iff]; norm_num
  simp [quantization, toInt32, truncZ, h]
  norm_num [h]

end S2E
