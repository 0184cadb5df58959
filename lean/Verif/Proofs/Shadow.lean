import Verif.Spec.Shadow
import Mathlib.Analysis.SpecialFunctions.Trigonometric.InverseDeriv
import Mathlib.MeasureTheory.Integral.IntervalIntegral.FundThmCalculus
import Mathlib.MeasureTheory.Measure.Prod
import Mathlib.Tactic.FieldSimp
import Mathlib.Tactic.Linarith
/-!
# The area of the overlap of two discs
-/
namespace S2E.Shadow

open MeasureTheory intervalIntegral

/-- An antiderivative of `2 sqrt (a^2 - t^2)`. -/
noncomputable def segF (a t : ℝ) : ℝ := a ^ 2 * Real.arcsin (t / a) + t * Real.sqrt (a ^ 2 - t ^ 2)

theorem segF_deriv {a : ℝ} (ha : 0 < a) {t : ℝ} (h1 : -a < t) (h2 : t < a) : HasDerivAt (segF a) (2 * Real.sqrt (a ^ 2 - t ^ 2)) t := by
  have hpos : 0 < a ^ 2 - t ^ 2 := by nlinarith
  have hs := Real.sqrt_pos.mpr hpos
  have hss := Real.sq_sqrt hpos.le
  have hlt : t / a < 1 := by rw [div_lt_one ha]; exact h2
  have hgt : -1 < t / a := by rw [lt_div_iff₀ ha]; linarith
  have e1 : HasDerivAt (fun t => a ^ 2 * Real.arcsin (t / a)) (a ^ 2 * (1 / Real.sqrt (1 - (t / a) ^ 2) * (1 / a))) t :=
    ((Real.hasDerivAt_arcsin hgt.ne' hlt.ne).comp t ((hasDerivAt_id t).div_const a)).const_mul _
  have e2 : HasDerivAt (fun t : ℝ => a ^ 2 - t ^ 2) (-(2 * t)) t := by
    exact (((hasDerivAt_id t).pow 2).const_sub (a ^ 2)).congr_deriv (by simp)
  have e3 := (hasDerivAt_id t).mul (e2.sqrt hpos.ne')
  refine (e1.add e3).congr_deriv ?_
  have : Real.sqrt (1 - (t / a) ^ 2) = Real.sqrt (a ^ 2 - t ^ 2) / a := by
    rw [show 1 - (t / a) ^ 2 = (a ^ 2 - t ^ 2) / a ^ 2 by field_simp, Real.sqrt_div hpos.le, Real.sqrt_sq ha.le]
  rw [this]
  simp only [id]
  generalize Real.sqrt (a ^ 2 - t ^ 2) = s at *
  field_simp
  linear_combination (-1 : ℝ) * hss

theorem segF_cont (a : ℝ) : Continuous (segF a) := by unfold segF; fun_prop

theorem seg_integral {a : ℝ} (ha : 0 < a) {s t : ℝ} (hs : -a ≤ s) (hst : s ≤ t) (ht : t ≤ a) :
    ∫ u in s..t, 2 * Real.sqrt (a ^ 2 - u ^ 2) = segF a t - segF a s := by
  refine integral_eq_sub_of_hasDerivAt_of_le hst (segF_cont a).continuousOn ?_ (Continuous.intervalIntegrable (by fun_prop) _ _)
  intro x hx
  exact segF_deriv ha (by linarith [hx.1]) (by linarith [hx.2])

/-- Half of the height of the overlap above the abscissa `t`. -/
noncomputable def half (a b c t : ℝ) : ℝ := min (Real.sqrt (a ^ 2 - t ^ 2)) (Real.sqrt (b ^ 2 - (t - c) ^ 2))

theorem half_nonneg (a b c t : ℝ) : 0 ≤ half a b c t := le_min (Real.sqrt_nonneg _) (Real.sqrt_nonneg _)

theorem half_cont (a b c : ℝ) : Continuous (half a b c) := by unfold half; fun_prop

theorem disc_mem (c r : ℝ) (p : ℝ × ℝ) : p ∈ disc c r ↔ |p.2| < Real.sqrt (r ^ 2 - (p.1 - c) ^ 2) := by
  rw [Real.lt_sqrt (abs_nonneg _), sq_abs, disc, Set.mem_setOf_eq]
  constructor <;> intro h <;> linarith

theorem disc_range {c r : ℝ} (hr : 0 < r) {p : ℝ × ℝ} (h : p ∈ disc c r) : c - r < p.1 ∧ p.1 < c + r := by
  have h' : (p.1 - c) ^ 2 + p.2 ^ 2 < r ^ 2 := h
  have h1 : |p.1 - c| < r := by
    apply abs_lt_of_sq_lt_sq _ hr.le
    nlinarith [sq_nonneg p.2]
  have := abs_lt.mp h1
  exact ⟨by linarith, by linarith⟩

theorem disc_measurable (c r : ℝ) : MeasurableSet (disc c r) := by
  have : IsOpen (disc c r) := isOpen_lt (by fun_prop) (by fun_prop)
  exact this.measurableSet

theorem overlap_region {a b c : ℝ} (ha : 0 < a) (hb : 0 < b) :
    disc 0 a ∩ disc c b = regionBetween (fun t => -half a b c t) (half a b c) (Set.Ioc (c - b) a) := by
  ext p
  simp only [Set.mem_inter_iff, regionBetween, Set.mem_setOf_eq, Set.mem_Ioo, Set.mem_Ioc]
  constructor
  · rintro ⟨h1, h2⟩
    have r1 := disc_range ha h1
    have r2 := disc_range hb h2
    refine ⟨⟨r2.1, by linarith [r1.2]⟩, ?_⟩
    rw [← abs_lt]
    refine lt_min ?_ ?_
    · have := (disc_mem 0 a p).mp h1; simpa using this
    · exact (disc_mem c b p).mp h2
  · rintro ⟨-, h2⟩
    rw [← abs_lt] at h2
    have h3 := lt_min_iff.mp h2
    exact ⟨(disc_mem 0 a p).mpr (by simpa using h3.1), (disc_mem c b p).mpr h3.2⟩

theorem overlap_integral {a b c : ℝ} (ha : 0 < a) (hb : 0 < b) (h : c - b ≤ a) :
    (volume (disc 0 a ∩ disc c b)).toReal = ∫ t in (c - b)..a, 2 * half a b c t := by
  rw [overlap_region ha hb, Measure.volume_eq_prod, volume_regionBetween_eq_integral (μ := volume)]
  · rw [ENNReal.toReal_ofReal, integral_of_le h]
    · refine integral_congr_ae (Filter.Eventually.of_forall fun t => ?_)
      simp; ring
    · refine integral_nonneg fun t => ?_
      have := half_nonneg a b c t
      simp; linarith
  · exact ((half_cont a b c).neg.integrableOn_Icc).mono_set Set.Ioc_subset_Icc_self
  · exact ((half_cont a b c).integrableOn_Icc).mono_set Set.Ioc_subset_Icc_self
  · exact measurableSet_Ioc
  · intro t _
    have := half_nonneg a b c t
    linarith

/-- The area of the overlap of two discs that cross. -/
theorem overlap_area {a b c : ℝ} (ha : 0 < a) (hb : 0 < b) (hc : 0 < c) (h1 : |a - b| ≤ c) (h2 : c ≤ a + b) :
    (volume (disc 0 a ∩ disc c b)).toReal =
      a * a * Real.arccos ((c * c + a * a - b * b) / (2 * c) / a) + b * b * Real.arccos ((c - (c * c + a * a - b * b) / (2 * c)) / b) -
        c * Real.sqrt (max (a * a - (c * c + a * a - b * b) / (2 * c) * ((c * c + a * a - b * b) / (2 * c))) 0) := by
  obtain ⟨h3, h4⟩ := abs_le.mp h1
  obtain ⟨x, hx⟩ : ∃ x, x = (c * c + a * a - b * b) / (2 * c) := ⟨_, rfl⟩
  rw [← hx]
  have hx2 : 2 * c * x = c * c + a * a - b * b := by rw [hx]; field_simp
  have hxa : x ≤ a := by
    have : 2 * c * (a - x) = (b - (c - a)) * (b + (c - a)) := by linear_combination (-1 : ℝ) * hx2
    have : 0 ≤ 2 * c * (a - x) := by rw [this]; exact mul_nonneg (by linarith) (by linarith)
    nlinarith
  have hxa' : -a ≤ x := by
    have : 2 * c * (x + a) = (c + a - b) * (c + a + b) := by linear_combination hx2
    have : 0 ≤ 2 * c * (x + a) := by rw [this]; exact mul_nonneg (by linarith) (by linarith)
    nlinarith
  have hxb : c - b ≤ x := by
    have : 2 * c * (x - (c - b)) = (a - (c - b)) * (a + (c - b)) := by linear_combination hx2
    have : 0 ≤ 2 * c * (x - (c - b)) := by rw [this]; exact mul_nonneg (by linarith) (by linarith)
    nlinarith
  have hxb' : x ≤ c + b := by
    have : 2 * c * (c + b - x) = (c + b - a) * (c + b + a) := by linear_combination (-1 : ℝ) * hx2
    have : 0 ≤ 2 * c * (c + b - x) := by rw [this]; exact mul_nonneg (by linarith) (by linarith)
    nlinarith
  have hy : 0 ≤ a ^ 2 - x ^ 2 := by nlinarith
  have hyy : a ^ 2 - x ^ 2 = b ^ 2 - (x - c) ^ 2 := by linear_combination (-1 : ℝ) * hx2
  rw [overlap_integral ha hb (by linarith)]
  have hint : ∀ s t : ℝ, IntervalIntegrable (fun t => 2 * half a b c t) volume s t := fun s t =>
    ((half_cont a b c).const_mul 2).intervalIntegrable _ _
  rw [← integral_add_adjacent_intervals (hint (c - b) x) (hint x a)]
  have i1 : ∫ t in (c - b)..x, 2 * half a b c t = ∫ t in (c - b)..x, 2 * Real.sqrt (b ^ 2 - (t - c) ^ 2) := by
    refine integral_congr fun t ht => ?_
    rw [Set.uIcc_of_le hxb] at ht
    simp only [half]
    rw [min_eq_right]
    apply Real.sqrt_le_sqrt
    nlinarith [ht.2]
  have i2 : ∫ t in x..a, 2 * half a b c t = ∫ t in x..a, 2 * Real.sqrt (a ^ 2 - t ^ 2) := by
    refine integral_congr fun t ht => ?_
    rw [Set.uIcc_of_le hxa] at ht
    simp only [half]
    rw [min_eq_left]
    apply Real.sqrt_le_sqrt
    nlinarith [ht.1]
  have i3 : ∫ t in (c - b)..x, 2 * Real.sqrt (b ^ 2 - (t - c) ^ 2) = ∫ u in (-b)..(x - c), 2 * Real.sqrt (b ^ 2 - u ^ 2) := by
    have := integral_comp_sub_right (a := c - b) (b := x) (fun u => 2 * Real.sqrt (b ^ 2 - u ^ 2)) c
    rw [this]
    congr 1
    ring
  rw [i1, i2, i3, seg_integral hb le_rfl (by linarith) (by linarith), seg_integral ha hxa' hxa le_rfl]
  have z1 : segF b (-b) = -(b ^ 2 * (Real.pi / 2)) := by
    simp only [segF]
    rw [show -b / b = -1 by field_simp, Real.arcsin_neg_one]
    simp
  have z2 : segF a a = a ^ 2 * (Real.pi / 2) := by
    simp only [segF]
    rw [div_self ha.ne', Real.arcsin_one]
    simp
  rw [z1, z2]
  simp only [segF]
  rw [← hyy, show (x - c) / b = -((c - x) / b) by ring, Real.arcsin_neg, max_eq_left (by nlinarith), Real.arccos, Real.arccos,
    show a * a - x * x = a ^ 2 - x ^ 2 by ring]
  ring

theorem disc_area {c b : ℝ} (hb : 0 < b) : (volume (disc c b)).toReal = Real.pi * b * b := by
  have key : disc c b = regionBetween (fun t => -Real.sqrt (b ^ 2 - (t - c) ^ 2)) (fun t => Real.sqrt (b ^ 2 - (t - c) ^ 2)) (Set.Ioc (c - b) (c + b)) := by
    ext p
    simp only [regionBetween, Set.mem_setOf_eq, Set.mem_Ioo, Set.mem_Ioc]
    rw [← abs_lt, ← disc_mem]
    constructor
    · intro h
      have := disc_range hb h
      exact ⟨⟨this.1, this.2.le⟩, h⟩
    · exact fun h => h.2
  have hcont : Continuous fun t => Real.sqrt (b ^ 2 - (t - c) ^ 2) := by fun_prop
  rw [key, Measure.volume_eq_prod, volume_regionBetween_eq_integral (μ := volume)]
  · have e : ∫ t in Set.Ioc (c - b) (c + b), ((fun t => Real.sqrt (b ^ 2 - (t - c) ^ 2)) - fun t => -Real.sqrt (b ^ 2 - (t - c) ^ 2)) t =
        ∫ t in (c - b)..(c + b), 2 * Real.sqrt (b ^ 2 - (t - c) ^ 2) := by
      rw [integral_of_le (by linarith)]
      refine integral_congr_ae (Filter.Eventually.of_forall fun t => ?_)
      simp; ring
    have i3 := integral_comp_sub_right (a := c - b) (b := c + b) (fun u => 2 * Real.sqrt (b ^ 2 - u ^ 2)) c
    have e2 : ∫ t in (c - b)..(c + b), 2 * Real.sqrt (b ^ 2 - (t - c) ^ 2) = Real.pi * b * b := by
      rw [i3, show c - b - c = -b by ring, show c + b - c = b by ring, seg_integral hb le_rfl (by linarith) le_rfl]
      simp only [segF]
      rw [show -b / b = -1 by field_simp, div_self hb.ne', Real.arcsin_neg_one, Real.arcsin_one]
      simp
      ring
    rw [e, e2, ENNReal.toReal_ofReal (by positivity)]
  · exact (hcont.neg.integrableOn_Icc).mono_set Set.Ioc_subset_Icc_self
  · exact (hcont.integrableOn_Icc).mono_set Set.Ioc_subset_Icc_self
  · exact measurableSet_Ioc
  · intro t _
    have := Real.sqrt_nonneg (b ^ 2 - (t - c) ^ 2)
    linarith

theorem disc_finite {c b : ℝ} (hb : 0 < b) : volume (disc c b) ≠ ⊤ := by
  intro h
  have := disc_area (c := c) hb
  rw [h] at this
  simp at this
  have : 0 < Real.pi * b * b := by positivity
  aesop

theorem lit_eq {a b c : ℝ} (ha : 0 < a) :
    litFraction a b c = 1 - (volume (disc 0 a ∩ disc c b)).toReal / (Real.pi * a * a) := by
  have h : (volume (disc 0 a \ disc c b)).toReal = (volume (disc 0 a)).toReal - (volume (disc 0 a ∩ disc c b)).toReal := by
    have h1 := measure_inter_add_diff (μ := volume) (disc 0 a) (disc_measurable c b)
    have hf := disc_finite (c := 0) ha
    have g1 : volume (disc 0 a ∩ disc c b) ≠ ⊤ := ne_top_of_le_ne_top hf (measure_mono Set.inter_subset_left)
    have g2 : volume (disc 0 a \ disc c b) ≠ ⊤ := ne_top_of_le_ne_top hf (measure_mono Set.diff_subset)
    rw [← h1, ENNReal.toReal_add g1 g2]
    ring
  have hp : 0 < Real.pi * a * a := by positivity
  rw [litFraction, h, disc_area ha]
  field_simp

theorem lit_total {a b c : ℝ} (ha : 0 < a) (hc : 0 ≤ c) (h : c ≤ b - a) : litFraction a b c = 0 := by
  have : disc 0 a \ disc c b = ∅ := by
    rw [Set.diff_eq_empty]
    intro p hp
    have h1 : (p.1 - 0) ^ 2 + p.2 ^ 2 < a ^ 2 := hp
    have r := disc_range ha hp
    show (p.1 - c) ^ 2 + p.2 ^ 2 < b ^ 2
    nlinarith [r.1, r.2]
  rw [litFraction, this]
  simp

theorem lit_annular {a b c : ℝ} (ha : 0 < a) (hb : 0 < b) (hc : 0 ≤ c) (h : c ≤ a - b) : litFraction a b c = 1 - b * b / (a * a) := by
  have : disc 0 a ∩ disc c b = disc c b := by
    rw [Set.inter_eq_right]
    intro p hp
    have h1 : (p.1 - c) ^ 2 + p.2 ^ 2 < b ^ 2 := hp
    have r := disc_range hb hp
    show (p.1 - 0) ^ 2 + p.2 ^ 2 < a ^ 2
    nlinarith [r.1, r.2]
  rw [lit_eq ha, this, disc_area hb]
  have := Real.pi_pos
  field_simp

theorem lit_apart {a b c : ℝ} (ha : 0 < a) (hb : 0 < b) (h : a + b ≤ c) : litFraction a b c = 1 := by
  have : disc 0 a ∩ disc c b = ∅ := by
    rw [Set.eq_empty_iff_forall_notMem]
    rintro p ⟨h1, h2⟩
    have r1 := disc_range ha h1
    have r2 := disc_range hb h2
    linarith [r1.2, r2.1]
  rw [lit_eq ha, this]
  simp

theorem lit_range {a b c : ℝ} (ha : 0 < a) : 0 ≤ litFraction a b c ∧ litFraction a b c ≤ 1 := by
  refine ⟨by unfold litFraction; positivity, ?_⟩
  rw [lit_eq ha]
  have : 0 ≤ (volume (disc 0 a ∩ disc c b)).toReal / (Real.pi * a * a) := by positivity
  linarith

theorem lit_lt_one {a b c : ℝ} (ha : 0 < a) (hb : 0 < b) (hc : 0 ≤ c) (h : c < a + b) : litFraction a b c < 1 := by
  have hopen : IsOpen (disc 0 a ∩ disc c b) :=
    (isOpen_lt (by fun_prop) (by fun_prop) : IsOpen (disc 0 a)).inter (isOpen_lt (by fun_prop) (by fun_prop))
  obtain ⟨t, h1, h2⟩ : ∃ t, max (-a) (c - b) < t ∧ t < min a (c + b) := by
    apply exists_between
    rw [max_lt_iff, lt_min_iff, lt_min_iff]
    refine ⟨⟨?_, ?_⟩, ?_, ?_⟩ <;> linarith
  rw [max_lt_iff] at h1
  rw [lt_min_iff] at h2
  have hne : (disc 0 a ∩ disc c b).Nonempty := by
    refine ⟨(t, 0), ?_, ?_⟩
    · show (t - 0) ^ 2 + (0 : ℝ) ^ 2 < a ^ 2
      nlinarith [h1.1, h2.1]
    · show (t - c) ^ 2 + (0 : ℝ) ^ 2 < b ^ 2
      nlinarith [h1.2, h2.2]
  have hpos := hopen.measure_pos volume hne
  have hfin : volume (disc 0 a ∩ disc c b) ≠ ⊤ := ne_top_of_le_ne_top (disc_finite (c := 0) ha) (measure_mono Set.inter_subset_left)
  have := ENNReal.toReal_pos hpos.ne' hfin
  rw [lit_eq ha]
  have : 0 < (volume (disc 0 a ∩ disc c b)).toReal / (Real.pi * a * a) := by positivity
  linarith

theorem lit_pos {a b c : ℝ} (ha : 0 < a) (hb : 0 < b) (h : b - a < c) : 0 < litFraction a b c := by
  have hopen : IsOpen (disc 0 a ∩ {p : ℝ × ℝ | b ^ 2 < (p.1 - c) ^ 2 + p.2 ^ 2}) :=
    (isOpen_lt (by fun_prop) (by fun_prop) : IsOpen (disc 0 a)).inter (isOpen_lt (by fun_prop) (by fun_prop))
  obtain ⟨t, h1, h2⟩ : ∃ t, -a < t ∧ t < min a (c - b) := by
    apply exists_between
    rw [lt_min_iff]
    exact ⟨by linarith, by linarith⟩
  rw [lt_min_iff] at h2
  have hne : (disc 0 a ∩ {p : ℝ × ℝ | b ^ 2 < (p.1 - c) ^ 2 + p.2 ^ 2}).Nonempty := by
    refine ⟨(t, 0), ?_, ?_⟩
    · show (t - 0) ^ 2 + (0 : ℝ) ^ 2 < a ^ 2
      nlinarith [h1, h2.1]
    · show b ^ 2 < (t - c) ^ 2 + (0 : ℝ) ^ 2
      nlinarith [h2.2]
  have hpos := hopen.measure_pos volume hne
  have hsub : disc 0 a ∩ {p : ℝ × ℝ | b ^ 2 < (p.1 - c) ^ 2 + p.2 ^ 2} ⊆ disc 0 a \ disc c b := by
    rintro p ⟨g1, g2⟩
    refine ⟨g1, fun g3 => ?_⟩
    have g4 : (p.1 - c) ^ 2 + p.2 ^ 2 < b ^ 2 := g3
    have g5 : b ^ 2 < (p.1 - c) ^ 2 + p.2 ^ 2 := g2
    linarith
  have hpos' : 0 < volume (disc 0 a \ disc c b) := hpos.trans_le (measure_mono hsub)
  have hfin : volume (disc 0 a \ disc c b) ≠ ⊤ := ne_top_of_le_ne_top (disc_finite (c := 0) ha) (measure_mono Set.diff_subset)
  have := ENNReal.toReal_pos hpos'.ne' hfin
  rw [litFraction, disc_area ha]
  positivity

end S2E.Shadow
