import Verif.Props.Celestial
import Verif.Proofs.Shadow
import Mathlib.Geometry.Euclidean.Triangle
import Mathlib.Analysis.InnerProductSpace.PiL2
import Mathlib.Data.List.Basic
import Mathlib.Algebra.BigOperators.Group.List.Basic
/-!
# C108, C109: eclipses and solar radiation pressure
-/
namespace S2E.Env

open TwoBody Shadow

/-- The vector as an element of Euclidean space. -/
noncomputable def euc (v : Fin 3 → ℝ) : EuclideanSpace ℝ (Fin 3) := WithLp.toLp 2 v

theorem euc_norm (v : Fin 3 → ℝ) : ‖euc v‖ = len v := by
  rw [EuclideanSpace.norm_eq, len, Fin.sum_univ_three]
  simp [euc]

theorem euc_inner (u v : Fin 3 → ℝ) : inner ℝ (euc u) (euc v) = dot u v := by
  rw [PiLp.inner_apply, Fin.sum_univ_three, dot]
  simp [euc]
  ring

theorem euc_sub (u v : Fin 3 → ℝ) : euc (u - v) = euc u - euc v := rfl

theorem angle_euc (u v : Fin 3 → ℝ) : angle u v = InnerProductGeometry.angle (euc u) (euc v) := by
  rw [angle, InnerProductGeometry.angle, euc_inner, euc_norm, euc_norm]

/-- **C108** (separation). The separation the shadow is computed from is the angle between the directions spacecraft-to-body and
body-to-Sun. It exceeds the angle between body and Sun seen from the spacecraft exactly by the angle between spacecraft and body seen from
the Sun, which is at most `arcsin (|body| / |Sun|)` for a body that is not farther than the Sun. -/
theorem C108_separation (sun source : Fin 3 → ℝ) (h1 : sun ≠ 0) (h2 : source ≠ 0) (h3 : sun ≠ source) :
    angle source (sun - source) = angle source sun + angle sun (sun - source) ∧
    (len source ≤ len sun → angle sun (sun - source) ≤ Real.arcsin (len source / len sun)) := by
  have n1 : euc sun ≠ 0 := by
    intro h; apply h1; exact (WithLp.toLp_injective 2) (h.trans rfl)
  have n2 : euc source ≠ 0 := by
    intro h; apply h2; exact (WithLp.toLp_injective 2) (h.trans rfl)
  have n3 : euc sun - euc source ≠ 0 := by
    intro h; apply h3; exact (WithLp.toLp_injective 2) (sub_eq_zero.mp h)
  constructor
  · rw [angle_euc, angle_euc, angle_euc, euc_sub]
    have h := InnerProductGeometry.angle_add_angle_sub_add_angle_sub_eq_pi (euc sun) n2
    have e : InnerProductGeometry.angle (euc source) (euc source - euc sun) = Real.pi - InnerProductGeometry.angle (euc source) (euc sun - euc source) := by
      rw [← InnerProductGeometry.angle_neg_right, neg_sub]
    rw [e, InnerProductGeometry.angle_comm (euc sun) (euc source)] at h
    linarith
  · intro hle
    rw [angle_euc, euc_sub]
    have hs := InnerProductGeometry.sin_angle_mul_norm_eq_sin_angle_mul_norm (euc source) (euc source - euc sun)
    rw [sub_sub_cancel, ← neg_sub (euc sun) (euc source), InnerProductGeometry.angle_neg_left, Real.sin_pi_sub,
      InnerProductGeometry.angle_comm (euc sun - euc source)] at hs
    have pos1 : 0 < len sun := len_pos h1
    have hcos : 0 ≤ Real.cos (InnerProductGeometry.angle (euc sun) (euc sun - euc source)) := by
      rw [InnerProductGeometry.cos_angle, inner_sub_right]
      have := real_inner_le_norm (euc sun) (euc source)
      rw [real_inner_self_eq_norm_sq]
      apply div_nonneg _ (by positivity)
      rw [euc_norm] at *
      rw [euc_norm] at *
      nlinarith
    have ha : InnerProductGeometry.angle (euc sun) (euc sun - euc source) ≤ Real.pi / 2 := by
      by_contra hcon
      push Not at hcon
      have := Real.cos_neg_of_pi_div_two_lt_of_lt hcon
        (by have := InnerProductGeometry.angle_le_pi (euc sun) (euc sun - euc source); linarith [Real.pi_pos])
      linarith
    rw [← Real.arcsin_sin (by have := InnerProductGeometry.angle_nonneg (euc sun) (euc sun - euc source); linarith [Real.pi_pos]) ha]
    apply Real.arcsin_le_arcsin
    rw [le_div_iff₀ pos1, ← euc_norm sun, ← euc_norm source, ← hs]
    exact mul_le_of_le_one_left (norm_nonneg _) (Real.sin_le_one _)

/-- A body a tenth of the way to the Sun, off the line of sight. -/
example : (![10, 0, 0] : Fin 3 → ℝ) ≠ 0 ∧ (![1, 1, 0] : Fin 3 → ℝ) ≠ 0 ∧ (![10, 0, 0] : Fin 3 → ℝ) ≠ ![1, 1, 0] ∧
    len ![1, 1, 0] ≤ len ![10, 0, 0] := by
  refine ⟨fun h => by simpa using congrFun h 0, fun h => by simpa using congrFun h 0, fun h => by simpa using congrFun h 1, ?_⟩
  apply Real.sqrt_le_sqrt
  simp; norm_num

/-- The geometry in which the calculation is meaningful: spacecraft outside of the Sun and of the body, which are at different places, and not
(aligned with equal apparent radii), where the code divides zero by zero. -/
structure Outside (sun source : Fin 3 → ℝ) (sunRadius radius : ℝ) : Prop where
  sunPos : 0 < sunRadius
  radiusPos : 0 < radius
  sunOut : sunRadius ≤ len sun
  sourceOut : radius ≤ len source
  apart : sun ≠ source
  notSame : ¬ (angle source (sun - source) = 0 ∧ apparent sunRadius sun = apparent radius source)

/-- The body is in front of the Sun and leaves a ring of it visible. -/
def Annular (sun source : Fin 3 → ℝ) (sunRadius radius : ℝ) : Prop :=
  angle source (sun - source) < apparent sunRadius sun - apparent radius source

noncomputable instance (sun source : Fin 3 → ℝ) (sunRadius radius : ℝ) : Decidable (Annular sun source sunRadius radius) :=
  inferInstanceAs (Decidable (_ < _))

/-- The visible fraction of the Sun behind one body. -/
noncomputable def lit (sun source : Fin 3 → ℝ) (sunRadius radius : ℝ) : ℝ :=
  litFraction (apparent sunRadius sun) (apparent radius source) (angle source (sun - source))

theorem quot_ok {a b : ℝ} (h : b ≠ 0) : quot a b = some (a / b) := if_neg h

theorem apparent_pos {r : ℝ} {d : Fin 3 → ℝ} (h : 0 < r) (h2 : r ≤ len d) : 0 < apparent r d := by
  rw [apparent, Real.arcsin_pos]
  have : 0 < len d := h.trans_le h2
  positivity

theorem asin_ok {r : ℝ} {d : Fin 3 → ℝ} (h : 0 < r) (h2 : r ≤ len d) : (quot r (calcNorm d)).bind asinC = some (apparent r d) := by
  have hd : 0 < len d := h.trans_le h2
  rw [Kepler.calcNorm_len, quot_ok hd.ne', Option.bind_some, asinC, if_pos]
  · rfl
  · have : 0 < r / len d := by positivity
    have : r / len d ≤ 1 := by rw [div_le_one hd]; exact h2
    constructor <;> linarith

theorem dot_bound (u v : Fin 3 → ℝ) (hu : 0 < len u) (hv : 0 < len v) : -1 ≤ dot u v / (len u * len v) ∧ dot u v / (len u * len v) ≤ 1 := by
  have := abs_real_inner_div_norm_mul_norm_le_one (euc u) (euc v)
  rw [euc_inner, euc_norm, euc_norm] at this
  exact abs_le.mp this

theorem separation_ok (sun source : Fin 3 → ℝ) (h2 : 0 < len source) (h3 : sun ≠ source) :
    ((quot (innerProduct source (vsub sun source)) (calcNorm source)).bind fun t => quot t (calcNorm (vsub sun source))).bind acosC =
      some (angle source (sun - source)) := by
  have e : vsub sun source = sun - source := rfl
  have hp : 0 < len (sun - source) := len_pos (sub_ne_zero.mpr h3)
  rw [e, Kepler.calcNorm_len, Kepler.calcNorm_len, Kepler.innerProduct_dot, quot_ok h2.ne', Option.bind_some, quot_ok hp.ne', Option.bind_some, acosC,
    div_div, if_pos (dot_bound _ _ h2 hp), angle]

theorem shadowCases_spec (p a b c : ℝ) (ha : 0 < a) (hb : 0 < b) (hc : 0 ≤ c) (hne : ¬ (c = 0 ∧ a = b)) :
    shadowCases (some p) a b c = .ok (some (if c < a - b then litFraction a b c else p * litFraction a b c)) := by
  simp only [shadowCases]
  by_cases h1 : c < |a - b| ∧ a ≤ b
  · rw [if_pos h1, if_neg (by linarith [h1.2])]
    rw [abs_of_nonpos (by linarith [h1.2])] at h1
    rw [lit_total ha hc (by linarith [h1.1])]
    simp
  rw [if_neg h1]
  by_cases h2 : c < |a - b| ∧ a > b
  · rw [if_pos h2]
    rw [abs_of_pos (by linarith [h2.2])] at h2
    rw [if_pos h2.1, lit_annular ha hb hc h2.1.le]
  rw [if_neg h2]
  have h3 : |a - b| ≤ c := by
    by_contra h
    push Not at h
    rcases le_or_gt a b with h' | h'
    · exact h1 ⟨h, h'⟩
    · exact h2 ⟨h, h'⟩
  have h5 : ¬ c < a - b := by have := le_abs_self (a - b); linarith
  rw [if_neg h5]
  by_cases h4 : |a - b| ≤ c ∧ c ≤ a + b
  · rw [if_pos h4]
    have hc0 : 0 < c := by
      rcases hc.lt_or_eq with h | h
      · exact h
      · exfalso
        apply hne
        refine ⟨h.symm, ?_⟩
        have := abs_nonneg (a - b)
        have : |a - b| = 0 := by linarith [h4.1]
        linarith [abs_eq_zero.mp this]
    have area := overlap_area ha hb hc0 h4.1 h4.2
    have le := lit_eq (b := b) (c := c) ha
    rw [quot_ok (by positivity), Option.bind_some]
    obtain ⟨x, hx⟩ : ∃ x, x = (c * c + a * a - b * b) / (2 * c) := ⟨_, rfl⟩
    rw [← hx] at area ⊢
    have hx2 : 2 * c * x = c * c + a * a - b * b := by rw [hx]; field_simp
    obtain ⟨h6, h7⟩ := abs_le.mp h4.1
    have h8 := h4.2
    have g1 : -1 ≤ x / a ∧ x / a ≤ 1 := by
      rw [le_div_iff₀ ha, div_le_one ha]
      constructor
      · have : 2 * c * (x + a) = (c + a - b) * (c + a + b) := by linear_combination hx2
        have : 0 ≤ 2 * c * (x + a) := by rw [this]; exact mul_nonneg (by linarith) (by linarith)
        nlinarith
      · have : 2 * c * (a - x) = (b - (c - a)) * (b + (c - a)) := by linear_combination (-1 : ℝ) * hx2
        have : 0 ≤ 2 * c * (a - x) := by rw [this]; exact mul_nonneg (by linarith) (by linarith)
        nlinarith
    have g2 : -1 ≤ (c - x) / b ∧ (c - x) / b ≤ 1 := by
      rw [le_div_iff₀ hb, div_le_one hb]
      constructor
      · have : 2 * c * (c + b - x) = (c + b - a) * (c + b + a) := by linear_combination (-1 : ℝ) * hx2
        have : 0 ≤ 2 * c * (c + b - x) := by rw [this]; exact mul_nonneg (by linarith) (by linarith)
        nlinarith
      · have : 2 * c * (x - (c - b)) = (a - (c - b)) * (a + (c - b)) := by linear_combination hx2
        have : 0 ≤ 2 * c * (x - (c - b)) := by rw [this]; exact mul_nonneg (by linarith) (by linarith)
        nlinarith
    rw [quot_ok ha.ne', Option.bind_some, acosC, if_pos g1, Option.bind_some, quot_ok hb.ne', Option.bind_some, acosC, if_pos g2, Option.bind_some,
      Option.map_some, le, area]
  · rw [if_neg h4]
    have h9 : ¬ c < a + b := fun h => h4 ⟨h3, h.le⟩
    rw [if_neg h9, lit_apart ha hb (by linarith)]
    simp

/-- **C108** (one body). In every meaningful geometry the calculation for one body multiplies the shadow coefficient with the fraction of
the area of the apparent solar disc that the apparent disc of the body leaves uncovered - except that an annular eclipse *replaces* the
coefficient by that fraction. It never ends the program. -/
theorem C108_one_body (p : ℝ) (sun source : Fin 3 → ℝ) (sunRadius radius : ℝ) (h : Outside sun source sunRadius radius) :
    (¬ Annular sun source sunRadius radius → shadowStep (some p) sun source sunRadius radius = .ok (some (p * lit sun source sunRadius radius))) ∧
    (Annular sun source sunRadius radius → shadowStep (some p) sun source sunRadius radius = .ok (some (lit sun source sunRadius radius))) := by
  have hl : 0 < len source := h.radiusPos.trans_le h.sourceOut
  have key : shadowStep (some p) sun source sunRadius radius =
      .ok (some (if Annular sun source sunRadius radius then lit sun source sunRadius radius else p * lit sun source sunRadius radius)) := by
    simp only [shadowStep]
    rw [asin_ok h.sunPos h.sunOut, asin_ok h.radiusPos h.sourceOut, separation_ok sun source hl h.apart]
    exact shadowCases_spec p _ _ _ (apparent_pos h.sunPos h.sunOut) (apparent_pos h.radiusPos h.sourceOut) (Real.arccos_nonneg _) h.notSame
  constructor <;> intro h' <;> rw [key]
  · rw [if_neg h']
  · rw [if_pos h']

/-- The configuration of the examples: Sun of radius 1 at distance 10, bodies on the line of sight at distance `d`. -/
theorem example_outside {d r : ℝ} (hd : 0 < d) (hd2 : d ≠ 10) (hr : 0 < r) (h : r ≤ d) (hne : r / d ≠ 1 / 10) :
    Outside ![10, 0, 0] ![d, 0, 0] 1 r := by
  have e1 : len ![10, 0, 0] = 10 := by
    rw [len]; simp
  have e2 : len ![d, 0, 0] = d := by
    rw [len]; simp [Real.sqrt_sq hd.le]
  refine ⟨one_pos, hr, by rw [e1]; norm_num, by rw [e2]; exact h, ?_, ?_⟩
  · intro h'
    exact hd2 (by simpa using (congrFun h' 0).symm)
  · rintro ⟨-, h'⟩
    rw [apparent, apparent, e1, e2] at h'
    have hrd : 0 < r / d := by positivity
    have := Real.injOn_arcsin ⟨by norm_num, by norm_num⟩ ⟨by linarith, by rw [div_le_one hd]; exact h⟩ h'
    exact hne this.symm

theorem example_separation {d : ℝ} (hd : 0 < d) (hd2 : d < 10) : angle ![d, 0, 0] (![10, 0, 0] - ![d, 0, 0]) = 0 := by
  have e2 : len ![d, 0, 0] = d := by
    rw [len]; simp [Real.sqrt_sq hd.le]
  have e3 : len (![10, 0, 0] - ![d, 0, 0]) = 10 - d := by
    rw [len]; simp [Real.sqrt_sq (by linarith : (0 : ℝ) ≤ 10 - d)]
  have hp : 0 < 10 - d := by linarith
  rw [angle, e2, e3, dot]
  simp
  rw [div_self (by positivity)]

theorem example_apparent {d r : ℝ} (hd : 0 < d) : apparent r ![d, 0, 0] = Real.arcsin (r / d) := by
  rw [apparent, len]; simp [Real.sqrt_sq hd.le]

/-- The hypotheses of `C108_one_body` hold in both cases: a body of radius 1/2 at distance 1 hides the Sun, one of radius 1/10 at distance
2 leaves a ring. -/
example : Outside ![10, 0, 0] ![1, 0, 0] 1 (1 / 2) ∧ ¬ Annular ![10, 0, 0] ![1, 0, 0] 1 (1 / 2) ∧
    Outside ![10, 0, 0] ![2, 0, 0] 1 (1 / 10) ∧ Annular ![10, 0, 0] ![2, 0, 0] 1 (1 / 10) := by
  refine ⟨example_outside (by norm_num) (by norm_num) (by norm_num) (by norm_num) (by norm_num), ?_,
    example_outside (by norm_num) (by norm_num) (by norm_num) (by norm_num) (by norm_num), ?_⟩
  · rw [Annular, example_separation (by norm_num) (by norm_num), example_apparent (by norm_num), example_apparent (by norm_num)]
    have := Real.arcsin_le_arcsin (show (1 : ℝ) / 10 ≤ 1 / 2 / 1 by norm_num)
    linarith
  · rw [Annular, example_separation (by norm_num) (by norm_num), example_apparent (by norm_num), example_apparent (by norm_num)]
    have := Real.arcsin_lt_arcsin (show -1 ≤ (1 : ℝ) / 10 / 2 by norm_num) (show (1 : ℝ) / 10 / 2 < 1 / 10 by norm_num) (by norm_num)
    linarith

theorem lit_mem {sun source : Fin 3 → ℝ} {sunRadius radius : ℝ} (h : Outside sun source sunRadius radius) :
    0 ≤ lit sun source sunRadius radius ∧ lit sun source sunRadius radius ≤ 1 := lit_range (apparent_pos h.sunPos h.sunOut)

/-- The two apparent discs overlap. -/
def Overlap (sun source : Fin 3 → ℝ) (sunRadius radius : ℝ) : Prop :=
  angle source (sun - source) < apparent sunRadius sun + apparent radius source

theorem lit_lt_iff {sun source : Fin 3 → ℝ} {sunRadius radius : ℝ} (h : Outside sun source sunRadius radius) :
    lit sun source sunRadius radius < 1 ↔ Overlap sun source sunRadius radius := by
  have ha := apparent_pos h.sunPos h.sunOut
  have hb := apparent_pos h.radiusPos h.sourceOut
  constructor
  · intro h1
    by_contra h2
    rw [Overlap, not_lt] at h2
    have := lit_apart ha hb h2
    rw [lit] at h1
    linarith
  · intro h1
    exact lit_lt_one ha hb (Real.arccos_nonneg _) h1

/-- The effect of one source on the coefficient. -/
noncomputable def effect (sun : Fin 3 → ℝ) (sunRadius : ℝ) (pos : String → Fin 3 → ℝ) (rad : String → ℝ) (p : ℝ) (n : String) : ℝ :=
  if n = "SUN" then p else if Annular sun (pos n) sunRadius (rad n) then lit sun (pos n) sunRadius (rad n) else p * lit sun (pos n) sunRadius (rad n)

/-- The environment lets the shadow of every source be calculated: the getters return the positions `pos` and radii `rad`. -/
structure Sees (spice : String → Option Int) (c : Celestial) (l : Local) (s : Srp) (sun : Fin 3 → ℝ) (pos : String → Fin 3 → ℝ)
    (rad : String → ℝ) : Prop where
  atSun : c.getPositionFromSpacecraftI spice l "SUN" = .ok sun
  source : ∀ n ∈ s.sources, n ≠ "SUN" → c.getPositionFromSpacecraftI spice l n = .ok (pos n) ∧ c.getMeanRadius spice n = .ok (rad n) ∧
    Outside sun (pos n) s.sunRadius (rad n)

theorem fold_shadow (spice : String → Option Int) (c : Celestial) (l : Local) (sun : Fin 3 → ℝ) (pos : String → Fin 3 → ℝ) (rad : String → ℝ)
    (R : ℝ) (hsun : c.getPositionFromSpacecraftI spice l "SUN" = .ok sun) : ∀ (L : List String) (s : Srp) (p : ℝ), s.sunRadius = R → s.coefficient = some p →
    (∀ n ∈ L, n ≠ "SUN" → c.getPositionFromSpacecraftI spice l n = .ok (pos n) ∧ c.getMeanRadius spice n = .ok (rad n) ∧ Outside sun (pos n) R (rad n)) →
    L.foldlM (fun s name => s.calcShadow spice c l name) s = .ok { s with coefficient := some (L.foldl (effect sun R pos rad) p) } := by
  intro L
  induction L with
  | nil =>
    intro s p hR hp _
    simp only [List.foldlM_nil, List.foldl_nil, Res.pure_eq, ← hp]
  | cons n L ih =>
    intro s p hR hp hL
    have hstep : s.calcShadow spice c l n = .ok { s with coefficient := some (effect sun R pos rad p n) } := by
      by_cases hn : n = "SUN"
      · simp only [Srp.calcShadow, hn, if_true, hp, effect, Option.map_some, mul_one]
      · obtain ⟨h1, h2, h3⟩ := hL n (by simp) hn
        have h4 := C108_one_body p sun (pos n) R (rad n) h3
        simp only [Srp.calcShadow, hn, if_false, hsun, h1, h2, Res.bind, hp, effect, hR]
        by_cases ha : Annular sun (pos n) R (rad n)
        · simp only [h4.2 ha, if_pos ha]
        · simp only [h4.1 ha, if_neg ha]
    rw [List.foldlM_cons, hstep, Res.bind_ok, ih { s with coefficient := some (effect sun R pos rad p n) } (effect sun R pos rad p n) hR rfl
      (fun m hm => hL m (List.mem_cons_of_mem _ hm)), List.foldl_cons]

theorem fold_range (sun : Fin 3 → ℝ) (R : ℝ) (pos : String → Fin 3 → ℝ) (rad : String → ℝ) : ∀ (L : List String) (p : ℝ), 0 ≤ p → p ≤ 1 →
    (∀ n ∈ L, n ≠ "SUN" → Outside sun (pos n) R (rad n)) →
    0 ≤ L.foldl (effect sun R pos rad) p ∧ L.foldl (effect sun R pos rad) p ≤ 1 ∧
    (L.foldl (effect sun R pos rad) p < 1 ↔ p < 1 ∨ ∃ n ∈ L, n ≠ "SUN" ∧ Overlap sun (pos n) R (rad n)) := by
  intro L
  induction L with
  | nil => intro p h0 h1 _; simp [h0, h1]
  | cons n L ih =>
    intro p h0 h1 hL
    rw [List.foldl_cons]
    have hm : ∀ m ∈ L, m ≠ "SUN" → Outside sun (pos m) R (rad m) := fun m hm => hL m (List.mem_cons_of_mem _ hm)
    by_cases hn : n = "SUN"
    · have : effect sun R pos rad p n = p := by simp [effect, hn]
      rw [this]
      obtain ⟨g1, g2, g3⟩ := ih p h0 h1 hm
      refine ⟨g1, g2, g3.trans ?_⟩
      simp [hn]
    · have ho := hL n (by simp) hn
      obtain ⟨l0, l1⟩ := lit_mem ho
      have e0 : 0 ≤ effect sun R pos rad p n := by
        simp only [effect, hn, if_false]; split_ifs
        · exact l0
        · exact mul_nonneg h0 l0
      have e1 : effect sun R pos rad p n ≤ 1 := by
        simp only [effect, hn, if_false]; split_ifs
        · exact l1
        · exact mul_le_one₀ h1 l0 l1
      have e2 : effect sun R pos rad p n < 1 ↔ p < 1 ∨ Overlap sun (pos n) R (rad n) := by
        rw [← lit_lt_iff ho]
        simp only [effect, hn, if_false]
        split_ifs with ha
        · have : lit sun (pos n) R (rad n) < 1 := by
            rw [lit_lt_iff ho]
            rw [Annular] at ha
            have := apparent_pos ho.radiusPos ho.sourceOut
            rw [Overlap]; linarith
          simp [this]
        · constructor
          · intro h
            by_contra hcon
            push Not at hcon
            have e : p = 1 := le_antisymm h1 hcon.1
            rw [e, one_mul] at h
            linarith [hcon.2]
          · rintro (h | h)
            · nlinarith
            · nlinarith
      obtain ⟨g1, g2, g3⟩ := ih _ e0 e1 hm
      refine ⟨g1, g2, g3.trans ?_⟩
      rw [e2]
      simp [hn, or_assoc]

theorem fold_prod (sun : Fin 3 → ℝ) (R : ℝ) (pos : String → Fin 3 → ℝ) (rad : String → ℝ) : ∀ (L : List String) (p : ℝ),
    (∀ n ∈ L, n ≠ "SUN" → ¬ Annular sun (pos n) R (rad n)) →
    L.foldl (effect sun R pos rad) p = p * ((L.filter (· ≠ "SUN")).map fun n => lit sun (pos n) R (rad n)).prod := by
  intro L
  induction L with
  | nil => intro p _; simp
  | cons n L ih =>
    intro p hL
    rw [List.foldl_cons, ih _ fun m hm => hL m (List.mem_cons_of_mem _ hm)]
    by_cases hn : n = "SUN"
    · simp [effect, hn]
    · have := hL n (by simp) hn
      simp [effect, hn, this, mul_assoc]

/-- **C108** (`UpdateAllStates`). For every list of shadow sources in a meaningful geometry the update succeeds and
* the coefficient lies in [0, 1], and the spacecraft is reported as eclipsed exactly when the apparent disc of some source overlaps the
  solar disc;
* if no source leaves a ring of the Sun visible, the coefficient is the product of the visible fractions of all the sources;
* otherwise everything before the last such source is forgotten: the coefficient is its visible fraction times those of the sources after it. -/
theorem C108_update (spice : String → Option Int) (c : Celestial) (l : Local) (s : Srp) (sun : Fin 3 → ℝ) (pos : String → Fin 3 → ℝ)
    (rad : String → ℝ) (he : s.enabled = true) (h : Sees spice c l s sun pos rad) :
    ∃ s' k, s.update spice c l = .ok s' ∧ s'.coefficient = some k ∧ 0 ≤ k ∧ k ≤ 1 ∧
      (s'.isEclipsed ↔ ∃ n ∈ s.sources, n ≠ "SUN" ∧ Overlap sun (pos n) s.sunRadius (rad n)) ∧
      ((∀ n ∈ s.sources, n ≠ "SUN" → ¬ Annular sun (pos n) s.sunRadius (rad n)) →
        k = ((s.sources.filter (· ≠ "SUN")).map fun n => lit sun (pos n) s.sunRadius (rad n)).prod) ∧
      (∀ before n after, s.sources = before ++ n :: after → n ≠ "SUN" → Annular sun (pos n) s.sunRadius (rad n) →
        (∀ m ∈ after, m ≠ "SUN" → ¬ Annular sun (pos m) s.sunRadius (rad m)) →
        k = lit sun (pos n) s.sunRadius (rad n) * ((after.filter (· ≠ "SUN")).map fun m => lit sun (pos m) s.sunRadius (rad m)).prod) := by
  have hfold := fold_shadow spice c l sun pos rad s.sunRadius h.atSun s.sources
    ⟨s.enabled, 1366 / speedOfLight / (calcNorm sun / astronomicalUnit) ^ 2, some 1, s.sunRadius, s.sources⟩ 1 rfl rfl h.source
  obtain ⟨g1, g2, g3⟩ := fold_range sun s.sunRadius pos rad s.sources 1 zero_le_one le_rfl fun n hn hne => (h.source n hn hne).2.2
  refine ⟨⟨s.enabled, 1366 / speedOfLight / (calcNorm sun / astronomicalUnit) ^ 2, some (s.sources.foldl (effect sun s.sunRadius pos rad) 1), s.sunRadius,
    s.sources⟩, _, ?_, rfl, g1, g2, ?_, ?_, ?_⟩
  · rw [Srp.update, if_neg (by simp [he])]
    simp only [Srp.updatePressure, h.atSun, Res.bind]
    exact hfold
  · rw [Srp.isEclipsed]
    simp only [Option.some.injEq, exists_eq_left', ge_iff_le, not_le]
    rw [g3]
    simp
  · intro hno
    rw [fold_prod sun s.sunRadius pos rad s.sources 1 hno, one_mul]
  · intro before n after hs hn ha hafter
    rw [hs, List.foldl_append, List.foldl_cons, fold_prod sun s.sunRadius pos rad after _ hafter]
    simp [effect, hn, ha]

/-- **C108** (errors are one-sided). Because the separation used is never smaller than the true one, a body whose apparent disc does not reach
the solar disc never reduces the coefficient, and a body that makes the coefficient zero really hides the whole solar disc. -/
theorem C108_one_sided (sun source : Fin 3 → ℝ) (sunRadius radius : ℝ) (h : Outside sun source sunRadius radius) :
    (apparent sunRadius sun + apparent radius source ≤ angle source sun → lit sun source sunRadius radius = 1) ∧
    (lit sun source sunRadius radius = 0 → angle source sun ≤ apparent radius source - apparent sunRadius sun ∧
      litFraction (apparent sunRadius sun) (apparent radius source) (angle source sun) = 0) := by
  have ha := apparent_pos h.sunPos h.sunOut
  have hb := apparent_pos h.radiusPos h.sourceOut
  have n1 : sun ≠ 0 := by
    rintro rfl
    have := h.sunPos.trans_le h.sunOut
    simp [len] at this
  have n2 : source ≠ 0 := by
    rintro rfl
    have := h.radiusPos.trans_le h.sourceOut
    simp [len] at this
  have hsep := (C108_separation sun source n1 n2 h.apart).1
  have hnn : 0 ≤ angle sun (sun - source) := Real.arccos_nonneg _
  constructor
  · intro h1
    exact lit_apart ha hb (by linarith)
  · intro h0
    have hle : angle source (sun - source) ≤ apparent radius source - apparent sunRadius sun := by
      by_contra hcon
      push Not at hcon
      have := lit_pos ha hb hcon
      rw [lit] at h0
      linarith
    exact ⟨by linarith, lit_total ha (Real.arccos_nonneg _) (by linarith)⟩

/-- Three bodies on a line: the Earth at 1 with radius 1/2, the Sun at 10 with radius 1, the Moon at 2 with radius 1/10. -/
noncomputable def exampleBodies : Celestial where
  ids := [399, 10, 301]
  center := "EARTH"
  position := [![1, 0, 0], ![10, 0, 0], ![2, 0, 0]]
  velocity := [0, 0, 0]
  gravity := [1, 1, 1]
  radii := [fun _ => 1 / 2, fun _ => 1, fun _ => 1 / 10]
  meanRadius := [1 / 2, 1, 1 / 10]

noncomputable def exampleLocal : Local := exampleBodies.localUpdate 0 0 ⟨0, 0, 0, 1⟩ 0

noncomputable def exampleSrp : Srp := ⟨true, 0, some 1, 1, ["EARTH", "MOON"]⟩

theorem vsub_zero_vec (v : Vec 3) : vsub v 0 = v := by funext i; simp [vsub]

theorem example_sees : Sees exampleSpice exampleBodies exampleLocal exampleSrp ![10, 0, 0]
    (fun n => if n = "EARTH" then ![1, 0, 0] else ![2, 0, 0]) (fun n => if n = "EARTH" then 1 / 2 else 1 / 10) := by
  have i1 : exampleBodies.calcBodyIdFromName exampleSpice "EARTH" = .ok 0 :=
    id_selected (p := 399) (by simp [exampleSpice]) ⟨rfl, fun j hj => by omega⟩
  have i2 : exampleBodies.calcBodyIdFromName exampleSpice "SUN" = .ok 1 :=
    id_selected (p := 10) (by simp [exampleSpice]) ⟨rfl, fun j hj => by
      obtain rfl : j = 0 := by omega
      simp [exampleBodies]⟩
  have i3 : exampleBodies.calcBodyIdFromName exampleSpice "MOON" = .ok 2 :=
    id_selected (p := 301) (by simp [exampleSpice]) ⟨rfl, fun j hj => by
      obtain rfl | rfl : j = 0 ∨ j = 1 := by omega
      · simp [exampleBodies]
      · simp [exampleBodies]⟩
  constructor
  · simp only [Celestial.getPositionFromSpacecraftI, i2, Res.bind]
    simp [getAt, exampleLocal, exampleBodies, Celestial.localUpdate, vsub_zero_vec]
  · intro n hn _
    have hn' : n = "EARTH" ∨ n = "MOON" := by simpa [exampleSrp] using hn
    rcases hn' with rfl | rfl
    · refine ⟨?_, ?_, ?_⟩
      · simp only [Celestial.getPositionFromSpacecraftI, i1, Res.bind]
        simp [getAt, exampleLocal, exampleBodies, Celestial.localUpdate, vsub_zero_vec]
      · simp only [Celestial.getMeanRadius, i1, Res.bind]
        simp [getAt, exampleBodies]
      · simpa [exampleSrp] using example_outside (d := 1) (r := 1 / 2) (by norm_num) (by norm_num) (by norm_num) (by norm_num) (by norm_num)
    · refine ⟨?_, ?_, ?_⟩
      · simp only [Celestial.getPositionFromSpacecraftI, i3, Res.bind]
        simp [getAt, exampleLocal, exampleBodies, Celestial.localUpdate, vsub_zero_vec]
      · simp only [Celestial.getMeanRadius, i3, Res.bind]
        simp [getAt, exampleBodies]
      · simpa [exampleSrp] using example_outside (d := 2) (r := 1 / 10) (by norm_num) (by norm_num) (by norm_num) (by norm_num) (by norm_num)

/-- **C108** (sunlight in the umbra). In the umbra of the Earth, with the Moon also in front of the Sun, the coefficient is positive although
the Earth hides the whole Sun: the product of the visible fractions is zero. -/
theorem C108_light_in_umbra : ∃ (spice : String → Option Int) (c : Celestial) (l : Local) (s : Srp) (sun : Fin 3 → ℝ) (pos : String → Fin 3 → ℝ)
    (rad : String → ℝ), s.enabled = true ∧ Sees spice c l s sun pos rad ∧
    ((s.sources.filter (· ≠ "SUN")).map fun n => lit sun (pos n) s.sunRadius (rad n)).prod = 0 ∧
    ∃ s' k, s.update spice c l = .ok s' ∧ s'.coefficient = some k ∧ 0 < k := by
  refine ⟨exampleSpice, exampleBodies, exampleLocal, exampleSrp, _, _, _, rfl, example_sees, ?_, ?_⟩
  · have h1 : lit ![10, 0, 0] ![1, 0, 0] 1 (1 / 2) = 0 := by
      rw [lit, example_separation (by norm_num) (by norm_num), example_apparent (by norm_num), example_apparent (by norm_num)]
      apply lit_total _ le_rfl
      · have := Real.arcsin_le_arcsin (show (1 : ℝ) / 10 ≤ 1 / 2 / 1 by norm_num)
        linarith
      · rw [Real.arcsin_pos]; norm_num
    have h1' : lit ![10, 0, 0] ![1, 0, 0] 1 2⁻¹ = 0 := by rw [show (2 : ℝ)⁻¹ = 1 / 2 by norm_num]; exact h1
    simp [exampleSrp, h1']
  · obtain ⟨s', k, h1, h2, -, -, -, -, h3⟩ := C108_update exampleSpice exampleBodies exampleLocal exampleSrp _ _ _ rfl example_sees
    refine ⟨s', k, h1, h2, ?_⟩
    have hann : Annular ![10, 0, 0] ![2, 0, 0] 1 (1 / 10) := by
      rw [Annular, example_separation (by norm_num) (by norm_num), example_apparent (by norm_num), example_apparent (by norm_num)]
      have := Real.arcsin_lt_arcsin (show -1 ≤ (1 : ℝ) / 10 / 2 by norm_num) (show (1 : ℝ) / 10 / 2 < 1 / 10 by norm_num) (by norm_num)
      linarith
    have h4 := h3 ["EARTH"] "MOON" [] rfl (by simp) (by simpa [exampleSrp] using hann) (by simp)
    have h5 : 0 < lit ![10, 0, 0] ![2, 0, 0] 1 (1 / 10) := by
      have ho := example_outside (d := 2) (r := 1 / 10) (by norm_num) (by norm_num) (by norm_num) (by norm_num) (by norm_num)
      have h6 : apparent (1 / 10) ![2, 0, 0] - apparent 1 ![10, 0, 0] < angle ![2, 0, 0] (![10, 0, 0] - ![2, 0, 0]) := by
        rw [example_separation (by norm_num) (by norm_num), example_apparent (by norm_num), example_apparent (by norm_num)]
        have := Real.arcsin_lt_arcsin (show -1 ≤ (1 : ℝ) / 10 / 2 by norm_num) (show (1 : ℝ) / 10 / 2 < 1 / 10 by norm_num) (by norm_num)
        linarith
      exact lit_pos (apparent_pos ho.sunPos ho.sunOut) (apparent_pos ho.radiusPos ho.sourceOut) h6
    rw [h4]
    simpa [exampleSrp] using h5

/-- **C108** (no shadow inside a body). A spacecraft below the mean radius of a body, or a body at the place of the Sun, changes nothing: the
angles are NaN and every comparison is false. -/
theorem C108_inside (p : Option ℝ) (sun source : Fin 3 → ℝ) (sunRadius radius : ℝ) (h : len source < radius ∨ sun = source) :
    shadowStep p sun source sunRadius radius = .ok p := by
  have hp : (p.map fun x => x * 1) = p := by cases p <;> simp
  simp only [shadowStep]
  rcases h with h | h
  · have : (quot radius (calcNorm source)).bind asinC = none := by
      rw [Kepler.calcNorm_len]
      by_cases h0 : len source = 0
      · simp [quot, h0]
      · have hpos : 0 < len source := lt_of_le_of_ne (len_nonneg _) (Ne.symm h0)
        rw [quot_ok h0, Option.bind_some, asinC, if_neg]
        rw [not_and_or]
        right
        rw [not_le, one_lt_div hpos]
        exact h
    rw [this, hp]
    split <;> simp_all
  · have : calcNorm (vsub sun source) = 0 := by
      rw [Kepler.calcNorm_len]
      simp [h, vsub, len]
    rw [this]
    have : ((quot (innerProduct source (vsub sun source)) (calcNorm source)).bind fun t => quot t 0).bind acosC = none := by
      cases quot (innerProduct source (vsub sun source)) (calcNorm source) <;> simp [quot]
    rw [this, hp]
    split <;> simp_all

/-- **C108** (exact alignment of equal discs). Where the body exactly covers the Sun the coefficient becomes NaN, not zero. -/
theorem C108_equal_discs (p : ℝ) (sun source : Fin 3 → ℝ) (sunRadius radius : ℝ) (h1 : 0 < sunRadius) (h2 : 0 < radius) (h3 : sunRadius ≤ len sun)
    (h4 : radius ≤ len source) (h5 : sun ≠ source) (h6 : angle source (sun - source) = 0) (h7 : apparent sunRadius sun = apparent radius source) :
    shadowStep (some p) sun source sunRadius radius = .ok none := by
  have hl : 0 < len source := h2.trans_le h4
  have ha := apparent_pos h1 h3
  simp only [shadowStep]
  rw [asin_ok h1 h3, asin_ok h2 h4, separation_ok sun source hl h5, h6, ← h7]
  simp only [shadowCases]
  simp [quot, ha.le]

/-- A body of radius 1/10 at distance 1 exactly covers the Sun. -/
example : apparent 1 ![10, 0, 0] = apparent (1 / 10) ![1, 0, 0] ∧ angle ![1, 0, 0] (![10, 0, 0] - ![1, 0, 0]) = 0 := by
  refine ⟨?_, example_separation (by norm_num) (by norm_num)⟩
  rw [example_apparent (by norm_num), example_apparent (by norm_num)]
  norm_num

/-- **C109** (pressure). After an update the radiation pressure and the power density follow the inverse square law from 1366 W/m² at one
astronomical unit, reduced by the shadow coefficient. -/
theorem C109_pressure (spice : String → Option Int) (c : Celestial) (l : Local) (s s' : Srp) (sun : Fin 3 → ℝ) (k : ℝ) (he : s.enabled = true)
    (hsun : c.getPositionFromSpacecraftI spice l "SUN" = .ok sun) (h0 : sun ≠ 0) (h : s.update spice c l = .ok s') (hk : s'.coefficient = some k) :
    s'.getPowerDensity = some (1366 * (149597870700 / len sun) ^ 2 * k) ∧
    s'.getPressure = some (1366 * (149597870700 / len sun) ^ 2 * k / 299792458) ∧
    s'.getPressureWithoutEclipse = 1366 * (149597870700 / len sun) ^ 2 / 299792458 := by
  have hlen := len_pos h0
  have key : ∀ (L : List String) (t t' : Srp), L.foldlM (fun s name => s.calcShadow spice c l name) t = .ok t' → t'.pressure = t.pressure := by
    intro L
    induction L with
    | nil => intro t t' ht; obtain rfl := Res.ok.inj ht; rfl
    | cons n L ih =>
      intro t t' ht
      rw [List.foldlM_cons] at ht
      rcases h1 : t.calcShadow spice c l n with u | _ | _ | _ <;> simp only [h1, Res.bind_ok, Res.bind_ub, Res.bind_throws, Res.bind_stuck, reduceCtorEq] at ht
      rw [ih u t' ht]
      simp only [Srp.calcShadow] at h1
      split_ifs at h1 with hn
      · obtain rfl := Res.ok.inj h1; rfl
      · simp only [Res.bind] at h1
        split at h1 <;> try simp at h1
        split at h1 <;> try simp at h1
        split at h1 <;> try simp at h1
        split at h1 <;> try simp at h1
        obtain rfl := h1; rfl
  have hp : s'.pressure = 1366 / speedOfLight / (len sun / astronomicalUnit) ^ 2 := by
    rw [Srp.update, if_neg (by simp [he])] at h
    simp only [Srp.updatePressure, hsun, Res.bind] at h
    rw [key _ _ _ h, Kepler.calcNorm_len]
  simp only [Srp.getPowerDensity, Srp.getPressure, Srp.getPressureWithoutEclipse, hk, hp, Option.map_some, speedOfLight, astronomicalUnit,
    Option.some.injEq]
  refine ⟨?_, ?_, ?_⟩ <;> field_simp

/-- The hypotheses hold in the example configuration. -/
example : ∃ s' k, exampleSrp.update exampleSpice exampleBodies exampleLocal = .ok s' ∧ s'.coefficient = some k := by
  obtain ⟨s', k, h1, h2, -⟩ := C108_update exampleSpice exampleBodies exampleLocal exampleSrp _ _ _ rfl example_sees
  exact ⟨s', k, h1, h2⟩

/-- **C109** (sources). The settings file lists the names of the additional shadow sources, but the *first* of them is added as often as the
list is long: the others never cast a shadow. -/
theorem C109_sources (spice : String → Option Int) (c : Celestial) (enabled : Bool) (third : List String) (R : ℝ)
    (hR : c.getMeanRadius spice "SUN" = .ok R) :
    ∃ s, Srp.init spice c enabled third = .ok s ∧ s.enabled = enabled ∧ s.sunRadius = R ∧ s.coefficient = some 1 ∧
      s.sources = c.center :: third.map fun _ => third.headD "" := by
  have key : ∀ (L : List String) (s : Srp), (L = [] ∨ third ≠ []) →
      L.foldlM (fun s _ => (getAt third 0).bind fun n => .ok { s with sources := s.sources ++ [n] }) s =
        (.ok { s with sources := s.sources ++ L.map fun _ => third.headD "" } : Res Srp) := by
    intro L
    induction L with
    | nil => intro s _; simp
    | cons a L ih =>
      intro s hs
      have ht : third ≠ [] := by simpa using hs
      obtain ⟨x, t, hx⟩ := List.exists_cons_of_ne_nil ht
      have : getAt third 0 = .ok x := by simp [getAt, hx]
      have ih' := ih { s with sources := s.sources ++ [x] } (Or.inr ht)
      rw [List.foldlM_cons]
      simp only [this, Res.bind, Res.bind_ok] at ih' ⊢
      rw [ih']
      simp [hx]
  have h := key third ⟨enabled, 1366 / speedOfLight, some 1, R, [c.center]⟩ (by by_cases h : third = [] <;> simp [h])
  exact ⟨_, by simp only [Srp.init, Srp.new, hR]; exact h, by simp⟩

/-- The example configuration provides the radius of the Sun. -/
example : exampleBodies.getMeanRadius exampleSpice "SUN" = .ok 1 := by
  have i2 : exampleBodies.calcBodyIdFromName exampleSpice "SUN" = .ok 1 :=
    id_selected (p := 10) (by simp [exampleSpice]) ⟨rfl, fun j hj => by
      obtain rfl : j = 0 := by omega
      simp [exampleBodies]⟩
  simp only [Celestial.getMeanRadius, i2, Res.bind]
  simp [getAt, exampleBodies]

/-- **C109** (Sun not selected). If the Sun is not among the selected bodies, the distance to the *first* selected body takes the place of the
distance to the Sun, and that body itself never casts a shadow. -/
theorem C109_sun_not_selected (spice : String → Option Int) (c : Celestial) (l : Local) (s : Srp) (first : String) (p p0 : Int) (rest : List Int)
    (r : Fin 3 → ℝ) (radius : ℝ) (hids : c.ids = p0 :: rest) (hs : spice "SUN" = some p) (hp : p ∉ c.ids) (hf : spice first = some p0)
    (hr : c.getPositionFromSpacecraftI spice l first = .ok r) (hrad : c.getMeanRadius spice first = .ok radius) (he : s.enabled = true)
    (hsrc : s.sources = [first]) :
    s.update spice c l = .ok { s with pressure := 1366 / speedOfLight / (len r / astronomicalUnit) ^ 2, coefficient := some 1 } := by
  have hsun := (C106_unselected_body spice c l "SUN" first p p0 rest hids hs hp hf).2.1
  rw [hr] at hsun
  rw [Srp.update, if_neg (by simp [he])]
  simp only [Srp.updatePressure, hsun, Res.bind, hsrc, List.foldlM_cons, List.foldlM_nil, Kepler.calcNorm_len]
  have hin := C108_inside (some 1) r r s.sunRadius radius (Or.inr rfl)
  by_cases hn : first = "SUN"
  · simp [Srp.calcShadow, hn, bind, Res.bind]
  · simp [Srp.calcShadow, hn, hsun, hr, hrad, hin, bind, Res.bind]

/-- Only the Earth is selected. -/
example : (⟨[399], "EARTH", [![1, 0, 0]], [0], [1], [0], [1 / 2]⟩ : Celestial).ids = 399 :: [] ∧ exampleSpice "SUN" = some 10 ∧
    (10 : Int) ∉ ([399] : List Int) ∧ exampleSpice "EARTH" = some 399 := by
  refine ⟨rfl, ?_, ?_, ?_⟩ <;> simp [exampleSpice]

/-- **C109** (disabled). A disabled environment keeps the values of its last update - after construction the pressure at one astronomical
unit and no shadow. -/
theorem C109_disabled (spice : String → Option Int) (c : Celestial) (l : Local) (third : List String) (R : ℝ)
    (hR : c.getMeanRadius spice "SUN" = .ok R) :
    (∀ s : Srp, s.enabled = false → s.update spice c l = .ok s) ∧
    ∃ s, Srp.init spice c false third = .ok s ∧ s.update spice c l = .ok s ∧ s.getPressure = some (1366 / 299792458) ∧ ¬ s.isEclipsed := by
  have h0 : ∀ s : Srp, s.enabled = false → s.update spice c l = .ok s := fun s hs => by rw [Srp.update, if_pos hs]
  refine ⟨h0, ?_⟩
  have key : ∀ (L : List String) (s s' : Srp),
      L.foldlM (fun s _ => (getAt third 0).bind fun n => .ok { s with sources := s.sources ++ [n] }) s = (.ok s' : Res Srp) → s'.pressure = s.pressure := by
    intro L
    induction L with
    | nil => intro s s' h; obtain rfl := Res.ok.inj h; rfl
    | cons a L ih =>
      intro s s' h
      rw [List.foldlM_cons] at h
      rcases h1 : getAt third 0 with u | _ | _ | _ <;> simp only [h1, Res.bind, Res.bind_ok, Res.bind_ub, Res.bind_throws, Res.bind_stuck, reduceCtorEq] at h
      have ih' := ih { s with sources := s.sources ++ [u] } s'
      simp only [h1, Res.bind] at ih'
      rw [ih' h]
  obtain ⟨s, hs, he, -, hc, -⟩ := C109_sources spice c false third R hR
  refine ⟨s, hs, h0 s he, ?_, ?_⟩
  · simp only [Srp.init, Srp.new, hR, Res.bind] at hs
    have := key _ _ _ hs
    simp [Srp.getPressure, hc, this, speedOfLight]
  · simp [Srp.isEclipsed, hc]

end S2E.Env
