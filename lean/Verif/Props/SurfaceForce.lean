import Verif.Model.Disturbance
import Verif.Spec.Surface
import Verif.Props.Disturbance
import Verif.Props.Lvlh
import Mathlib.Analysis.SpecialFunctions.Integrals.Basic
/-!
# C104: solar radiation pressure on the surfaces of the spacecraft
-/
namespace S2E.Dist
open S2E.TwoBody S2E.Surf S2E.Kepler S2E.OrbitProp

theorem lambertMean_eq : lambertMean = 2 / 3 := by
  have h : ∀ t ∈ Set.uIcc 0 (Real.pi / 2), HasDerivAt (fun t => -(2 / 3) * Real.cos t ^ 3) (2 * Real.cos t * Real.sin t * Real.cos t) t := by
    intro t _
    exact (((Real.hasDerivAt_cos t).pow 3).const_mul (-(2 / 3))).congr_deriv (by ring)
  rw [lambertMean, intervalIntegral.integral_eq_sub_of_hasDerivAt h (Continuous.intervalIntegrable (by fun_prop) _ _)]
  simp

/-- The unit vector towards the input. -/
theorem normalized_len {a : Vec 3} (h : a ≠ 0) : len (calcNormalizedVector a) = 1 ∧ len a • calcNormalizedVector a = a := by
  obtain ⟨h1, h2, h3⟩ := (C71_normalized_vector a).1 h
  rw [calcNorm_len] at h1 h3
  exact ⟨h1, h3⟩

/-- The force on one surface from its coefficients, without the normalisations of the source. -/
theorem surfaceForce_eq (input : Vec 3) (hi : input ≠ 0) (s : Surface) (hn : len s.normal = 1) (cn ct k : ℝ)
    (hct : ct = k * sinTheta input s) (hlit : 0 < dot s.normal (calcNormalizedVector input)) :
    surfaceForce input s cn ct = (-cn) • s.normal +
      k • ((dot s.normal (calcNormalizedVector input)) • s.normal - calcNormalizedVector input) := by
  obtain ⟨hu, -⟩ := normalized_len hi
  have hcos : cosTheta input s = dot s.normal (calcNormalizedVector input) := by rw [cosTheta, innerProduct_dot]
  generalize hs : calcNormalizedVector input = w at *
  generalize hm : s.normal = n at *
  have hlag := len_cross_sq w n
  rw [hu, hn] at hlag
  have hww : dot w w = 1 := by rw [← len_sq, hu]; norm_num
  have hnn : dot n n = 1 := by rw [← len_sq, hn]; norm_num
  have hsymm : dot w n = dot n w := by simp [dot]; ring
  have hsin : sinTheta input s = len (cross w n) := by
    rw [sinTheta, hcos, ← Real.sqrt_sq (len_nonneg (cross w n))]
    congr 1
    rw [hsymm] at hlag
    linarith
  have htriple : cross (cross w n) n = (dot n w) • n - w := by
    simp only [dot] at hnn
    funext i
    fin_cases i <;> simp [cross, dot] <;> grind
  have hsf : surfaceForce input s cn ct = vadd (scale (-1 * cn) n) (scale ct (outerProduct (calcNormalizedVector (cross w n)) n)) := by
    simp only [surfaceForce]
    rw [hcos, if_pos hlit, hs, hm, outerProduct_cross w n]
  rw [hsf]
  rcases (len_nonneg (cross w n)).lt_or_eq with h | h
  · have hne : cross w n ≠ 0 := by
      intro h0
      rw [h0] at h
      simp [len] at h
    have hmul := (normalized_len hne).2
    rw [outerProduct_cross]
    have : cross (calcNormalizedVector (cross w n)) n = (1 / len (cross w n)) • ((dot n w) • n - w) := by
      rw [← htriple]
      have hsm : ∀ (a : ℝ) (x : Vec 3), cross (a • x) n = a • cross x n := by
        intro a x; funext i; fin_cases i <;> simp [cross] <;> ring
      have h2 : cross (cross w n) n = len (cross w n) • cross (calcNormalizedVector (cross w n)) n := by
        rw [← hsm, hmul]
      rw [h2, smul_smul, one_div, inv_mul_cancel₀ h.ne', one_smul]
    rw [this, hct, hsin]
    funext i
    simp [vadd, scale]
    field_simp
  · have h0 : cross w n = 0 := by
      by_contra hne
      exact absurd (len_pos hne) (by rw [← h]; exact lt_irrefl _)
    have hz : (dot n w) • n - w = 0 := by
      rw [← htriple, h0]
      funext i; fin_cases i <;> simp [cross]
    rw [h0, hz, (C71_normalized_vector (0 : Vec 3)).2.1 rfl]
    funext i
    fin_cases i <;> simp [vadd, scale, outerProduct]

theorem foldl_pair {α : Type} (f g : α → Vec 3) (l : List α) (a b : Vec 3) :
    l.foldl (fun acc s => (vadd acc.1 (f s), vadd acc.2 (g s))) (a, b) = (a + (l.map f).sum, b + (l.map g).sum) := by
  induction l generalizing a b with
  | nil => simp
  | cons x l ih =>
    rw [List.foldl_cons, ih, List.map_cons, List.map_cons, List.sum_cons, List.sum_cons, ← add_assoc, ← add_assoc]
    rfl

/-- C104: force and torque are the sums over the surfaces, the torque with the lever arm from the centre of gravity; surfaces facing away
from the source, or edge-on, contribute nothing. For every choice of coefficients, hence for radiation pressure and for air drag. -/
theorem C104_sums (coefficients : Surface → ℝ × ℝ) (surfaces : List Surface) (cog input : Vec 3) :
    let f := fun s => surfaceForce input s (coefficients s).1 (coefficients s).2
    (calcTorqueForce coefficients surfaces cog input).1 = (surfaces.map f).sum ∧
    (calcTorqueForce coefficients surfaces cog input).2 = (surfaces.map fun s => cross (s.position - cog) (f s)).sum ∧
    ∀ s, dot s.normal input ≤ 0 → f s = 0 := by
  intro f
  have hz : (fun _ => 0 : Vec 3) = 0 := rfl
  have hoff : ∀ s, ¬ cosTheta input s > 0 → f s = 0 := by
    intro s h
    simp only [f, surfaceForce, if_neg h, hz]
  have hpair := foldl_pair f (fun s => if cosTheta input s > 0 then outerProduct (vsub s.position cog) (f s) else fun _ => 0) surfaces 0 0
  have he : calcTorqueForce coefficients surfaces cog input = _ := hpair
  refine ⟨by rw [he]; simp only [zero_add], ?_, fun s hs => hoff s ?_⟩
  · rw [he]
    simp only [zero_add]
    congr 1
    apply List.map_congr_left
    intro s _
    split
    · rfl
    · rename_i h
      rw [hoff s h]
      funext i
      fin_cases i <;> simp [cross]
  · rw [cosTheta, innerProduct_dot]
    by_cases hi : input = 0
    · rw [(C71_normalized_vector input).2.1 hi]
      simp [dot]
    · obtain ⟨-, h2⟩ := normalized_len hi
      have hp := len_pos hi
      have : dot s.normal input = len input * dot s.normal (calcNormalizedVector input) := by
        conv_lhs => rw [← h2]
        simp [dot]; ring
      rw [this] at hs
      intro h
      have := mul_pos hp h
      linarith

/-- C104 (momentum balance): a lit surface with unit normal feels exactly the difference of incoming and outgoing light momentum, with the
reflected share split between mirror reflection and Lambertian scattering. -/
theorem C104_momentum (sun : Vec 3) (hs : sun ≠ 0) (pressure : ℝ) (s : Surface) (hn : len s.normal = 1) (hlit : 0 < dot s.normal sun) :
    surfaceForce sun s (srpCoefficients sun pressure s).1 (srpCoefficients sun pressure s).2 =
      lightForce pressure s.area s.reflectivity s.specularity s.normal ((1 / len sun) • sun) := by
  obtain ⟨-, h2⟩ := normalized_len hs
  have hp := len_pos hs
  have hw : (1 / len sun) • sun = calcNormalizedVector sun := by
    conv_lhs => rw [← h2]
    have : len (len sun • calcNormalizedVector sun) = len sun := by rw [h2]
    rw [this, smul_smul]
    field_simp
    simp
  have hlit' : 0 < dot s.normal (calcNormalizedVector sun) := by
    rw [← hw]
    have : dot s.normal ((1 / len sun) • sun) = 1 / len sun * dot s.normal sun := by simp [dot]; ring
    rw [this]; positivity
  have hcos : cosTheta sun s = dot s.normal (calcNormalizedVector sun) := by rw [cosTheta, innerProduct_dot]
  rw [surfaceForce_eq sun hs s hn _ _ (s.area * pressure * (1 - s.reflectivity * s.specularity) * cosTheta sun s)
    (by simp only [srpCoefficients]) hlit', hw]
  simp only [srpCoefficients, hcos, lightForce, lambertMean_eq, mirror]
  have hsymm : dot (calcNormalizedVector sun) s.normal = dot s.normal (calcNormalizedVector sun) := by simp [dot]; ring
  have hneg : dot (-calcNormalizedVector sun) s.normal = -dot s.normal (calcNormalizedVector sun) := by simp [dot]; ring
  rw [hsymm, hneg]
  generalize dot s.normal (calcNormalizedVector sun) = c
  funext i
  simp
  ring

/-- C104: whatever the surfaces, with unit normals and physical coefficients radiation never pulls the spacecraft towards the Sun, and the
force on each surface has no component out of its front side. -/
theorem C104_push (sun : Vec 3) (hs : sun ≠ 0) (pressure : ℝ) (hP : 0 ≤ pressure) (surfaces : List Surface) (cog : Vec 3)
    (h : ∀ s ∈ surfaces, len s.normal = 1 ∧ 0 ≤ s.area ∧ 0 ≤ s.reflectivity ∧ s.reflectivity ≤ 1 ∧ 0 ≤ s.specularity ∧ s.specularity ≤ 1) :
    dot (srp surfaces cog sun pressure).1 sun ≤ 0 ∧
    ∀ s ∈ surfaces, dot (surfaceForce sun s (srpCoefficients sun pressure s).1 (srpCoefficients sun pressure s).2) s.normal ≤ 0 := by
  have hp := len_pos hs
  have hone : ∀ s ∈ surfaces, dot (surfaceForce sun s (srpCoefficients sun pressure s).1 (srpCoefficients sun pressure s).2) sun ≤ 0 ∧
      dot (surfaceForce sun s (srpCoefficients sun pressure s).1 (srpCoefficients sun pressure s).2) s.normal ≤ 0 := by
    intro s hmem
    obtain ⟨hn, hA, hr0, hr1, hs0, hs1⟩ := h s hmem
    by_cases hlit : 0 < dot s.normal sun
    · rw [C104_momentum sun hs pressure s hn hlit, lightForce, lambertMean_eq]
      have hnn : dot s.normal s.normal = 1 := by rw [← len_sq, hn]; norm_num
      have hss : dot sun sun = len sun ^ 2 := (len_sq sun).symm
      set c := dot s.normal sun / len sun with hc
      have hcpos : 0 < c := by positivity
      have hd : dot ((1 / len sun) • sun) s.normal = c := by rw [hc]; simp only [dot, Pi.smul_apply, smul_eq_mul]; ring
      have hd2 : dot (-((1 / len sun) • sun)) s.normal = -c := by rw [hc]; simp only [dot, Pi.neg_apply, Pi.smul_apply, smul_eq_mul]; ring
      have hd3 : dot s.normal sun = c * len sun := by rw [hc]; field_simp
      rw [mirror, hd, hd2]
      have e1 : dot ((pressure * s.area * c) • (-((1 / len sun) • sun) - (s.reflectivity * s.specularity) • (-((1 / len sun) • sun) - (2 * -c) • s.normal)
          - (s.reflectivity * (1 - s.specularity) * (2 / 3)) • s.normal)) sun =
          (pressure * s.area * c) * (-(1 - s.reflectivity * s.specularity) * (1 / len sun) * dot sun sun
            - (2 * s.reflectivity * s.specularity * c + s.reflectivity * (1 - s.specularity) * (2 / 3)) * dot s.normal sun) := by
        simp [dot]; ring
      have e2 : dot ((pressure * s.area * c) • (-((1 / len sun) • sun) - (s.reflectivity * s.specularity) • (-((1 / len sun) • sun) - (2 * -c) • s.normal)
          - (s.reflectivity * (1 - s.specularity) * (2 / 3)) • s.normal)) s.normal =
          (pressure * s.area * c) * (-(1 - s.reflectivity * s.specularity) * (1 / len sun) * dot s.normal sun
            - (2 * s.reflectivity * s.specularity * c + s.reflectivity * (1 - s.specularity) * (2 / 3)) * dot s.normal s.normal) := by
        simp [dot]; ring
      rw [e1, e2, hss, hd3, hnn]
      have hrs : s.reflectivity * s.specularity ≤ 1 := by nlinarith
      have k1 : 0 ≤ (1 - s.reflectivity * s.specularity) * (1 / len sun) * len sun ^ 2 := by
        have : 0 ≤ 1 - s.reflectivity * s.specularity := by linarith
        positivity
      have k2 : 0 ≤ 2 * s.reflectivity * s.specularity * c + s.reflectivity * (1 - s.specularity) * (2 / 3) := by
        have : 0 ≤ 1 - s.specularity := by linarith
        positivity
      have k3 : 0 ≤ (1 - s.reflectivity * s.specularity) * (1 / len sun) * (c * len sun) := by
        have : 0 ≤ 1 - s.reflectivity * s.specularity := by linarith
        positivity
      have k4 : 0 ≤ pressure * s.area * c := by positivity
      have k5 : 0 ≤ (2 * s.reflectivity * s.specularity * c + s.reflectivity * (1 - s.specularity) * (2 / 3)) * (c * len sun) := by positivity
      exact ⟨mul_nonpos_of_nonneg_of_nonpos k4 (by linarith), mul_nonpos_of_nonneg_of_nonpos k4 (by linarith)⟩
    · have hz := (C104_sums (srpCoefficients sun pressure) surfaces cog sun).2.2 s (not_lt.mp hlit)
      simp only at hz
      rw [hz]
      simp [dot]
  refine ⟨?_, fun s hmem => (hone s hmem).2⟩
  rw [srp, (C104_sums _ _ _ _).1]
  have hsum : ∀ l : List Surface, (∀ s ∈ l, s ∈ surfaces) →
      dot (l.map fun s => surfaceForce sun s (srpCoefficients sun pressure s).1 (srpCoefficients sun pressure s).2).sum sun ≤ 0 := by
    intro l
    induction l with
    | nil => intro _; simp [dot]
    | cons s l ih =>
      intro hl
      have a := (hone s (hl s (by simp))).1
      have b := ih fun x hx => hl x (by simp [hx])
      have e : ∀ x y : Vec 3, dot (x + y) sun = dot x sun + dot y sun := by intro x y; simp [dot]; ring
      rw [List.map_cons, List.sum_cons, e]
      linarith
  exact hsum surfaces fun _ => id

/-- C104: only the direction of the source matters, not its distance (the pressure already contains it). -/
theorem C104_direction (surfaces : List Surface) (cog sun : Vec 3) (pressure k : ℝ) (hk : 0 < k) :
    srp surfaces cog (k • sun) pressure = srp surfaces cog sun pressure := by
  have hdir : calcNormalizedVector (k • sun) = calcNormalizedVector sun := by
    by_cases hs : sun = 0
    · rw [hs, smul_zero]
    · have h1 := len_pos hs
      have h2 := len_pos (smul_ne_zero hk.ne' hs)
      have h3 : len (k • sun) = k * len sun := by
        have : (k • sun) 0 ^ 2 + (k • sun) 1 ^ 2 + (k • sun) 2 ^ 2 = k ^ 2 * (sun 0 ^ 2 + sun 1 ^ 2 + sun 2 ^ 2) := by simp; ring
        rw [len, this, Real.sqrt_mul (sq_nonneg k), Real.sqrt_sq hk.le, len]
      rw [normalized_of_pos h2, normalized_of_pos h1, h3]
      funext i
      simp
      field_simp
  have hc : cosTheta (k • sun) = cosTheta sun := by funext s; simp only [cosTheta, hdir]
  have hsn : sinTheta (k • sun) = sinTheta sun := by funext s; simp only [sinTheta, hc]
  have hf : surfaceForce (k • sun) = surfaceForce sun := by funext s a b; simp only [surfaceForce, hc, hdir]
  simp only [srp, calcTorqueForce, srpCoefficients, hc, hsn, hf]

/-! ## Surfaces as read from the settings -/

/-- Specification: values the reader accepts (each may be off by 1e-6). -/
def Accepted (s : Surface) : Prop :=
  -(1 / 10 ^ 6) ≤ s.area ∧ (-(1 / 10 ^ 6) ≤ s.reflectivity ∧ s.reflectivity ≤ 1 + 1 / 10 ^ 6) ∧
  (-(1 / 10 ^ 6) ≤ s.specularity ∧ s.specularity ≤ 1 + 1 / 10 ^ 6) ∧
  (-(1 / 10 ^ 6) ≤ s.airSpecularity ∧ s.airSpecularity ≤ 1 + 1 / 10 ^ 6)

open Classical in
/-- C104: the list of surfaces ends before the first surface with an unacceptable value: that surface *and all after it* are left out and the
program goes on. Normals longer than 1 are normalised, shorter ones are kept as they are. -/
theorem C104_surfaces (l : List Surface) :
    initSurfaces l = (l.takeWhile fun s => decide (Accepted s)).map fun s =>
      { s with normal := if len s.normal > 1 + 1 / 10 ^ 6 then calcNormalizedVector s.normal else s.normal } := by
  have hm : minVal = 1 / 10 ^ 6 := by norm_num [minVal]
  induction l with
  | nil => rfl
  | cons s l ih =>
    by_cases h : Accepted s
    · obtain ⟨a, ⟨b, c⟩, ⟨d, e⟩, f, g⟩ := id h
      rw [initSurfaces, List.takeWhile_cons_of_pos (by simpa using h), List.map_cons, ← ih]
      simp only [hm, calcNorm_len]
      rw [if_neg (not_lt.mpr a), if_neg (not_lt.mpr b), if_neg (not_lt.mpr c), if_neg (not_lt.mpr d), if_neg (not_lt.mpr e),
        if_neg (not_lt.mpr f), if_neg (not_lt.mpr g)]
    · rw [List.takeWhile_cons_of_neg (by simpa using h), initSurfaces]
      simp only [hm, List.map_nil]
      split_ifs with h1 h2 h3 h4 h5 h6 h7
      all_goals first | rfl | skip
      exact absurd ⟨not_lt.mp h1, ⟨not_lt.mp h2, not_lt.mp h3⟩, ⟨not_lt.mp h4, not_lt.mp h5⟩, not_lt.mp h6, not_lt.mp h7⟩ h

/-- C104 (what is wrong): a surface given with a normal of length 1/2 is accepted and stays so; facing the Sun squarely and absorbing all
light it feels one eighth of the force. -/
theorem C104_short_normal : let s : Surface := ⟨![0, 0, 0], ![0, 0, 1 / 2], 1, 0, 0, 0⟩
    initSurfaces [s] = [s] ∧ (srp (initSurfaces [s]) 0 ![0, 0, 1] 1).1 = ![0, 0, -(1 / 8)] ∧
    lightForce 1 1 0 0 ![0, 0, 1] ![0, 0, 1] = ![0, 0, -1] := by
  intro s
  have hlen : len ![(0:ℝ), 0, 1 / 2] = 1 / 2 := by
    rw [len, show (![(0:ℝ), 0, 1 / 2] 0) ^ 2 + (![(0:ℝ), 0, 1 / 2] 1) ^ 2 + (![(0:ℝ), 0, 1 / 2] 2) ^ 2 = (1 / 2 : ℝ) ^ 2 by simp,
      Real.sqrt_sq (by norm_num)]
  have h1 : initSurfaces [s] = [s] := by
    classical
    rw [C104_surfaces]
    have : Accepted s := by simp only [Accepted, s]; norm_num
    rw [List.takeWhile_cons_of_pos (by simpa using this)]
    simp only [List.takeWhile_nil, List.map_cons, List.map_nil, s, hlen]
    norm_num
  have hunit : calcNormalizedVector (![0, 0, 1] : Vec 3) = ![0, 0, 1] := by
    have : len ![(0:ℝ), 0, 1] = 1 := by simp [len]
    rw [normalized_of_pos (by rw [this]; norm_num), this]
    funext i; fin_cases i <;> simp
  have hc : cosTheta ![0, 0, 1] s = 1 / 2 := by
    rw [cosTheta, innerProduct_dot, hunit]; simp [dot, s]
  have hncu : outerProduct (![0, 0, 1] : Vec 3) ![0, 0, 1 / 2] = 0 := by
    funext i; fin_cases i <;> simp [outerProduct]
  refine ⟨h1, ?_, ?_⟩
  · rw [h1, srp, (C104_sums _ _ _ _).1]
    simp only [List.map_cons, List.map_nil, List.sum_cons, List.sum_nil, add_zero]
    simp only [surfaceForce, hc, hunit, srpCoefficients]
    rw [if_pos (by norm_num)]
    simp only [s, hncu, (C71_normalized_vector (0 : Vec 3)).2.1 rfl]
    funext i
    fin_cases i <;> simp [vadd, scale, outerProduct] <;> norm_num
  · rw [lightForce, mirror]
    funext i
    fin_cases i <;> simp [dot]

/-- C104 (what is wrong): one surface with reflectivity 2 removes itself and the good surface after it. -/
example (a b : Surface) (ha : a.reflectivity = 2) : initSurfaces [a, b] = [] := by
  classical
  rw [C104_surfaces, List.takeWhile_cons_of_neg]
  · rfl
  · simp only [Accepted, ha, decide_eq_true_eq]
    norm_num

/-- Non-vacuity of the hypotheses: a unit plate tilted by the angle with cosine 3/5, partly reflecting. -/
example : len (![4 / 5, 0, 3 / 5] : Vec 3) = 1 ∧ 0 < dot (![4 / 5, 0, 3 / 5] : Vec 3) ![0, 0, 2] ∧ (![0, 0, 2] : Vec 3) ≠ 0 ∧
    lightForce 1 1 (1 / 2) (1 / 2) ![4 / 5, 0, 3 / 5] ((1 / len (![0, 0, 2] : Vec 3)) • ![0, 0, 2]) ≠ 0 := by
  have h1 : len (![4 / 5, 0, 3 / 5] : Vec 3) = 1 := by
    rw [len, Real.sqrt_eq_one]; simp; norm_num
  have h2 : len (![0, 0, 2] : Vec 3) = 2 := by
    rw [len]; simp
  refine ⟨h1, by simp [dot], fun h => by have := congrFun h 2; simp at this, fun h => ?_⟩
  have := congrFun h 0
  rw [lightForce, lambertMean_eq, h2] at this
  simp [mirror, dot] at this
  norm_num at this

end S2E.Dist
