import Verif.Props.Atmosphere
import Verif.Props.Geodetic
import Verif.Spec.Shadow
import Verif.Props.Telescope
import Verif.Props.Shadow
/-!
# C145: the Harris-Priester model
-/
namespace S2E.Atmosphere
open S2E.Geodetic S2E.TwoBody S2E.Shadow S2E.Geodesy

/-! ## Interpolation of a table -/

/-- A table with rising heights and falling positive densities. -/
structure Falling (t : List (ℝ × ℝ)) : Prop where
  step : ∀ (i : ℕ) (a b : ℝ × ℝ), t[i]? = some a → t[i + 1]? = some b → a.1 < b.1 ∧ b.2 < a.2
  pos : ∀ (i : ℕ) (a : ℝ × ℝ), t[i]? = some a → 0 < a.2

theorem falling_of_chain (t : List (ℝ × ℝ)) (h1 : t.IsChain fun a b => a.1 < b.1 ∧ b.2 < a.2) (h2 : ∀ a ∈ t, 0 < a.2) : Falling t := by
  refine ⟨?_, fun i a h => h2 a (List.mem_of_getElem? h)⟩
  intro i a b ha hb
  obtain ⟨h, rfl⟩ := List.getElem?_eq_some_iff.mp ha
  obtain ⟨h', rfl⟩ := List.getElem?_eq_some_iff.mp hb
  exact List.isChain_iff_getElem.mp h1 i h'

theorem Falling.mono {t : List (ℝ × ℝ)} (ht : Falling t) (k i : ℕ) (a b : ℝ × ℝ) (ha : t[i]? = some a) (hb : t[i + k + 1]? = some b) : a.1 < b.1 ∧ b.2 < a.2 := by
  induction k generalizing b with
  | zero => exact ht.step i a b ha hb
  | succ k ih =>
    obtain ⟨h, -⟩ := List.getElem?_eq_some_iff.mp hb
    have hc : t[i + k + 1]? = some t[i + k + 1] := List.getElem?_eq_getElem (by omega)
    have h1 := ih _ hc
    have h2 := ht.step _ _ b hc hb
    exact ⟨h1.1.trans h2.1, h2.2.trans h1.2⟩

/-- Values between the entries. -/
theorem between {a b : ℝ × ℝ} {h v : ℝ} (hab : a.1 < b.1) (hba : b.2 < a.2) (hb : 0 < b.2) (h1 : a.1 ≤ h) (h2 : h ≤ b.1) (hv : 0 < v)
    (e : Real.log v = Real.log a.2 + (h - a.1) / (b.1 - a.1) * (Real.log b.2 - Real.log a.2)) :
    b.2 ≤ v ∧ v ≤ a.2 ∧ (h < b.1 → b.2 < v) ∧ (a.1 < h → v < a.2) := by
  have hd : 0 < b.1 - a.1 := by linarith
  have hl : Real.log b.2 < Real.log a.2 := Real.log_lt_log hb hba
  have ha : 0 < a.2 := hb.trans hba
  have r0 : 0 ≤ (h - a.1) / (b.1 - a.1) := div_nonneg (by linarith) hd.le
  have r1 : (h - a.1) / (b.1 - a.1) ≤ 1 := by rw [div_le_one hd]; linarith
  refine ⟨(Real.log_le_log_iff hb hv).mp ?_, (Real.log_le_log_iff hv ha).mp ?_, fun h3 => (Real.log_lt_log_iff hb hv).mp ?_, fun h3 => (Real.log_lt_log_iff hv ha).mp ?_⟩
  · rw [e]; nlinarith
  · rw [e]; nlinarith
  · have : (h - a.1) / (b.1 - a.1) < 1 := by rw [div_lt_one hd]; linarith
    rw [e]; nlinarith
  · have : 0 < (h - a.1) / (b.1 - a.1) := div_pos (by linarith) hd
    rw [e]; nlinarith

/-- Interpolated values fall strictly and are unique. -/
theorem logLinear_anti {t : List (ℝ × ℝ)} (ht : Falling t) {h h' v v' : ℝ} (hv : LogLinear t h v) (hv' : LogLinear t h' v') : (h < h' → v' < v) ∧ (h = h' → v = v') := by
  obtain ⟨i, a, b, ha, hb, h1, h2, hv0, e⟩ := hv
  obtain ⟨j, a', b', ha', hb', h1', h2', hv0', e'⟩ := hv'
  have s := ht.step i a b ha hb
  have s' := ht.step j a' b' ha' hb'
  have B := between s.1 s.2 (ht.pos _ _ hb) h1 h2 hv0 e
  have B' := between s'.1 s'.2 (ht.pos _ _ hb') h1' h2' hv0' e'
  rcases lt_trichotomy i j with hij | rfl | hij
  · obtain ⟨k, rfl⟩ := Nat.exists_eq_add_of_lt hij
    rcases Nat.eq_zero_or_pos k with rfl | hk
    · have eb : b = a' := Option.some.inj (hb.symm.trans ha')
      subst eb
      constructor
      · intro hh
        rcases h2.lt_or_eq with h3 | h3
        · exact B'.2.1.trans_lt (B.2.2.1 h3)
        · exact (B'.2.2.2 (by linarith)).trans_le B.1
      · intro hh
        have e1 : h = b.1 := by linarith
        have e2 : h' = b.1 := by linarith
        have hd : b.1 - a.1 ≠ 0 := by linarith [s.1]
        rw [e1, div_self hd] at e
        rw [e2, sub_self, zero_div] at e'
        apply Real.log_injOn_pos hv0 hv0'
        rw [e, e']; ring
    · obtain ⟨k, rfl⟩ := Nat.exists_eq_succ_of_ne_zero hk.ne'
      have hm := ht.mono k (i + 1) b a' hb (by rw [← ha']; congr 1; omega)
      constructor
      · intro; linarith [B.1, B'.2.1, hm.2]
      · intro hh; linarith [hm.1]
  · have ea : a = a' := Option.some.inj (ha.symm.trans ha')
    have eb : b = b' := Option.some.inj (hb.symm.trans hb')
    subst ea eb
    have hl : Real.log b.2 < Real.log a.2 := Real.log_lt_log (ht.pos _ _ hb) s.2
    have hd : 0 < b.1 - a.1 := by linarith [s.1]
    constructor
    · intro hh
      apply (Real.log_lt_log_iff hv0' hv0).mp
      rw [e, e']
      have : (h - a.1) / (b.1 - a.1) < (h' - a.1) / (b.1 - a.1) := by gcongr
      nlinarith
    · intro hh
      apply Real.log_injOn_pos hv0 hv0'
      rw [e, e', hh]
  · obtain ⟨k, rfl⟩ := Nat.exists_eq_add_of_lt hij
    rcases Nat.eq_zero_or_pos k with rfl | hk
    · have eb : b' = a := Option.some.inj (hb'.symm.trans ha)
      subst eb
      constructor
      · intro hh; linarith
      · intro hh
        have e1 : h = b'.1 := by linarith
        have e2 : h' = b'.1 := by linarith
        have hd : b'.1 - a'.1 ≠ 0 := by linarith [s'.1]
        rw [e2, div_self hd] at e'
        rw [e1, sub_self, zero_div] at e
        apply Real.log_injOn_pos hv0 hv0'
        rw [e, e']; ring
    · obtain ⟨k, rfl⟩ := Nat.exists_eq_succ_of_ne_zero hk.ne'
      have hm := ht.mono k (j + 1) b' a hb' (by rw [← ha]; congr 1; omega)
      constructor
      · intro hh; linarith [hm.1]
      · intro hh; linarith [hm.1]

theorem falling_min : Falling minTable := by
  refine falling_of_chain _ ?_ ?_
  · norm_num [minTable]
  · norm_num [minTable]

theorem falling_max : Falling maxTable := by
  refine falling_of_chain _ ?_ ?_
  · norm_num [maxTable]
  · norm_num [maxTable]

/-- The heights of both tables are the same and the maximum is not below the minimum. -/
theorem tables : List.Forall₂ (fun a b => a.1 = b.1 ∧ a.2 ≤ b.2) minTable maxTable := by
  norm_num [minTable, maxTable]


theorem upperBound_congr {s t : List (ℝ × ℝ)} (h : List.Forall₂ (fun a b => a.1 = b.1 ∧ a.2 ≤ b.2) s t) (x : ℝ) : upperBound s x = upperBound t x := by
  unfold upperBound
  induction h with
  | nil => rfl
  | cons hab _ ih => rw [List.findIdx_cons, List.findIdx_cons, hab.1, ih]

/-- The search for the altitude. -/
theorem upperBound_spec (t : List (ℝ × ℝ)) (h : ℝ) (first : ℝ × ℝ) (hf : t[0]? = some first) (h0 : first.1 ≤ h) (last : ℝ × ℝ) (hl : t[t.length - 1]? = some last) (h1 : h < last.1) :
    ∃ (i : ℕ) (a b : ℝ × ℝ), upperBound t h = i + 1 ∧ upperBound t h < t.length ∧ t[i]? = some a ∧ t[i + 1]? = some b ∧ a.1 ≤ h ∧ h < b.1 := by
  classical
  have hlt : upperBound t h < t.length := by
    unfold upperBound
    rw [List.findIdx_lt_length]
    exact ⟨last, List.mem_of_getElem? hl, by simpa using h1⟩
  have hb : t[upperBound t h].1 > h := by
    have := @List.findIdx_getElem _ (fun e : ℝ × ℝ => decide (e.1 > h)) t (by unfold upperBound at hlt; convert hlt)
    simpa [upperBound] using this
  have hne : upperBound t h ≠ 0 := by
    intro hz
    obtain ⟨h2, h3⟩ := List.getElem?_eq_some_iff.mp hf
    simp only [hz, h3] at hb
    linarith
  obtain ⟨i, hi⟩ := Nat.exists_eq_succ_of_ne_zero hne
  have hi' : upperBound t h = i + 1 := hi
  refine ⟨i, t[i]'(by omega), t[i + 1]'(by omega), hi', hlt, List.getElem?_eq_getElem _, List.getElem?_eq_getElem _, ?_, ?_⟩
  · have h4 : i < t.findIdx (fun e => decide (e.1 > h)) := by
      have : upperBound t h = t.findIdx (fun e => decide (e.1 > h)) := by unfold upperBound; congr
      omega
    have := List.not_of_lt_findIdx h4
    simpa using this
  · simp only [hi'] at hb
    exact hb

/-- The interpolation of the program is linear in the logarithm. -/
theorem apexDensity_spec {t : List (ℝ × ℝ)} (ht : Falling t) {i : ℕ} {a b : ℝ × ℝ} (ha : t[i]? = some a) (hb : t[i + 1]? = some b) {h : ℝ} (h1 : a.1 ≤ h) (h2 : h < b.1) :
    ∃ v, apexDensity t i h = .ok v ∧ LogLinear t h v := by
  have pa := ht.pos _ _ ha
  have pb := ht.pos _ _ hb
  have s := ht.step i a b ha hb
  refine ⟨_, by rw [apexDensity, entry, ha]; simp only [Res.bind]; rw [entry, hb], i, a, b, ha, hb, h1, h2.le, by positivity, ?_⟩
  rw [Real.log_mul pa.ne' (Real.exp_ne_zero _), Real.log_exp, scaleHeight, Real.log_div pb.ne' pa.ne']
  have hl : Real.log b.2 - Real.log a.2 < 0 := by linarith [Real.log_lt_log pb s.2]
  have hd : a.1 - b.1 < 0 := by linarith [s.1]
  congr 1
  rw [div_div_eq_mul_div, div_mul_eq_mul_div, div_eq_div_iff hd.ne (by linarith)]
  ring

/-! ## The bulge -/

theorem cos_atan2 {x y : ℝ} : Real.sqrt (x * x + y * y) * Real.cos (atan2 y x) = x ∧ Real.sqrt (x * x + y * y) * Real.sin (atan2 y x) = y := by
  have hn : ‖(⟨x, y⟩ : ℂ)‖ = Real.sqrt (x * x + y * y) := by rw [Complex.norm_def, Complex.normSq_mk]
  rw [← hn, atan2]
  exact ⟨Complex.norm_mul_cos_arg _, Complex.norm_mul_sin_arg _⟩

/-- The apex has the direction of the Sun turned by 30 degrees. -/
theorem apex_lagged (sun : Vec 3) : len sun • apexDirection sun = lagged sun := by
  set ρ := Real.sqrt (sun 0 * sun 0 + sun 1 * sun 1) with hρ
  have hr2 : ρ * ρ = sun 0 * sun 0 + sun 1 * sun 1 := Real.mul_self_sqrt (add_nonneg (mul_self_nonneg _) (mul_self_nonneg _))
  have hL : len sun = Real.sqrt (ρ * ρ + sun 2 * sun 2) := by rw [hr2, len]; congr 1; ring
  obtain ⟨c1, s1⟩ := @cos_atan2 (sun 0) (sun 1)
  obtain ⟨c2, s2⟩ := @cos_atan2 ρ (sun 2)
  rw [← hρ] at c1 s1
  rw [← hL] at c2 s2
  have ed : (30 : ℝ) * (Real.pi / 180) = Real.pi / 6 := by ring
  unfold apexDirection lagged
  rw [ed, ← hρ]
  simp only
  rw [Real.cos_add, Real.sin_add]
  generalize len sun = L at *
  generalize Real.cos (atan2 (sun 1) (sun 0)) = ca at *
  generalize Real.sin (atan2 (sun 1) (sun 0)) = sa at *
  generalize Real.cos (atan2 (sun 2) ρ) = cd at *
  generalize Real.sin (atan2 (sun 2) ρ) = sd at *
  generalize Real.cos (Real.pi / 6) = c at *
  generalize Real.sin (Real.pi / 6) = s at *
  generalize ρ = r at *
  apply vec3_ext <;> simp
  · rw [← c1, ← s1, ← c2]; ring
  · rw [← c1, ← s1, ← c2]; ring
  · exact s2

theorem len_lagged (sun : Vec 3) : len (lagged sun) = len sun := by
  rw [len, len]
  congr 1
  have := Real.sin_sq_add_cos_sq (Real.pi / 6)
  unfold lagged
  generalize Real.cos (Real.pi / 6) = c at *
  generalize Real.sin (Real.pi / 6) = s at *
  simp
  grind

/-- The factor of the program is a power of the cosine of half the angle between the position and the apex. -/
theorem cosPhi_spec (p sun : Vec 3) (hp : p ≠ 0) (hs : sun ≠ 0) (n : ℝ) : cosPhi p sun n = Real.cos (angle p (lagged sun) / 2) ^ n := by
  have hlp := len_pos hp
  have hls := len_pos hs
  have hin : innerProduct (calcNormalizedVector p) (apexDirection sun) = dot p (lagged sun) / (len p * len (lagged sun)) := by
    rw [Kepler.innerProduct_dot, ← apex_lagged, apex_lagged, len_lagged]
    have h1 : calcNormalizedVector p = (len p)⁻¹ • p := by
      obtain ⟨-, h⟩ := Dist.normalized_len hp
      rw [eq_inv_smul_iff₀ hlp.ne']
      exact h
    have h2 : apexDirection sun = (len sun)⁻¹ • lagged sun := by
      rw [← apex_lagged, smul_smul, inv_mul_cancel₀ hls.ne', one_smul]
    rw [h1, h2]
    simp only [dot, Pi.smul_apply, smul_eq_mul]
    field_simp
  have hb : -1 ≤ dot p (lagged sun) / (len p * len (lagged sun)) ∧ dot p (lagged sun) / (len p * len (lagged sun)) ≤ 1 := by
    exact Env.dot_bound _ _ hlp (by rw [len_lagged]; exact hls)
  rw [cosPhi, hin, angle]
  generalize dot p (lagged sun) / (len p * len (lagged sun)) = x at hb
  have h1 : Real.cos (Real.arccos x / 2) ^ 2 = 0.5 + x / 2 := by
    rw [Real.cos_sq, mul_div_cancel₀ _ (two_ne_zero), Real.cos_arccos hb.1 hb.2]; norm_num
  have h2 : 0 ≤ Real.cos (Real.arccos x / 2) := Real.cos_nonneg_of_neg_pi_div_two_le_of_le (by linarith [Real.arccos_nonneg x, Real.pi_pos]) (by linarith [Real.arccos_le_pi x])
  rw [← h1, ← Real.rpow_natCast, ← Real.rpow_mul h2]
  congr 1
  push_cast
  ring

/-! ## The density -/

theorem ecef_ne {lat lon alt : ℝ} (ha : 0 ≤ alt) {p : Vec 3} (h : HasGeodetic earthRadius flattening p lat lon alt) : p ≠ 0 := by
  intro hp
  obtain ⟨e0, e1, e2'⟩ := hasGeodetic_explicit h
  rw [hp] at e0 e1 e2'
  have hc := curvature_pos lat
  have hR := earthRadius_pos
  have h2 : 0 < 1 - e2 := by rw [e2_val]; norm_num
  have k1 : 0 < curvature lat * earthRadius + alt := by positivity
  have k2 : 0 < curvature lat * earthRadius * (1 - e2) + alt := by positivity
  have s0 : Real.sin lat = 0 := by
    have := mul_eq_zero.mp e2'.symm
    exact this.resolve_left k2.ne'
  have c1 : Real.cos lat ≠ 0 := by
    intro c0
    have := Real.sin_sq_add_cos_sq lat
    rw [s0, c0] at this
    norm_num at this
  have k3 : (curvature lat * earthRadius + alt) * Real.cos lat ≠ 0 := mul_ne_zero k1.ne' c1
  have c2 := (mul_eq_zero.mp e0.symm).resolve_left k3
  have s2 := (mul_eq_zero.mp e1.symm).resolve_left k3
  have := Real.sin_sq_add_cos_sq lon
  rw [c2, s2] at this
  norm_num at this

/-- Both profiles at an altitude from 100 to 1000 km. -/
theorem profiles {h : ℝ} (h0 : 100 ≤ h) (h1 : h < 1000) : ∃ (i : ℕ) (lo hi : ℝ), upperBound minTable h = i + 1 ∧ upperBound maxTable h = i + 1 ∧ i + 1 < minTable.length ∧
    apexDensity minTable i h = .ok lo ∧ LogLinear minTable h lo ∧ apexDensity maxTable i h = .ok hi ∧ LogLinear maxTable h hi ∧ lo ≤ hi := by
  obtain ⟨i, a, b, hu, hlt, ha, hb, ha1, hb1⟩ := upperBound_spec minTable h (100, 497400) rfl h0 (1000, 0.001150) rfl h1
  obtain ⟨j, a', b', hu', -, ha', hb', ha1', hb1'⟩ := upperBound_spec maxTable h (100, 497400) rfl h0 (1000, 0.01810) rfl h1
  rw [← upperBound_congr tables h, hu] at hu'
  obtain rfl : i = j := by omega
  obtain ⟨lo, e1, l1⟩ := apexDensity_spec falling_min ha hb ha1 hb1
  obtain ⟨hi, e2, l2⟩ := apexDensity_spec falling_max ha' hb' ha1' hb1'
  refine ⟨i, lo, hi, hu, by rw [← upperBound_congr tables h, hu], by rw [← hu]; exact hlt, e1, l1, e2, l2, ?_⟩
  have hget : ∀ (k : ℕ) (x y : ℝ × ℝ), minTable[k]? = some x → maxTable[k]? = some y → x.1 = y.1 ∧ x.2 ≤ y.2 := by
    intro k x y hx hy
    obtain ⟨k1, rfl⟩ := List.getElem?_eq_some_iff.mp hx
    obtain ⟨k2, rfl⟩ := List.getElem?_eq_some_iff.mp hy
    exact (List.forall₂_iff_get.mp tables).2 k k1 k2
  have ka := hget _ _ _ ha ha'
  have kb := hget _ _ _ hb hb'
  have s := falling_min.step _ _ _ ha hb
  obtain ⟨i1, c, d, hc, hd, -, -, v0, ev⟩ := id l1
  rw [apexDensity, entry, ha] at e1
  rw [apexDensity, entry, ha'] at e2
  simp only [Res.bind] at e1 e2
  rw [entry, hb] at e1
  rw [entry, hb'] at e2
  obtain rfl := Res.ok.inj e1
  obtain rfl := Res.ok.inj e2
  have pa := falling_min.pos _ _ ha
  have pb := falling_min.pos _ _ hb
  have pa' := falling_max.pos _ _ ha'
  have pb' := falling_max.pos _ _ hb'
  apply (Real.log_le_log_iff (by positivity) (by positivity)).mp
  rw [Real.log_mul pa.ne' (Real.exp_ne_zero _), Real.log_mul pa'.ne' (Real.exp_ne_zero _), Real.log_exp, Real.log_exp, scaleHeight, scaleHeight, Real.log_div pb.ne' pa.ne',
    Real.log_div pb'.ne' pa'.ne', ← ka.1, ← kb.1, div_div_eq_mul_div, div_div_eq_mul_div]
  have q1 := Real.log_le_log pa ka.2
  have q2 := Real.log_le_log pb kb.2
  have hd : 0 < b.1 - a.1 := by linarith [s.1]
  have r0 : 0 ≤ (h - a.1) / (b.1 - a.1) := div_nonneg (by linarith) hd.le
  have r1 : (h - a.1) / (b.1 - a.1) ≤ 1 := by rw [div_le_one hd]; linarith
  have f : ∀ x : ℝ, (a.1 - h) * x / (a.1 - b.1) = (h - a.1) / (b.1 - a.1) * x := by
    intro x
    rw [show a.1 - b.1 = -(b.1 - a.1) by ring, show (a.1 - h) * x = -((h - a.1) * x) by ring, neg_div_neg_eq]; ring
  rw [f, f]
  nlinarith

/-- **C145 (density).** From 100 to 1000 km the density is, in g/km3, the mean of the two tabulated profiles (interpolated linearly in the logarithm) weighted by the `n`-th power of
the cosine of half the angle between the Earth-fixed position and the direction to the Sun turned eastward by 30 degrees; so it lies between the two profiles. -/
theorem C145_density (lat lon alt : ℝ) (hlon : |lon| < 2 ^ 31 * (2 * Real.pi)) (h0 : 100000 ≤ alt) (h1 : alt < 1000000) (sun : Vec 3) (hs : sun ≠ 0) (n : ℝ) :
    ∃ (p : Vec 3) (lo hi v : ℝ), HasGeodetic earthRadius flattening p lat lon alt ∧ LogLinear minTable (alt / 1000) lo ∧ LogLinear maxTable (alt / 1000) hi ∧ lo ≤ hi ∧
      harrisPriester (GeodeticPosition.new lat lon alt) sun n = .ok v ∧ v = 1e-12 * (lo + (hi - lo) * Real.cos (angle p (lagged sun) / 2) ^ n) ∧
      (0 ≤ n → 1e-12 * lo ≤ v ∧ v ≤ 1e-12 * hi) := by
  obtain ⟨p, hp, hg⟩ := C98_to_ecef lat lon alt hlon
  have hp0 := ecef_ne (by linarith) hg
  obtain ⟨i, lo, hi, u1, u2, hl, e1, l1, e2, l2, hle⟩ := profiles (h := alt / 1000) (by linarith) (by linarith)
  refine ⟨p, lo, hi, _, hg, l1, l2, hle, ?_, rfl, ?_⟩
  · rw [harrisPriester, hp]
    simp only [Res.bind, GeodeticPosition.new]
    simp only [u1, u2, if_neg (Nat.succ_ne_zero i), if_neg hl.ne, Nat.add_sub_cancel, e1, e2, cosPhi_spec p sun hp0 hs n]
    congr 1
    ring
  · intro hn
    have ang : 0 ≤ Real.cos (angle p (lagged sun) / 2) := Real.cos_nonneg_of_neg_pi_div_two_le_of_le
      (by have := Real.arccos_nonneg (dot p (lagged sun) / (len p * len (lagged sun))); rw [angle]; linarith [Real.pi_pos])
      (by have := Real.arccos_le_pi (dot p (lagged sun) / (len p * len (lagged sun))); rw [angle]; linarith)
    have c0 := Real.rpow_nonneg ang n
    have c1 := Real.rpow_le_one ang (Real.cos_le_one _) hn
    generalize Real.cos (angle p (lagged sun) / 2) ^ n = c at *
    constructor <;> nlinarith

/-- **C145 (profiles).** Both profiles fall strictly with altitude and are continuous: at the height of an entry the pieces below and above give the same value, that of the table. -/
theorem C145_profiles : ∀ t ∈ [minTable, maxTable], (∀ h h' v v', LogLinear t h v → LogLinear t h' v' → (h < h' → v' < v) ∧ (h = h' → v = v')) ∧
    (∀ h, 100 ≤ h → h < 1000 → ∃ v, LogLinear t h v) ∧ ∀ a ∈ t, a.1 < 1000 → LogLinear t a.1 a.2 := by
  have node : ∀ t, Falling t → (∀ a ∈ t, a.1 < 1000 → ∃ (i : ℕ) (b : ℝ × ℝ), t[i]? = some a ∧ t[i + 1]? = some b) → ∀ a ∈ t, a.1 < 1000 → LogLinear t a.1 a.2 := by
    intro t ht hn a ha h1
    obtain ⟨i, b, h2, h3⟩ := hn a ha h1
    have s := ht.step _ _ _ h2 h3
    exact ⟨i, a, b, h2, h3, le_rfl, s.1.le, ht.pos _ _ h2, by rw [sub_self, zero_div, zero_mul, add_zero]⟩
  have next : ∀ (t : List (ℝ × ℝ)) (last : ℝ × ℝ), t[t.length - 1]? = some last → last.1 = 1000 → ∀ a ∈ t, a.1 < 1000 → ∃ (i : ℕ) (b : ℝ × ℝ), t[i]? = some a ∧ t[i + 1]? = some b := by
    intro t last hl h1 a ha h2
    obtain ⟨i, hi, rfl⟩ := List.getElem_of_mem ha
    have : i + 1 < t.length := by
      by_contra hc
      obtain rfl : i = t.length - 1 := by omega
      rw [List.getElem?_eq_getElem hi] at hl
      rw [Option.some.inj hl, h1] at h2
      exact lt_irrefl _ h2
    exact ⟨i, t[i + 1], List.getElem?_eq_getElem hi, List.getElem?_eq_getElem this⟩
  intro t ht
  simp only [List.mem_cons, List.not_mem_nil, or_false] at ht
  rcases ht with rfl | rfl
  · refine ⟨fun h h' v v' a b => logLinear_anti falling_min a b, fun h h0 h1 => ?_, node _ falling_min (next _ (1000, 0.001150) rfl rfl)⟩
    obtain ⟨_, lo, _, -, -, -, -, l, -⟩ := profiles h0 h1
    exact ⟨lo, l⟩
  · refine ⟨fun h h' v v' a b => logLinear_anti falling_max a b, fun h h0 h1 => ?_, node _ falling_max (next _ (1000, 0.01810) rfl rfl)⟩
    obtain ⟨_, _, hi, -, -, -, -, -, -, l, -⟩ := profiles h0 h1
    exact ⟨hi, l⟩

/-- **C145 (outside).** Below 100 km the first entry of the table is returned without conversion of the unit: 497400 kg/m3 instead of about 5e-7. From 1000 km on the program
dereferences the end of the table: undefined behaviour. -/
theorem C145_outside (lat lon alt : ℝ) (hlon : |lon| < 2 ^ 31 * (2 * Real.pi)) (sun : Vec 3) (n : ℝ) :
    (alt < 100000 → harrisPriester (GeodeticPosition.new lat lon alt) sun n = .ok 497400) ∧
    (1000000 ≤ alt → harrisPriester (GeodeticPosition.new lat lon alt) sun n = .ub) := by
  obtain ⟨p, hp, -⟩ := C98_to_ecef lat lon alt hlon
  rw [harrisPriester, hp]
  simp only [Res.bind, GeodeticPosition.new]
  constructor
  · intro h
    have : upperBound minTable (alt / 1000) = 0 := by
      unfold upperBound minTable
      rw [List.findIdx_cons]
      have : (100 : ℝ) > alt / 1000 := by linarith
      simp [this]
    simp only [this, if_true]
    rfl
  · intro h
    have : upperBound minTable (alt / 1000) = minTable.length := by
      unfold upperBound
      rw [List.findIdx_eq_length]
      have hall : ∀ e ∈ minTable, e.1 ≤ 1000 := by norm_num [minTable]
      intro e he
      have := hall e he
      simp only [gt_iff_lt, decide_eq_false_iff_not, not_lt]
      linarith
    have h50 : minTable.length ≠ 0 := by simp [minTable]
    simp only [this, if_neg h50, if_true, entry, List.getElem?_eq_none le_rfl]

/-- **C145 (rotation of the Earth).** The Earth-fixed position is compared with the inertial direction to the Sun. Above the equator at the longitude `lon`, with a Sun such that the
spacecraft is at the apex of the bulge after half a turn of the Earth (its inertial position is the opposite of its Earth-fixed one), the minimum density is given. -/
theorem C145_rotation (lon alt : ℝ) (hlon : |lon| < 2 ^ 31 * (2 * Real.pi)) (h0 : 100000 ≤ alt) (h1 : alt < 1000000) (n : ℝ) (hn : 0 < n) :
    ∃ (p sun : Vec 3) (lo v : ℝ), HasGeodetic earthRadius flattening p 0 lon alt ∧ p 2 = 0 ∧ angle (-p) (lagged sun) = 0 ∧
      harrisPriester (GeodeticPosition.new 0 lon alt) sun n = .ok v ∧ LogLinear minTable (alt / 1000) lo ∧ v = 1e-12 * lo := by
  obtain ⟨p, hp, hg⟩ := C98_to_ecef 0 lon alt hlon
  have hp0 := ecef_ne (by linarith) hg
  have hz : p 2 = 0 := by
    rw [GeodeticPosition.calcEcefPosition] at hp
    obtain ⟨y, k, hy, -⟩ := (fMod2p_spec lon).1 hlon
    simp only [GeodeticPosition.new, hy] at hp
    have := Res.ok.inj hp
    rw [← this]; simp
  let sun : Vec 3 := ![-(Real.cos (Real.pi / 6) * p 0 + Real.sin (Real.pi / 6) * p 1), -(-Real.sin (Real.pi / 6) * p 0 + Real.cos (Real.pi / 6) * p 1), -p 2]
  have hlag : lagged sun = -p := by
    have := Real.sin_sq_add_cos_sq (Real.pi / 6)
    unfold lagged
    simp only [sun]
    generalize Real.cos (Real.pi / 6) = c at *
    generalize Real.sin (Real.pi / 6) = s at *
    apply vec3_ext <;> simp
    · grind
    · grind
  have hs : sun ≠ 0 := by
    intro h
    have h2 := len_lagged sun
    have h3 : len sun = 0 := by rw [h]; simp [len]
    rw [hlag, h3] at h2
    have h4 : (-p : Vec 3) ≠ 0 := neg_ne_zero.mpr hp0
    linarith [len_pos h4]
  obtain ⟨p', lo, hi, v, hg', l1, -, -, hv, ev, -⟩ := C145_density 0 lon alt hlon h0 h1 sun hs n
  have hl := len_pos hp0
  have hln : len (-p) = len p := by rw [len, len]; simp
  have hdn : dot p (-p) = -(len p * len p) := by rw [← sq, len_sq]; simp only [dot, Pi.neg_apply]; ring
  have hdd : dot (-p) (-p) = len p * len p := by rw [← sq, len_sq]; simp only [dot, Pi.neg_apply]; ring
  refine ⟨p, sun, lo, v, hg, hz, ?_, hv, l1, ?_⟩
  · rw [hlag, angle, hln, hdd, div_self (by positivity), Real.arccos_one]
  · have hpp : p' = p := by
      obtain ⟨a0, a1, a2⟩ := hasGeodetic_explicit hg
      obtain ⟨b0, b1, b2⟩ := hasGeodetic_explicit hg'
      apply vec3_ext
      · rw [a0, b0]
      · rw [a1, b1]
      · rw [a2, b2]
    rw [ev, hpp, hlag, angle, hln, hdn, neg_div, div_self (by positivity), Real.arccos_neg_one, Real.cos_pi_div_two, Real.zero_rpow hn.ne', mul_zero, add_zero]

/-! ## Examples -/

/-- At 110 km, exactly between two entries, the minimum density is the geometric mean of the two. -/
example : LogLinear minTable 110 (Real.sqrt (497400 * 24900)) := by
  refine ⟨0, (100, 497400), (120, 24900), rfl, rfl, by norm_num, by norm_num, by positivity, ?_⟩
  rw [Real.log_sqrt (by norm_num), Real.log_mul (by norm_num) (by norm_num)]
  norm_num
  ring

/-- The hypotheses are met by the equator at 400 km on the prime meridian. -/
example : ∃ v, harrisPriester (GeodeticPosition.new 0 0 400000) ![1, 0, 0] 4 = .ok v ∧ 1e-12 * 2.249 ≤ v ∧ v ≤ 1e-12 * 7.492 := by
  obtain ⟨p, lo, hi, v, -, l1, l2, -, hv, -, hb⟩ := C145_density 0 0 400000 (by simp; positivity) (by norm_num) (by norm_num) ![1, 0, 0]
    (fun h => one_ne_zero (α := ℝ) (congrFun h 0)) 4
  have m1 : LogLinear minTable 400 2.249 := (C145_profiles minTable (by simp)).2.2 (400, 2.249) (List.mem_of_getElem? (i := 24) rfl) (by norm_num)
  have m2 : LogLinear maxTable 400 7.492 := (C145_profiles maxTable (by simp)).2.2 (400, 7.492) (List.mem_of_getElem? (i := 24) rfl) (by norm_num)
  have e1 := (logLinear_anti falling_min l1 m1).2 (by norm_num)
  have e2 := (logLinear_anti falling_max l2 m2).2 (by norm_num)
  refine ⟨v, hv, ?_⟩
  have := hb (by norm_num)
  rwa [e1, e2] at this

end S2E.Atmosphere
