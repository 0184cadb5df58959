import Verif.Proofs.Sgp4Near

/-!
# C175: the near-Earth part of SGP4 is Spacetrack Report No. 3
-/
namespace S2E.Sgp4

open S2E.InitOrbit (Wgs)
open Report

/-- C175: for every regular near-Earth element set, every history of calls and every time, `sgp4` returns, and what it returns and writes are the code, the
position and the velocity of the equations of Spacetrack Report No. 3, with Kepler's equation solved by the iteration described there. -/
theorem C175_report (fuel fuel' : ℕ) (set : Wgs) (epoch : ℝ) (x : Elements) (hx : Regular (gravity set) x) (old s s' : Elset) (before : List ℝ) (t : ℝ)
    (hs : sgp4init fuel set epoch x.B x.e x.w x.i x.M x.no x.node old = .ok s) (hb : runs fuel set before s = .ok s') :
    let g := gravity set
    ∃ E out, sgp4 fuel' set s' t = .ok out ∧ Solved (U g x t) (axN g x t) (ayN g x t) E ∧
      (0 < aT g x t → e g x t ≠ 1 → 0 < pL g x t → out.elset.error = code g x t E ∧ out.written = some (position g x t E, velocity g x t E)) ∧
      (pL g x t < 0 → out.elset.error = 6 ∧ out.written = none) := by
  intro g
  have hP := coefs_ok set epoch x old hx
  have k1 : Same (prepare set epoch x.B x.e x.w x.i x.M x.no x.node old) s' := (init_same _ _ _ _ _ _ _ _ _ _ _ _ hs).trans (runs_same fuel set before s s' hb)
  have ho := k1.sgp4 fuel' set t
  generalize prepare set epoch x.B x.e x.w x.i x.M x.no x.node old = P at *
  obtain ⟨E, o, h1, h2, h3, h4⟩ := advance_ok (consts_ok set) hP hx.n_pos t 0 fuel'
  have h5 : sgp4 fuel' set P t = .ok o := h1
  rw [h5] at ho
  rcases h6 : sgp4 fuel' set s' t with out | _ | _ | _ <;> rw [h6] at ho <;> simp only [observe, reduceCtorEq, Res.ok.injEq, Prod.mk.injEq] at ho
  obtain ⟨e1, e2⟩ := ho
  refine ⟨E, out, rfl, h2, fun ha _ hp => ?_, fun hp => ?_⟩
  · rw [e1, e2]; exact h3 ha hp
  · rw [e1, e2]; exact h4 hp

/-- C175: `sgp4init` itself returns for such a set, with the code of the first position, or with the code 5 and no propagation when the perigee is below
the surface. -/
theorem C175_init (fuel : ℕ) (set : Wgs) (epoch : ℝ) (x : Elements) (hx : Regular (gravity set) x) (old : Elset) :
    let g := gravity set
    ∃ s, sgp4init fuel set epoch x.B x.e x.w x.i x.M x.no x.node old = .ok s ∧ s.method = 'n' ∧ s.init = 'n' ∧
      (perigee g x < 1 → s.error = 5) ∧
      (1 ≤ perigee g x → 0 < aT g x 0 → e g x 0 ≠ 1 → 0 < pL g x 0 → ∃ E, Solved (U g x 0) (axN g x 0) (ayN g x 0) E ∧ s.error = code g x 0 E) := by
  intro g
  have hP := coefs_ok set epoch x old hx
  have he : (prepare set epoch x.B x.e x.w x.i x.M x.no x.node old).error = if perigee g x < 1 then 5 else 0 := prepare_error set epoch x old hx
  obtain ⟨E, o, h1, h2, h3, h4⟩ := advance_ok (consts_ok set) hP hx.n_pos 0 0 fuel
  have hm := hP.method
  unfold sgp4init
  dsimp only
  generalize prepare set epoch x.B x.e x.w x.i x.M x.no x.node old = P at *
  by_cases hp : perigee g x < 1
  · rw [if_pos hp] at he
    rw [if_neg (by rw [he]; norm_num)]
    exact ⟨_, rfl, hm, rfl, fun _ => he, fun h => absurd hp (not_lt.2 h)⟩
  · rw [if_neg hp] at he
    have h5 : sgp4 fuel set P 0 = .ok o := h1
    rw [if_pos he, h5]
    refine ⟨_, rfl, ?_, rfl, fun h => absurd h hp, fun _ ha _ hpl => ⟨E, h2, (h3 ha hpl).1⟩⟩
    exact (sgp4_same fuel set P 0 o h5).method.trans hm

/-! A case that meets the hypotheses: a circular orbit of 1.44 Earth radii at the inclination where the mean motion needs no correction, without drag. -/

noncomputable def exSet : Elements := { no := 0.0743669161 / 1.728, e := 0, i := Real.arccos (Real.sqrt (1 / 3)), M := 1, w := 2, node := 3, B := 0 }

theorem exSet_th : th exSet ^ 2 = 1 / 3 ∧ 0 ≤ th exSet := by
  have h1 : Real.sqrt (1 / 3) ^ 2 = 1 / 3 := Real.sq_sqrt (by norm_num)
  have h0 := Real.sqrt_nonneg (1 / 3)
  have : th exSet = Real.sqrt (1 / 3) := Real.cos_arccos (by linarith) (by nlinarith)
  rw [this]; exact ⟨h1, h0⟩

theorem exSet_n : n (gravity .wgs72old) exSet = exSet.no ∧ a (gravity .wgs72old) exSet = 1.44 ∧ aOld (gravity .wgs72old) exSet = 1.44 := by
  have hp : (1.728 : ℝ) ^ (2 / 3 : ℝ) = 1.44 := by
    rw [show (1.728 : ℝ) = 1.2 ^ (3 : ℝ) by norm_num, ← Real.rpow_mul (by norm_num), show (3 : ℝ) * (2 / 3) = (2 : ℕ) by norm_num, Real.rpow_natCast]; norm_num
  have h1 : a1 (gravity .wgs72old) exSet = 1.44 := by
    unfold a1 gravity exSet
    rw [show (0.0743669161 : ℝ) / (0.0743669161 / 1.728) = 1.728 by norm_num, hp]
  have h3 : 3 * th exSet ^ 2 - 1 = 0 := by rw [exSet_th.1]; norm_num
  have h4 : delta1 (gravity .wgs72old) exSet = 0 := by unfold delta1; rw [h3]; ring
  have h5 : delta0 (gravity .wgs72old) exSet = 0 := by unfold delta0; rw [h3]; ring
  have h6 : n (gravity .wgs72old) exSet = exSet.no := by unfold n; rw [h5]; simp
  refine ⟨h6, ?_, by unfold aOld; rw [h1, h4]; norm_num⟩
  unfold a
  rw [h6]
  exact h1

theorem exSet_regular : Regular (gravity .wgs72old) exSet := by
  obtain ⟨h1, h2, h3⟩ := exSet_n
  have hs : Report.s (gravity .wgs72old) exSet = 78 / 6378.135 + 1 := by
    unfold Report.s height perigee
    rw [h2]
    norm_num [gravity, exSet]
  have hpsi : psi (gravity .wgs72old) exSet = 1 := by
    have : eta (gravity .wgs72old) exSet = 0 := by unfold eta; simp [exSet]
    unfold psi; rw [this]; norm_num
  refine ⟨le_refl _, by norm_num [exSet], by norm_num [exSet], by rw [h1]; norm_num [exSet], ?_, ?_, by rw [h3]; norm_num, by rw [h2, hs]; norm_num, by rw [hpsi]; norm_num⟩
  · rw [h1, div_lt_iff₀ (by norm_num [exSet])]
    have := Real.pi_le_four
    norm_num [exSet] at this ⊢
    linarith
  · rw [abs_of_pos (by have := exSet_th.2; linarith)]
    have := exSet_th.2
    norm_num at this ⊢
    linarith

/-- At every time the equations hold, and the code is 0. -/
theorem exSet_time (t E : ℝ) : let g := gravity .wgs72old
    0 < aT g exSet t ∧ e g exSet t ≠ 1 ∧ 0 < pL g exSet t ∧ code g exSet t E = 0 := by
  intro g
  have hB : exSet.B = 0 := rfl
  have ul : unlessLow g exSet 0 = 0 := by unfold unlessLow; split_ifs <;> rfl
  have hC1 : C1 g exSet = 0 := by unfold C1; rw [hB]; ring
  have hD2 : D2 g exSet = 0 := by unfold D2; rw [hC1]; ring
  have hD3 : D3 g exSet = 0 := by unfold D3; rw [hC1]; ring
  have hD4 : D4 g exSet = 0 := by unfold D4; rw [hC1]; ring
  have ha : aT g exSet t = 1.44 := by
    unfold aT
    rw [hC1, hD2, hD3, hD4, show (0 : ℝ) * t ^ 2 + 0 * t ^ 3 + 0 * t ^ 4 = 0 by ring, ul, exSet_n.2.1]; norm_num
  have he : eRaw g exSet t = 0 := by
    unfold eRaw
    rw [hB, zero_mul, zero_mul, zero_mul, zero_mul, ul]; norm_num [exSet]
  have he' : e g exSet t = 0 := by unfold Report.e; rw [he]; norm_num
  have hax : axN g exSet t = 0 := by unfold axN; rw [he']; ring
  obtain ⟨y, hy, hay⟩ : ∃ y : ℝ, |y| ≤ 0.001 ∧ ayN g exSet t = y := by
    refine ⟨_, ?_, rfl⟩
    unfold ayN
    rw [he', ha]
    have hs := Real.abs_sin_le_one exSet.i
    have : (0 : ℝ) * Real.sin (w g exSet t) + A30 g * Real.sin exSet.i / (4 * k2 g * 1.44 * (1 - 0 ^ 2)) = (A30 g / (4 * k2 g * 1.44)) * Real.sin exSet.i := by ring
    rw [this, abs_mul]
    have h2 : |A30 g / (4 * k2 g * 1.44)| ≤ 0.001 := by
      rw [abs_of_pos] <;> norm_num [g, gravity, A30, k2]
    nlinarith [abs_nonneg (A30 g / (4 * k2 g * 1.44)), abs_nonneg (Real.sin exSet.i)]
  have hy2 := abs_le.1 hy
  have hel : eL g exSet t ^ 2 = y ^ 2 := by unfold eL; rw [hax, hay, Real.sq_sqrt (by positivity)]; ring
  have hp : pL g exSet t = 1.44 * (1 - y ^ 2) := by unfold pL; rw [hel, ha]
  have hys : y ^ 2 ≤ 0.001 ^ 2 := by nlinarith
  have hp1 : 1.4 ≤ pL g exSet t := by rw [hp]; norm_num at hys ⊢; linarith
  refine ⟨by rw [ha]; norm_num, by rw [he']; norm_num, by linarith, ?_⟩
  have hr : 1.4 ≤ r g exSet t E := by
    unfold r ecosE
    rw [ha, hax, hay]
    have := Real.abs_sin_le_one E
    have h1 := abs_le.1 this
    nlinarith
  have hk : 0 ≤ k2 g ∧ k2 g ≤ 0.001 := by norm_num [g, gravity, k2]
  have hrk : 1 ≤ rk g exSet t E := by
    unfold rk
    rw [exSet_th.1]
    have hq : k2 g / (2 * pL g exSet t) ≤ 0.001 := by rw [div_le_iff₀ (by linarith)]; nlinarith
    have hq0 : 0 ≤ k2 g / (2 * pL g exSet t) := div_nonneg hk.1 (by linarith)
    have hc := Real.neg_one_le_cos (2 * u g exSet t E)
    have e1 : r g exSet t E * (1 - 3 / 2 * k2 g * (Real.sqrt (1 - eL g exSet t ^ 2) / pL g exSet t ^ 2) * (3 * (1 / 3) - 1)) = r g exSet t E := by ring
    rw [e1]
    nlinarith
  unfold code
  rw [if_neg (not_lt.2 hrk), he, ha]
  norm_num

/-- Every call with this set returns 0 and writes the position and velocity of the equations, also after other calls. -/
example (epoch t : ℝ) (old : Elset) : ∃ s s' E out, sgp4init 1 .wgs72old epoch exSet.B exSet.e exSet.w exSet.i exSet.M exSet.no exSet.node old = .ok s ∧ s.error = 0 ∧
    runs 1 .wgs72old [10, -100] s = .ok s' ∧ sgp4 1 .wgs72old s' t = .ok out ∧ out.elset.error = 0 ∧
    out.written = some (position (gravity .wgs72old) exSet t E, velocity (gravity .wgs72old) exSet t E) := by
  obtain ⟨s, h1, _, _, _, h2⟩ := C175_init 1 .wgs72old epoch exSet exSet_regular old
  have hp : 1 ≤ perigee (gravity .wgs72old) exSet := by unfold perigee; rw [exSet_n.2.1]; norm_num [exSet]
  have k := fun E => exSet_time 0 E
  obtain ⟨E0, _, h3⟩ := h2 hp (k 0).1 (k 0).2.1 (k 0).2.2.1
  obtain ⟨E1, o1, j1, _⟩ := C175_report 1 1 .wgs72old epoch exSet exSet_regular old s s [] 10 h1 rfl
  have r1 : runs 1 .wgs72old [10] s = .ok o1.elset := by simp [runs, j1, Res.bind]
  obtain ⟨E2, o2, j2, _⟩ := C175_report 1 1 .wgs72old epoch exSet exSet_regular old s _ [10] (-100) h1 r1
  have r2 : runs 1 .wgs72old [10, -100] s = .ok o2.elset := by simp [runs, j1, j2, Res.bind]
  obtain ⟨E, out, j3, _, j4, _⟩ := C175_report 1 1 .wgs72old epoch exSet exSet_regular old s _ [10, -100] t h1 r2
  obtain ⟨t1, t2, t3, t4⟩ := exSet_time t E
  obtain ⟨j5, j6⟩ := j4 t1 t2 t3
  exact ⟨s, _, E, out, h1, h3.trans (k E0).2.2.2, r2, j3, j5.trans t4, j6⟩

end S2E.Sgp4
