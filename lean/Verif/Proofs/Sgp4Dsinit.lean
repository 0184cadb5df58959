import Verif.Proofs.Sgp4Dscom

/-!
# `dsinit`
-/
namespace S2E.Sgp4

open S2E.ThirdBody (lagrange double Rates)

/-- `dsinit` before the terms of the resonance. -/
noncomputable def dsRates (sun moon : Body) (s : Elset) : Elset :=
  let znl : ℝ := 1.5835218e-4
  let zns : ℝ := 1.19459e-5
  let emsq := s.ecco * s.ecco
  let sinim := Real.sin s.inclo
  let cosim := Real.cos s.inclo
  let irez := if 8.26e-3 ≤ s.no ∧ s.no ≤ 9.24e-3 ∧ 0.5 ≤ s.ecco then 2
    else if s.no < 0.0052359877 ∧ 0.0034906585 < s.no then 1 else 0
  let ses := sun.s1 * zns * sun.s5
  let sis := sun.s2 * zns * (sun.z11 + sun.z13)
  let sls := -zns * sun.s3 * (sun.z1 + sun.z3 - 14 - 6 * emsq)
  let sghs := sun.s4 * zns * (sun.z31 + sun.z33 - 6)
  let shs := nodeRate s.inclo zns sun.s2 sun.z21 sun.z23
  let shs := if sinim ≠ 0 then shs / sinim else shs
  let sgs := sghs - cosim * shs
  let sghl := moon.s4 * znl * (moon.z31 + moon.z33 - 6)
  let shll := nodeRate s.inclo znl moon.s2 moon.z21 moon.z23
  let domdt := sgs + sghl
  { s with
    irez := irez
    dedt := ses + moon.s1 * znl * moon.s5
    didt := sis + moon.s2 * znl * (moon.z11 + moon.z13)
    dmdt := sls - znl * moon.s3 * (moon.z1 + moon.z3 - 14 - 6 * emsq)
    domdt := if sinim ≠ 0 then domdt - cosim / sinim * shll else domdt
    dnodt := if sinim ≠ 0 then shs + shll / sinim else shs }

/-- The terms of the resonance. -/
noncomputable def dsResonance (aonv theta : ℝ) (s : Elset) : Elset :=
  if s.irez = 2 then
    let s := halfDay aonv theta s
    { s with xli := s.xlamo, xni := s.no, atime := 0 }
  else if s.irez = 1 then
    let s := synchronous aonv theta s
    { s with xli := s.xlamo, xni := s.no, atime := 0 }
  else s

theorem dsinit_eq (c : Consts) (sun moon : Body) (s : Elset) :
    dsinit c sun moon s = dsResonance ((s.no / c.xke) ^ (2 / 3 : ℝ)) (Julian.fmod s.gsto (2 * Real.pi)) (dsRates sun moon s) := rfl

theorem dsResonance_shape (aonv theta : ℝ) (s : Elset) :
    let R := dsResonance aonv theta s
    R = { s with
      d2201 := R.d2201, d2211 := R.d2211, d3210 := R.d3210, d3222 := R.d3222, d4410 := R.d4410, d4422 := R.d4422, d5220 := R.d5220, d5232 := R.d5232, d5421 := R.d5421,
      d5433 := R.d5433, del1 := R.del1, del2 := R.del2, del3 := R.del3, xlamo := R.xlamo, xfact := R.xfact, xli := R.xli, xni := R.xni, atime := R.atime } := by
  unfold dsResonance
  by_cases h2 : s.irez = 2
  · rw [if_pos h2]; rfl
  · rw [if_neg h2]
    by_cases h1 : s.irez = 1
    · rw [if_pos h1]; rfl
    · rw [if_neg h1]

open Deep in
/-- The rates of the code are the sums of the rates of Sun and Moon. -/
theorem dsRates_ok {g : Report.Gravity} {x : Report.Elements} {day : ℝ} (hx : Deep.Regular g x) {sun moon : Body} {s : Elset} (ha : Report.a g x ≠ 0)
    (h1 : s.no = Report.n g x) (h2 : s.ecco = x.e) (h3 : s.inclo = x.i) (hs : BodyFor sun ThirdBody.sun (Report.n g x) x.e x.i x.node x.w)
    (hm : BodyFor moon (ThirdBody.moon day) (Report.n g x) x.e x.i x.node x.w) :
    let R := dsRates sun moon s
    R.dedt = eRate g x day ∧ R.didt = iRate g x day ∧ R.dmdt = MRate g x day ∧ R.domdt = wRate g x day ∧ R.dnodt = Deep.nodeRate g x day ∧
      (HalfDay g x → R.irez = 2) ∧ (¬HalfDay g x → Synchronous g x → R.irez = 1) ∧ (¬HalfDay g x → ¬Synchronous g x → R.irez = 0) := by
  intro R
  have he2 : x.e ^ 2 < 1 := by nlinarith [hx.e0, hx.e1]
  have r1 : meanRates g x ThirdBody.sun = _ := hs.rates hx.n_pos.ne' ha hx.e0.ne' he2 hx.sin_ne
  have r2 : meanRates g x (ThirdBody.moon day) = _ := hm.rates hx.n_pos.ne' ha hx.e0.ne' he2 hx.sin_ne
  have n1 : ThirdBody.sun.n = 1.19459e-5 := rfl
  have n2 : (ThirdBody.moon day).n = 1.5835218e-4 := rfl
  have hsin : Real.sin s.inclo ≠ 0 := by rw [h3]; exact hx.sin_ne
  have hnode : R.dnodt = Deep.nodeRate g x day := by
    have e : R.dnodt = if Real.sin s.inclo ≠ 0 then (if Real.sin s.inclo ≠ 0 then nodeRate s.inclo 1.19459e-5 sun.s2 sun.z21 sun.z23 / Real.sin s.inclo else
      nodeRate s.inclo 1.19459e-5 sun.s2 sun.z21 sun.z23) + nodeRate s.inclo 1.5835218e-4 moon.s2 moon.z21 moon.z23 / Real.sin s.inclo
      else (if Real.sin s.inclo ≠ 0 then nodeRate s.inclo 1.19459e-5 sun.s2 sun.z21 sun.z23 / Real.sin s.inclo else nodeRate s.inclo 1.19459e-5 sun.s2 sun.z21 sun.z23) := rfl
    rw [e, if_pos hsin, if_pos hsin]
    unfold Deep.nodeRate nodeRate Equatorial
    rw [h3, r1, r2, n1, n2]
    by_cases hq : x.i < 5.2359877e-2 ∨ Real.pi - 5.2359877e-2 < x.i
    · rw [if_pos hq, if_pos hq, if_pos hq]; ring
    · rw [if_neg hq, if_neg hq, if_neg hq]; ring
  refine ⟨?_, ?_, ?_, ?_, hnode, fun h => ?_, fun h k => ?_, fun h k => ?_⟩
  · unfold eRate; rw [r1, r2, n1, n2]; rfl
  · unfold iRate; rw [r1, r2, n1, n2]; rfl
  · unfold MRate
    rw [r1, r2, n1, n2]
    have e : R.dmdt = -1.19459e-5 * sun.s3 * (sun.z1 + sun.z3 - 14 - 6 * (s.ecco * s.ecco)) - 1.5835218e-4 * moon.s3 * (moon.z1 + moon.z3 - 14 - 6 * (s.ecco * s.ecco)) := rfl
    rw [e, h2]; ring
  · unfold wRate
    rw [r1, r2, n1, n2, ← hnode, ← h3]
    have e : R.domdt = if Real.sin s.inclo ≠ 0 then sun.s4 * 1.19459e-5 * (sun.z31 + sun.z33 - 6) - Real.cos s.inclo * (if Real.sin s.inclo ≠ 0 then
      nodeRate s.inclo 1.19459e-5 sun.s2 sun.z21 sun.z23 / Real.sin s.inclo else nodeRate s.inclo 1.19459e-5 sun.s2 sun.z21 sun.z23)
      + moon.s4 * 1.5835218e-4 * (moon.z31 + moon.z33 - 6) - Real.cos s.inclo / Real.sin s.inclo * nodeRate s.inclo 1.5835218e-4 moon.s2 moon.z21 moon.z23
      else sun.s4 * 1.19459e-5 * (sun.z31 + sun.z33 - 6) - Real.cos s.inclo * (if Real.sin s.inclo ≠ 0 then
      nodeRate s.inclo 1.19459e-5 sun.s2 sun.z21 sun.z23 / Real.sin s.inclo else nodeRate s.inclo 1.19459e-5 sun.s2 sun.z21 sun.z23)
      + moon.s4 * 1.5835218e-4 * (moon.z31 + moon.z33 - 6) := rfl
    have e' : R.dnodt = if Real.sin s.inclo ≠ 0 then (if Real.sin s.inclo ≠ 0 then nodeRate s.inclo 1.19459e-5 sun.s2 sun.z21 sun.z23 / Real.sin s.inclo else
      nodeRate s.inclo 1.19459e-5 sun.s2 sun.z21 sun.z23) + nodeRate s.inclo 1.5835218e-4 moon.s2 moon.z21 moon.z23 / Real.sin s.inclo
      else (if Real.sin s.inclo ≠ 0 then nodeRate s.inclo 1.19459e-5 sun.s2 sun.z21 sun.z23 / Real.sin s.inclo else nodeRate s.inclo 1.19459e-5 sun.s2 sun.z21 sun.z23) := rfl
    rw [e, e', if_pos hsin, if_pos hsin, if_pos hsin]
    ring
  · have e : R.irez = if 8.26e-3 ≤ s.no ∧ s.no ≤ 9.24e-3 ∧ 0.5 ≤ s.ecco then 2 else if s.no < 0.0052359877 ∧ 0.0034906585 < s.no then 1 else 0 := rfl
    rw [e, h1, h2]; exact if_pos h
  · have e : R.irez = if 8.26e-3 ≤ s.no ∧ s.no ≤ 9.24e-3 ∧ 0.5 ≤ s.ecco then 2 else if s.no < 0.0052359877 ∧ 0.0034906585 < s.no then 1 else 0 := rfl
    rw [e, h1, h2]; exact (if_neg h).trans (if_pos ⟨k.2, k.1⟩)
  · have e : R.irez = if 8.26e-3 ≤ s.no ∧ s.no ≤ 9.24e-3 ∧ 0.5 ≤ s.ecco then 2 else if s.no < 0.0052359877 ∧ 0.0034906585 < s.no then 1 else 0 := rfl
    rw [e, h1, h2]; exact (if_neg h).trans (if_neg fun hh => k ⟨hh.2, hh.1⟩)

end S2E.Sgp4
