import Verif.Proofs.Sgp4Body
import Verif.Proofs.Sgp4Near
import Verif.Spec.Sgp4Deep

/-!
# `dscom` and `dsinit`
-/
namespace S2E.Sgp4

open S2E.ThirdBody (P Q N dot axisA axisB lagrange single double Rates)

/-- The coefficients of a third body for the elements of a record. -/
def BodyFor (b : Body) (body : ThirdBody.Body) (n e i W w : ℝ) : Prop :=
  BodyOk b body.C n e w (dot (P i W w) body.A) (dot (P i W w) body.B) (dot (Q i W w) body.A) (dot (Q i W w) body.B) (dot (N i W) body.A) (dot (N i W) body.B)

theorem dscom_sun (epoch : ℝ) (s : Elset) : BodyFor (dscom epoch s).2.1 ThirdBody.sun s.no s.ecco s.inclo s.nodeo s.argpo := by
  have h := body_ok s.ecco s.inclo s.nodeo s.argpo s.no 0.1945905 (-0.98088458) 0.91744867 0.39785416 1 0 2.9864797e-6
  rw [show (1 : ℝ) * Real.cos s.nodeo + 0 * Real.sin s.nodeo = Real.cos s.nodeo by ring, show Real.sin s.nodeo * 1 - Real.cos s.nodeo * 0 = Real.sin s.nodeo by ring] at h
  exact h

theorem dscom_moon (epoch : ℝ) (s : Elset) : BodyFor (dscom epoch s).2.2 (ThirdBody.moon (epoch + 18261.5)) s.no s.ecco s.inclo s.nodeo s.argpo := by
  have hday : epoch + 18261.5 + 0 / 1440 = epoch + 18261.5 := by ring
  unfold dscom
  dsimp only
  rw [hday]
  have hx := Turns.fmod (4.5236020 - 9.2422029e-4 * (epoch + 18261.5))
  generalize Julian.fmod (4.5236020 - 9.2422029e-4 * (epoch + 18261.5)) (2 * Real.pi) = y at *
  rw [show (4.5236020 : ℝ) - 9.2422029e-4 * (epoch + 18261.5) = ThirdBody.moonNode (epoch + 18261.5) from rfl] at hx
  rw [hx.sin, hx.cos]
  generalize epoch + 18261.5 = day at *
  have hI : 0.91375164 - 0.03568096 * Real.cos (ThirdBody.moonNode day) = ThirdBody.moonCosI day := rfl
  rw [hI]
  have hS : Real.sqrt (1 - ThirdBody.moonCosI day * ThirdBody.moonCosI day) = ThirdBody.moonSinI day := by unfold ThirdBody.moonSinI; rw [sq]
  rw [hS]
  have hH : 0.089683511 * Real.sin (ThirdBody.moonNode day) / ThirdBody.moonSinI day = ThirdBody.moonSinH day := rfl
  rw [hH]
  have hC : Real.sqrt (1 - ThirdBody.moonSinH day * ThirdBody.moonSinH day) = ThirdBody.moonCosH day := by unfold ThirdBody.moonCosH; rw [sq]
  rw [hC]
  have hA : atan2 (0.39785416 * Real.sin (ThirdBody.moonNode day) / ThirdBody.moonSinI day)
      (ThirdBody.moonCosH day * Real.cos (ThirdBody.moonNode day) + 0.91744867 * ThirdBody.moonSinH day * Real.sin (ThirdBody.moonNode day)) = ThirdBody.moonArc day := rfl
  rw [hA]
  have hG : Turns (ThirdBody.moonG day) (5.8351514 + 0.0019443680 * day + ThirdBody.moonArc day - y) := (Turns.refl _).sub hx
  rw [hG.sin, hG.cos]
  exact body_ok s.ecco s.inclo s.nodeo s.argpo s.no (Real.cos (ThirdBody.moonG day)) (Real.sin (ThirdBody.moonG day)) (ThirdBody.moonCosI day) (ThirdBody.moonSinI day)
    (ThirdBody.moonCosH day) (ThirdBody.moonSinH day) 4.7968065e-7

/-- The members for the periodics of Sun and Moon. -/
structure PeriodicOk (s : Elset) (sun moon : Body) (day : ℝ) : Prop where
  peo : s.peo = 0
  pinco : s.pinco = 0
  plo : s.plo = 0
  pgho : s.pgho = 0
  pho : s.pho = 0
  zmol : Turns (4.7199672 + 0.22997150 * day - ThirdBody.moonPerigee day) s.zmol
  zmos : Turns (6.2565837 + 0.017201977 * day) s.zmos
  se2 : s.se2 = 2 * sun.s1 * sun.s6
  se3 : s.se3 = 2 * sun.s1 * sun.s7
  si2 : s.si2 = 2 * sun.s2 * sun.z12
  si3 : s.si3 = 2 * sun.s2 * (sun.z13 - sun.z11)
  sl2 : s.sl2 = -2 * sun.s3 * sun.z2
  sl3 : s.sl3 = -2 * sun.s3 * (sun.z3 - sun.z1)
  sl4 : s.sl4 = -2 * sun.s3 * (-21 - 9 * (s.ecco * s.ecco)) * 0.01675
  sgh2 : s.sgh2 = 2 * sun.s4 * sun.z32
  sgh3 : s.sgh3 = 2 * sun.s4 * (sun.z33 - sun.z31)
  sgh4 : s.sgh4 = -18 * sun.s4 * 0.01675
  sh2 : s.sh2 = -2 * sun.s2 * sun.z22
  sh3 : s.sh3 = -2 * sun.s2 * (sun.z23 - sun.z21)
  ee2 : s.ee2 = 2 * moon.s1 * moon.s6
  e3 : s.e3 = 2 * moon.s1 * moon.s7
  xi2 : s.xi2 = 2 * moon.s2 * moon.z12
  xi3 : s.xi3 = 2 * moon.s2 * (moon.z13 - moon.z11)
  xl2 : s.xl2 = -2 * moon.s3 * moon.z2
  xl3 : s.xl3 = -2 * moon.s3 * (moon.z3 - moon.z1)
  xl4 : s.xl4 = -2 * moon.s3 * (-21 - 9 * (s.ecco * s.ecco)) * 0.05490
  xgh2 : s.xgh2 = 2 * moon.s4 * moon.z32
  xgh3 : s.xgh3 = 2 * moon.s4 * (moon.z33 - moon.z31)
  xgh4 : s.xgh4 = -18 * moon.s4 * 0.05490
  xh2 : s.xh2 = -2 * moon.s2 * moon.z22
  xh3 : s.xh3 = -2 * moon.s2 * (moon.z23 - moon.z21)

theorem dscom_periodic (epoch : ℝ) (s : Elset) : PeriodicOk (dscom epoch s).1 (dscom epoch s).2.1 (dscom epoch s).2.2 (epoch + 18261.5) := by
  have h1 := Turns.fmod (4.7199672 + 0.22997150 * (epoch + 18261.5 + 0 / 1440) - (5.8351514 + 0.0019443680 * (epoch + 18261.5 + 0 / 1440)))
  have h2 := Turns.fmod (6.2565837 + 0.017201977 * (epoch + 18261.5 + 0 / 1440))
  have hday : epoch + 18261.5 + 0 / 1440 = epoch + 18261.5 := by ring
  constructor
  case zmol => exact (show Turns _ _ from by unfold ThirdBody.moonPerigee; rw [← hday]; exact h1)
  case zmos => exact (show Turns _ _ from by rw [← hday]; exact h2)
  all_goals rfl

/-- What `dscom` keeps. -/
theorem dscom_shape (epoch : ℝ) (s : Elset) : ∃ v1 v2 v3 v4 v5 v6 v7 v8 v9 v10 v11 v12 v13 v14 v15 v16 v17 v18 v19 v20 v21 v22 v23 v24 v25 v26 v27 v28 v29 v30 v31,
    (dscom epoch s).1 = { s with
      peo := v1, pinco := v2, plo := v3, pgho := v4, pho := v5, zmol := v6, zmos := v7, se2 := v8, se3 := v9, si2 := v10, si3 := v11, sl2 := v12, sl3 := v13, sl4 := v14,
      sgh2 := v15, sgh3 := v16, sgh4 := v17, sh2 := v18, sh3 := v19, ee2 := v20, e3 := v21, xi2 := v22, xi3 := v23, xl2 := v24, xl3 := v25, xl4 := v26, xgh2 := v27,
      xgh3 := v28, xgh4 := v29, xh2 := v30, xh3 := v31 } := ⟨_, _, _, _, _, _, _, _, _, _, _, _, _, _, _, _, _, _, _, _, _, _, _, _, _, _, _, _, _, _, _, rfl⟩

end S2E.Sgp4
