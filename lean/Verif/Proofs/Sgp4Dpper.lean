import Verif.Proofs.Sgp4DeepCoefs

/-!
# `dpper`
-/
namespace S2E.Sgp4

open S2E.ThirdBody (Rates)

theorem fmod_bounds (x : ℝ) : -(2 * Real.pi) < Julian.fmod x (2 * Real.pi) ∧ Julian.fmod x (2 * Real.pi) < 2 * Real.pi := by
  have hp := Real.two_pi_pos
  have key : ∀ y : ℝ, 0 ≤ y - 2 * Real.pi * ⌊y / (2 * Real.pi)⌋ ∧ y - 2 * Real.pi * ⌊y / (2 * Real.pi)⌋ < 2 * Real.pi := fun y => by
    have h1 := Int.floor_le (y / (2 * Real.pi))
    have h2 := Int.lt_floor_add_one (y / (2 * Real.pi))
    rw [le_div_iff₀ hp] at h1
    rw [div_lt_iff₀ hp] at h2
    constructor <;> linarith
  unfold Julian.fmod
  split_ifs
  · have := key x
    constructor <;> linarith [this.1, this.2]
  · have := key (-x)
    constructor <;> linarith [this.1, this.2]

/-- The second half of `dpper`, for the corrections `c`. -/
noncomputable def applied (c : Rates) (p : Periodic) : Periodic :=
  let inclp := p.inclp + c.i
  let ep := p.ep + c.e
  let sinip := Real.sin inclp
  let cosip := Real.cos inclp
  if 0.2 ≤ inclp then
    { ep := ep, inclp := inclp, nodep := p.nodep + c.node / sinip, argpp := p.argpp + (c.wn - cosip * (c.node / sinip)), mp := p.mp + c.M }
  else
    let sinop := Real.sin p.nodep
    let cosop := Real.cos p.nodep
    let alfdp := sinip * sinop + (c.node * cosop + c.i * cosip * sinop)
    let betdp := sinip * cosop + (-c.node * sinop + c.i * cosip * cosop)
    let nodep := Julian.fmod p.nodep (2 * Real.pi)
    let xnoh := if nodep < 0 then nodep + 2 * Real.pi else nodep
    let xls := p.mp + p.argpp + cosip * xnoh + (c.M + c.wn - c.i * xnoh * sinip)
    let nodep := atan2 alfdp betdp
    let nodep := if nodep < 0 then nodep + 2 * Real.pi else nodep
    let nodep := if Real.pi < |xnoh - nodep| then (if nodep < xnoh then nodep + 2 * Real.pi else nodep - 2 * Real.pi) else nodep
    let mp := p.mp + c.M
    { ep := ep, inclp := inclp, nodep := nodep, argpp := xls - mp - cosip * nodep, mp := mp }

theorem dpper_applied {P : Elset} {sun moon : Body} {day : ℝ} (h : PeriodicOk P sun moon day) (t : ℝ) (p : Periodic) :
    dpper P t 'n' p = applied (Deep.together (corrections sun P.ecco ThirdBody.sun.ecc (Deep.sunLongitude day t))
      (corrections moon P.ecco (ThirdBody.moon day).ecc (Deep.moonLongitude day t))) p := by
  have hs : Turns (Deep.sunLongitude day t) (P.zmos + 1.19459e-5 * t + 2 * 0.01675 * Real.sin (P.zmos + 1.19459e-5 * t)) := by
    have h1 : Turns (6.2565837 + 0.017201977 * day + 1.19459e-5 * t) (P.zmos + 1.19459e-5 * t) := h.zmos.add (Turns.refl _)
    unfold Deep.sunLongitude Deep.longitude
    rw [h1.sin]
    exact h1.add (Turns.refl _)
  have hm : Turns (Deep.moonLongitude day t) (P.zmol + 1.5835218e-4 * t + 2 * 0.05490 * Real.sin (P.zmol + 1.5835218e-4 * t)) := by
    have h1 : Turns (4.7199672 + 0.22997150 * day - ThirdBody.moonPerigee day + 1.5835218e-4 * t) (P.zmol + 1.5835218e-4 * t) := h.zmol.add (Turns.refl _)
    unfold Deep.moonLongitude Deep.longitude
    rw [h1.sin]
    exact h1.add (Turns.refl _)
  have hy : ¬('n' = 'y') := by decide
  unfold dpper bodyTerms
  dsimp only
  rw [if_neg hy, if_neg hy, if_pos rfl, hs.sin, hs.cos, hm.sin, hm.cos, h.peo, h.pinco, h.plo, h.pgho, h.pho]
  simp only [sub_zero]
  rw [h.se2, h.se3, h.si2, h.si3, h.sl2, h.sl3, h.sl4, h.sgh2, h.sgh3, h.sgh4, h.sh2, h.sh3, h.ee2, h.e3, h.xi2, h.xi3, h.xl2, h.xl3, h.xl4, h.xgh2, h.xgh3, h.xgh4, h.xh2, h.xh3]
  rfl

theorem applied_ok (c : Rates) (q : Periodic) (p : Deep.Last) (he : q.ep = p.e) (hi : q.inclp = p.i) (hn : Turns p.node q.nodep) (hw : Turns p.w q.argpp)
    (hM : Turns p.M q.mp) :
    Deep.Corrected c p ⟨p.a, (applied c q).ep, (applied c q).inclp, (applied c q).nodep, (applied c q).argpp, (applied c q).mp⟩ := by
  by_cases h : 0.2 ≤ p.i + c.i
  · have e1 : applied c q = ⟨p.e + c.e, p.i + c.i, q.nodep + c.node / Real.sin (p.i + c.i),
        q.argpp + (c.wn - Real.cos (p.i + c.i) * (c.node / Real.sin (p.i + c.i))), q.mp + c.M⟩ := by
      unfold applied
      dsimp only
      rw [hi, he, if_pos h]
    rw [e1]
    refine .direct h rfl rfl rfl (hn.add (Turns.refl _)) ?_ (hM.add (Turns.refl _))
    have := hw.add (Turns.refl (c.wn - Real.cos (p.i + c.i) * (c.node / Real.sin (p.i + c.i))))
    dsimp only
    rw [show p.w + c.wn - Real.cos (p.i + c.i) * (c.node / Real.sin (p.i + c.i)) = p.w + (c.wn - Real.cos (p.i + c.i) * (c.node / Real.sin (p.i + c.i))) by ring]
    exact this
  · have hpi := Real.pi_pos
    set F := Julian.fmod q.nodep (2 * Real.pi) with hF
    obtain ⟨f1, f2⟩ := fmod_bounds q.nodep
    rw [← hF] at f1 f2
    set W := if F < 0 then F + 2 * Real.pi else F with hW
    have w0 : 0 ≤ W := by rw [hW]; split_ifs <;> linarith
    have w1 : W < 2 * Real.pi := by rw [hW]; split_ifs <;> linarith
    have hFt : Turns q.nodep W := by
      have := Turns.fmod q.nodep
      rw [← hF] at this
      rw [hW]
      split_ifs
      · exact this.trans ⟨1, by push_cast; ring⟩
      · exact this
    set A := Complex.arg ⟨Real.sin (p.i + c.i) * Real.cos W + (-c.node * Real.sin W + c.i * Real.cos (p.i + c.i) * Real.cos W),
      Real.sin (p.i + c.i) * Real.sin W + (c.node * Real.cos W + c.i * Real.cos (p.i + c.i) * Real.sin W)⟩ with hA
    have a0 : -Real.pi < A := Complex.neg_pi_lt_arg _
    have a1 : A ≤ Real.pi := Complex.arg_le_pi _
    set B := if A < 0 then A + 2 * Real.pi else A with hB
    have b0 : 0 ≤ B := by rw [hB]; split_ifs <;> linarith
    have b1 : B < 2 * Real.pi := by rw [hB]; split_ifs <;> linarith
    have hBt : Turns A B := by
      rw [hB]; split_ifs
      · exact ⟨1, by push_cast; ring⟩
      · exact Turns.refl _
    set D := if Real.pi < |W - B| then (if B < W then B + 2 * Real.pi else B - 2 * Real.pi) else B with hD
    have hDt : Turns A D := by
      refine hBt.trans ?_
      rw [hD]; split_ifs
      · exact ⟨1, by push_cast; ring⟩
      · exact ⟨-1, by push_cast; ring⟩
      · exact Turns.refl _
    have hclose : |D - W| ≤ Real.pi := by
      rw [hD, abs_le]
      by_cases h1 : Real.pi < |W - B|
      · rw [if_pos h1]
        by_cases h2 : B < W
        · rw [if_pos h2]
          rw [abs_of_pos (by linarith)] at h1
          constructor <;> linarith
        · rw [if_neg h2]
          rw [abs_of_nonpos (by linarith)] at h1
          constructor <;> linarith
      · rw [if_neg h1]
        have := abs_le.1 (not_lt.1 h1)
        constructor <;> linarith [this.1, this.2]
    have e1 : applied c q = ⟨p.e + c.e, p.i + c.i, D, q.mp + q.argpp + Real.cos (p.i + c.i) * W + (c.M + c.wn - c.i * W * Real.sin (p.i + c.i)) - (q.mp + c.M) - Real.cos (p.i + c.i) * D, q.mp + c.M⟩ := by
      unfold applied
      dsimp only
      rw [hi, he, if_neg h, ← hFt.sin, ← hFt.cos]
      rfl
    rw [e1]
    refine .lyddane W (not_le.1 h) rfl rfl rfl (hn.trans hFt) w0 w1 ?_ hclose (hM.add (Turns.refl _)) ?_
    · dsimp only
      refine Turns.trans ?_ hDt
      rw [hA]
      refine ⟨0, ?_⟩
      rw [show Real.sin (p.i + c.i) * Real.cos W - c.node * Real.sin W + c.i * Real.cos (p.i + c.i) * Real.cos W =
          Real.sin (p.i + c.i) * Real.cos W + (-c.node * Real.sin W + c.i * Real.cos (p.i + c.i) * Real.cos W) by ring,
        show Real.sin (p.i + c.i) * Real.sin W + c.node * Real.cos W + c.i * Real.cos (p.i + c.i) * Real.sin W =
          Real.sin (p.i + c.i) * Real.sin W + (c.node * Real.cos W + c.i * Real.cos (p.i + c.i) * Real.sin W) by ring]
      simp
    · dsimp only
      have := ((hM.add hw).add (Turns.refl (Real.cos (p.i + c.i) * W))).add (Turns.refl (c.M + c.wn - c.i * W * Real.sin (p.i + c.i)))
      rw [show q.mp + c.M + (q.mp + q.argpp + Real.cos (p.i + c.i) * W + (c.M + c.wn - c.i * W * Real.sin (p.i + c.i)) - (q.mp + c.M) - Real.cos (p.i + c.i) * D)
        + Real.cos (p.i + c.i) * D = q.mp + q.argpp + Real.cos (p.i + c.i) * W + (c.M + c.wn - c.i * W * Real.sin (p.i + c.i)) by ring]
      exact this

end S2E.Sgp4
