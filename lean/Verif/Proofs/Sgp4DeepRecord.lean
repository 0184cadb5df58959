import Verif.Proofs.Sgp4Dsinit

/-!
# The record of a deep-space set
-/
namespace S2E.Sgp4

open S2E.InitOrbit (Wgs)
open Report

/-! ## Resonance -/

/-- The members for the resonance are those of a motion. -/
structure MotionOk (m : Deep.Motion) (P : Elset) : Prop where
  terms : terms P = m.waves.map fun v => ⟨v.D, v.j, v.k, v.G⟩
  drift : P.xfact = m.drift
  angle : Turns m.angle P.xlamo

theorem MotionOk.force {m : Deep.Motion} {P : Elset} (h : MotionOk m P) (w l : ℝ) : force P w l = Deep.push m w l := by
  unfold Sgp4.force Deep.push
  rw [h.terms, List.map_map]
  rfl

theorem push_turn (m : Deep.Motion) (w l : ℝ) (k : ℤ) : Deep.push m w (l + 2 * Real.pi * k) = Deep.push m w l := by
  unfold Deep.push
  congr 1
  refine List.map_congr_left fun v _ => ?_
  have : Turns (v.j * w + v.k * l - v.G) (v.j * w + v.k * (l + 2 * Real.pi * k) - v.G) := ⟨v.k * k, by push_cast; ring⟩
  rw [this.sin]

theorem push_deriv_turn (m : Deep.Motion) (w l : ℝ) (k : ℤ) : deriv (Deep.push m w) (l + 2 * Real.pi * k) = deriv (Deep.push m w) l := by
  rw [← deriv_comp_add_const]
  congr 1
  funext y
  exact push_turn m w y k

/-- One point of the integration. -/
def Point (p : Angle) (y : ℝ × ℝ × ℝ) : Prop := p.time = y.1 ∧ Turns y.2.1 p.l ∧ p.n = y.2.2

theorem MotionOk.taylor {m : Deep.Motion} {P : Elset} (h : MotionOk m P) {g : Gravity} {x : Elements} (h1 : P.argpo = x.w) (h2 : P.argpdot = w' g x) (s : ℝ) {p : Angle}
    {y : ℝ × ℝ × ℝ} (hp : Point p y) : Point (taylor P s p) (Deep.taylor g x m s y) := by
  obtain ⟨p1, ⟨k, p2⟩, p3⟩ := hp
  have hf : Sgp4.force P = Deep.push m := by funext w l; exact h.force w l
  unfold Sgp4.taylor Deep.taylor
  dsimp only
  rw [hf, h1, h2, h.drift, p1, p2, p3, push_turn, push_deriv_turn]
  exact ⟨rfl, ⟨k, by ring⟩, rfl⟩

theorem MotionOk.iterate {m : Deep.Motion} {P : Elset} (h : MotionOk m P) {g : Gravity} {x : Elements} (h1 : P.argpo = x.w) (h2 : P.argpdot = w' g x) (s : ℝ) {p : Angle}
    {y : ℝ × ℝ × ℝ} (hp : Point p y) (j : ℕ) : Point ((Sgp4.taylor P s)^[j] p) ((Deep.taylor g x m s)^[j] y) := by
  induction j with
  | zero => exact hp
  | succ j ih => rw [Function.iterate_succ_apply', Function.iterate_succ_apply']; exact h.taylor h1 h2 s ih

theorem MotionOk.resonance {m : Deep.Motion} {P : Elset} (h : MotionOk m P) {g : Gravity} {x : Elements} (h1 : P.argpo = x.w) (h2 : P.argpdot = w' g x)
    (h3 : P.no = n g x) (t : ℝ) : Point (resonance P t) (Deep.integrate g x m t) := by
  have hp : Point ⟨0, P.xlamo, P.no⟩ (0, m.angle, n g x) := ⟨rfl, h.angle, h3⟩
  have k := h.iterate h1 h2 (stepTo t) hp (steps t)
  unfold Sgp4.resonance Deep.integrate lastPoint
  dsimp only
  rw [k.1]
  exact h.taylor h1 h2 _ k

/-! ## Coefficients of the resonance -/

theorem aonv_ok {g : Gravity} (hk : 0 < g.ke) {x : Elements} (hn : 0 < n g x) : (n g x / g.ke) ^ (2 / 3 : ℝ) = (a g x)⁻¹ := by
  unfold a
  rw [← Real.inv_rpow (div_pos hk hn).le, inv_div]

theorem halfDay_ok {g : Gravity} {x : Elements} {day theta : ℝ} {s : Elset} (hz : s.irez = 2) (h1 : s.no = n g x) (h2 : s.ecco = x.e) (h3 : s.inclo = x.i)
    (h4 : s.nodeo = x.node) (h5 : s.mo = x.M) (h6 : s.mdot = M' g x) (h7 : s.nodedot = node' g x) (h8 : s.dmdt = Deep.MRate g x day) (h9 : s.dnodt = Deep.nodeRate g x day)
    (ht : Turns (Deep.sidereal day) theta) : MotionOk (Deep.halfDay g x day) (halfDay (a g x)⁻¹ theta s) := by
  constructor
  · have hz' : (halfDay (a g x)⁻¹ theta s).irez = 2 := hz
    unfold terms
    rw [if_pos hz']
    unfold Deep.halfDay Deep.halfDayWaves Deep.strength
    dsimp only
    simp only [List.map_cons, List.map_nil, List.cons.injEq, Term.mk.injEq, Int.cast_ofNat, Int.cast_one, Int.cast_zero, Int.cast_neg, and_true, true_and]
    unfold halfDay
    dsimp only
    rw [h1, h2, h3]
    unfold Deep.F220 Deep.F221 Deep.F321 Deep.F322 Deep.F441 Deep.F442 Deep.F522 Deep.F523 Deep.F542 Deep.F543 Deep.G201 Deep.G211 Deep.G310 Deep.G322 Deep.G410 Deep.G422 Deep.G520
      Deep.G521 Deep.G532 Deep.G533 Deep.poly
    have e2 : ∀ y : ℝ, y / a g x ^ 2 = y * (a g x)⁻¹ ^ 2 := fun y => by rw [div_eq_mul_inv, inv_pow]
    have e3 : ∀ y : ℝ, y / a g x ^ 3 = y * (a g x)⁻¹ ^ 3 := fun y => by rw [div_eq_mul_inv, inv_pow]
    have e4 : ∀ y : ℝ, y / a g x ^ 4 = y * (a g x)⁻¹ ^ 4 := fun y => by rw [div_eq_mul_inv, inv_pow]
    have e5 : ∀ y : ℝ, y / a g x ^ 5 = y * (a g x)⁻¹ ^ 5 := fun y => by rw [div_eq_mul_inv, inv_pow]
    simp only [e2, e3, e4, e5]
    generalize (a g x)⁻¹ = A
    generalize Real.sin x.i = si
    generalize Real.cos x.i = ci
    generalize n g x = N
    refine ⟨?_, ?_, ?_, ?_, ?_, ?_, ?_, ?_, ?_, ?_⟩
    · ring
    · split_ifs <;> ring
    · split_ifs <;> ring
    · split_ifs <;> ring
    · split_ifs <;> ring
    · split_ifs <;> ring
    · by_cases hA : x.e ≤ 0.65
      · rw [if_pos hA, if_pos hA]; ring
      · rw [if_neg hA, if_neg hA]
        by_cases hB : (0.715 : ℝ) < x.e
        · rw [if_pos hB, if_neg (not_le.2 hB)]; ring
        · rw [if_neg hB, if_pos (not_lt.1 hB)]; ring
    · split_ifs <;> ring
    · split_ifs <;> ring
    · split_ifs <;> ring
  · have e : (halfDay (a g x)⁻¹ theta s).xfact = s.mdot + s.dmdt + 2 * (s.nodedot + s.dnodt - 4.37526908801129966e-3) - s.no := rfl
    rw [e, h1, h6, h7, h8, h9]; rfl
  · have e : (halfDay (a g x)⁻¹ theta s).xlamo = Julian.fmod (s.mo + s.nodeo + s.nodeo - theta - theta) (2 * Real.pi) := rfl
    rw [e, h4, h5]
    refine Turns.trans ?_ (Turns.fmod _)
    have := ((Turns.refl (x.M + x.node + x.node)).sub ht).sub ht
    rwa [show x.M + x.node + x.node - Deep.sidereal day - Deep.sidereal day = (Deep.halfDay g x day).angle by unfold Deep.halfDay; ring] at this

theorem synchronous_ok {g : Gravity} {x : Elements} {day theta : ℝ} {s : Elset} (hz : s.irez = 1) (h1 : s.no = n g x) (h2 : s.ecco = x.e) (h3 : s.inclo = x.i)
    (h4 : s.nodeo = x.node) (h5 : s.mo = x.M) (h5' : s.argpo = x.w) (h6 : s.mdot = M' g x) (h7 : s.nodedot = node' g x) (h7' : s.argpdot = w' g x)
    (h8 : s.dmdt = Deep.MRate g x day) (h9 : s.dnodt = Deep.nodeRate g x day) (h9' : s.domdt = Deep.wRate g x day)
    (ht : Turns (Deep.sidereal day) theta) : MotionOk (Deep.synchronous g x day) (synchronous (a g x)⁻¹ theta s) := by
  constructor
  · have hz' : ¬(synchronous (a g x)⁻¹ theta s).irez = 2 := by
      have : (synchronous (a g x)⁻¹ theta s).irez = 1 := hz
      omega
    unfold terms
    rw [if_neg hz']
    unfold Deep.synchronous Deep.synchronousWaves Deep.strength
    dsimp only
    simp only [List.map_cons, List.map_nil, List.cons.injEq, Term.mk.injEq, Int.cast_ofNat, Int.cast_one, Int.cast_zero, Int.cast_neg, and_true, true_and]
    unfold synchronous
    dsimp only
    rw [h1, h2, h3]
    unfold Deep.F220 Deep.F311 Deep.F330 Deep.G200 Deep.G300 Deep.G310'
    have e2 : ∀ y : ℝ, y / a g x ^ 2 = y * (a g x)⁻¹ ^ 2 := fun y => by rw [div_eq_mul_inv, inv_pow]
    have e3 : ∀ y : ℝ, y / a g x ^ 3 = y * (a g x)⁻¹ ^ 3 := fun y => by rw [div_eq_mul_inv, inv_pow]
    simp only [e2, e3]
    generalize (a g x)⁻¹ = A
    refine ⟨?_, ?_, ?_⟩ <;> ring
  · have e : (synchronous (a g x)⁻¹ theta s).xfact = s.mdot + (s.argpdot + s.nodedot) - 4.37526908801129966e-3 + s.dmdt + s.domdt + s.dnodt - s.no := rfl
    rw [e, h1, h6, h7, h7', h8, h9, h9']
    unfold Deep.synchronous Deep.rotation
    dsimp only
    ring
  · have e : (synchronous (a g x)⁻¹ theta s).xlamo = Julian.fmod (s.mo + s.nodeo + s.argpo - theta) (2 * Real.pi) := rfl
    rw [e, h4, h5, h5']
    refine Turns.trans ?_ (Turns.fmod _)
    exact (Turns.refl (x.M + x.node + x.w)).sub ht

theorem MotionOk.started {m : Deep.Motion} {P : Elset} (h : MotionOk m P) (u v z : ℝ) : MotionOk m { P with xli := u, xni := v, atime := z } := ⟨h.terms, h.drift, h.angle⟩

theorem gsto_ok (c : Consts) (e epoch i no : ℝ) : Turns (Deep.sidereal (epoch + 18261.5)) (initl c e epoch i no).gsto := by
  have e1 : (initl c e epoch i no).gsto = if Julian.fmod (1.7321343856509374 + 1.72027916940703639e-2 * ⌊epoch - 7305 + 1.0e-8⌋
      + (1.72027916940703639e-2 + 2 * Real.pi) * (epoch - 7305 - ⌊epoch - 7305 + 1.0e-8⌋) + (epoch - 7305) * (epoch - 7305) * 5.07551419432269442e-15) (2 * Real.pi) < 0
      then Julian.fmod (1.7321343856509374 + 1.72027916940703639e-2 * ⌊epoch - 7305 + 1.0e-8⌋
      + (1.72027916940703639e-2 + 2 * Real.pi) * (epoch - 7305 - ⌊epoch - 7305 + 1.0e-8⌋) + (epoch - 7305) * (epoch - 7305) * 5.07551419432269442e-15) (2 * Real.pi) + 2 * Real.pi
      else Julian.fmod (1.7321343856509374 + 1.72027916940703639e-2 * ⌊epoch - 7305 + 1.0e-8⌋
      + (1.72027916940703639e-2 + 2 * Real.pi) * (epoch - 7305 - ⌊epoch - 7305 + 1.0e-8⌋) + (epoch - 7305) * (epoch - 7305) * 5.07551419432269442e-15) (2 * Real.pi) := rfl
  rw [e1]
  generalize ⌊epoch - 7305 + 1.0e-8⌋ = k
  have h1 : Turns (Deep.sidereal (epoch + 18261.5)) (1.7321343856509374 + 1.72027916940703639e-2 * k
      + (1.72027916940703639e-2 + 2 * Real.pi) * (epoch - 7305 - k) + (epoch - 7305) * (epoch - 7305) * 5.07551419432269442e-15) := by
    refine ⟨-k, ?_⟩
    unfold Deep.sidereal
    push_cast
    ring
  have h2 := h1.trans (Turns.fmod _)
  split_ifs
  · exact h2.trans ⟨1, by push_cast; ring⟩
  · exact h2

end S2E.Sgp4
