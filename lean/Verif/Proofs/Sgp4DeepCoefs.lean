import Verif.Proofs.Sgp4DeepRecord

/-!
# What `sgp4init` stores for a deep-space set
-/
namespace S2E.Sgp4

open S2E.InitOrbit (Wgs)
open Report

theorem deepSpace_eq (c : Consts) (epoch : ℝ) (N : Elset) (hd : 225 ≤ 2 * Real.pi / N.no) (hi : N.init = 'y') :
    deepSpace c epoch N = dsResonance ((N.no / c.xke) ^ (2 / 3 : ℝ)) (Julian.fmod N.gsto (2 * Real.pi))
      (dsRates (dscom epoch { N with method := 'd', isimp := 1 }).2.1 (dscom epoch { N with method := 'd', isimp := 1 }).2.2
        (dscom epoch { N with method := 'd', isimp := 1 }).1) := by
  unfold deepSpace
  rw [if_pos hd]
  dsimp only
  have h1 : (dscom epoch { N with method := 'd', isimp := 1 }).1.init = 'y' := hi
  have hp : ∀ q : Periodic, dpper (dscom epoch { N with method := 'd', isimp := 1 }).1 (dscom epoch { N with method := 'd', isimp := 1 }).1.t
      (dscom epoch { N with method := 'd', isimp := 1 }).1.init q = q := fun q => by
    rw [h1]
    unfold dpper
    exact if_neg (by decide)
  rw [hp]
  rfl

/-- The coefficients that `sgp4init` stores for a deep-space record. -/
structure DeepCoefs (g : Gravity) (x : Elements) (day : ℝ) (P : Elset) : Prop where
  method : P.method = 'd'
  isimp : P.isimp = 1
  no : P.no = n g x
  ecco : P.ecco = x.e
  inclo : P.inclo = x.i
  nodeo : P.nodeo = x.node
  argpo : P.argpo = x.w
  mo : P.mo = x.M
  bstar : P.bstar = x.B
  mdot : P.mdot = M' g x
  argpdot : P.argpdot = w' g x
  nodedot : P.nodedot = node' g x
  nodecf : P.nodecf = -(21 / 2 * (n g x * k2 g * th x / (a g x ^ 2 * beta x ^ 2)) * C1 g x)
  cc1 : P.cc1 = C1 g x
  cc4 : P.cc4 = C4 g x
  t2cof : P.t2cof = 3 / 2 * C1 g x
  gsto : Turns (Deep.sidereal day) P.gsto
  dedt : P.dedt = Deep.eRate g x day
  didt : P.didt = Deep.iRate g x day
  dmdt : P.dmdt = Deep.MRate g x day
  domdt : P.domdt = Deep.wRate g x day
  dnodt : P.dnodt = Deep.nodeRate g x day
  half : Deep.HalfDay g x → P.irez = 2 ∧ MotionOk (Deep.halfDay g x day) P
  sync : ¬Deep.HalfDay g x → Deep.Synchronous g x → P.irez = 1 ∧ MotionOk (Deep.synchronous g x day) P
  free : ¬Deep.HalfDay g x → ¬Deep.Synchronous g x → P.irez = 0
  bodies : ∃ sun moon, BodyFor sun ThirdBody.sun (n g x) x.e x.i x.node x.w ∧ BodyFor moon (ThirdBody.moon day) (n g x) x.e x.i x.node x.w ∧ PeriodicOk P sun moon day

set_option maxHeartbeats 1000000 in
theorem deep_coefs' {c : Consts} {g : Gravity} (h : ConstsOk c g) {x : Elements} (hx : Deep.Regular g x) (i : Epoch) (epoch theta : ℝ) (error : ℕ) (jd : ℝ) (N : Elset)
    (m0 : N.error = error) (m00 : N.jdsatepoch = jd) (m1 : N.no = n g x) (m2 : N.ecco = x.e) (m3 : N.argpo = x.w) (m4 : N.mo = x.M) (m5 : N.bstar = x.B) (m7 : N.inclo = x.i)
    (m8 : N.nodeo = x.node) (m10 : Turns (Deep.sidereal (epoch + 18261.5)) N.gsto) (n3 : N.mdot = M' g x) (n4 : N.argpdot = w' g x) (n5 : N.nodedot = node' g x)
    (n6 : N.nodecf = -(21 / 2 * (n g x * k2 g * th x / (a g x ^ 2 * beta x ^ 2)) * C1 g x)) (n7 : N.cc1 = C1 g x) (n8 : N.cc4 = C4 g x) (n10 : N.t2cof = 3 / 2 * C1 g x)
    (m11 : N.method = 'd') (m12 : N.isimp = 1) (ht : Turns (Deep.sidereal (epoch + 18261.5)) theta) :
    let R := higherDrag c i (dsResonance (a g x)⁻¹ theta (dsRates (dscom epoch N).2.1 (dscom epoch N).2.2 (dscom epoch N).1))
    DeepCoefs g x (epoch + 18261.5) R ∧ R.error = error ∧ R.jdsatepoch = jd := by
  have ha := (a_pos h.ke_pos hx.n_pos).ne'
  have b1 := dscom_sun epoch N
  have b2 := dscom_moon epoch N
  have b3 := dscom_periodic epoch N
  rw [m1, m2, m3, m7, m8] at b1 b2
  obtain ⟨v1, v2, v3, v4, v5, v6, v7, v8, v9, v10, v11, v12, v13, v14, v15, v16, v17, v18, v19, v20, v21, v22, v23, v24, v25, v26, v27, v28, v29, v30, v31, hD⟩ :=
    dscom_shape epoch N
  generalize (dscom epoch N).2.1 = sun at *
  generalize (dscom epoch N).2.2 = moon at *
  generalize (dscom epoch N).1 = D at *
  have k0 : D.error = error := by rw [hD]; exact m0
  have k00 : D.jdsatepoch = jd := by rw [hD]; exact m00
  have k1 : D.no = n g x := by rw [hD]; exact m1
  have k2' : D.ecco = x.e := by rw [hD]; exact m2
  have k3 : D.argpo = x.w := by rw [hD]; exact m3
  have k4' : D.mo = x.M := by rw [hD]; exact m4
  have k5 : D.bstar = x.B := by rw [hD]; exact m5
  have k7 : D.inclo = x.i := by rw [hD]; exact m7
  have k8 : D.nodeo = x.node := by rw [hD]; exact m8
  have k10 : Turns (Deep.sidereal (epoch + 18261.5)) D.gsto := by rw [hD]; exact m10
  have k11 : D.mdot = M' g x := by rw [hD]; exact n3
  have k12 : D.argpdot = w' g x := by rw [hD]; exact n4
  have k13 : D.nodedot = node' g x := by rw [hD]; exact n5
  have k14 : D.nodecf = -(21 / 2 * (n g x * k2 g * th x / (a g x ^ 2 * beta x ^ 2)) * C1 g x) := by rw [hD]; exact n6
  have k15 : D.cc1 = C1 g x := by rw [hD]; exact n7
  have k16 : D.cc4 = C4 g x := by rw [hD]; exact n8
  have k17 : D.t2cof = 3 / 2 * C1 g x := by rw [hD]; exact n10
  have k18 : D.method = 'd' := by rw [hD]; exact m11
  have k19 : D.isimp = 1 := by rw [hD]; exact m12
  clear hD n3 n4 n5 n6 n7 n8 n10 m0 m00 m1 m2 m3 m4 m5 m7 m8 m10 m11 m12
  generalize epoch + 18261.5 = day at *
  obtain ⟨r1, r2, r3, r4, r5, r6, r7, r8⟩ := dsRates_ok hx ha k1 k2' k7 b1 b2
  intro R0
  have hH : ∀ R : Elset, R.isimp = 1 → higherDrag c i R = R := fun R hR => if_neg (not_not.2 hR)
  obtain ⟨u1, u2, u3, u4, u5, u6, u7, u8, u9, u10, u11, u12, u13, u14, u15, u16, u17, u18, hR⟩ : ∃ u1 u2 u3 u4 u5 u6 u7 u8 u9 u10 u11 u12 u13 u14 u15 u16 u17 u18,
      dsResonance (a g x)⁻¹ theta (dsRates sun moon D) = { dsRates sun moon D with
      d2201 := u1, d2211 := u2, d3210 := u3, d3222 := u4, d4410 := u5, d4422 := u6, d5220 := u7, d5232 := u8, d5421 := u9,
      d5433 := u10, del1 := u11, del2 := u12, del3 := u13, xlamo := u14, xfact := u15, xli := u16, xni := u17, atime := u18 } :=
    ⟨_, _, _, _, _, _, _, _, _, _, _, _, _, _, _, _, _, _, dsResonance_shape (a g x)⁻¹ theta (dsRates sun moon D)⟩
  have hhalf : Deep.HalfDay g x → MotionOk (Deep.halfDay g x day) (dsResonance (a g x)⁻¹ theta (dsRates sun moon D)) := fun hh => by
    unfold dsResonance
    rw [if_pos (r6 hh)]
    exact (halfDay_ok (r6 hh) (by exact k1) (by exact k2') (by exact k7) (by exact k8) (by exact k4') (by exact k11) (by exact k13) r3 r5 ht).started _ _ _
  have hsync : ¬Deep.HalfDay g x → Deep.Synchronous g x → MotionOk (Deep.synchronous g x day) (dsResonance (a g x)⁻¹ theta (dsRates sun moon D)) := fun hh hk => by
    unfold dsResonance
    rw [if_neg (by rw [r7 hh hk]; norm_num), if_pos (r7 hh hk)]
    exact (synchronous_ok (r7 hh hk) (by exact k1) (by exact k2') (by exact k7) (by exact k8) (by exact k4') (by exact k3) (by exact k11) (by exact k13) (by exact k12)
      r3 r5 r4 ht).started _ _ _
  have hi1 : (dsResonance (a g x)⁻¹ theta (dsRates sun moon D)).isimp = 1 := by rw [hR]; exact k19
  have hR0 : R0 = dsResonance (a g x)⁻¹ theta (dsRates sun moon D) := hH _ hi1
  rw [hR0]
  have hper : PeriodicOk (dsResonance (a g x)⁻¹ theta (dsRates sun moon D)) sun moon day := by
    rw [hR]
    exact ⟨b3.peo, b3.pinco, b3.plo, b3.pgho, b3.pho, b3.zmol, b3.zmos, b3.se2, b3.se3, b3.si2, b3.si3, b3.sl2, b3.sl3, b3.sl4, b3.sgh2, b3.sgh3, b3.sgh4, b3.sh2, b3.sh3,
      b3.ee2, b3.e3, b3.xi2, b3.xi3, b3.xl2, b3.xl3, b3.xl4, b3.xgh2, b3.xgh3, b3.xgh4, b3.xh2, b3.xh3⟩
  rw [hR] at hhalf hsync hper ⊢
  exact ⟨⟨k18, k19, k1, k2', k7, k8, k3, k4', k5, k11, k12, k13, k14, k15, k16, k17, k10, r1, r2, r3, r4, r5, fun hh => ⟨r6 hh, hhalf hh⟩, fun hh hk => ⟨r7 hh hk, hsync hh hk⟩,
    r8, sun, moon, b1, b2, hper⟩, k0, k00⟩

theorem deep_coefs {c : Consts} {g : Gravity} (h : ConstsOk c g) {x : Elements} (hx : Deep.Regular g x) {i : Epoch} (hi : EpochOk i g x) (epoch : ℝ) (S : Elset) (s1 : S.no = n g x)
    (s2 : S.ecco = x.e) (s3 : S.argpo = x.w) (s4 : S.mo = x.M) (s5 : S.bstar = x.B) (s6 : S.con41 = 3 * th x ^ 2 - 1) (s7 : S.inclo = x.i) (s8 : S.nodeo = x.node)
    (s9 : S.init = 'y') (s10 : Turns (Deep.sidereal (epoch + 18261.5)) S.gsto) :
    let R := higherDrag c i (deepSpace c epoch (nearEarth c i S))
    DeepCoefs g x (epoch + 18261.5) R ∧ R.error = S.error ∧ R.jdsatepoch = S.jdsatepoch := by
  have ha := (a_pos h.ke_pos hx.n_pos).ne'
  obtain ⟨-, -, n3, n4, n5, n6, n7, n8, -, n10, -⟩ := nearEarth_ok h x hi S ha hx.incl s1 s2 s3 s4 s5 s6
  have m0 : (nearEarth c i S).error = S.error := rfl
  have m00 : (nearEarth c i S).jdsatepoch = S.jdsatepoch := rfl
  have m1 : (nearEarth c i S).no = n g x := s1
  have m2 : (nearEarth c i S).ecco = x.e := s2
  have m3 : (nearEarth c i S).argpo = x.w := s3
  have m4 : (nearEarth c i S).mo = x.M := s4
  have m5 : (nearEarth c i S).bstar = x.B := s5
  have m7 : (nearEarth c i S).inclo = x.i := s7
  have m8 : (nearEarth c i S).nodeo = x.node := s8
  have m9 : (nearEarth c i S).init = 'y' := s9
  have m10 : Turns (Deep.sidereal (epoch + 18261.5)) (nearEarth c i S).gsto := s10
  generalize nearEarth c i S = N at *
  have e1 : (N.no / c.xke) ^ (2 / 3 : ℝ) = (a g x)⁻¹ := by rw [m1, h.ke, aonv_ok h.ke_pos hx.n_pos]
  rw [deepSpace_eq c epoch N (by rw [m1]; exact hx.deep) m9, e1]
  exact deep_coefs' h hx i epoch _ _ _ { N with method := 'd', isimp := 1 } m0 m00 m1 m2 m3 m4 m5 m7 m8 m10 n3 n4 n5 n6 n7 n8 n10 rfl rfl (m10.trans (Turns.fmod _))

theorem deep_prepare (w : Wgs) (epoch : ℝ) (x : Elements) (s0 : Elset) (hx : Deep.Regular (gravity w) x) :
    let P := prepare w epoch x.B x.e x.w x.i x.M x.no x.node s0
    DeepCoefs (gravity w) x (epoch + 18261.5) P ∧ P.error = (if perigee (gravity w) x < 1 then 5 else 0) ∧ P.jdsatepoch = s0.jdsatepoch := by
  have h := consts_ok w
  have hi := initl_ok h x epoch hx.e0.le hx.e1
  have hg := gsto_ok (consts w) x.e epoch x.i x.no
  generalize gravity w = g at *
  unfold prepare
  generalize consts w = c at *
  dsimp only
  have hc1 : (cleared s0 x.B x.e x.w x.i x.M x.no x.node).ecco = x.e := rfl
  have hc2 : (cleared s0 x.B x.e x.w x.i x.M x.no x.node).inclo = x.i := rfl
  have hc3 : (cleared s0 x.B x.e x.w x.i x.M x.no x.node).no = x.no := rfl
  rw [hc1, hc2, hc3]
  generalize initl c x.e epoch x.i x.no = i at *
  rw [if_pos (.inl (by rw [hi.omeosq]; positivity)), hi.rp]
  exact deep_coefs h hx hi epoch _ hi.no rfl rfl rfl rfl hi.con41 rfl rfl rfl hg

end S2E.Sgp4
