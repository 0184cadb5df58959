import Verif.Spec.Sgp4Report
import Verif.Proofs.Sgp4Resonance

/-! Lemmas for the comparison with Spacetrack Report No. 3. -/
namespace S2E.Sgp4

open S2E.InitOrbit (Wgs)
open Report

/-- The constants of the code are the published ones. -/
structure ConstsOk (c : Consts) (g : Gravity) : Prop where
  ke : c.xke = g.ke
  j2 : c.j2 = g.J2
  j3 : c.j3oj2 = g.J3 / g.J2
  j4 : c.j4 = g.J4
  radius : c.radius = g.radius
  ke_pos : 0 < g.ke
  j2_pos : 0 < g.J2
  radius_pos : 0 < g.radius

theorem sixty (r m : ℝ) (hr : 0 < r) (hm : 0 < m) : 60 / Real.sqrt (r * r * r / m) = 60 * Real.sqrt (m / r ^ 3) := by
  rw [show m / r ^ 3 = (r * r * r / m)⁻¹ by rw [inv_div]; ring, Real.sqrt_inv]; rfl

theorem consts_ok (w : Wgs) : ConstsOk (consts w) (gravity w) := by
  cases w
  · refine ⟨rfl, ?_, ?_, ?_, rfl, ?_, ?_, ?_⟩ <;> norm_num [consts, gravity]
  · refine ⟨sixty _ _ (by norm_num) (by norm_num), ?_, ?_, ?_, rfl, ?_, ?_, ?_⟩ <;> norm_num [consts, gravity]
  · refine ⟨sixty _ _ (by norm_num) (by norm_num), ?_, ?_, ?_, rfl, ?_, ?_, ?_⟩ <;> norm_num [consts, gravity]

/-- What `initl` gives. -/
structure EpochOk (i : Epoch) (g : Gravity) (x : Elements) : Prop where
  no : i.no = n g x
  ao : i.ao = a g x
  con41 : i.con41 = 3 * th x ^ 2 - 1
  con42 : i.con42 = 1 - 5 * th x ^ 2
  cosio : i.cosio = th x
  cosio2 : i.cosio2 = th x ^ 2
  omeosq : i.omeosq = beta x ^ 2
  rteosq : i.rteosq = beta x
  posq : i.posq = (a g x * beta x ^ 2) ^ 2
  rp : i.rp = perigee g x
  sinio : i.sinio = Real.sin x.i
  beta_pos : 0 < beta x

theorem initl_ok {c : Consts} {g : Gravity} (h : ConstsOk c g) (x : Elements) (epoch : ℝ) (h0 : 0 ≤ x.e) (h1 : x.e < 1) :
    EpochOk (initl c x.e epoch x.i x.no) g x := by
  have hb : beta x ^ 2 = 1 - x.e * x.e := by unfold beta; rw [Real.sq_sqrt (by nlinarith)]; ring
  have hbp : 0 < beta x := Real.sqrt_pos.2 (by nlinarith)
  have hr : Real.sqrt (1 - x.e * x.e) = beta x := by unfold beta; rw [sq]
  have hd : 0.75 * c.j2 * (3 * (Real.cos x.i * Real.cos x.i) - 1) / (beta x * beta x ^ 2) = 3 / 2 * k2 g * (3 * th x ^ 2 - 1) / beta x ^ 3 := by
    rw [h.j2]; unfold k2 th; ring
  have e1 : (initl c x.e epoch x.i x.no).no = n g x := by
    unfold initl
    dsimp only
    rw [hr, ← hb, hd, h.ke]
    unfold n delta0 aOld delta1
    rw [show (g.ke / x.no) ^ (2 / 3 : ℝ) = a1 g x from rfl]
    have e : 3 / 2 * k2 g * (3 * th x ^ 2 - 1) / beta x ^ 3 / (a1 g x * a1 g x) = 3 / 2 * (k2 g / a1 g x ^ 2) * ((3 * th x ^ 2 - 1) / beta x ^ 3) := by ring
    rw [e]
    generalize 3 / 2 * (k2 g / a1 g x ^ 2) * ((3 * th x ^ 2 - 1) / beta x ^ 3) = d
    have e2 : a1 g x * (1 - d * d - d * (1 / 3 + 134 * d * d / 81)) = a1 g x * (1 - d / 3 - d ^ 2 - 134 / 81 * d ^ 3) := by ring
    rw [e2]
    congr 2
    ring
  have e2 : (initl c x.e epoch x.i x.no).ao = a g x := by
    have : (initl c x.e epoch x.i x.no).ao = (c.xke / (initl c x.e epoch x.i x.no).no) ^ (2 / 3 : ℝ) := rfl
    rw [this, e1, h.ke]; rfl
  have e3 : (initl c x.e epoch x.i x.no).posq = ((initl c x.e epoch x.i x.no).ao * (1 - x.e * x.e)) * ((initl c x.e epoch x.i x.no).ao * (1 - x.e * x.e)) := rfl
  have e4 : (initl c x.e epoch x.i x.no).rp = (initl c x.e epoch x.i x.no).ao * (1 - x.e) := rfl
  refine ⟨e1, e2, ?_, ?_, rfl, ?_, ?_, hr, ?_, ?_, rfl, hbp⟩
  · unfold initl th; dsimp only; ring
  · unfold initl th; dsimp only; ring
  · unfold initl th; dsimp only; ring
  · rw [hb]; rfl
  · rw [e3, e2, ← hb]; ring
  · rw [e4, e2]; rfl

theorem density_ok {c : Consts} {g : Gravity} (h : ConstsOk c g) (x : Elements) :
    density c (perigee g x) = (Report.s g x, q4 g x) := by
  have hR := h.radius_pos.ne'
  have hh : (perigee g x - 1) * c.radius = height g x := by rw [h.radius]; rfl
  unfold density
  dsimp only
  rw [hh, h.radius]
  unfold q4 q0 Report.s
  by_cases h1 : height g x < 98
  · have h2 : height g x < 156 := by linarith
    rw [if_pos h2, if_pos h1, if_pos h1]
    refine Prod.ext rfl ?_
    dsimp only
    congr 1
    ring
  · rw [if_neg h1, if_neg h1]
    by_cases h2 : height g x < 156
    · rw [if_pos h2, if_pos h2]
      unfold height
      refine Prod.ext ?_ ?_
      · dsimp only; field_simp; ring
      · dsimp only
        congr 1
        field_simp; ring
    · rw [if_neg h2, if_neg h2]
      refine Prod.ext rfl ?_
      dsimp only
      congr 1
      ring

/-- The coefficients that `sgp4init` stores for a near-Earth record. -/
structure Coefs (g : Gravity) (x : Elements) (P : Elset) : Prop where
  method : P.method = 'n'
  low : Low g x → P.isimp = 1
  high : ¬Low g x → P.isimp = 0
  no : P.no = n g x
  ecco : P.ecco = x.e
  inclo : P.inclo = x.i
  nodeo : P.nodeo = x.node
  argpo : P.argpo = x.w
  mo : P.mo = x.M
  bstar : P.bstar = x.B
  mdot : P.mdot = M' g x
  argpdot : P.argpdot = w' g x
  nodedot : P.nodedot = node' g x
  nodecf : P.nodecf = -(21 / 2 * (n g x * k2 g * th x / (a g x ^ 2 * beta x ^ 2)) * C1 g x)
  cc1 : P.cc1 = C1 g x
  cc4 : P.cc4 = C4 g x
  cc5 : P.cc5 = C5 g x
  t2cof : P.t2cof = 3 / 2 * C1 g x
  omgcof : P.omgcof = x.B * C3 g x * Real.cos x.w
  xmcof : P.xmcof = if 0.0001 < x.e then -2 / 3 * q4 g x * x.B * xi g x ^ 4 * (1 / (x.e * eta g x)) else 0
  eta : P.eta = Report.eta g x
  delmo : P.delmo = (1 + Report.eta g x * Real.cos x.M) ^ 3
  sinmao : P.sinmao = Real.sin x.M
  aycof : P.aycof = A30 g * Real.sin x.i / (4 * k2 g)
  xlcof : P.xlcof = A30 g * Real.sin x.i / (8 * k2 g) * ((3 + 5 * th x) / (1 + th x))
  con41 : P.con41 = 3 * th x ^ 2 - 1
  x1mth2 : P.x1mth2 = 1 - th x ^ 2
  x7thm1 : P.x7thm1 = 7 * th x ^ 2 - 1
  d2 : ¬Low g x → P.d2 = D2 g x
  d3 : ¬Low g x → P.d3 = D3 g x
  d4 : ¬Low g x → P.d4 = D4 g x
  t3cof : ¬Low g x → P.t3cof = D2 g x + 2 * C1 g x ^ 2
  t4cof : ¬Low g x → P.t4cof = 1 / 4 * (3 * D3 g x + 12 * C1 g x * D2 g x + 10 * C1 g x ^ 3)
  t5cof : ¬Low g x → P.t5cof = 1 / 5 * (3 * D4 g x + 12 * C1 g x * D3 g x + 6 * D2 g x ^ 2 + 30 * C1 g x ^ 2 * D2 g x + 15 * C1 g x ^ 4)

/-- The part of the coefficients that `nearEarth` gives. -/
theorem nearEarth_ok {c : Consts} {g : Gravity} (h : ConstsOk c g) (x : Elements) {i : Epoch} (hi : EpochOk i g x) (s : Elset) (ha : a g x ≠ 0)
    (hth : 1.5e-12 < |1 + th x|) (hs1 : s.no = n g x) (hs2 : s.ecco = x.e) (hs3 : s.argpo = x.w) (hs4 : s.mo = x.M) (hs5 : s.bstar = x.B)
    (hs6 : s.con41 = 3 * th x ^ 2 - 1) :
    let P := nearEarth c i s
    (Low g x → P.isimp = 1) ∧ (¬Low g x → P.isimp = 0) ∧ P.mdot = M' g x ∧ P.argpdot = w' g x ∧ P.nodedot = node' g x ∧
      P.nodecf = -(21 / 2 * (n g x * k2 g * th x / (a g x ^ 2 * beta x ^ 2)) * C1 g x) ∧ P.cc1 = C1 g x ∧ P.cc4 = C4 g x ∧ P.cc5 = C5 g x ∧
      P.t2cof = 3 / 2 * C1 g x ∧ P.omgcof = x.B * C3 g x * Real.cos x.w ∧
      P.xmcof = (if 0.0001 < x.e then -2 / 3 * q4 g x * x.B * xi g x ^ 4 * (1 / (x.e * eta g x)) else 0) ∧
      P.eta = Report.eta g x ∧ P.delmo = (1 + Report.eta g x * Real.cos x.M) ^ 3 ∧ P.sinmao = Real.sin x.M ∧
      P.aycof = A30 g * Real.sin x.i / (4 * k2 g) ∧ P.xlcof = A30 g * Real.sin x.i / (8 * k2 g) * ((3 + 5 * th x) / (1 + th x)) ∧
      P.x1mth2 = 1 - th x ^ 2 ∧ P.x7thm1 = 7 * th x ^ 2 - 1 := by
  have hb := hi.beta_pos.ne'
  have hJ := h.j2_pos.ne'
  have hk : k2 g ≠ 0 := div_ne_zero hJ two_ne_zero
  have hj2 : c.j2 = 2 * k2 g := by rw [h.j2]; unfold k2; ring
  have hj3 : c.j3oj2 = -(A30 g / (2 * k2 g)) := by rw [h.j3]; unfold A30 k2; field_simp
  have hj4 : c.j4 = -(8 / 3) * k4 g := by rw [h.j4]; unfold k4; ring
  have hxi : 1 / (a g x - Report.s g x) = xi g x := rfl
  have heta : a g x * x.e * xi g x = Report.eta g x := rfl
  have hpsi : |1 - Report.eta g x * Report.eta g x| = psi g x := by unfold psi; rw [sq]
  have hps : ∀ y : ℝ, y / psi g x ^ (3.5 : ℝ) = y * psi g x ^ (-7 / 2 : ℝ) := fun y => by
    rw [show (-7 / 2 : ℝ) = -(3.5 : ℝ) by norm_num, Real.rpow_neg (show (0 : ℝ) ≤ psi g x from abs_nonneg _), div_eq_mul_inv]
  have hcc1 : (nearEarth c i s).cc1 = C1 g x := by
    unfold nearEarth
    dsimp only
    rw [hi.rp, density_ok h, hi.ao, hs2, hs1, hs5, hs6, hj2]
    dsimp only
    rw [hxi, heta, hpsi, hps]
    unfold C1 C2
    ring
  have hnd : (nearEarth c i s).nodecf = 3.5 * i.omeosq * (-(1.5 * c.j2 * (1 / i.posq) * s.no) * i.cosio) * (nearEarth c i s).cc1 := rfl
  have ht2 : (nearEarth c i s).t2cof = 1.5 * (nearEarth c i s).cc1 := rfl
  refine ⟨fun hl => ?_, fun hl => ?_, ?_, ?_, ?_, ?_, hcc1, ?_, ?_, ?_, ?_, ?_, ?_, ?_, ?_, ?_, ?_, ?_, ?_⟩
  · unfold nearEarth
    dsimp only
    rw [hi.rp, h.radius]; exact if_pos hl
  · unfold nearEarth
    dsimp only
    rw [hi.rp, h.radius]; exact if_neg hl
  · unfold nearEarth M'
    dsimp only
    rw [hi.posq, hi.rteosq, hi.cosio2, hs1, hs6, hj2]
    field_simp; ring
  · unfold nearEarth w'
    dsimp only
    rw [hi.posq, hi.con42, hi.cosio2, hs1, hj2, hj4]
    field_simp; ring
  · unfold nearEarth node'
    dsimp only
    rw [hi.posq, hi.cosio, hi.cosio2, hs1, hj2, hj4]
    field_simp; ring
  · rw [hnd, hcc1, hi.omeosq, hi.posq, hi.cosio, hs1, hj2]
    field_simp; ring
  · unfold nearEarth
    dsimp only
    rw [hi.rp, density_ok h, hi.ao, hs1, hs2, hs3, hs6, hi.cosio2, hi.omeosq, hj2]
    dsimp only
    rw [hxi, heta, hpsi, hps]
    unfold C4
    ring
  · unfold nearEarth
    dsimp only
    rw [hi.rp, density_ok h, hi.ao, hs2, hi.omeosq]
    dsimp only
    rw [hxi, heta, hpsi, hps]
    unfold C5
    ring
  · rw [ht2, hcc1]; norm_num
  · unfold nearEarth C3
    dsimp only
    rw [hi.rp, density_ok h, hi.ao, hs1, hs2, hs3, hs5, hi.sinio, hj3]
    dsimp only
    rw [hxi, show (1.0e-4 : ℝ) = 0.0001 by norm_num]
    split_ifs
    · congr 2
      field_simp
    · ring
  · unfold nearEarth
    dsimp only
    rw [hi.rp, density_ok h, hi.ao, hs2, hs5]
    dsimp only
    rw [hxi, heta, show (1.0e-4 : ℝ) = 0.0001 by norm_num]
    split_ifs
    · ring
    · rfl
  · unfold nearEarth
    dsimp only
    rw [hi.rp, density_ok h, hi.ao, hs2]; rfl
  · unfold nearEarth
    dsimp only
    rw [hi.rp, density_ok h, hi.ao, hs2, hs4]; rfl
  · unfold nearEarth
    dsimp only
    rw [hs4]
  · unfold nearEarth
    dsimp only
    rw [hj3, hi.sinio]; ring
  · unfold nearEarth
    dsimp only
    rw [hj3, hi.sinio, hi.cosio, if_pos (by rwa [add_comm])]; ring
  · unfold nearEarth
    dsimp only
    rw [hi.cosio2]
  · unfold nearEarth
    dsimp only
    rw [hi.cosio2]

theorem a_pos {g : Gravity} (hk : 0 < g.ke) {x : Elements} (hn : 0 < n g x) : 0 < a g x := Real.rpow_pos_of_pos (div_pos hk hn) _

theorem higherDrag_ok {c : Consts} {g : Gravity} (h : ConstsOk c g) (x : Elements) {i : Epoch} (hi : EpochOk i g x) (s : Elset) (hc : s.cc1 = C1 g x) (hs : s.isimp = 0) :
    let P := higherDrag c i s
    P.d2 = D2 g x ∧ P.d3 = D3 g x ∧ P.d4 = D4 g x ∧ P.t3cof = D2 g x + 2 * C1 g x ^ 2 ∧
      P.t4cof = 1 / 4 * (3 * D3 g x + 12 * C1 g x * D2 g x + 10 * C1 g x ^ 3) ∧
      P.t5cof = 1 / 5 * (3 * D4 g x + 12 * C1 g x * D3 g x + 6 * D2 g x ^ 2 + 30 * C1 g x ^ 2 * D2 g x + 15 * C1 g x ^ 4) := by
  have hxi : 1 / (a g x - Report.s g x) = xi g x := rfl
  have h1 : s.isimp ≠ 1 := by omega
  unfold higherDrag
  dsimp only
  rw [if_pos h1, hi.rp, density_ok h, hi.ao, hc]
  dsimp only
  rw [hxi]
  unfold D2 D3 D4
  refine ⟨?_, ?_, ?_, ?_, ?_, ?_⟩ <;> ring

/-- What `higherDrag` leaves alone. -/
structure Kept (s P : Elset) : Prop where
  eq : ∃ d2 d3 d4 t3cof t4cof t5cof, P = { s with d2 := d2, d3 := d3, d4 := d4, t3cof := t3cof, t4cof := t4cof, t5cof := t5cof }

theorem higherDrag_kept (c : Consts) (i : Epoch) (s : Elset) : Kept s (higherDrag c i s) := by
  unfold higherDrag
  by_cases h1 : s.isimp ≠ 1
  · rw [if_pos h1]; exact ⟨_, _, _, _, _, _, rfl⟩
  · rw [if_neg h1]; exact ⟨_, _, _, _, _, _, rfl⟩

theorem coefs_ok (w : Wgs) (epoch : ℝ) (x : Elements) (s0 : Elset) (hx : Regular (gravity w) x) :
    Coefs (gravity w) x (prepare w epoch x.B x.e x.w x.i x.M x.no x.node s0) := by
  have h := consts_ok w
  have hi := initl_ok h x epoch hx.e0 hx.e1
  generalize hg : gravity w = g at h hx hi
  have ha := (a_pos h.ke_pos hx.n_pos).ne'
  unfold prepare
  generalize consts w = c at *
  dsimp only
  have hc1 : (cleared s0 x.B x.e x.w x.i x.M x.no x.node).ecco = x.e := rfl
  have hc2 : (cleared s0 x.B x.e x.w x.i x.M x.no x.node).inclo = x.i := rfl
  have hc3 : (cleared s0 x.B x.e x.w x.i x.M x.no x.node).no = x.no := rfl
  rw [hc1, hc2, hc3]
  generalize initl c x.e epoch x.i x.no = i at *
  rw [if_pos (.inl (by rw [hi.omeosq]; positivity))]
  suffices key : ∀ S : Elset, S.no = n g x → S.ecco = x.e → S.argpo = x.w → S.mo = x.M → S.bstar = x.B → S.con41 = 3 * th x ^ 2 - 1 → S.inclo = x.i →
      S.nodeo = x.node → S.method = 'n' → Coefs g x (higherDrag c i (deepSpace c epoch (nearEarth c i S))) from
    key _ hi.no rfl rfl rfl rfl hi.con41 rfl rfl rfl
  intro S s1 s2 s3 s4 s5 s6 s7 s8 s9
  obtain ⟨n1, n2, n3, n4, n5, n6, n7, n8, n9, n10, n11, n12, n13, n14, n15, n16, n17, n18, n19⟩ := nearEarth_ok h x hi S ha hx.incl s1 s2 s3 s4 s5 s6
  have m1 : (nearEarth c i S).no = n g x := s1
  have m2 : (nearEarth c i S).ecco = x.e := s2
  have m3 : (nearEarth c i S).argpo = x.w := s3
  have m4 : (nearEarth c i S).mo = x.M := s4
  have m5 : (nearEarth c i S).bstar = x.B := s5
  have m6 : (nearEarth c i S).con41 = 3 * th x ^ 2 - 1 := s6
  have m7 : (nearEarth c i S).inclo = x.i := s7
  have m8 : (nearEarth c i S).nodeo = x.node := s8
  have m9 : (nearEarth c i S).method = 'n' := s9
  have hds : deepSpace c epoch (nearEarth c i S) = nearEarth c i S := by
    unfold deepSpace
    exact if_neg (by rw [m1]; exact not_le.2 hx.near)
  rw [hds]
  generalize nearEarth c i S = N at *
  have hh : N.isimp = 0 → _ := higherDrag_ok h x hi N n7
  obtain ⟨_, _, _, _, _, _, hK⟩ := (higherDrag_kept c i N).eq
  have hhd := fun hl => hh (n2 hl)
  rw [hK] at hhd ⊢
  exact ⟨m9, n1, n2, m1, m2, m7, m8, m3, m4, m5, n3, n4, n5, n6, n7, n8, n9, n10, n11, n12, n13, n14, n15, n16, n17, m6, n18, n19,
    fun hl => (hhd hl).1, fun hl => (hhd hl).2.1, fun hl => (hhd hl).2.2.1, fun hl => (hhd hl).2.2.2.1, fun hl => (hhd hl).2.2.2.2.1, fun hl => (hhd hl).2.2.2.2.2⟩

theorem prepare_error (w : Wgs) (epoch : ℝ) (x : Elements) (s0 : Elset) (hx : Regular (gravity w) x) :
    (prepare w epoch x.B x.e x.w x.i x.M x.no x.node s0).error = if perigee (gravity w) x < 1 then 5 else 0 := by
  have h := consts_ok w
  have hi := initl_ok h x epoch hx.e0 hx.e1
  generalize gravity w = g at *
  unfold prepare
  generalize consts w = c at *
  dsimp only
  have hc1 : (cleared s0 x.B x.e x.w x.i x.M x.no x.node).ecco = x.e := rfl
  have hc2 : (cleared s0 x.B x.e x.w x.i x.M x.no x.node).inclo = x.i := rfl
  have hc3 : (cleared s0 x.B x.e x.w x.i x.M x.no x.node).no = x.no := rfl
  rw [hc1, hc2, hc3]
  generalize initl c x.e epoch x.i x.no = i at *
  rw [if_pos (.inl (by rw [hi.omeosq]; positivity)), hi.rp]
  generalize (if perigee g x < 1 then 5 else 0 : ℕ) = q
  suffices key : ∀ S : Elset, S.error = q → S.no = n g x → (higherDrag c i (deepSpace c epoch (nearEarth c i S))).error = q from key _ rfl hi.no
  intro S h1 h2
  have hds : deepSpace c epoch (nearEarth c i S) = nearEarth c i S := by
    unfold deepSpace
    exact if_neg (by rw [show (nearEarth c i S).no = n g x from h2]; exact not_le.2 hx.near)
  rw [hds]
  have h3 : (nearEarth c i S).error = q := h1
  generalize nearEarth c i S = N at *
  obtain ⟨_, _, _, _, _, _, hK⟩ := (higherDrag_kept c i N).eq
  rw [hK]
  exact h3

theorem prepare_epoch (w : Wgs) (epoch : ℝ) (x : Elements) (s0 : Elset) (hx : Regular (gravity w) x) :
    (prepare w epoch x.B x.e x.w x.i x.M x.no x.node s0).jdsatepoch = s0.jdsatepoch := by
  have h := consts_ok w
  have hi := initl_ok h x epoch hx.e0 hx.e1
  generalize gravity w = g at *
  unfold prepare
  generalize consts w = c at *
  dsimp only
  have hc1 : (cleared s0 x.B x.e x.w x.i x.M x.no x.node).ecco = x.e := rfl
  have hc2 : (cleared s0 x.B x.e x.w x.i x.M x.no x.node).inclo = x.i := rfl
  have hc3 : (cleared s0 x.B x.e x.w x.i x.M x.no x.node).no = x.no := rfl
  rw [hc1, hc2, hc3]
  generalize initl c x.e epoch x.i x.no = i at *
  rw [if_pos (.inl (by rw [hi.omeosq]; positivity))]
  generalize hq : s0.jdsatepoch = q
  suffices key : ∀ S : Elset, S.jdsatepoch = q → S.no = n g x → (higherDrag c i (deepSpace c epoch (nearEarth c i S))).jdsatepoch = q from key _ hq hi.no
  intro S h1 h2
  have hds : deepSpace c epoch (nearEarth c i S) = nearEarth c i S := by
    unfold deepSpace
    exact if_neg (by rw [show (nearEarth c i S).no = n g x from h2]; exact not_le.2 hx.near)
  rw [hds]
  have h3 : (nearEarth c i S).jdsatepoch = q := h1
  generalize nearEarth c i S = N at *
  obtain ⟨_, _, _, _, _, _, hK⟩ := (higherDrag_kept c i N).eq
  rw [hK]
  exact h3

end S2E.Sgp4
