import Verif.Proofs.Sgp4Dpper

/-!
# One call with a deep-space record
-/
namespace S2E.Sgp4

open S2E.InitOrbit (Wgs)
open Report

/-! ## Secular effects, resonance and drag -/

theorem deep_secular {g : Gravity} {x : Elements} {day : ℝ} {P : Elset} (h : DeepCoefs g x day P) (t : ℝ) (error : ℕ) :
    secular { P with t := t, error := error } =
      { mm := x.M + M' g x * t, argpm := x.w + w' g x * t
        nodem := x.node + node' g x * t + -(21 / 2 * (n g x * k2 g * th x / (a g x ^ 2 * beta x ^ 2)) * C1 g x) * (t * t), tempa := 1 - C1 g x * t
        tempe := x.B * C4 g x * t, templ := 3 / 2 * C1 g x * (t * t) } := by
  unfold secular
  dsimp only
  rw [if_neg (by rw [h.isimp]; simp), h.mo, h.mdot, h.argpo, h.argpdot, h.nodeo, h.nodedot, h.nodecf, h.cc1, h.bstar, h.cc4, h.t2cof]

/-- The record during a call. -/
theorem deep_dspace {g : Gravity} {x : Elements} {day : ℝ} {P : Elset} (h : DeepCoefs g x day P) (t : ℝ) (error fuel : ℕ) (hf : ⌊|t| / 720⌋₊ < fuel) :
    let s : Elset := { P with t := t, error := error }
    let q := secular s
    ∃ u v z m, dspace fuel s { em := s.ecco, argpm := q.argpm, inclm := s.inclo, mm := q.mm, nodem := q.nodem, nm := s.no } = .ok ({ s with atime := u, xli := v, xni := z }, m) ∧
      m.em = Deep.e1 g x day t ∧ m.inclm = Deep.i1 g x day t ∧ m.argpm = Deep.w1 g x day t ∧ m.nodem = Deep.node1 g x day t ∧ m.nm = Deep.n1 g x day t ∧
      Turns (Deep.M1 g x day t) m.mm := by
  intro s q
  have hq : q = _ := deep_secular h t error
  rw [hq]
  have ee : s.ecco + s.dedt * t = Deep.e1 g x day t := by
    have e1 : s.ecco = x.e := h.ecco
    have e2 : s.dedt = _ := h.dedt
    rw [e1, e2]; rfl
  have ei : s.inclo + s.didt * t = Deep.i1 g x day t := by
    have e1 : s.inclo = x.i := h.inclo
    have e2 : s.didt = _ := h.didt
    rw [e1, e2]; rfl
  have ew : x.w + w' g x * t + s.domdt * t = Deep.w1 g x day t := by
    have e2 : s.domdt = _ := h.domdt
    rw [e2]; unfold Deep.w1; ring
  have en : x.node + node' g x * t + -(21 / 2 * (n g x * k2 g * th x / (a g x ^ 2 * beta x ^ 2)) * C1 g x) * (t * t) + s.dnodt * t = Deep.node1 g x day t := by
    have e2 : s.dnodt = _ := h.dnodt
    rw [e2]; unfold Deep.node1; ring
  have hgs : Turns (Deep.sidereal day + Deep.rotation * t) (Julian.fmod (s.gsto + t * 4.37526908801129966e-3) (2 * Real.pi)) := by
    have e2 : Turns (Deep.sidereal day) s.gsto := h.gsto
    have := (e2.add (Turns.refl (t * 4.37526908801129966e-3))).trans (Turns.fmod _)
    rwa [show Deep.sidereal day + t * 4.37526908801129966e-3 = Deep.sidereal day + Deep.rotation * t by unfold Deep.rotation; ring] at this
  have a1 : s.argpo = x.w := h.argpo
  have a2 : s.argpdot = w' g x := h.argpdot
  have a3 : s.no = n g x := h.no
  by_cases hh : Deep.HalfDay g x
  · obtain ⟨k1, k2⟩ := h.half hh
    have z1 : s.irez = 2 := k1
    have z2 : MotionOk (Deep.halfDay g x day) s := ⟨k2.terms, k2.drift, k2.angle⟩
    obtain ⟨r1, r2, r3⟩ := z2.resonance a1 a2 a3 t
    refine ⟨_, _, _, _, dspace_result fuel s _ (by omega) hf, ee, ei, ew, en, ?_, ?_⟩
    · unfold Deep.n1; rw [if_pos hh]; exact r3
    · dsimp only
      have hz : s.irez ≠ 1 := by omega
      rw [if_pos hz]
      unfold Deep.M1
      rw [if_pos hh]
      have e : ∀ y : ℝ, 2 * y = y + y := fun y => by ring
      rw [show s.t = t from rfl, en, e (Julian.fmod _ _), e (Deep.sidereal day + _)]
      exact (r2.sub (Turns.refl _)).add (hgs.add hgs)
  · by_cases hs : Deep.Synchronous g x
    · obtain ⟨k1, k2⟩ := h.sync hh hs
      have z1 : s.irez = 1 := k1
      have z2 : MotionOk (Deep.synchronous g x day) s := ⟨k2.terms, k2.drift, k2.angle⟩
      obtain ⟨r1, r2, r3⟩ := z2.resonance a1 a2 a3 t
      refine ⟨_, _, _, _, dspace_result fuel s _ (by omega) hf, ee, ei, ew, en, ?_, ?_⟩
      · unfold Deep.n1; rw [if_neg hh, if_pos hs]; exact r3
      · dsimp only
        rw [if_neg (not_not.2 z1)]
        unfold Deep.M1
        rw [if_neg hh, if_pos hs, show s.t = t from rfl, en, ew]
        exact ((r2.sub (Turns.refl _)).sub (Turns.refl _)).add hgs
    · have z1 : s.irez = 0 := h.free hh hs
      refine ⟨0, s.xli, s.xni, ⟨s.ecco + s.dedt * t, _, s.inclo + s.didt * t, x.M + M' g x * t + s.dmdt * t, _, s.no⟩, ?_, ee, ei, ew, en, ?_, ?_⟩
      · unfold dspace
        dsimp only
        exact if_neg (not_not.2 z1)
      · unfold Deep.n1; rw [if_neg hh, if_neg hs]; exact a3
      · unfold Deep.M1
        rw [if_neg hh, if_neg hs]
        have e2 : s.dmdt = _ := h.dmdt
        dsimp only
        rw [e2]
        exact ⟨0, by push_cast; ring⟩

theorem deep_drag {c : Consts} {g : Gravity} (hc : ConstsOk c g) {x : Elements} {day t : ℝ} {s : Elset} {q : Secular} {m : Mean} (hno : s.no = n g x)
    (q1 : q.tempa = 1 - C1 g x * t) (q2 : q.tempe = x.B * C4 g x * t) (q3 : q.templ = 3 / 2 * C1 g x * (t * t)) (m1 : m.em = Deep.e1 g x day t) (m2 : m.inclm = Deep.i1 g x day t)
    (m3 : m.argpm = Deep.w1 g x day t) (m4 : m.nodem = Deep.node1 g x day t) (m5 : m.nm = Deep.n1 g x day t) (m6 : Turns (Deep.M1 g x day t) m.mm) :
    let d := drag c s q m
    d.am = Deep.a2 g x day t ∧ d.nm = g.ke / Deep.a2 g x day t ^ (3 / 2 : ℝ) ∧ d.em = Deep.e2 g x day t ∧ d.inclm = Deep.i1 g x day t ∧ Turns (Deep.M2 g x day t) d.mm ∧
      Turns (Deep.w1 g x day t) d.argpm ∧ Turns (Deep.node1 g x day t) d.nodem ∧
      d.error = (if 1 ≤ Deep.e2Raw g x day t ∨ Deep.e2Raw g x day t < -0.001 ∨ Deep.a2 g x day t < 0.95 then 1 else if Deep.n1 g x day t ≤ 0 then 2 else 0) := by
  intro d
  have hd : d = drag c s q m := rfl
  unfold drag at hd
  dsimp only at hd
  rw [hno, hc.ke, q1, q2, q3, m1, m2, m3, m4, m5] at hd
  have ha : (g.ke / Deep.n1 g x day t) ^ (2 / 3 : ℝ) * (1 - C1 g x * t) * (1 - C1 g x * t) = Deep.a2 g x day t := by unfold Deep.a2; ring
  have he : Deep.e1 g x day t - x.B * C4 g x * t = Deep.e2Raw g x day t := rfl
  rw [ha, he] at hd
  rw [hd]
  dsimp only
  refine ⟨rfl, by norm_num, ?_, rfl, ?_, Turns.fmod _, Turns.fmod _, rfl⟩
  · unfold Deep.e2; norm_num
  · refine Turns.trans ?_ (Turns.fmod _)
    have h1 : Turns (Deep.M2 g x day t) (m.mm + n g x * (3 / 2 * C1 g x * (t * t))) := by
      have := m6.add (Turns.refl (n g x * (3 / 2 * C1 g x * (t * t))))
      rwa [show Deep.M1 g x day t + n g x * (3 / 2 * C1 g x * (t * t)) = Deep.M2 g x day t by unfold Deep.M2; ring] at this
    have := (((h1.add (Turns.refl (Deep.w1 g x day t))).add (Turns.refl (Deep.node1 g x day t))).trans (Turns.fmod _)).sub (Turns.fmod (Deep.w1 g x day t))
    have := this.sub (Turns.fmod (Deep.node1 g x day t))
    rwa [show Deep.M2 g x day t + Deep.w1 g x day t + Deep.node1 g x day t - Deep.w1 g x day t - Deep.node1 g x day t = Deep.M2 g x day t by ring] at this

/-! ## The last part -/

theorem deep_rl_pos {g : Gravity} {q : Deep.Last} (E : ℝ) (ha : 0 < q.a) (hp : 0 < Deep.pl g q) :
    0 < Deep.rl g q E ∧ Deep.el g q ^ 2 = Deep.ax q ^ 2 + Deep.ay g q ^ 2 ∧ Deep.ax q ^ 2 + Deep.ay g q ^ 2 < 1 := by
  have h2 : Deep.el g q ^ 2 = Deep.ax q ^ 2 + Deep.ay g q ^ 2 := Real.sq_sqrt (by positivity)
  have h1 : Deep.ax q ^ 2 + Deep.ay g q ^ 2 < 1 := by
    unfold Deep.pl at hp
    rw [h2] at hp
    have := (mul_pos_iff_of_pos_left ha).1 hp
    linarith
  exact ⟨mul_pos ha (by have := ecosE_lt (E := E) h1; unfold Deep.ecE; linarith), h2, h1⟩

theorem deep_u {g : Gravity} {q : Deep.Last} (E : ℝ) (ha : 0 < q.a) (hp : 0 < Deep.pl g q) :
    Real.cos (Deep.ul g q E) = Deep.cu g q E ∧ Real.sin (Deep.ul g q E) = Deep.su g q E ∧ Deep.su g q E ^ 2 + Deep.cu g q E ^ 2 = 1 := by
  obtain ⟨h1, h2, h3⟩ := deep_rl_pos E ha hp
  have hu : Deep.su g q E ^ 2 + Deep.cu g q E ^ 2 = 1 := by
    unfold Deep.su Deep.cu Deep.esE
    refine unit_circle _ _ _ _ _ _ _ (Real.sin_sq_add_cos_sq E) ?_ ?_ rfl h1.ne'
    · rw [Real.sq_sqrt (by rw [h2]; linarith), h2]
    · have := Real.sqrt_nonneg (1 - Deep.el g q ^ 2); linarith
  have := arg_cos_sin _ _ hu
  exact ⟨this.1, this.2, hu⟩

theorem deep_shortPeriod {c : Consts} {g : Gravity} (hc : ConstsOk c g) {q : Deep.Last} {s : Elset} {E : ℝ} (hm : s.method = 'd') (ha : 0 < q.a) (hp : 0 < Deep.pl g q)
    (error : ℕ) :
    let o := shortPeriod c s q.a (Deep.mm g q) (Real.sin q.i) (Real.cos q.i) (Deep.ax q) (Deep.ay g q) (Real.sin E) (Real.cos E) q.i q.node error
    o.elset.error = (if Deep.rs g q E < 1 then 6 else error) ∧ o.written = some (Deep.place g q E, Deep.speed g q E) := by
  intro o
  obtain ⟨r1, r3, r2⟩ := deep_rl_pos E ha hp
  obtain ⟨u1, u2, u3⟩ := deep_u E ha hp
  have hpl : q.a * (1 - (Deep.ax q * Deep.ax q + Deep.ay g q * Deep.ay g q)) = Deep.pl g q := by unfold Deep.pl; rw [r3]; ring
  have hel : 1 - (Deep.ax q * Deep.ax q + Deep.ay g q * Deep.ay g q) = 1 - Deep.el g q ^ 2 := by rw [r3]; ring
  have hk := hc.ke_pos.ne'
  have hj : c.j2 = 2 * k2 g := by rw [hc.j2]; unfold k2; ring
  have ho : o = shortPeriod c s q.a (Deep.mm g q) (Real.sin q.i) (Real.cos q.i) (Deep.ax q) (Deep.ay g q) (Real.sin E) (Real.cos E) q.i q.node error := rfl
  unfold shortPeriod at ho
  dsimp only at ho
  rw [hpl, hel, if_neg (not_lt.2 hp.le), if_pos hm, hj, hc.radius, hc.ke] at ho
  have e1 : Deep.ax q * Real.sin E - Deep.ay g q * Real.cos E = Deep.esE g q E := rfl
  have e2 : Deep.ax q * Real.cos E + Deep.ay g q * Real.sin E = Deep.ecE g q E := rfl
  have e3 : q.a * (1 - Deep.ecE g q E) = Deep.rl g q E := rfl
  rw [e1, e2, e3] at ho
  have e4 : q.a / Deep.rl g q E * (Real.sin E - Deep.ay g q - Deep.ax q * (Deep.esE g q E / (1 + Real.sqrt (1 - Deep.el g q ^ 2)))) = Deep.su g q E := by unfold Deep.su; ring
  have e5 : q.a / Deep.rl g q E * (Real.cos E - Deep.ax q + Deep.ay g q * (Deep.esE g q E / (1 + Real.sqrt (1 - Deep.el g q ^ 2)))) = Deep.cu g q E := by unfold Deep.cu; ring
  rw [e4, e5] at ho
  have e6 : atan2 (Deep.su g q E) (Deep.cu g q E) = Deep.ul g q E := rfl
  have e7 : (Deep.cu g q E + Deep.cu g q E) * Deep.su g q E = Real.sin (2 * Deep.ul g q E) := by rw [Real.sin_two_mul, u1, u2]; ring
  have e8 : 1 - 2 * Deep.su g q E * Deep.su g q E = Real.cos (2 * Deep.ul g q E) := by rw [Real.cos_two_mul', u1, u2]; linear_combination -u3
  rw [e6, e7, e8] at ho
  have hpn := hp.ne'
  have e9 : Deep.rl g q E * (1 - 1.5 * (0.5 * (2 * k2 g) * (1 / Deep.pl g q) * (1 / Deep.pl g q)) * Real.sqrt (1 - Deep.el g q ^ 2) * (3 * (Real.cos q.i * Real.cos q.i) - 1)) +
      0.5 * (0.5 * (2 * k2 g) * (1 / Deep.pl g q)) * (1 - Real.cos q.i * Real.cos q.i) * Real.cos (2 * Deep.ul g q E) = Deep.rs g q E := by unfold Deep.rs; ring
  have e10 : Deep.ul g q E - 0.25 * (0.5 * (2 * k2 g) * (1 / Deep.pl g q) * (1 / Deep.pl g q)) * (7 * (Real.cos q.i * Real.cos q.i) - 1) * Real.sin (2 * Deep.ul g q E)
      = Deep.us g q E := by unfold Deep.us; ring
  have e11 : q.node + 1.5 * (0.5 * (2 * k2 g) * (1 / Deep.pl g q) * (1 / Deep.pl g q)) * Real.cos q.i * Real.sin (2 * Deep.ul g q E) = Deep.nodes g q E := by unfold Deep.nodes; ring
  have e12 : q.i + 1.5 * (0.5 * (2 * k2 g) * (1 / Deep.pl g q) * (1 / Deep.pl g q)) * Real.cos q.i * Real.sin q.i * Real.cos (2 * Deep.ul g q E) = Deep.is g q E := by
    unfold Deep.is; ring
  rw [e9, e10, e11, e12] at ho
  have e13 : Real.sqrt q.a * Deep.esE g q E / Deep.rl g q E
      - Deep.mm g q * (0.5 * (2 * k2 g) * (1 / Deep.pl g q)) * (1 - Real.cos q.i * Real.cos q.i) * Real.sin (2 * Deep.ul g q E) / g.ke = Deep.rsdot g q E / g.ke := by
    unfold Deep.rsdot Deep.rldot; field_simp; ring
  have e14 : Real.sqrt (Deep.pl g q) / Deep.rl g q E
      + Deep.mm g q * (0.5 * (2 * k2 g) * (1 / Deep.pl g q)) * ((1 - Real.cos q.i * Real.cos q.i) * Real.cos (2 * Deep.ul g q E) + 1.5 * (3 * (Real.cos q.i * Real.cos q.i) - 1)) / g.ke
      = Deep.rsfdot g q E / g.ke := by unfold Deep.rsfdot Deep.rlfdot; field_simp; ring
  rw [e13, e14] at ho
  rw [ho]
  refine ⟨rfl, ?_⟩
  dsimp only
  congr 1
  refine Prod.ext ?_ ?_
  · funext k
    unfold Deep.place Uv Mv Nv
    fin_cases k <;> simp only [Matrix.cons_val, Fin.zero_eta, Fin.mk_one, Fin.reduceFinMk] <;> ring
  · funext k
    unfold Deep.speed Uv Vv Mv Nv
    fin_cases k <;> simp only [Matrix.cons_val, Fin.zero_eta, Fin.mk_one, Fin.reduceFinMk] <;> field_simp <;> ring

theorem deep_finish {c : Consts} {g : Gravity} (hc : ConstsOk c g) {q : Deep.Last} {s : Elset} {d : Drag} {p : Periodic} (hm : s.method = 'd') (h1 : d.am = q.a)
    (h2 : d.nm = g.ke / q.a ^ (3 / 2 : ℝ)) (h3 : p = ⟨q.e, q.i, q.node, q.w, q.M⟩) (hi : 1.5e-12 < |1 + Real.cos q.i|) (error : ℕ) :
    ∃ E, Solved (Deep.Ul g q) (Deep.ax q) (Deep.ay g q) E ∧
      (0 < q.a → 0 < Deep.pl g q → (finish c s d p error).elset.error = (if Deep.rs g q E < 1 then 6 else error) ∧
        (finish c s d p error).written = some (Deep.place g q E, Deep.speed g q E)) ∧
      (Deep.pl g q < 0 → (finish c s d p error).elset.error = 6 ∧ (finish c s d p error).written = none) := by
  subst h3
  have hJ := hc.j2_pos.ne'
  have hk : k2 g ≠ 0 := div_ne_zero hJ two_ne_zero
  have hj3 : c.j3oj2 = -(A30 g / (2 * k2 g)) := by rw [hc.j3]; unfold A30 k2; field_simp
  have hl : longPeriod c s q.i = { s with aycof := -0.5 * c.j3oj2 * Real.sin q.i, xlcof := -0.25 * c.j3oj2 * Real.sin q.i * (3 + 5 * Real.cos q.i) / (1 + Real.cos q.i) } := by
    unfold longPeriod
    rw [if_pos hm]
    dsimp only
    rw [if_pos (by rwa [add_comm])]
  unfold finish
  dsimp only
  rw [if_pos hm, if_pos hm, hl, h1, h2, hj3]
  dsimp only
  have e1 : q.e * Real.cos q.w = Deep.ax q := rfl
  have e2 : q.e * Real.sin q.w + 1 / (q.a * (1 - q.e * q.e)) * (-0.5 * -(A30 g / (2 * k2 g)) * Real.sin q.i) = Deep.ay g q := by
    unfold Deep.ay; simp only [one_div, div_eq_mul_inv, mul_inv, sq]; ring
  have e3 : q.M + q.w + q.node + 1 / (q.a * (1 - q.e * q.e)) * (-0.25 * -(A30 g / (2 * k2 g)) * Real.sin q.i * (3 + 5 * Real.cos q.i) / (1 + Real.cos q.i)) * Deep.ax q - q.node
      = Deep.Ul g q := by
    unfold Deep.Ul Deep.ax; simp only [one_div, div_eq_mul_inv, mul_inv, sq]; ring
  rw [e1, e2, e3]
  have hu := Turns.fmod (Deep.Ul g q)
  generalize Julian.fmod (Deep.Ul g q) (2 * Real.pi) = v at hu ⊢
  obtain ⟨E', hS, hE'⟩ := keplerLoop_ok v (Deep.ax q) (Deep.ay g q) 10 0 9999.9 (Real.sin v) (Real.cos v) rfl (fun j hj => by omega) (by norm_num) (by norm_num)
  obtain ⟨E, hS2, hEE⟩ := solved_turns hu hS
  rw [Function.iterate_zero_apply] at hE'
  rw [hE', hEE.sin, hEE.cos]
  refine ⟨E, hS2, fun ha hp => ?_, fun hp => ?_⟩
  · exact deep_shortPeriod hc (by exact hm) ha hp error
  · have h2 : Deep.el g q ^ 2 = Deep.ax q ^ 2 + Deep.ay g q ^ 2 := Real.sq_sqrt (by positivity)
    have hpl : q.a * (1 - (Deep.ax q * Deep.ax q + Deep.ay g q * Deep.ay g q)) = Deep.pl g q := by unfold Deep.pl; rw [h2]; ring
    unfold shortPeriod
    dsimp only
    rw [hpl, if_pos hp]
    exact ⟨if_pos (by norm_num), rfl⟩

/-- One call with a deep-space record. -/
theorem deep_advance {c : Consts} {g : Gravity} (hc : ConstsOk c g) {x : Elements} (hx : Deep.Regular g x) {day : ℝ} {P : Elset} (h : DeepCoefs g x day P) (t : ℝ)
    (error fuel : ℕ) (hf : ⌊|t| / 720⌋₊ < fuel) :
    ∃ cs cm q out, advance fuel c { P with t := t, error := error } = .ok out ∧
      ThirdBody.Periodics ThirdBody.sun (n g x) (a g x) x.e x.i x.node x.w cs ∧
      ThirdBody.Periodics (ThirdBody.moon day) (n g x) (a g x) x.e x.i x.node x.w cm ∧
      Deep.Corrected (Deep.together (cs (Deep.sunLongitude day t)) (cm (Deep.moonLongitude day t))) (Deep.mean g x day t) q ∧
      (1.5e-12 < |1 + Real.cos q.i| → 0 < Deep.n1 g x day t →
        ∃ E, Solved (Deep.Ul g (Deep.positive q)) (Deep.ax (Deep.positive q)) (Deep.ay g (Deep.positive q)) E ∧
          (0 < q.a → 0 < Deep.pl g (Deep.positive q) → out.elset.error = Deep.code g x day t (Deep.positive q) E ∧
            out.written = some (Deep.place g (Deep.positive q) E, Deep.speed g (Deep.positive q) E)) ∧
          (Deep.pl g (Deep.positive q) < 0 → out.elset.error = 6 ∧ out.written = none)) := by
  have ha := (a_pos hc.ke_pos hx.n_pos).ne'
  have he2 : x.e ^ 2 < 1 := by nlinarith [hx.e0, hx.e1]
  obtain ⟨sun, moon, b1, b2, b3⟩ := h.bodies
  obtain ⟨u, v, z, m, hd, m1, m2, m3, m4, m5, m6⟩ := deep_dspace h t error fuel hf
  have hq : secular { P with t := t, error := error } = _ := deep_secular h t error
  have hno : P.no = n g x := h.no
  have hmd : P.method = 'd' := h.method
  have hec : P.ecco = x.e := h.ecco
  unfold advance
  dsimp only at hd ⊢
  rw [if_pos hmd, hd]
  simp only [Res.bind]
  have hD := deep_drag hc (s := { P with t := t, error := error, atime := u, xli := v, xni := z }) (q := secular { P with t := t, error := error }) (m := m) (by exact hno)
    (by rw [hq]) (by rw [hq]) (by rw [hq]) m1 m2 m3 m4 m5 m6
  dsimp only at hD
  have b4 : PeriodicOk { P with t := t, error := error, atime := u, xli := v, xni := z } sun moon day :=
    ⟨b3.peo, b3.pinco, b3.plo, b3.pgho, b3.pho, b3.zmol, b3.zmos, b3.se2, b3.se3, b3.si2, b3.si3, b3.sl2, b3.sl3, b3.sl4, b3.sgh2, b3.sgh3, b3.sgh4, b3.sh2, b3.sh3,
      b3.ee2, b3.e3, b3.xi2, b3.xi3, b3.xl2, b3.xl3, b3.xl4, b3.xgh2, b3.xgh3, b3.xgh4, b3.xh2, b3.xh3⟩
  have hS1 : ({ P with t := t, error := error, atime := u, xli := v, xni := z } : Elset).method = 'd' := hmd
  have hS2 : ({ P with t := t, error := error, atime := u, xli := v, xni := z } : Elset).ecco = x.e := hec
  have hS3 : ({ P with t := t, error := error, atime := u, xli := v, xni := z } : Elset).t = t := rfl
  generalize ({ P with t := t, error := error, atime := u, xli := v, xni := z } : Elset) = S at hD b4 hS1 hS2 hS3 ⊢
  generalize drag c S (secular { P with t := t, error := error }) m = d at hD ⊢
  obtain ⟨d1, d2, d3, d4, d5, d6, d7, d8⟩ := hD
  clear hd hq
  set C := Deep.together (corrections sun x.e ThirdBody.sun.ecc (Deep.sunLongitude day t)) (corrections moon x.e (ThirdBody.moon day).ecc (Deep.moonLongitude day t)) with hC
  set r := applied C ⟨d.em, d.inclm, d.nodem, d.argpm, d.mm⟩ with hr
  have hcor := applied_ok C ⟨d.em, d.inclm, d.nodem, d.argpm, d.mm⟩ (Deep.mean g x day t) d3 d4 d7 d6 d5
  rw [← hr] at hcor
  set q : Deep.Last := ⟨(Deep.mean g x day t).a, r.ep, r.inclp, r.nodep, r.argpp, r.mp⟩ with hqd
  refine ⟨corrections sun x.e ThirdBody.sun.ecc, corrections moon x.e (ThirdBody.moon day).ecc, q, _, rfl,
    b1.periodics hx.n_pos.ne' ha hx.e0.ne' he2 hx.sin_ne (by norm_num [ThirdBody.sun]), b2.periodics hx.n_pos.ne' ha hx.e0.ne' he2 hx.sin_ne (by norm_num [ThirdBody.moon]), hcor, ?_⟩
  intro hi hn
  have hl : lunisolar S d = (⟨(Deep.positive q).e, (Deep.positive q).i, (Deep.positive q).node, (Deep.positive q).w, (Deep.positive q).M⟩,
      if (Deep.positive q).e < 0 ∨ 1 < (Deep.positive q).e then 3 else d.error) := by
    unfold lunisolar
    dsimp only
    rw [if_pos hS1, dpper_applied b4, hS2, hS3, ← hC, ← hr]
    unfold Deep.positive
    by_cases hneg : r.inclp < 0
    · have hneg' : q.i < 0 := hneg
      rw [if_pos hneg, if_pos hneg']
    · have hneg' : ¬q.i < 0 := hneg
      rw [if_neg hneg, if_neg hneg']
  rw [hl]
  have pa : (Deep.positive q).a = q.a := by unfold Deep.positive; split_ifs <;> rfl
  have pi : Real.cos (Deep.positive q).i = Real.cos q.i := by
    unfold Deep.positive
    split_ifs
    · exact Real.cos_neg _
    · rfl
  have qa : q.a = Deep.a2 g x day t := rfl
  obtain ⟨E, h1, h2, h3⟩ := deep_finish hc (q := Deep.positive q) (s := S) (d := d)
    (p := ⟨(Deep.positive q).e, (Deep.positive q).i, (Deep.positive q).node, (Deep.positive q).w, (Deep.positive q).M⟩) hS1 (by rw [d1, pa, qa]) (by rw [d2, pa, qa]) rfl (by rwa [pi])
    (if (Deep.positive q).e < 0 ∨ 1 < (Deep.positive q).e then 3 else d.error)
  refine ⟨E, h1, fun qa0 hp => ?_, h3⟩
  obtain ⟨k1, k2⟩ := h2 (by rwa [pa]) hp
  refine ⟨?_, k2⟩
  dsimp only
  rw [k1, d8, if_neg (not_le.2 hn)]
  rfl

end S2E.Sgp4
