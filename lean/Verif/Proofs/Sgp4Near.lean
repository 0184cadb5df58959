import Verif.Proofs.Sgp4Report

/-! One near-Earth call of `sgp4` against Spacetrack Report No. 3. -/
namespace S2E.Sgp4

open S2E.InitOrbit (Wgs)
open Report

/-- Two values of one angle. -/
def Turns (x y : ℝ) : Prop := ∃ k : ℤ, y = x + 2 * Real.pi * k

theorem Turns.refl (x : ℝ) : Turns x x := ⟨0, by simp⟩

theorem Turns.fmod (x : ℝ) : Turns x (Julian.fmod x (2 * Real.pi)) := fmod_shift x

theorem Turns.trans {x y z : ℝ} (h : Turns x y) (k : Turns y z) : Turns x z := by
  obtain ⟨i, rfl⟩ := h
  obtain ⟨j, rfl⟩ := k
  exact ⟨i + j, by push_cast; ring⟩

theorem Turns.add {x y u v : ℝ} (h : Turns x y) (k : Turns u v) : Turns (x + u) (y + v) := by
  obtain ⟨i, rfl⟩ := h
  obtain ⟨j, rfl⟩ := k
  exact ⟨i + j, by push_cast; ring⟩

theorem Turns.sub {x y u v : ℝ} (h : Turns x y) (k : Turns u v) : Turns (x - u) (y - v) := by
  obtain ⟨i, rfl⟩ := h
  obtain ⟨j, rfl⟩ := k
  exact ⟨i - j, by push_cast; ring⟩

theorem Turns.sin {x y : ℝ} (h : Turns x y) : Real.sin y = Real.sin x := by
  obtain ⟨k, rfl⟩ := h
  rw [mul_comm]; exact Real.sin_add_int_mul_two_pi x k

theorem Turns.cos {x y : ℝ} (h : Turns x y) : Real.cos y = Real.cos x := by
  obtain ⟨k, rfl⟩ := h
  rw [mul_comm]; exact Real.cos_add_int_mul_two_pi x k

/-! ## Secular effects -/

/-- The bracket of `aT`. -/
noncomputable def bracket (g : Gravity) (x : Elements) (t : ℝ) : ℝ := 1 - C1 g x * t - unlessLow g x (D2 g x * t ^ 2 + D3 g x * t ^ 3 + D4 g x * t ^ 4)

theorem secular_ok {g : Gravity} {x : Elements} {P : Elset} (h : Coefs g x P) (t : ℝ) (error : ℕ) :
    secular { P with t := t, error := error } =
      { mm := Mp g x t, argpm := w g x t, nodem := node g x t, tempa := bracket g x t
        tempe := x.B * C4 g x * t + unlessLow g x (x.B * C5 g x * (Real.sin (Mp g x t) - Real.sin x.M))
        templ := 3 / 2 * C1 g x * t ^ 2
          + unlessLow g x ((D2 g x + 2 * C1 g x ^ 2) * t ^ 3 + 1 / 4 * (3 * D3 g x + 12 * C1 g x * D2 g x + 10 * C1 g x ^ 3) * t ^ 4
            + 1 / 5 * (3 * D4 g x + 12 * C1 g x * D3 g x + 6 * D2 g x ^ 2 + 30 * C1 g x ^ 2 * D2 g x + 15 * C1 g x ^ 4) * t ^ 5) } := by
  have hM : x.M + M' g x * t = MDF g x t := rfl
  unfold secular
  dsimp only
  rw [h.mo, h.mdot, h.argpo, h.argpdot, h.nodeo, h.nodedot, h.nodecf, h.cc1, h.bstar, h.cc4, h.t2cof, hM]
  by_cases hl : Low g x
  · have u : ∀ y, unlessLow g x y = 0 := fun y => if_pos hl
    refine (if_neg (by rw [h.low hl]; simp)).trans ?_
    unfold bracket Mp w node
    simp only [u, Secular.mk.injEq]
    refine ⟨?_, ?_, ?_, ?_, ?_, ?_⟩ <;> ring
  · have u : ∀ y, unlessLow g x y = y := fun y => if_neg hl
    refine (if_pos (by rw [h.high hl]; simp)).trans ?_
    have hdm : P.xmcof * ((1 + P.eta * Real.cos (MDF g x t)) ^ 3 - P.delmo) = dM g x t := by
      rw [h.xmcof, h.eta, h.delmo]
      unfold dM
      split_ifs
      · ring
      · ring
    have hdw : P.omgcof * t = dw g x t := by rw [h.omgcof]; unfold dw; ring
    have hmp : MDF g x t + (dw g x t + dM g x t) = Mp g x t := by unfold Mp; rw [u]
    rw [hdm, hdw, hmp, h.d2 hl, h.d3 hl, h.d4 hl, h.cc5, h.sinmao, h.t3cof hl, h.t4cof hl, h.t5cof hl]
    unfold bracket w node
    simp only [u, Secular.mk.injEq]
    refine ⟨?_, ?_, ?_, ?_, ?_, ?_⟩ <;> first | trivial | ring

theorem drag_ok {c : Consts} {g : Gravity} (hc : ConstsOk c g) {x : Elements} {P : Elset} (h : Coefs g x P) (hn : 0 < n g x) (t : ℝ) (error : ℕ) :
    let s : Elset := { P with t := t, error := error }
    let q := secular s
    let d := drag c s q { em := s.ecco, argpm := q.argpm, inclm := s.inclo, mm := q.mm, nodem := q.nodem, nm := s.no }
    d.am = aT g x t ∧ d.nm = nT g x t ∧ d.em = e g x t ∧ d.inclm = x.i ∧ Turns (IL g x t - w g x t - node g x t) d.mm ∧ Turns (w g x t) d.argpm ∧
      Turns (node g x t) d.nodem ∧ d.error = (if 1 ≤ eRaw g x t ∨ eRaw g x t < -0.001 ∨ aT g x t < 0.95 then 1 else 0) := by
  intro s q d
  have hq : q = _ := secular_ok h t error
  have e1 : s.ecco = x.e := h.ecco
  have e2 : s.inclo = x.i := h.inclo
  have e3 : s.no = n g x := h.no
  have hd : d = drag c s q { em := s.ecco, argpm := q.argpm, inclm := s.inclo, mm := q.mm, nodem := q.nodem, nm := s.no } := rfl
  rw [hq, e1, e2, e3] at hd
  unfold drag at hd
  dsimp only at hd
  rw [e3, hc.ke] at hd
  have ha : (g.ke / n g x) ^ (2 / 3 : ℝ) * bracket g x t * bracket g x t = aT g x t := by
    rw [show (g.ke / n g x) ^ (2 / 3 : ℝ) = a g x from rfl]; unfold aT bracket; ring
  have he : x.e - (x.B * C4 g x * t + unlessLow g x (x.B * C5 g x * (Real.sin (Mp g x t) - Real.sin x.M))) = eRaw g x t := by unfold eRaw; ring
  rw [ha, he] at hd
  rw [hd]
  dsimp only
  refine ⟨rfl, ?_, ?_, rfl, ?_, Turns.fmod _, Turns.fmod _, ?_⟩
  · unfold nT; norm_num
  · unfold Report.e; norm_num
  · refine Turns.trans ?_ (Turns.fmod _)
    refine Turns.sub (Turns.sub (Turns.trans ?_ (Turns.fmod _)) (Turns.fmod _)) (Turns.fmod _)
    refine ⟨0, ?_⟩
    unfold IL; push_cast; ring
  · have h2 : ¬n g x ≤ 0 := not_le.2 hn
    split_ifs <;> rfl

/-! ## Kepler's equation -/

theorem clip (d : ℝ) : (if 0.95 ≤ |d| then (if 0 < d then 0.95 else -0.95) else d : ℝ) = max (-0.95) (min 0.95 d) := by
  by_cases h : 0.95 ≤ |d|
  · rw [if_pos h]
    by_cases h0 : 0 < d
    · rw [if_pos h0, min_eq_left (by rwa [abs_of_pos h0] at h), max_eq_right (by norm_num)]
    · rw [if_neg h0]
      have := abs_of_nonpos (not_lt.1 h0)
      rw [min_eq_right (by linarith), max_eq_left (by linarith)]
  · rw [if_neg h]
    have := abs_lt.1 (not_le.1 h)
    rw [min_eq_right this.2.le, max_eq_right this.1.le]

theorem keplerLoop_ok (u ax ay : ℝ) (m : ℕ) : ∀ (k : ℕ) (tem5 sn cs : ℝ), k + m = 10 →
    (∀ j < k, 1e-12 ≤ |correction u ax ay ((fun y => y + correction u ax ay y)^[j] u)|) → 1e-12 ≤ |tem5| → 0 < m →
    ∃ E, Solved u ax ay E ∧ keplerLoop u ax ay m tem5 ((fun y => y + correction u ax ay y)^[k] u) sn cs = (Real.sin E, Real.cos E) := by
  induction m with
  | zero => intro k t s c _ _ _ h; omega
  | succ m ih =>
    intro k tem5 sn cs hk hj ht _
    have hcond : (1.0e-12 : ℝ) ≤ |tem5| := by norm_num at ht ⊢; exact ht
    unfold keplerLoop
    rw [if_pos hcond]
    dsimp only
    set E := (fun y => y + correction u ax ay y)^[k] u with hE
    have hd : (u - ay * Real.cos E + ax * Real.sin E - E) / (1 - Real.cos E * ax - Real.sin E * ay) =
        (u - (E - ax * Real.sin E + ay * Real.cos E)) / (1 - ax * Real.cos E - ay * Real.sin E) := by congr 1 <;> ring
    rw [hd, clip]
    have hc : max (-0.95) (min 0.95 ((u - (E - ax * Real.sin E + ay * Real.cos E)) / (1 - ax * Real.cos E - ay * Real.sin E))) = correction u ax ay E := rfl
    rw [hc]
    by_cases hlast : 1e-12 ≤ |correction u ax ay E|
    · rcases Nat.eq_zero_or_pos m with rfl | hm
      · refine ⟨E, ⟨k, by omega, rfl, .inr (by omega), hj⟩, ?_⟩
        rfl
      · have e : E + correction u ax ay E = (fun y => y + correction u ax ay y)^[k + 1] u := by rw [Function.iterate_succ_apply']
        rw [e]
        refine ih (k + 1) _ _ _ (by omega) (fun j hjk => ?_) hlast hm
        rcases Nat.lt_succ_iff_lt_or_eq.1 hjk with h | rfl
        · exact hj j h
        · exact hlast
    · refine ⟨E, ⟨k, by omega, rfl, .inl (not_le.1 hlast), hj⟩, ?_⟩
      cases m with
      | zero => rfl
      | succ m =>
        unfold keplerLoop
        rw [if_neg]
        intro h
        apply hlast
        norm_num at h ⊢; exact h

theorem correction_turns (u ax ay E : ℝ) (k : ℤ) : correction (u + 2 * Real.pi * k) ax ay (E + 2 * Real.pi * k) = correction u ax ay E := by
  unfold correction
  rw [(show Turns E (E + 2 * Real.pi * k) from ⟨k, rfl⟩).sin, (show Turns E (E + 2 * Real.pi * k) from ⟨k, rfl⟩).cos]
  dsimp only
  rw [show u + 2 * Real.pi * k - (E + 2 * Real.pi * k - ax * Real.sin E + ay * Real.cos E) = u - (E - ax * Real.sin E + ay * Real.cos E) by ring]

theorem iterate_turns (u ax ay : ℝ) (k : ℤ) (j : ℕ) :
    (fun y => y + correction (u + 2 * Real.pi * k) ax ay y)^[j] (u + 2 * Real.pi * k) = (fun y => y + correction u ax ay y)^[j] u + 2 * Real.pi * k := by
  induction j with
  | zero => rfl
  | succ j ih =>
    rw [Function.iterate_succ_apply', Function.iterate_succ_apply', ih, correction_turns]; ring

theorem solved_turns {u v ax ay E : ℝ} (huv : Turns u v) (h : Solved v ax ay E) : ∃ F, Solved u ax ay F ∧ Turns F E := by
  obtain ⟨k, rfl⟩ := huv
  obtain ⟨m, hm, rfl, h1, h2⟩ := h
  refine ⟨(fun y => y + correction u ax ay y)^[m] u, ⟨m, hm, rfl, ?_, fun j hj => ?_⟩, k, ?_⟩
  · rwa [iterate_turns, correction_turns] at h1
  · have := h2 j hj
    rwa [iterate_turns, correction_turns] at this
  · rw [iterate_turns]

/-! ## Short-period periodics -/

/-- The pair `(cosu, sinu)` of the equations lies on the unit circle. -/
theorem unit_circle (A ax ay c s b r : ℝ) (hcs : s ^ 2 + c ^ 2 = 1) (hb : b ^ 2 = 1 - (ax ^ 2 + ay ^ 2)) (hb1 : 1 + b ≠ 0) (hr : r = A * (1 - (ax * c + ay * s)))
    (hr0 : r ≠ 0) :
    (A / r * (s - ay - ax * (ax * s - ay * c) / (1 + b))) ^ 2 + (A / r * (c - ax + ay * (ax * s - ay * c) / (1 + b))) ^ 2 = 1 := by
  have hA : A ≠ 0 := by rintro rfl; exact hr0 (by rw [hr]; ring)
  have h1 : 1 - (ax * c + ay * s) ≠ 0 := by intro h; exact hr0 (by rw [hr, h]; ring)
  subst hr
  have key : (s - ay - ax * (ax * s - ay * c) / (1 + b)) ^ 2 + (c - ax + ay * (ax * s - ay * c) / (1 + b)) ^ 2 = (1 - (ax * c + ay * s)) ^ 2 := by
    field_simp
    clear * - hcs hb
    grind
  have e : A / (A * (1 - (ax * c + ay * s))) = 1 / (1 - (ax * c + ay * s)) := by field_simp
  rw [e]
  have : ∀ y z : ℝ, (1 / (1 - (ax * c + ay * s)) * y) ^ 2 + (1 / (1 - (ax * c + ay * s)) * z) ^ 2 = (y ^ 2 + z ^ 2) / (1 - (ax * c + ay * s)) ^ 2 := fun y z => by field_simp
  rw [this, key]
  field_simp

theorem arg_cos_sin (c s : ℝ) (h : s ^ 2 + c ^ 2 = 1) : Real.cos (Complex.arg ⟨c, s⟩) = c ∧ Real.sin (Complex.arg ⟨c, s⟩) = s := by
  have hn : ‖(⟨c, s⟩ : ℂ)‖ = 1 := by
    rw [Complex.norm_def, Complex.normSq_mk, Real.sqrt_eq_one]; linarith
  have h0 : (⟨c, s⟩ : ℂ) ≠ 0 := by intro h0; rw [h0, norm_zero] at hn; norm_num at hn
  rw [Complex.cos_arg h0, Complex.sin_arg, hn]; simp

theorem ecosE_lt {ax ay E : ℝ} (h : ax ^ 2 + ay ^ 2 < 1) : ax * Real.cos E + ay * Real.sin E < 1 := by
  have := Real.sin_sq_add_cos_sq E
  nlinarith [sq_nonneg (ax - Real.cos E), sq_nonneg (ay - Real.sin E)]

/-- The radius of the equations is positive. -/
theorem r_pos {g : Gravity} {x : Elements} {t : ℝ} (E : ℝ) (ha : 0 < aT g x t) (hp : 0 < pL g x t) :
    0 < r g x t E ∧ axN g x t ^ 2 + ayN g x t ^ 2 < 1 ∧ eL g x t ^ 2 = axN g x t ^ 2 + ayN g x t ^ 2 := by
  have h2 : eL g x t ^ 2 = axN g x t ^ 2 + ayN g x t ^ 2 := Real.sq_sqrt (by positivity)
  have h1 : axN g x t ^ 2 + ayN g x t ^ 2 < 1 := by
    unfold pL at hp
    rw [h2] at hp
    have := (mul_pos_iff_of_pos_left ha).1 hp
    linarith
  exact ⟨mul_pos ha (by have := ecosE_lt (E := E) h1; unfold ecosE; linarith), h1, h2⟩

theorem u_cos_sin {g : Gravity} {x : Elements} {t : ℝ} (E : ℝ) (ha : 0 < aT g x t) (hp : 0 < pL g x t) :
    Real.cos (u g x t E) = cosu g x t E ∧ Real.sin (u g x t E) = sinu g x t E ∧ sinu g x t E ^ 2 + cosu g x t E ^ 2 = 1 := by
  obtain ⟨h1, h2, h3⟩ := r_pos E ha hp
  have hu : sinu g x t E ^ 2 + cosu g x t E ^ 2 = 1 := by
    unfold sinu cosu esinE
    refine unit_circle _ _ _ _ _ _ _ (Real.sin_sq_add_cos_sq E) ?_ ?_ rfl h1.ne'
    · rw [Real.sq_sqrt (by rw [h3]; linarith), h3]
    · have := Real.sqrt_nonneg (1 - eL g x t ^ 2); linarith
  have := arg_cos_sin _ _ hu
  exact ⟨this.1, this.2, hu⟩

theorem shortPeriod_ok {c : Consts} {g : Gravity} (hc : ConstsOk c g) {x : Elements} {s : Elset} {t E : ℝ} (hm : s.method = 'n') (h1 : s.con41 = 3 * th x ^ 2 - 1)
    (h2 : s.x1mth2 = 1 - th x ^ 2) (h3 : s.x7thm1 = 7 * th x ^ 2 - 1) (ha : 0 < aT g x t) (hp : 0 < pL g x t) (nodep : ℝ) (hn : Turns (node g x t) nodep)
    (error : ℕ) (he : error = (if 1 ≤ eRaw g x t ∨ eRaw g x t < -0.001 ∨ aT g x t < 0.95 then 1 else 0)) :
    let o := shortPeriod c s (aT g x t) (nT g x t) (Real.sin x.i) (Real.cos x.i) (axN g x t) (ayN g x t) (Real.sin E) (Real.cos E) x.i nodep error
    o.elset.error = code g x t E ∧ o.written = some (position g x t E, velocity g x t E) := by
  intro o
  obtain ⟨r1, r2, r3⟩ := r_pos E ha hp
  obtain ⟨u1, u2, u3⟩ := u_cos_sin E ha hp
  have hpl : aT g x t * (1 - (axN g x t * axN g x t + ayN g x t * ayN g x t)) = pL g x t := by unfold pL; rw [r3]; ring
  have hel : 1 - (axN g x t * axN g x t + ayN g x t * ayN g x t) = 1 - eL g x t ^ 2 := by rw [r3]; ring
  have hk := hc.ke_pos.ne'
  have hj : c.j2 = 2 * k2 g := by rw [hc.j2]; unfold k2; ring
  have hnd : ¬s.method = 'd' := by rw [hm]; decide
  have ho : o = shortPeriod c s (aT g x t) (nT g x t) (Real.sin x.i) (Real.cos x.i) (axN g x t) (ayN g x t) (Real.sin E) (Real.cos E) x.i nodep error := rfl
  unfold shortPeriod at ho
  dsimp only at ho
  rw [hpl, hel, if_neg (not_lt.2 hp.le), if_neg hnd, h1, h2, h3, hj, hc.radius, hc.ke] at ho
  have e1 : axN g x t * Real.sin E - ayN g x t * Real.cos E = esinE g x t E := rfl
  have e2 : axN g x t * Real.cos E + ayN g x t * Real.sin E = ecosE g x t E := rfl
  have e3 : aT g x t * (1 - ecosE g x t E) = r g x t E := rfl
  rw [e1, e2, e3] at ho
  have e4 : aT g x t / r g x t E * (Real.sin E - ayN g x t - axN g x t * (esinE g x t E / (1 + Real.sqrt (1 - eL g x t ^ 2)))) = sinu g x t E := by unfold sinu; ring
  have e5 : aT g x t / r g x t E * (Real.cos E - axN g x t + ayN g x t * (esinE g x t E / (1 + Real.sqrt (1 - eL g x t ^ 2)))) = cosu g x t E := by unfold cosu; ring
  rw [e4, e5] at ho
  have e6 : atan2 (sinu g x t E) (cosu g x t E) = u g x t E := rfl
  have e7 : (cosu g x t E + cosu g x t E) * sinu g x t E = Real.sin (2 * u g x t E) := by rw [Real.sin_two_mul, u1, u2]; ring
  have e8 : 1 - 2 * sinu g x t E * sinu g x t E = Real.cos (2 * u g x t E) := by rw [Real.cos_two_mul', u1, u2]; linear_combination -u3
  rw [e6, e7, e8] at ho
  have hct : Real.cos x.i = th x := rfl
  have hpn := hp.ne'
  have e9 : r g x t E * (1 - 1.5 * (0.5 * (2 * k2 g) * (1 / pL g x t) * (1 / pL g x t)) * Real.sqrt (1 - eL g x t ^ 2) * (3 * th x ^ 2 - 1)) +
      0.5 * (0.5 * (2 * k2 g) * (1 / pL g x t)) * (1 - th x ^ 2) * Real.cos (2 * u g x t E) = rk g x t E := by unfold rk; ring
  have e10 : u g x t E - 0.25 * (0.5 * (2 * k2 g) * (1 / pL g x t) * (1 / pL g x t)) * (7 * th x ^ 2 - 1) * Real.sin (2 * u g x t E) = uk g x t E := by unfold uk; ring
  have e11 : Turns (nodek g x t E) (nodep + 1.5 * (0.5 * (2 * k2 g) * (1 / pL g x t) * (1 / pL g x t)) * Real.cos x.i * Real.sin (2 * u g x t E)) := by
    have : nodek g x t E = node g x t + 1.5 * (0.5 * (2 * k2 g) * (1 / pL g x t) * (1 / pL g x t)) * Real.cos x.i * Real.sin (2 * u g x t E) := by
      unfold nodek; rw [hct]; ring
    rw [this]
    exact hn.add (Turns.refl _)
  have e12 : x.i + 1.5 * (0.5 * (2 * k2 g) * (1 / pL g x t) * (1 / pL g x t)) * Real.cos x.i * Real.sin x.i * Real.cos (2 * u g x t E) = ik g x t E := by
    unfold ik; rw [hct]; ring
  rw [e9, e10, e11.sin, e11.cos, e12] at ho
  have e13 : Real.sqrt (aT g x t) * esinE g x t E / r g x t E - nT g x t * (0.5 * (2 * k2 g) * (1 / pL g x t)) * (1 - th x ^ 2) * Real.sin (2 * u g x t E) / g.ke
      = rdotk g x t E / g.ke := by unfold rdotk rdot; field_simp; ring
  have e14 : Real.sqrt (pL g x t) / r g x t E + nT g x t * (0.5 * (2 * k2 g) * (1 / pL g x t)) * ((1 - th x ^ 2) * Real.cos (2 * u g x t E) + 1.5 * (3 * th x ^ 2 - 1)) / g.ke
      = rfdotk g x t E / g.ke := by unfold rfdotk rfdot; field_simp; ring
  rw [e13, e14] at ho
  rw [ho]
  refine ⟨?_, ?_⟩
  · dsimp only
    rw [he]; rfl
  · dsimp only
    congr 1
    refine Prod.ext ?_ ?_
    · funext k
      unfold position Uv Mv Nv
      fin_cases k <;> simp only [Matrix.cons_val, Fin.zero_eta, Fin.mk_one, Fin.reduceFinMk] <;> ring
    · funext k
      unfold velocity Uv Vv Mv Nv
      fin_cases k <;> simp only [Matrix.cons_val, Fin.zero_eta, Fin.mk_one, Fin.reduceFinMk] <;> field_simp <;> ring

/-- One call with a near-Earth record. -/
theorem advance_ok {c : Consts} {g : Gravity} (hc : ConstsOk c g) {x : Elements} {P : Elset} (h : Coefs g x P) (hn : 0 < n g x) (t : ℝ) (error fuel : ℕ) :
    ∃ E out, advance fuel c { P with t := t, error := error } = .ok out ∧ Solved (U g x t) (axN g x t) (ayN g x t) E ∧
      (0 < aT g x t → 0 < pL g x t → out.elset.error = code g x t E ∧ out.written = some (position g x t E, velocity g x t E)) ∧
      (pL g x t < 0 → out.elset.error = 6 ∧ out.written = none) := by
  have hnd : ¬P.method = 'd' := by rw [h.method]; decide
  have hd := drag_ok hc h hn t error
  dsimp only at hd
  unfold advance
  dsimp only
  rw [if_neg hnd]
  simp only [Res.bind]
  generalize drag c _ _ _ = d at hd ⊢
  obtain ⟨d1, d2, d3, d4, d5, d6, d7, d8⟩ := hd
  have hl : lunisolar { P with t := t, error := error } d = (⟨d.em, d.inclm, d.nodem, d.argpm, d.mm⟩, d.error) := if_neg hnd
  rw [hl]
  unfold finish
  have hlp : ∀ i, longPeriod c { P with t := t, error := error } i = { P with t := t, error := error } := fun i => if_neg hnd
  dsimp only
  rw [hlp, if_neg hnd, if_neg hnd, d1, d2, d3, d4, d6.cos, d6.sin]
  dsimp only
  rw [h.aycof, h.xlcof]
  have e1 : e g x t * Real.cos (w g x t) = axN g x t := rfl
  have e2 : e g x t * Real.sin (w g x t) + 1 / (aT g x t * (1 - e g x t * e g x t)) * (A30 g * Real.sin x.i / (4 * k2 g)) = ayN g x t := by
    unfold ayN; simp only [one_div, div_eq_mul_inv, mul_inv, sq]; ring
  have e3 : 1 / (aT g x t * (1 - e g x t * e g x t)) * (A30 g * Real.sin x.i / (8 * k2 g) * ((3 + 5 * th x) / (1 + th x))) * axN g x t = ILL g x t := by
    unfold ILL axN; simp only [one_div, div_eq_mul_inv, mul_inv, sq]; ring
  rw [e1, e2, e3]
  have hu : Turns (U g x t) (Julian.fmod (d.mm + d.argpm + d.nodem + ILL g x t - d.nodem) (2 * Real.pi)) := by
    refine Turns.trans ?_ (Turns.fmod _)
    have := (((d5.add d6).add d7).add (Turns.refl (ILL g x t))).sub d7
    rwa [show IL g x t - w g x t - node g x t + w g x t + node g x t + ILL g x t - node g x t = U g x t by unfold U; ring] at this
  generalize Julian.fmod (d.mm + d.argpm + d.nodem + ILL g x t - d.nodem) (2 * Real.pi) = v at hu ⊢
  obtain ⟨E', hS, hE'⟩ := keplerLoop_ok v (axN g x t) (ayN g x t) 10 0 9999.9 (Real.sin v) (Real.cos v) rfl (fun j hj => by omega) (by norm_num) (by norm_num)
  obtain ⟨E, hS2, hEE⟩ := solved_turns hu hS
  rw [Function.iterate_zero_apply] at hE'
  rw [hE', hEE.sin, hEE.cos]
  refine ⟨E, _, rfl, hS2, fun ha hp => ?_, fun hp => ?_⟩
  · exact shortPeriod_ok hc (by exact h.method) (by exact h.con41) (by exact h.x1mth2) (by exact h.x7thm1) ha hp d.nodem d7 d.error d8
  · have h2 : eL g x t ^ 2 = axN g x t ^ 2 + ayN g x t ^ 2 := Real.sq_sqrt (by positivity)
    have hpl : aT g x t * (1 - (axN g x t * axN g x t + ayN g x t * ayN g x t)) = pL g x t := by unfold pL; rw [h2]; ring
    unfold shortPeriod
    dsimp only
    rw [hpl, if_pos hp]
    exact ⟨if_pos (by norm_num), rfl⟩

end S2E.Sgp4
