import Verif.Props.Sgp4Report
import Verif.Spec.TwoBody

/-!
# C176: the codes of `sgp4` and the geometry of what it writes

C177: without drag the motion of a near-Earth set is the same from every epoch.
-/
namespace S2E.Sgp4

open S2E.InitOrbit (Wgs)
open S2E.TwoBody (dot cross len)

/-- The normal of an orbit plane with node `W` and inclination `i`. -/
noncomputable def normal (W i : ℝ) : Vec 3 := ![Real.sin W * Real.sin i, -(Real.cos W * Real.sin i), Real.cos i]

/-- What the last part writes. -/
theorem shortPeriod_shape (c : Consts) (hR : 0 < c.radius) (s : Elset) (am nm si co ax ay se ce x y : ℝ) (error : ℕ) :
    let o := shortPeriod c s am nm si co ax ay se ce x y error
    (o.written = none ∧ o.elset.error = 6) ∨
      ∃ r v W i m h, o.written = some (r, v) ∧ dot r (normal W i) = 0 ∧ dot v (normal W i) = 0 ∧ len r = c.radius * |m| ∧
        (∀ k, cross r v k = h * normal W i k) ∧ o.elset.error = (if m < 1 then 6 else error) := by
  intro o
  have ho : o = shortPeriod c s am nm si co ax ay se ce x y error := rfl
  unfold shortPeriod at ho
  dsimp only at ho
  by_cases hp : am * (1 - (ax * ax + ay * ay)) < 0
  · rw [if_pos hp] at ho
    rw [ho]
    exact .inl ⟨rfl, if_pos (by norm_num)⟩
  · rw [if_neg hp] at ho
    generalize (if s.method = 'd' then _ else s : Elset) = s1 at ho
    right
    rw [ho]
    dsimp only
    generalize am * (1 - (ax * ce + ay * se)) * _ + _ = m
    generalize atan2 _ _ - _ = su
    generalize y + _ = W
    generalize x + _ = i
    generalize Real.sqrt am * _ / _ - _ = mv
    generalize Real.sqrt _ / _ + _ = rv
    refine ⟨_, _, W, i, m, m * c.radius * (rv * (c.radius * c.xke / 60)), rfl, ?_, ?_, ?_, ?_, rfl⟩
    · have h2 := Real.sin_sq_add_cos_sq W
      simp only [dot, normal, Matrix.cons_val]
      clear * - h2
      grind
    · have h2 := Real.sin_sq_add_cos_sq W
      simp only [dot, normal, Matrix.cons_val]
      clear * - h2
      grind
    · unfold len
      simp only [Matrix.cons_val]
      have h1 := Real.sin_sq_add_cos_sq su
      have h2 := Real.sin_sq_add_cos_sq W
      have h3 := Real.sin_sq_add_cos_sq i
      have : (m * (-Real.sin W * Real.cos i * Real.sin su + Real.cos W * Real.cos su) * c.radius) ^ 2 +
          (m * (Real.cos W * Real.cos i * Real.sin su + Real.sin W * Real.cos su) * c.radius) ^ 2 + (m * (Real.sin i * Real.sin su) * c.radius) ^ 2
          = (c.radius * |m|) ^ 2 := by
        rw [mul_pow c.radius, sq_abs]
        clear * - h1 h2 h3
        grind
      rw [this, Real.sqrt_sq (by positivity)]
    · have h1 := Real.sin_sq_add_cos_sq su
      have h2 := Real.sin_sq_add_cos_sq W
      intro k
      simp only [cross, normal, Matrix.cons_val]
      generalize c.radius * c.xke / 60 = V
      fin_cases k <;> simp only [Matrix.cons_val, Fin.zero_eta, Fin.mk_one, Fin.reduceFinMk] <;> clear * - h1 h2 <;> grind

theorem earlyCode_range (c : Consts) (s s' : Elset) (q : Secular) (m : Mean) :
    (lunisolar s (drag c s' q m)).2 ∈ ({0, 1, 2, 3} : Set ℕ) ∧
      (s.method ≠ 'd' → (lunisolar s (drag c s' q m)).2 = if 1 ≤ m.em - q.tempe ∨ m.em - q.tempe < -0.001 ∨ (drag c s' q m).am < 0.95 then 1 else if m.nm ≤ 0 then 2 else 0) := by
  have hd : (drag c s' q m).error = if 1 ≤ m.em - q.tempe ∨ m.em - q.tempe < -0.001 ∨ (drag c s' q m).am < 0.95 then 1 else if m.nm ≤ 0 then 2 else 0 := rfl
  have hd2 : (drag c s' q m).error ∈ ({0, 1, 2, 3} : Set ℕ) := by rw [hd]; split_ifs <;> simp
  generalize drag c s' q m = d at *
  unfold lunisolar
  dsimp only
  by_cases hm : s.method = 'd'
  · rw [if_pos hm]
    refine ⟨?_, fun h => absurd hm h⟩
    dsimp only
    generalize dpper _ _ _ _ = p
    by_cases h : (if p.inclp < 0 then { p with inclp := -p.inclp, nodep := p.nodep + Real.pi, argpp := p.argpp - Real.pi } else p : Periodic).ep < 0 ∨
        1 < (if p.inclp < 0 then { p with inclp := -p.inclp, nodep := p.nodep + Real.pi, argpp := p.argpp - Real.pi } else p : Periodic).ep
    · rw [if_pos h]; simp
    · rw [if_neg h]; exact hd2
  · rw [if_neg hm]; exact ⟨hd2, fun _ => hd⟩

theorem finish_shape (c : Consts) (s : Elset) (d : Drag) (p : Periodic) (e : ℕ) :
    ∃ s' am nm si co ax ay se ce x y, finish c s d p e = shortPeriod c s' am nm si co ax ay se ce x y e := ⟨_, _, _, _, _, _, _, _, _, _, _, rfl⟩

/-- C176: every call of `sgp4`, with any record (near-Earth or deep-space, whatever its members are) and any time, returns 0, 1, 2, 3 or 6: the codes 4 and 5 of
the header never come back. Position and velocity lie in one plane through the centre of the Earth. A code other than 6 means that they were written and that
the satellite is not below the surface: a position left unwritten, and a position below the surface, always have the code 6. -/
theorem C176_codes (fuel : ℕ) (w : Wgs) (s : Elset) (t : ℝ) (out : Out) (h : sgp4 fuel w s t = .ok out) :
    let R := (Report.gravity w).radius
    out.elset.error ∈ ({0, 1, 2, 3, 6} : Set ℕ) ∧
      (out.written = none → out.elset.error = 6) ∧
      (∀ r v, out.written = some (r, v) →
        (len r < R → out.elset.error = 6) ∧ (out.elset.error ≠ 6 → R ≤ len r) ∧
        ∃ W i a, dot r (normal W i) = 0 ∧ dot v (normal W i) = 0 ∧ ∀ k, cross r v k = a * normal W i k) := by
  intro R
  have hc := consts_ok w
  have hR : (consts w).radius = R := hc.radius
  have hR0 : 0 < (consts w).radius := by rw [hR]; exact hc.radius_pos
  have key : ∃ e ∈ ({0, 1, 2, 3} : Set ℕ), ∃ s am nm si co ax ay se ce x y, out = shortPeriod (consts w) s am nm si co ax ay se ce x y e := by
    unfold sgp4 advance at h
    dsimp only at h
    generalize secular _ = q at h
    rcases h1 : (if s.method = 'd' then dspace fuel _ _ else .ok (_, _) : Res (Elset × Mean)) with z | _ | _ | _ <;> rw [h1] at h <;>
      simp only [Res.bind, reduceCtorEq] at h
    obtain rfl := Res.ok.inj h
    exact ⟨_, (earlyCode_range (consts w) z.1 z.1 q z.2).1, finish_shape ..⟩
  obtain ⟨e, he, s1, am, nm, si, co, ax, ay, se, ce, x, y, rfl⟩ := key
  rcases shortPeriod_shape (consts w) hR0 s1 am nm si co ax ay se ce x y e with ⟨h1, h2⟩ | ⟨r, v, W, i, m, a, h1, h2, h3, h4, h5, h6⟩
  · rw [h1, h2]
    exact ⟨by simp, fun _ => rfl, fun r v h => by cases h⟩
  · rw [h1, h6]
    refine ⟨?_, (fun h => by cases h), fun r' v' h => ?_⟩
    · split_ifs
      · simp
      · rcases he with rfl | rfl | rfl | rfl <;> simp
    · obtain ⟨rfl, rfl⟩ := Prod.mk.inj (Option.some.inj h)
      have h7 : ¬m < 1 → R ≤ len r := fun hm => by
        rw [h4, hR, abs_of_nonneg (by linarith)]
        nlinarith
      refine ⟨fun hl => ?_, fun hl => ?_, W, i, a, h2, h3, h5⟩
      · by_contra hn
        have : ¬m < 1 := fun k => hn (if_pos k)
        exact absurd (h7 this) (not_le.2 hl)
      · exact h7 fun k => hl (if_pos k)

/-- The circular set of C175 meets the hypothesis, with the code 0. -/
example (epoch t : ℝ) (old : Elset) : ∃ s out r v, sgp4 1 .wgs72old s t = .ok out ∧ out.elset.error = 0 ∧ out.written = some (r, v) ∧ 6378.135 ≤ len r := by
  obtain ⟨s, h1, _⟩ := C175_init 1 .wgs72old epoch exSet exSet_regular old
  obtain ⟨E, out, j3, _, j4, _⟩ := C175_report 1 1 .wgs72old epoch exSet exSet_regular old s s [] t h1 rfl
  obtain ⟨t1, t2, t3, t4⟩ := exSet_time t E
  obtain ⟨j5, j6⟩ := j4 t1 t2 t3
  have := (((C176_codes 1 .wgs72old s t out j3).2.2 _ _ j6).2.1 (by rw [j5, t4]; norm_num))
  exact ⟨s, out, _, _, j3, j5.trans t4, j6, this⟩

/-! ## C177 -/

section
open Report

/-- The element set `t` minutes later, when there is no drag: the angles have moved at their constant rates. -/
noncomputable def moved (g : Gravity) (x : Elements) (t : ℝ) : Elements := { x with M := x.M + M' g x * t, w := x.w + w' g x * t, node := x.node + node' g x * t }

variable {g : Gravity} {x : Elements}

theorem unlessLow_zero : unlessLow g x 0 = 0 := by unfold unlessLow; split_ifs <;> rfl

theorem noDrag (hB : x.B = 0) (t : ℝ) :
    Mp g x t = x.M + M' g x * t ∧ w g x t = x.w + w' g x * t ∧ node g x t = x.node + node' g x * t ∧ eRaw g x t = x.e ∧ aT g x t = a g x ∧
      IL g x t = Mp g x t + w g x t + node g x t := by
  have hC1 : C1 g x = 0 := by unfold C1; rw [hB]; ring
  have hD2 : D2 g x = 0 := by unfold D2; rw [hC1]; ring
  have hD3 : D3 g x = 0 := by unfold D3; rw [hC1]; ring
  have hD4 : D4 g x = 0 := by unfold D4; rw [hC1]; ring
  have hdw : dw g x t = 0 := by unfold dw; rw [hB]; ring
  have hdM : dM g x t = 0 := by unfold dM; rw [hB]; split_ifs <;> ring
  refine ⟨?_, ?_, ?_, ?_, ?_, ?_⟩
  · unfold Mp; rw [hdw, hdM, add_zero, unlessLow_zero]; unfold MDF; ring
  · unfold w; rw [hdw, hdM, add_zero, unlessLow_zero]; ring
  · unfold node; rw [hC1]; ring
  · unfold eRaw; rw [hB, zero_mul, zero_mul, zero_mul, zero_mul, unlessLow_zero]; ring
  · unfold aT; rw [hC1, hD2, hD3, hD4, show (0 : ℝ) * t ^ 2 + 0 * t ^ 3 + 0 * t ^ 4 = 0 by ring, unlessLow_zero]; ring
  · unfold IL
    rw [hC1, hD2, hD3, hD4, show ((0 : ℝ) + 2 * 0 ^ 2) * t ^ 3 + 1 / 4 * (3 * 0 + 12 * 0 * 0 + 10 * 0 ^ 3) * t ^ 4 + 1 / 5 * (3 * 0 + 12 * 0 * 0 + 6 * 0 ^ 2 + 30 * 0 ^ 2 * 0 + 15 * 0 ^ 4) * t ^ 5 = 0 by ring, unlessLow_zero]
    ring

theorem moved_rates (t : ℝ) : M' g (moved g x t) = M' g x ∧ w' g (moved g x t) = w' g x ∧ node' g (moved g x t) = node' g x := ⟨rfl, rfl, rfl⟩

theorem moved_regular (hx : Regular g x) (t : ℝ) : Regular g (moved g x t) :=
  ⟨hx.e0, hx.e1, hx.no_pos, hx.n_pos, hx.near, hx.incl, hx.aOld_ne, hx.s_ne, hx.psi_ne⟩

theorem secular_moved (hB : x.B = 0) {P Q : Elset} (hP : Coefs g x P) (t0 t : ℝ) (hQ : Coefs g (moved g x t0) Q) :
    secular { P with t := t0 + t, error := 0 } = secular { Q with t := t, error := 0 } := by
  have hB' : (moved g x t0).B = 0 := hB
  obtain ⟨a1, a2, a3, _, _, _⟩ := noDrag (g := g) hB (t0 + t)
  obtain ⟨b1, b2, b3, _, _, _⟩ := noDrag (g := g) hB' t
  obtain ⟨m1, m2, m3⟩ := moved_rates (g := g) (x := x) t0
  have c1 : ∀ z : Elements, z.B = 0 → C1 g z = 0 ∧ D2 g z = 0 ∧ D3 g z = 0 ∧ D4 g z = 0 := fun z hz => by
    have hC1 : C1 g z = 0 := by unfold C1; rw [hz]; ring
    refine ⟨hC1, ?_, ?_, ?_⟩
    · unfold D2; rw [hC1]; ring
    · unfold D3; rw [hC1]; ring
    · unfold D4; rw [hC1]; ring
  obtain ⟨p1, p2, p3, p4⟩ := c1 x hB
  obtain ⟨q1, q2, q3, q4⟩ := c1 _ hB'
  rw [secular_ok hP, secular_ok hQ]
  unfold bracket
  rw [a1, a2, a3, b1, b2, b3, m1, m2, m3, p1, p2, p3, p4, q1, q2, q3, q4, hB, hB']
  simp only [zero_mul, mul_zero, add_zero, ne_eq, OfNat.ofNat_ne_zero, not_false_eq_true, zero_pow, unlessLow_zero]
  simp only [moved, Secular.mk.injEq, and_true]
  refine ⟨?_, ?_, ?_⟩ <;> ring

theorem advance_near (fuel : ℕ) (c : Consts) {P Q : Elset} (hP : P.method = 'n') (hQ : Q.method = 'n') (h : secular P = secular Q)
    (e1 : P.ecco = Q.ecco) (e2 : P.inclo = Q.inclo) (e3 : P.no = Q.no) (e4 : P.aycof = Q.aycof) (e5 : P.xlcof = Q.xlcof) (e6 : P.con41 = Q.con41)
    (e7 : P.x1mth2 = Q.x1mth2) (e8 : P.x7thm1 = Q.x7thm1) : observe (advance fuel c P) = observe (advance fuel c Q) := by
  have nP : ¬P.method = 'd' := by rw [hP]; decide
  have nQ : ¬Q.method = 'd' := by rw [hQ]; decide
  unfold advance
  dsimp only
  rw [if_neg nP, if_neg nQ, h, e1, e2, e3]
  simp only [Res.bind, observe]
  have hd : ∀ q m, drag c P q m = drag c Q q m := fun q m => by unfold drag; rw [e3]
  rw [hd]
  generalize drag c Q _ _ = d
  have l : ∀ S : Elset, ¬S.method = 'd' → lunisolar S d = (⟨d.em, d.inclm, d.nodem, d.argpm, d.mm⟩, d.error) := fun S hS => if_neg hS
  rw [l P nP, l Q nQ]
  have lp : ∀ (S : Elset) (i : ℝ), ¬S.method = 'd' → longPeriod c S i = S := fun S i hS => if_neg hS
  unfold finish
  dsimp only
  rw [lp P _ nP, lp Q _ nQ, if_neg nP, if_neg nQ, if_neg nP, if_neg nQ, e4, e5]
  obtain ⟨f1, f2⟩ := shortPeriod_congr c (s := Q) (s' := P) (by rw [hP, hQ]) (fun _ => ⟨e6, e7, e8⟩) d.am d.nm (Real.sin d.inclm) (Real.cos d.inclm) (d.em * Real.cos d.argpm)
    (d.em * Real.sin d.argpm + 1 / (d.am * (1 - d.em * d.em)) * Q.aycof) _ _ d.inclm d.nodem d.error
  rw [f1, f2]

end

/-- C177: without drag (`B*` is zero) a near-Earth set has no preferred epoch: propagating it to `t0 + t` gives the same code, position and velocity as
propagating by `t` the set whose angles were moved to `t0` at their constant rates. -/
theorem C177_epoch (fuel fuel' : ℕ) (set : Wgs) (epoch epoch' : ℝ) (x : Report.Elements) (hx : Report.Regular (Report.gravity set) x) (hB : x.B = 0)
    (old old' s s' : Elset) (t0 t : ℝ) (hs : sgp4init fuel set epoch x.B x.e x.w x.i x.M x.no x.node old = .ok s)
    (hs' : let y := moved (Report.gravity set) x t0
      sgp4init fuel set epoch' y.B y.e y.w y.i y.M y.no y.node old' = .ok s') :
    observe (sgp4 fuel' set s (t0 + t)) = observe (sgp4 fuel' set s' t) := by
  have hP := coefs_ok set epoch x old hx
  have hQ := coefs_ok set epoch' _ old' (moved_regular hx t0)
  rw [(init_same _ _ _ _ _ _ _ _ _ _ _ _ hs).sgp4, (init_same _ _ _ _ _ _ _ _ _ _ _ _ hs').sgp4]
  have hsec := secular_moved hB hP t0 t hQ
  generalize prepare set epoch x.B x.e x.w x.i x.M x.no x.node old = P at *
  generalize prepare set epoch' _ _ _ _ _ _ _ old' = Q at *
  exact advance_near fuel' (consts set) hP.method hQ.method hsec (hP.ecco.trans hQ.ecco.symm) (hP.inclo.trans hQ.inclo.symm) (hP.no.trans hQ.no.symm)
    (hP.aycof.trans hQ.aycof.symm) (hP.xlcof.trans hQ.xlcof.symm) (hP.con41.trans hQ.con41.symm) (hP.x1mth2.trans hQ.x1mth2.symm) (hP.x7thm1.trans hQ.x7thm1.symm)

/-- The circular set of C175 has no drag, and its angles do move. -/
example : exSet.B = 0 ∧ Report.Regular (Report.gravity .wgs72old) exSet ∧ Report.node' (Report.gravity .wgs72old) exSet < 0 := by
  refine ⟨rfl, exSet_regular, ?_⟩
  obtain ⟨h1, h2, _⟩ := exSet_n
  have hb : Report.beta exSet = 1 := by unfold Report.beta; norm_num [exSet]
  have ht := exSet_th.1
  have h0 : 0 < Report.th exSet := lt_of_le_of_ne exSet_th.2 fun h => by rw [← h] at ht; norm_num at ht
  have h3 : Report.th exSet ^ 3 = Report.th exSet / 3 := by rw [pow_succ, ht]; ring
  unfold Report.node'
  rw [h1, h2, hb, h3, ht]
  have hn : 0 < exSet.no := by norm_num [exSet]
  have hk : Report.k2 (Report.gravity .wgs72old) = 0.000541308 := by norm_num [Report.k2, Report.gravity]
  have hk4 : Report.k4 (Report.gravity .wgs72old) = 3 / 8 * 0.00000165597 := by norm_num [Report.k4, Report.gravity]
  rw [hk, hk4]
  refine mul_neg_of_neg_of_pos ?_ hn
  norm_num
  linarith

end S2E.Sgp4
