import Verif.Model.Sgp4Orbit
import Verif.Props.Sgp4Codes
import Verif.Props.Sgp4History
import Verif.Props.Tle
import Mathlib.Analysis.Real.Pi.Bounds

/-!
# C178: the SGP4 orbit, from the two lines of the file to the position
-/
namespace S2E.Sgp4

open S2E.InitOrbit (Wgs wgsOf)
open S2E.Log (Str)
open S2E.TwoBody (len)

/-- What a propagator keeps of the one it was: the constants and the record as far as `sgp4` uses it. -/
def Kin (s : Elset) (w : Wgs) (p : Propagator) : Prop := p.wgs = w ∧ Same s p.data

theorem Same.epoch {s s' : Elset} (h : Same s s') : s'.jdsatepoch = s.jdsatepoch := by
  obtain ⟨_, _, _, _, _, _, _, _, _, _, _, rfl⟩ := h.eq; rfl

theorem propagate_disabled (fuel : ℕ) (jd : ℝ) (p : Propagator) (h : p.enabled = false) : p.propagate fuel jd = .ok p := by
  unfold Propagator.propagate; rw [h]; rfl

/-- The effect of `Propagate` on an enabled object of a family. -/
theorem propagate_kin (fuel : ℕ) (jd : ℝ) (p q : Propagator) {s : Elset} {w : Wgs} (hk : Kin s w p) (hp : p.enabled = true) (h : p.propagate fuel jd = .ok q) :
    Kin s w q ∧ q.enabled = true ∧ ∃ r v e, observe (sgp4 fuel w s ((jd - s.jdsatepoch) * (24 * 60))) = .ok (e, some (r, v)) ∧
      q.position = (fun i => r i * 1000) ∧ q.velocity = (fun i => v i * 1000) ∧ q.data.error = e ∧ q.printed = p.printed ++ if 0 < e then [e] else [] := by
  obtain ⟨hw, hs⟩ := hk
  unfold Propagator.propagate at h
  rw [hp] at h
  have hcond : ¬((!true) = true) := by decide
  rw [if_neg hcond, hw, hs.epoch] at h
  have ho := hs.sgp4 fuel w ((jd - s.jdsatepoch) * (24 * 60))
  rcases h1 : sgp4 fuel w p.data ((jd - s.jdsatepoch) * (24 * 60)) with o | _ | _ | _ <;> rw [h1] at h ho <;> simp only [Res.bind, reduceCtorEq] at h
  rcases h2 : o.written with _ | ⟨r, v⟩ <;> rw [h2] at h <;> simp only [reduceCtorEq] at h
  obtain rfl := Res.ok.inj h
  refine ⟨⟨rfl, hs.trans (sgp4_same fuel w p.data _ o h1)⟩, rfl, r, v, o.elset.error, ?_, rfl, rfl, rfl, ?_⟩
  · rw [← ho]; simp [observe, h2]
  · dsimp only; split_ifs <;> simp

theorem calls_kin (fuel : ℕ) (cs : List Call) {s : Elset} {w : Wgs} : ∀ (p q : Propagator), Kin s w p → p.calls fuel cs = .ok q → Kin s w q := by
  induction cs with
  | nil => intro p q hk h; obtain rfl := Res.ok.inj h; exact hk
  | cons c cs ih =>
    intro p q hk h
    rw [Propagator.calls] at h
    rcases h1 : p.call fuel c with p' | _ | _ | _ <;> rw [h1] at h <;> simp only [Res.bind, reduceCtorEq] at h
    refine ih p' q ?_ h
    cases c with
    | enable b => obtain rfl := Res.ok.inj h1; exact hk
    | propagate jd =>
      by_cases hp : p.enabled = true
      · exact (propagate_kin fuel jd p p' hk hp h1).1
      · rw [Propagator.call, propagate_disabled fuel jd p (by simpa using hp)] at h1
        obtain rfl := Res.ok.inj h1
        exact hk

/-- What the constructor leaves. -/
theorem new_kin (fuel : ℕ) (tle1 tle2 : Str) (setting : ℤ) (jd : ℝ) (junk : Elset) (p : Propagator) (h : Propagator.new fuel tle1 tle2 setting jd junk = .ok p) :
    ∃ w s, wgsOf setting = some w ∧ readTle fuel w tle1 tle2 junk = .ok s ∧ Kin s w p ∧ p.enabled = false ∧
      ∃ r v e, observe (sgp4 fuel w s ((jd - s.jdsatepoch) * (24 * 60))) = .ok (e, some (r, v)) ∧
        p.position = (fun i => r i * 1000) ∧ p.velocity = (fun i => v i * 1000) ∧ p.printed = if 0 < e then [e] else [] := by
  unfold Propagator.new at h
  rcases hw : wgsOf setting with _ | w <;> rw [hw] at h <;> simp only [reduceCtorEq] at h
  rcases h1 : readTle fuel w tle1 tle2 junk with s | _ | _ | _ <;> rw [h1] at h <;> simp only [Res.bind, reduceCtorEq] at h
  rcases h2 : Propagator.propagate fuel jd ⟨w, s, 0, 0, true, []⟩ with q | _ | _ | _ <;> rw [h2] at h <;> simp only [reduceCtorEq] at h
  obtain rfl := Res.ok.inj h
  obtain ⟨k1, _, r, v, e, k2, k3, k4, _, k6⟩ := propagate_kin fuel jd _ q ⟨rfl, Same.refl s⟩ rfl h2
  exact ⟨w, s, rfl, h1, k1, rfl, r, v, e, k2, k3, k4, by simpa using k6⟩

theorem readTle_junk (fuel : ℕ) (w : Wgs) (tle1 tle2 : Str) (junk junk' : Elset) : readTle fuel w tle1 tle2 junk = readTle fuel w tle1 tle2 junk' := by
  unfold readTle
  rcases Tle.twoline2rv (consts w).tumin tle1 tle2 with x | _ | _ | _
  · exact C173_fresh fuel w _ _ _ _ _ _ _ _ _ _ rfl
  all_goals rfl

/-- C178: whatever calls were made before, an enabled propagator after `Propagate` at a time has the position and velocity of an object constructed from the
same lines and setting at that time. -/
theorem C178_history (fuel : ℕ) (tle1 tle2 : Str) (setting : ℤ) (start jd : ℝ) (junk junk' : Elset) (before : List Call) (p q q' fresh : Propagator)
    (h : Propagator.new fuel tle1 tle2 setting start junk = .ok p) (hb : p.calls fuel before = .ok q) (he : q.enabled = true)
    (hq : q.propagate fuel jd = .ok q') (hf : Propagator.new fuel tle1 tle2 setting jd junk' = .ok fresh) :
    q'.position = fresh.position ∧ q'.velocity = fresh.velocity ∧ q'.enabled = true := by
  obtain ⟨w, s, hw, hs, hk, _, _⟩ := new_kin fuel tle1 tle2 setting start junk p h
  obtain ⟨w', s', hw', hs', _, _, r, v, e, k1, k2, k3, _⟩ := new_kin fuel tle1 tle2 setting jd junk' fresh hf
  obtain rfl := Option.some.inj (hw.symm.trans hw')
  rw [readTle_junk fuel w tle1 tle2 junk' junk] at hs'
  obtain rfl := Res.ok.inj (hs.symm.trans hs')
  obtain ⟨_, h2, r', v', e', j1, j2, j3, _⟩ := propagate_kin fuel jd q q' (calls_kin fuel before p q hk hb) he hq
  rw [k1] at j1
  simp only [Res.ok.injEq, Prod.mk.injEq, Option.some.injEq] at j1
  obtain ⟨rfl, rfl, rfl⟩ := j1
  exact ⟨j2.trans k2.symm, j3.trans k3.symm, h2⟩

/-- C178: a disabled propagator does not move. -/
theorem C178_disabled (fuel : ℕ) (jd : ℝ) (p : Propagator) (h : p.enabled = false) : p.propagate fuel jd = .ok p := propagate_disabled fuel jd p h

/-- The elements of the equations for what two lines say. -/
noncomputable def elementsOf (bstar incl node ecc peri anomaly motion : ℝ) : Report.Elements :=
  { no := motion * (2 * Real.pi) / 1440, e := ecc, i := incl * Real.pi / 180, M := anomaly * Real.pi / 180, w := peri * Real.pi / 180,
    node := node * Real.pi / 180, B := bstar }

/-- C178: from two well-formed lines with a regular near-Earth set, the constructor and every later `Propagate`, after any calls, give the position and velocity
of Spacetrack Report No. 3 in metres, at the minutes from the epoch of the lines to the time of the call; the codes other than 0 are only printed. -/
theorem C178_report (fuel : ℕ) (set : Wgs) (setting : ℤ) (hset : wgsOf setting = some set) (line1 line2 junk1 junk2 : Str) (year sat : ℕ)
    (days ndot nddot bstar incl node ecc peri anomaly motion : ℝ)
    (h1 : Tle.Says1 line1 year days ndot nddot bstar) (h2 : Tle.Says2 line2 sat incl node ecc peri anomaly motion)
    (hx : Report.Regular (Report.gravity set) (elementsOf bstar incl node ecc peri anomaly motion)) (junk : Elset) (jd : ℝ) :
    let g := Report.gravity set
    let x := elementsOf bstar incl node ecc peri anomaly motion
    let t := fun jd : ℝ => (jd - (Julian.julianDate (Julian.instant (Tle.fullYear year) 1 1 0 0 0) + (days - 1))) * 1440
    let Good := fun jd => 0 < Report.aT g x (t jd) ∧ Report.e g x (t jd) ≠ 1 ∧ 0 < Report.pL g x (t jd)
    let Shows := fun (p : Propagator) jd => ∃ E, Report.Solved (Report.U g x (t jd)) (Report.axN g x (t jd)) (Report.ayN g x (t jd)) E ∧
      p.position = (fun i => Report.position g x (t jd) E i * 1000) ∧ p.velocity = (fun i => Report.velocity g x (t jd) E i * 1000)
    (Good jd → ∃ p, Propagator.new fuel (line1 ++ Tle.nul :: junk1) (line2 ++ Tle.nul :: junk2) setting jd junk = .ok p ∧ Shows p jd) ∧
    (Report.pL g x (t jd) < 0 → Propagator.new fuel (line1 ++ Tle.nul :: junk1) (line2 ++ Tle.nul :: junk2) setting jd junk = .ub) ∧
    ∀ p before q jd', Propagator.new fuel (line1 ++ Tle.nul :: junk1) (line2 ++ Tle.nul :: junk2) setting jd junk = .ok p →
      p.calls fuel before = .ok q → q.enabled = true → Good jd' → ∃ q', q.propagate fuel jd' = .ok q' ∧ Shows q' jd' := by
  intro g x t Good Shows
  obtain ⟨e, he, _, e1, e2, e3, e4, e5, e6, _, _, e7, e8, _⟩ := Tle.C172_elements (consts set).tumin line1 line2 year sat days ndot nddot bstar incl node ecc peri anomaly motion
    h1 h2 junk1 junk2
  obtain ⟨s, hs, _⟩ := C175_init fuel set e.epoch x hx { junk with jdsatepoch := e.jdsatepoch }
  have hr : readTle fuel set (line1 ++ Tle.nul :: junk1) (line2 ++ Tle.nul :: junk2) junk = .ok s := by
    unfold readTle
    rw [he]
    simp only [Res.bind]
    rw [e7, e3, e4, e1, e5, e6, e2]
    exact hs
  have hjd : s.jdsatepoch = e.jdsatepoch := (init_same _ _ _ _ _ _ _ _ _ _ _ _ hs).epoch.trans (prepare_epoch set e.epoch x _ hx)
  have ht : ∀ jd, (jd - s.jdsatepoch) * (24 * 60) = t jd := fun jd => by rw [hjd, e8]; simp only [t]; norm_num
  have key : ∀ (p : Propagator) jd, Kin s set p → p.enabled = true →
      (Good jd → ∃ q, p.propagate fuel jd = .ok q ∧ Shows q jd) ∧ (Report.pL g x (t jd) < 0 → p.propagate fuel jd = .ub) := by
    intro p jd hk hp
    obtain ⟨E, o, k1, k2, k3, k4⟩ := C175_report fuel fuel set e.epoch x hx _ s s [] (t jd) hs rfl
    have ho := hk.2.sgp4 fuel set (t jd)
    rw [k1] at ho
    have hcond : ¬((!true) = true) := by decide
    unfold Propagator.propagate
    rw [hp, if_neg hcond, hk.1, hk.2.epoch, ht]
    rcases h6 : sgp4 fuel set p.data (t jd) with out | _ | _ | _ <;> rw [h6] at ho <;> simp only [observe, reduceCtorEq, Res.ok.injEq, Prod.mk.injEq] at ho
    simp only [Res.bind]
    rw [ho.2]
    refine ⟨fun hg => ?_, fun hl => ?_⟩
    · rw [(k3 hg.1 hg.2.1 hg.2.2).2]
      exact ⟨_, rfl, E, k2, rfl, rfl⟩
    · rw [(k4 hl).2]
  have hnew : Propagator.new fuel (line1 ++ Tle.nul :: junk1) (line2 ++ Tle.nul :: junk2) setting jd junk =
      (Propagator.propagate fuel jd ⟨set, s, 0, 0, true, []⟩).bind fun p => .ok { p with enabled := false } := by
    unfold Propagator.new
    rw [hset]
    simp only [hr, Res.bind]
  refine ⟨fun hg => ?_, fun hl => ?_, fun p before q jd' hp hb hq hg => ?_⟩
  · obtain ⟨q, hq, E, k1, k2, k3⟩ := (key ⟨set, s, 0, 0, true, []⟩ jd ⟨rfl, Same.refl s⟩ rfl).1 hg
    rw [hnew, hq]
    exact ⟨_, rfl, E, k1, k2, k3⟩
  · rw [hnew, (key ⟨set, s, 0, 0, true, []⟩ jd ⟨rfl, Same.refl s⟩ rfl).2 hl]; rfl
  · obtain ⟨w', s', hw', hs', hk, _⟩ := new_kin fuel _ _ setting jd junk p hp
    obtain rfl := Option.some.inj (hset.symm.trans hw')
    obtain rfl := Res.ok.inj (hr.symm.trans hs')
    exact (key q jd' (calls_kin fuel before p q hk hb) hq).1 hg

/-! A case that meets the hypotheses: a circular polar orbit of 12 revolutions per day, without drag. -/

theorem ex_line1 : Tle.Says1 "1 25544U 98067A   08264.51782528  .00000000  00000-0  00000-0 0  2927".toList 8 264.51782528 0 0 0 := by
  refine ⟨"25544".toList, 'U', "98067A  ".toList, "08".toList, "264.51782528".toList, " .00000000".toList, " 00000-0".toList, " 00000-0".toList, "0  2927".toList, 25544,
    by decide +kernel, ⟨rfl, 0, "25544".toList, rfl, Tle.digits_of (by decide +kernel), by decide, by decide +kernel⟩, by decide, by decide +kernel, Tle.printed_of (by decide +kernel),
    Tle.digits_of (by decide +kernel), rfl, by decide +kernel, ?_, ?_, ?_, ?_, by decide +kernel, Tle.printed_of (by decide +kernel)⟩
  · refine ⟨by decide +kernel, 0, "264".toList, "51782528".toList, by decide +kernel, Tle.digits_of (by decide +kernel), by simp, Tle.digits_of (by decide +kernel), by decide +kernel, ?_⟩
    rw [show Tle.numeral ("264".toList ++ "51782528".toList) = 26451782528 by decide +kernel]
    norm_num
  · refine ⟨' ', 1, "00000000".toList, by decide +kernel, .inl ⟨rfl, rfl⟩, Tle.digits_of (by decide +kernel), by decide +kernel, ?_⟩
    rw [show Tle.numeral "00000000".toList = 0 by decide +kernel]
    norm_num
  · refine ⟨' ', 1, "00000".toList, '-', -1, '0', by decide +kernel, .inl ⟨rfl, rfl⟩, Tle.digits0_of (by decide +kernel), by decide +kernel, .inr (.inr ⟨rfl, rfl⟩),
      Tle.digits_of (by decide +kernel), ?_⟩
    rw [show Tle.numeral "00000".toList = 0 by decide +kernel]
    norm_num
  · refine ⟨' ', 1, "00000".toList, '-', -1, '0', by decide +kernel, .inl ⟨rfl, rfl⟩, Tle.digits_of (by decide +kernel), by decide +kernel, .inr (.inr ⟨rfl, rfl⟩),
      Tle.digits_of (by decide +kernel), ?_⟩
    rw [show Tle.numeral "00000".toList = 0 by decide +kernel]
    norm_num

theorem ex_line2 : Tle.Says2 "2 25544  90.0000 247.4627 0000000 130.5360 325.0288 12.00000000563537".toList 25544 90 247.4627 0 130.5360 325.0288 12 := by
  refine ⟨"25544".toList, " 90.0000".toList, "247.4627".toList, ' ', "0000000".toList, "130.5360".toList, "325.0288".toList, "12.00000000".toList, "563537".toList,
    by decide +kernel, ⟨rfl, 0, "25544".toList, rfl, Tle.digits_of (by decide +kernel), by decide, by decide +kernel⟩, ?_, ?_, ⟨by decide, by decide⟩, Tle.digits0_of (by decide +kernel),
    by decide +kernel, ?_, ?_, ?_, ?_, Tle.printed_of (by decide +kernel)⟩
  · exact Tle.ex_decimal 1 "90".toList "0000".toList 900000 (by decide +kernel) (by decide +kernel) (by decide +kernel) (by simp) (by decide +kernel) (by decide +kernel)
      (by decide +kernel) (by norm_num)
  · exact Tle.ex_decimal 0 "247".toList "4627".toList 2474627 (by decide +kernel) (by decide +kernel) (by decide +kernel) (by simp) (by decide +kernel) (by decide +kernel)
      (by decide +kernel) (by norm_num)
  · rw [show Tle.numeral "0000000".toList = 0 by decide +kernel]
    norm_num
  · exact Tle.ex_decimal 0 "130".toList "5360".toList 1305360 (by decide +kernel) (by decide +kernel) (by decide +kernel) (by simp) (by decide +kernel) (by decide +kernel)
      (by decide +kernel) (by norm_num)
  · exact Tle.ex_decimal 0 "325".toList "0288".toList 3250288 (by decide +kernel) (by decide +kernel) (by decide +kernel) (by simp) (by decide +kernel) (by decide +kernel)
      (by decide +kernel) (by norm_num)
  · exact Tle.ex_decimal 0 "12".toList "00000000".toList 1200000000 (by decide +kernel) (by decide +kernel) (by decide +kernel) (by decide +kernel) (by decide +kernel)
      (by decide +kernel) (by decide +kernel) (by norm_num)

section
open Report

noncomputable def exPolar : Elements := elementsOf 0 90 247.4627 0 130.5360 325.0288 12

theorem exPolar_regular : Regular (gravity .wgs72old) exPolar ∧ 1.2 ≤ a (gravity .wgs72old) exPolar := by
  have hg : (gravity .wgs72old).ke = 0.0743669161 := rfl
  have hk : k2 (gravity .wgs72old) = 0.000541308 := by norm_num [k2, gravity]
  have hp1 := Real.pi_gt_d4
  have hp2 := Real.pi_lt_d4
  have hth : th exPolar = 0 := by
    unfold th exPolar elementsOf
    rw [show (90 : ℝ) * Real.pi / 180 = Real.pi / 2 by ring, Real.cos_pi_div_two]
  have hb : beta exPolar = 1 := by unfold beta; norm_num [exPolar, elementsOf]
  have hno : exPolar.no = 12 * (2 * Real.pi) / 1440 := rfl
  have hno0 : 0 < exPolar.no := by rw [hno]; linarith
  have hq1 : 1 ≤ 0.0743669161 / exPolar.no := by rw [one_le_div hno0, hno]; linarith
  have hq2 : 0.0743669161 / exPolar.no ≤ 2 := by rw [div_le_iff₀ hno0, hno]; linarith
  have ha1 : 1 ≤ a1 (gravity .wgs72old) exPolar := by unfold a1; rw [hg]; exact Real.one_le_rpow hq1 (by norm_num)
  have hd : ∀ A : ℝ, 1 ≤ A → -0.001 ≤ 3 / 2 * (k2 (gravity .wgs72old) / A ^ 2) * ((3 * th exPolar ^ 2 - 1) / beta exPolar ^ 3) ∧
      3 / 2 * (k2 (gravity .wgs72old) / A ^ 2) * ((3 * th exPolar ^ 2 - 1) / beta exPolar ^ 3) ≤ 0 := fun A hA => by
    rw [hth, hb, hk]
    have h1 : (0.000541308 : ℝ) / A ^ 2 ≤ 0.000541308 := div_le_self (by norm_num) (by nlinarith)
    have h2 : (0 : ℝ) ≤ 0.000541308 / A ^ 2 := by positivity
    constructor <;> linarith
  obtain ⟨d1, d2⟩ := hd _ ha1
  have hold : 1 ≤ aOld (gravity .wgs72old) exPolar := by
    have e1 : -0.001 ≤ delta1 (gravity .wgs72old) exPolar := d1
    have e2 : delta1 (gravity .wgs72old) exPolar ≤ 0 := d2
    unfold aOld
    generalize delta1 (gravity .wgs72old) exPolar = d at *
    have : 1 ≤ 1 - d / 3 - d ^ 2 - 134 / 81 * d ^ 3 := by nlinarith [mul_nonneg (neg_nonneg.2 e2) (sq_nonneg d)]
    nlinarith
  obtain ⟨d3, d4⟩ := hd _ hold
  have e1 : -0.001 ≤ delta0 (gravity .wgs72old) exPolar := d3
  have e2 : delta0 (gravity .wgs72old) exPolar ≤ 0 := d4
  have hn1 : exPolar.no ≤ n (gravity .wgs72old) exPolar := by unfold n; rw [le_div_iff₀ (by linarith)]; nlinarith
  have hn2 : n (gravity .wgs72old) exPolar ≤ 1.01 * exPolar.no := by unfold n; rw [div_le_iff₀ (by linarith)]; nlinarith
  have hn0 : 0 < n (gravity .wgs72old) exPolar := by linarith
  have ha : 1.2 ≤ a (gravity .wgs72old) exPolar := by
    have h1 : (1.2 : ℝ) = (1.2 ^ (3 / 2 : ℝ)) ^ (2 / 3 : ℝ) := by rw [← Real.rpow_mul (by norm_num)]; norm_num
    rw [h1]
    refine Real.rpow_le_rpow (by positivity) ?_ (by norm_num)
    have h2 : (1.2 : ℝ) ^ (3 / 2 : ℝ) ≤ 1.4 := by
      rw [show (1.4 : ℝ) = (1.4 ^ (2 / 3 : ℝ)) ^ (3 / 2 : ℝ) by rw [← Real.rpow_mul (by norm_num)]; norm_num]
      refine Real.rpow_le_rpow (by norm_num) ?_ (by norm_num)
      have h3 : ((1.4 : ℝ) ^ (2 / 3 : ℝ)) ^ 3 = 1.96 := by
        rw [← Real.rpow_natCast, ← Real.rpow_mul (by norm_num)]; norm_num
      by_contra hlt
      have h4 : 0 ≤ (1.4 : ℝ) ^ (2 / 3 : ℝ) := by positivity
      have h5 := pow_lt_pow_left₀ (not_le.1 hlt) h4 (by norm_num : (3 : ℕ) ≠ 0)
      rw [h3] at h5; norm_num at h5
    refine h2.trans ?_
    rw [le_div_iff₀ hn0, hg]
    rw [hno] at hn2
    linarith
  have hs : Report.s (gravity .wgs72old) exPolar = 78 / 6378.135 + 1 := by
    unfold Report.s height perigee
    have hR : (gravity .wgs72old).radius = 6378.135 := rfl
    have he : exPolar.e = 0 := rfl
    rw [hR, he]
    have : 156 ≤ (a (gravity .wgs72old) exPolar * (1 - 0) - 1) * 6378.135 := by linarith
    rw [if_neg (by linarith), if_neg (by linarith)]
  have hpsi : psi (gravity .wgs72old) exPolar = 1 := by
    have : eta (gravity .wgs72old) exPolar = 0 := by unfold eta; simp [exPolar, elementsOf]
    unfold psi; rw [this]; norm_num
  refine ⟨⟨le_refl _, by norm_num [exPolar, elementsOf], hno0, hn0, ?_, ?_, by linarith, ?_, by rw [hpsi]; norm_num⟩, ha⟩
  · rw [div_lt_iff₀ hn0]
    rw [hno] at hn1
    linarith
  · rw [hth]; norm_num
  · rw [hs]; intro h; rw [h] at ha; norm_num at ha

theorem exPolar_time (t : ℝ) : let g := gravity .wgs72old
    0 < aT g exPolar t ∧ e g exPolar t ≠ 1 ∧ 0 < pL g exPolar t := by
  intro g
  obtain ⟨_, _, _, h4, h5, _⟩ := noDrag (g := g) (x := exPolar) rfl t
  have ha := exPolar_regular.2
  have he : eRaw g exPolar t = 0 := h4
  have he' : e g exPolar t = 0 := by unfold Report.e; rw [he]; norm_num
  have hat : 0 < aT g exPolar t := by rw [h5]; linarith
  have hax : axN g exPolar t = 0 := by unfold axN; rw [he']; ring
  have hay : |ayN g exPolar t| ≤ 0.01 := by
    unfold ayN
    rw [he', h5]
    have hs : Real.sin exPolar.i = 1 := by
      unfold exPolar elementsOf
      rw [show (90 : ℝ) * Real.pi / 180 = Real.pi / 2 by ring, Real.sin_pi_div_two]
    have hk : k2 g = 0.000541308 := by norm_num [g, k2, gravity]
    have hA : A30 g = 0.00000253881 := by norm_num [g, A30, gravity]
    rw [hs, hk, hA, zero_mul, zero_add]
    have hd : 0 < 4 * 0.000541308 * a g exPolar * (1 - 0 ^ 2) := by nlinarith
    rw [abs_of_pos (div_pos (by norm_num) hd), div_le_iff₀ hd]
    norm_num
    linarith
  refine ⟨hat, by rw [he']; norm_num, mul_pos hat ?_⟩
  unfold eL
  rw [hax, Real.sq_sqrt (by positivity)]
  have := abs_le.1 hay
  nlinarith

end

/-- The object can be built at any time, enabled, and moved to any other times; it then shows the position of the equations. -/
example (junk1 junk2 : Str) (junk : Elset) (jd jd' : ℝ) : ∃ p q q' fresh,
    Propagator.new 1 ("1 25544U 98067A   08264.51782528  .00000000  00000-0  00000-0 0  2927".toList ++ Tle.nul :: junk1)
      ("2 25544  90.0000 247.4627 0000000 130.5360 325.0288 12.00000000563537".toList ++ Tle.nul :: junk2) 0 jd junk = .ok p ∧
    p.calls 1 [.propagate 17, .enable true] = .ok q ∧ q.enabled = true ∧ q.propagate 1 jd' = .ok q' ∧
    Propagator.new 1 ("1 25544U 98067A   08264.51782528  .00000000  00000-0  00000-0 0  2927".toList ++ Tle.nul :: junk1)
      ("2 25544  90.0000 247.4627 0000000 130.5360 325.0288 12.00000000563537".toList ++ Tle.nul :: junk2) 0 jd' junk = .ok fresh ∧
    q'.position = fresh.position := by
  have k := fun jd => C178_report 1 .wgs72old 0 rfl _ _ junk1 junk2 _ _ _ _ _ _ _ _ _ _ _ _ ex_line1 ex_line2 exPolar_regular.1 junk jd
  obtain ⟨k1, _, k3⟩ := k jd
  obtain ⟨p, hp, _⟩ := k1 (exPolar_time _)
  obtain ⟨fresh, hf, _⟩ := (k jd').1 (exPolar_time _)
  have hc : p.calls 1 [.propagate 17, .enable true] = .ok { p with enabled := true } := by
    obtain ⟨_, _, _, _, _, hd, _⟩ := new_kin 1 _ _ _ _ _ p hp
    simp [Propagator.calls, Propagator.call, propagate_disabled 1 17 p hd, Res.bind]
  obtain ⟨q', hq', _⟩ := k3 p _ _ jd' hp hc rfl (exPolar_time _)
  exact ⟨p, _, q', fresh, hp, hc, rfl, hq', hf, (C178_history 1 _ _ 0 jd jd' junk junk _ p _ q' fresh hp hc rfl hq' hf).1⟩

end S2E.Sgp4
