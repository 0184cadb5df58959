import Verif.Props.Sgp4Orbit
import Verif.Props.Sgp4Deep

/-!
# C178 for deep-space sets: the SGP4 orbit of a high satellite, from the two lines of the file to the position
-/
namespace S2E.Sgp4

open S2E.InitOrbit (Wgs wgsOf)
open S2E.Log (Str)
open Report

/-- C178: from two well-formed lines with a regular deep-space set, the constructor and every later `Propagate`, after any calls, give the position and velocity of
the deep-space theory (C180) in metres, at the minutes from the epoch of the lines to the time of the call. `Makes q jd`: `q` are the elements of the theory at the
time, with the periodics of Sun and Moon. -/
theorem C178_deep (fuel : ℕ) (set : Wgs) (setting : ℤ) (hset : wgsOf setting = some set) (line1 line2 junk1 junk2 : Str) (year sat : ℕ)
    (days ndot nddot bstar incl node ecc peri anomaly motion : ℝ)
    (h1 : Tle.Says1 line1 year days ndot nddot bstar) (h2 : Tle.Says2 line2 sat incl node ecc peri anomaly motion)
    (hx : Deep.Regular (gravity set) (elementsOf bstar incl node ecc peri anomaly motion)) (junk : Elset) (jd : ℝ) :
    let g := gravity set
    let x := elementsOf bstar incl node ecc peri anomaly motion
    let epoch := Julian.julianDate (Julian.instant (Tle.fullYear year) 1 1 0 0 0) + (days - 1)
    let day := epoch - 2415020
    let t := fun jd : ℝ => (jd - epoch) * 1440
    let Makes := fun (q : Deep.Last) jd => ∃ cs cm, ThirdBody.Periodics ThirdBody.sun (n g x) (a g x) x.e x.i x.node x.w cs ∧
      ThirdBody.Periodics (ThirdBody.moon day) (n g x) (a g x) x.e x.i x.node x.w cm ∧
      ∃ q', Deep.Corrected (Deep.together (cs (Deep.sunLongitude day (t jd))) (cm (Deep.moonLongitude day (t jd)))) (Deep.mean g x day (t jd)) q' ∧
        q = Deep.positive q'
    let Good := fun jd => ⌊|t jd| / 720⌋₊ < fuel ∧ 0 < Deep.n1 g x day (t jd) ∧
      ∀ q, Makes q jd → 1.5e-12 < |1 + Real.cos q.i| ∧ (0.2 ≤ q.i → Real.sin q.i ≠ 0) ∧ q.e ^ 2 ≠ 1 ∧ 0 < q.a ∧ 0 < Deep.pl g q
    let Shows := fun (p : Propagator) jd => ∃ q E, Makes q jd ∧ Solved (Deep.Ul g q) (Deep.ax q) (Deep.ay g q) E ∧
      p.position = (fun i => Deep.place g q E i * 1000) ∧ p.velocity = (fun i => Deep.speed g q E i * 1000)
    (Good jd → ∃ p, Propagator.new fuel (line1 ++ Tle.nul :: junk1) (line2 ++ Tle.nul :: junk2) setting jd junk = .ok p ∧ Shows p jd) ∧
    ∀ p before q jd', Propagator.new fuel (line1 ++ Tle.nul :: junk1) (line2 ++ Tle.nul :: junk2) setting jd junk = .ok p →
      p.calls fuel before = .ok q → q.enabled = true → Good jd' → ∃ q', q.propagate fuel jd' = .ok q' ∧ Shows q' jd' := by
  intro g x epoch day t Makes Good Shows
  obtain ⟨e, he, _, e1, e2, e3, e4, e5, e6, _, _, e7, e8, e9⟩ := Tle.C172_elements (consts set).tumin line1 line2 year sat days ndot nddot bstar incl node ecc peri anomaly motion
    h1 h2 junk1 junk2
  have hr : readTle fuel set (line1 ++ Tle.nul :: junk1) (line2 ++ Tle.nul :: junk2) junk =
      sgp4init fuel set e.epoch x.B x.e x.w x.i x.M x.no x.node { junk with jdsatepoch := e.jdsatepoch } := by
    unfold readTle
    rw [he]
    simp only [Res.bind]
    rw [e7, e3, e4, e1, e5, e6, e2]
    rfl
  have hday : e.epoch + 18261.5 = day := by
    rw [e9.1]
    simp only [day, epoch, Julian.julianDate]
    have hd : Julian.instant 1949 12 31 0 0 0 = 18261 * 86400 := by
      unfold Julian.instant
      rw [show Julian.dayNumber 1949 12 31 = 18261 by decide +kernel]
      norm_num
    rw [hd]
    ring
  have hpos : ∀ q : Deep.Last, Real.cos (Deep.positive q).i = Real.cos q.i ∧ (Deep.positive q).e = q.e ∧ (Deep.positive q).a = q.a ∧ (0.2 ≤ q.i → Deep.positive q = q) := by
    intro q
    unfold Deep.positive
    split_ifs with h
    · exact ⟨Real.cos_neg _, rfl, rfl, fun h' => by linarith⟩
    · exact ⟨rfl, rfl, rfl, fun _ => rfl⟩
  have key : ∀ s (p : Propagator) jd, readTle fuel set (line1 ++ Tle.nul :: junk1) (line2 ++ Tle.nul :: junk2) junk = .ok s → Kin s set p → p.enabled = true →
      Good jd → ∃ q, p.propagate fuel jd = .ok q ∧ Shows q jd := by
    intro s p jd hs hk hp ⟨hf, hn, hgood⟩
    rw [hr] at hs
    have hjd : s.jdsatepoch = e.jdsatepoch :=
      (init_same _ _ _ _ _ _ _ _ _ _ _ _ hs).epoch.trans (deep_prepare set e.epoch x _ hx).2.2
    have ht : (jd - s.jdsatepoch) * (24 * 60) = t jd := by rw [hjd, e8]; simp only [t, epoch]; norm_num
    obtain ⟨cs, cm, q, o, k1, k2, k3, k4, k5⟩ := C180_deep fuel fuel set e.epoch x hx _ s s [] (t jd) hs rfl hf
    rw [hday] at k3 k4 k5
    have hm : Makes (Deep.positive q) jd := ⟨cs, cm, k2, k3, q, k4, rfl⟩
    obtain ⟨q1, q2, q3, q4, q5⟩ := hgood _ hm
    obtain ⟨r1, r2, r3, r4⟩ := hpos q
    rw [r1] at q1
    rw [r2] at q3
    rw [r3] at q4
    obtain ⟨E, E1, E2, -⟩ := k5 hn q1 (fun h => by have := q2; rw [r4 h] at this; exact this h) q3
    obtain ⟨-, E3⟩ := E2 q4 q5
    have ho := hk.2.sgp4 fuel set (t jd)
    rw [k1] at ho
    have hcond : ¬((!true) = true) := by decide
    unfold Propagator.propagate
    rw [hp, if_neg hcond, hk.1, hk.2.epoch, ht]
    rcases h6 : sgp4 fuel set p.data (t jd) with out | _ | _ | _ <;> rw [h6] at ho <;> simp only [observe, reduceCtorEq, Res.ok.injEq, Prod.mk.injEq] at ho
    simp only [Res.bind]
    rw [ho.2, E3]
    exact ⟨_, rfl, Deep.positive q, E, hm, E1, rfl, rfl⟩
  refine ⟨fun hg => ?_, fun p before q jd' hp hb hq hg => ?_⟩
  · obtain ⟨s, hs, -⟩ := C180_init fuel set e.epoch x hx { junk with jdsatepoch := e.jdsatepoch } (by have := hg.1; omega)
    rw [← hr] at hs
    obtain ⟨q, hq, k⟩ := key s ⟨set, s, 0, 0, true, []⟩ jd hs ⟨rfl, Same.refl s⟩ rfl hg
    refine ⟨{ q with enabled := false }, ?_, ?_⟩
    · unfold Propagator.new
      rw [hset]
      simp only [hs, Res.bind, hq]
    · exact k
  · obtain ⟨w', s', hw', hs', hk, _⟩ := new_kin fuel _ _ setting jd junk p hp
    obtain rfl := Option.some.inj (hset.symm.trans hw')
    exact key s' q jd' hs' (calls_kin fuel before p q hk hb) hq hg

/-! A case that meets the hypotheses: a polar orbit of 6 revolutions per day, eccentricity 0.01, without drag, at its epoch. -/

theorem ex_line2' : Tle.Says2 "2 25544  90.0000 247.4627 0100000 130.5360 325.0288  6.00000000563537".toList 25544 90 247.4627 0.01 130.5360 325.0288 6 := by
  refine ⟨"25544".toList, " 90.0000".toList, "247.4627".toList, ' ', "0100000".toList, "130.5360".toList, "325.0288".toList, " 6.00000000".toList, "563537".toList,
    by decide +kernel, ⟨rfl, 0, "25544".toList, rfl, Tle.digits_of (by decide +kernel), by decide, by decide +kernel⟩, ?_, ?_, ⟨by decide, by decide⟩, Tle.digits0_of (by decide +kernel),
    by decide +kernel, ?_, ?_, ?_, ?_, Tle.printed_of (by decide +kernel)⟩
  · exact Tle.ex_decimal 1 "90".toList "0000".toList 900000 (by decide +kernel) (by decide +kernel) (by decide +kernel) (by simp) (by decide +kernel) (by decide +kernel)
      (by decide +kernel) (by norm_num)
  · exact Tle.ex_decimal 0 "247".toList "4627".toList 2474627 (by decide +kernel) (by decide +kernel) (by decide +kernel) (by simp) (by decide +kernel) (by decide +kernel)
      (by decide +kernel) (by norm_num)
  · rw [show Tle.numeral "0100000".toList = 100000 by decide +kernel]
    norm_num
  · exact Tle.ex_decimal 0 "130".toList "5360".toList 1305360 (by decide +kernel) (by decide +kernel) (by decide +kernel) (by simp) (by decide +kernel) (by decide +kernel)
      (by decide +kernel) (by norm_num)
  · exact Tle.ex_decimal 0 "325".toList "0288".toList 3250288 (by decide +kernel) (by decide +kernel) (by decide +kernel) (by simp) (by decide +kernel) (by decide +kernel)
      (by decide +kernel) (by norm_num)
  · exact Tle.ex_decimal 1 "6".toList "00000000".toList 600000000 (by decide +kernel) (by decide +kernel) (by decide +kernel) (by decide +kernel) (by decide +kernel)
      (by decide +kernel) (by decide +kernel) (by norm_num)

noncomputable def exHigh : Elements := elementsOf 0 90 247.4627 0.01 130.5360 325.0288 6

set_option maxHeartbeats 1000000 in
theorem exHigh_regular : Deep.Regular (gravity .wgs72old) exHigh ∧ (0.026 ≤ n (gravity .wgs72old) exHigh ∧ n (gravity .wgs72old) exHigh ≤ 0.0265) ∧
    (1.9 ≤ a (gravity .wgs72old) exHigh ∧ a (gravity .wgs72old) exHigh ≤ 2.1) := by
  have hg : (gravity .wgs72old).ke = 0.0743669161 := rfl
  have hk : k2 (gravity .wgs72old) = 0.000541308 := by norm_num [k2, gravity]
  have hp1 := Real.pi_gt_d4
  have hp2 := Real.pi_lt_d4
  have hi : exHigh.i = Real.pi / 2 := by unfold exHigh elementsOf; dsimp only; ring
  have hth : th exHigh = 0 := by unfold th; rw [hi, Real.cos_pi_div_two]
  have hb : 0.99 ≤ beta exHigh ∧ beta exHigh ≤ 1 := by
    have he : exHigh.e = 0.01 := rfl
    unfold beta
    rw [he]
    exact ⟨Real.le_sqrt_of_sq_le (by norm_num), Real.sqrt_le_one.2 (by norm_num)⟩
  have hb3 : 0.9 ≤ beta exHigh ^ 3 := (by norm_num : (0.9 : ℝ) ≤ 0.99 ^ 3).trans (pow_le_pow_left₀ (by norm_num) hb.1 3)
  have hno : exHigh.no = 6 * (2 * Real.pi) / 1440 := rfl
  have hno0 : 0 < exHigh.no := by rw [hno]; linarith
  have hq1 : 1 ≤ 0.0743669161 / exHigh.no := by rw [one_le_div hno0, hno]; linarith
  have ha1 : 1 ≤ a1 (gravity .wgs72old) exHigh := by unfold a1; rw [hg]; exact Real.one_le_rpow hq1 (by norm_num)
  have hd : ∀ A : ℝ, 1 ≤ A → -0.001 ≤ 3 / 2 * (k2 (gravity .wgs72old) / A ^ 2) * ((3 * th exHigh ^ 2 - 1) / beta exHigh ^ 3) ∧
      3 / 2 * (k2 (gravity .wgs72old) / A ^ 2) * ((3 * th exHigh ^ 2 - 1) / beta exHigh ^ 3) ≤ 0 := fun A hA => by
    rw [hth, hk]
    have h1 : (0.000541308 : ℝ) / A ^ 2 ≤ 0.000541308 := div_le_self (by norm_num) (by nlinarith)
    have h2 : (0 : ℝ) ≤ 0.000541308 / A ^ 2 := by positivity
    have h3 : (3 * 0 ^ 2 - 1) / beta exHigh ^ 3 = -(1 / beta exHigh ^ 3) := by ring
    have h4 : 1 / beta exHigh ^ 3 ≤ 1.2 := by rw [div_le_iff₀ (by linarith)]; linarith
    have h5 : 0 ≤ 1 / beta exHigh ^ 3 := by positivity
    rw [h3]
    generalize 1 / beta exHigh ^ 3 = y at *
    generalize (0.000541308 : ℝ) / A ^ 2 = z at *
    constructor <;> nlinarith
  obtain ⟨d1, d2⟩ := hd _ ha1
  have hold : 1 ≤ aOld (gravity .wgs72old) exHigh := by
    have e1 : -0.001 ≤ delta1 (gravity .wgs72old) exHigh := d1
    have e2 : delta1 (gravity .wgs72old) exHigh ≤ 0 := d2
    unfold aOld
    generalize delta1 (gravity .wgs72old) exHigh = d at *
    have : 1 ≤ 1 - d / 3 - d ^ 2 - 134 / 81 * d ^ 3 := by nlinarith [mul_nonneg (neg_nonneg.2 e2) (sq_nonneg d)]
    nlinarith
  obtain ⟨d3, d4⟩ := hd _ hold
  have e1 : -0.001 ≤ delta0 (gravity .wgs72old) exHigh := d3
  have e2 : delta0 (gravity .wgs72old) exHigh ≤ 0 := d4
  have hn1 : exHigh.no ≤ n (gravity .wgs72old) exHigh := by unfold n; rw [le_div_iff₀ (by linarith)]; nlinarith
  have hn2 : n (gravity .wgs72old) exHigh ≤ 1.01 * exHigh.no := by unfold n; rw [div_le_iff₀ (by linarith)]; nlinarith
  rw [hno] at hn1 hn2
  have hn : 0.026 ≤ n (gravity .wgs72old) exHigh ∧ n (gravity .wgs72old) exHigh ≤ 0.0265 := by constructor <;> linarith
  have hn0 : 0 < n (gravity .wgs72old) exHigh := by linarith [hn.1]
  have hap : 0 ≤ a (gravity .wgs72old) exHigh := by unfold a; rw [hg]; positivity
  have ha3 : a (gravity .wgs72old) exHigh ^ 3 = (0.0743669161 / n (gravity .wgs72old) exHigh) ^ 2 := by
    unfold a
    rw [hg, ← Real.rpow_natCast, ← Real.rpow_mul (by positivity), show (2 / 3 : ℝ) * (3 : ℕ) = (2 : ℕ) by norm_num, Real.rpow_natCast]
  have hr1 : 2.8 ≤ 0.0743669161 / n (gravity .wgs72old) exHigh := by rw [le_div_iff₀ hn0]; linarith [hn.2]
  have hr2 : 0.0743669161 / n (gravity .wgs72old) exHigh ≤ 2.9 := by rw [div_le_iff₀ hn0]; linarith [hn.1]
  have ha : 1.9 ≤ a (gravity .wgs72old) exHigh ∧ a (gravity .wgs72old) exHigh ≤ 2.1 := by
    constructor
    · by_contra hlt
      have h5 := pow_lt_pow_left₀ (not_le.1 hlt) hap (by norm_num : (3 : ℕ) ≠ 0)
      rw [ha3] at h5
      nlinarith
    · by_contra hlt
      have h5 := pow_lt_pow_left₀ (not_le.1 hlt) (by norm_num) (by norm_num : (3 : ℕ) ≠ 0)
      rw [ha3] at h5
      nlinarith
  have he : exHigh.e = 0.01 := rfl
  have hR : (gravity .wgs72old).radius = 6378.135 := rfl
  have hs : Report.s (gravity .wgs72old) exHigh = 78 / 6378.135 + 1 := by
    unfold Report.s height perigee
    rw [hR, he]
    have : 156 ≤ (a (gravity .wgs72old) exHigh * (1 - 0.01) - 1) * 6378.135 := by nlinarith [ha.1]
    rw [if_neg (by linarith), if_neg (by linarith)]
  have hden : 0.8 ≤ a (gravity .wgs72old) exHigh - (78 / 6378.135 + 1) := by norm_num; linarith [ha.1]
  have heta : 0 < eta (gravity .wgs72old) exHigh ∧ eta (gravity .wgs72old) exHigh < 1 := by
    unfold eta xi
    rw [hs, he, mul_one_div]
    exact ⟨div_pos (by linarith [ha.1]) (by linarith), by rw [div_lt_one (by linarith)]; linarith [ha.2]⟩
  refine ⟨⟨by rw [he]; norm_num, by rw [he]; norm_num, hno0, hn0, ?_, ?_, ?_, by linarith, ?_, ?_⟩, hn, ha⟩
  · rw [le_div_iff₀ hn0]
    linarith [hn.2]
  · rw [hth]; norm_num
  · rw [hi, Real.sin_pi_div_two]; norm_num
  · rw [hs]; intro h; rw [h] at ha; norm_num at ha
  · unfold psi
    rw [abs_ne_zero]
    nlinarith [heta.1, heta.2]

/-- The object can be built at the epoch of the lines, enabled, moved to the same time, and shows the position of the theory. -/
example (junk1 junk2 : Str) (junk : Elset) : ∃ jd p q q',
    Propagator.new 1 ("1 25544U 98067A   08264.51782528  .00000000  00000-0  00000-0 0  2927".toList ++ Tle.nul :: junk1)
      ("2 25544  90.0000 247.4627 0100000 130.5360 325.0288  6.00000000563537".toList ++ Tle.nul :: junk2) 0 jd junk = .ok p ∧
    p.calls 1 [.propagate 17, .enable true] = .ok q ∧ q.enabled = true ∧ q.propagate 1 jd = .ok q' := by
  obtain ⟨hx, ⟨hn1, hn2⟩, ha⟩ := exHigh_regular
  set jd : ℝ := Julian.julianDate (Julian.instant (Tle.fullYear 8) 1 1 0 0 0) + (264.51782528 - 1) with hjd
  obtain ⟨k1, k2⟩ := C178_deep 1 .wgs72old 0 rfl _ _ junk1 junk2 _ _ _ _ _ _ _ _ _ _ _ _ ex_line1 ex_line2' hx junk jd
  have ht : (jd - jd) * 1440 = 0 := by ring
  have k3 := fun p before q => k2 p before q jd
  clear k2
  rw [← hjd] at k1 k3
  dsimp only at k1 k3
  simp only [ht] at k1 k3
  have hi : exHigh.i = Real.pi / 2 := by unfold exHigh elementsOf; dsimp only; ring
  have hp1 := Real.pi_gt_d4
  have hp2 := Real.pi_lt_d4
  have hH : ¬Deep.HalfDay (gravity .wgs72old) exHigh := fun h => by linarith [h.2.1]
  have hS : ¬Deep.Synchronous (gravity .wgs72old) exHigh := fun h => by linarith [h.2]
  have hgood := small_good exHigh hx hH hS (by linarith) ha rfl (by rw [hi]; constructor <;> linarith) junk (jd - 2415020)
  have hG := fun q cs cm (h1 : ThirdBody.Periodics _ _ _ _ _ _ _ cs) (h2 : ThirdBody.Periodics _ _ _ _ _ _ _ cm) h3 => hgood cs cm q h1 h2 h3
  have hex : 0 < Deep.n1 (gravity .wgs72old) exHigh (jd - 2415020) 0 := by unfold Deep.n1; rw [if_neg hH, if_neg hS]; linarith
  obtain ⟨p, hp, -⟩ := k1 ⟨by norm_num, hex, (by
    rintro _ ⟨cs, cm, h1, h2, q', h3, rfl⟩
    obtain ⟨-, g2, g3, g4, g5, g6, g7, -⟩ := hG q' cs cm h1 h2 h3
    rw [g5]
    exact ⟨g2, g3, g4, g6, g7⟩)⟩
  have hc : p.calls 1 [.propagate 17, .enable true] = .ok { p with enabled := true } := by
    obtain ⟨_, _, _, _, _, hd, _⟩ := new_kin 1 _ _ _ _ _ p hp
    simp [Propagator.calls, Propagator.call, propagate_disabled 1 17 p hd, Res.bind]
  obtain ⟨q', hq', -⟩ := k3 p _ _ hp hc rfl ⟨by norm_num, hex, (by
    rintro _ ⟨cs, cm, h1, h2, q', h3, rfl⟩
    obtain ⟨-, g2, g3, g4, g5, g6, g7, -⟩ := hG q' cs cm h1 h2 h3
    rw [g5]
    exact ⟨g2, g3, g4, g6, g7⟩)⟩
  exact ⟨jd, p, _, q', hp, hc, rfl, hq'⟩

end S2E.Sgp4
