import Verif.Proofs.Igrf6
/-!
# Histories of evaluations
-/
namespace S2E.Igrf
open Gravity TwoBody Geodesy

/-- The place stored in the state. -/
structure Place (K : ℕ) (s : Igrf) : Prop where
  r : s.r = placeR (s.blat / urad) s.bhi
  cth : s.cth = placeC (s.blat / urad) s.bhi
  sth : s.sth = if Real.sqrt (1 - s.cth * s.cth) < 0.00000015 then 0.00000015 else Real.sqrt (1 - s.cth * s.cth)
  rar : s.kr = true ∨ ∀ n ≤ K, s.rar n = (6371.2 / s.r) ^ (n + 2)
  p : s.kth = true ∨ (s.sth ^ 2 + s.cth ^ 2 = 1 → Filled s.cth s.sth K s.p)

/-- The longitude stored in the state. -/
structure Trig (K : ℕ) (s : Igrf) : Prop where
  cph : s.cph = Real.cos (s.blon / urad)
  sph : s.sph = Real.sin (s.blon / urad)
  tab : s.kph = true ∨ ∀ m ≤ K, s.csp m = Real.cos (m * (s.blon / urad)) ∧ s.snp m = Real.sin (m * (s.blon / urad))

/-- The degree found. -/
structure Degree (t : Table) (N j K : ℕ) : Prop where
  le : K ≤ N
  upper : ∀ n i, 1 ≤ n → n ^ 2 - 1 < i → i ≤ (n + 1) ^ 2 - 1 → i < (N + 1) ^ 2 - 1 → ¬t.Zero j i → n ≤ K

/-- States from the first `gigrf` on. -/
structure Ready (t : Table) (N c j K : ℕ) (s : Igrf) : Prop where
  loaded : Loaded t N c j K s
  place : s.kg = 1 → Place K s
  trig : s.kph = false → Trig K s

variable {t : Table} {N c j K : ℕ} {s : Igrf}

theorem sth_pos (h : Place K s) : 0 < s.sth := by
  rw [h.sth]
  split_ifs with e
  · norm_num
  · push Not at e; exact lt_of_lt_of_le (by norm_num) e

theorem setPlace_spec (h : Ready t N c j K s) (alat ahi : ℝ) : Loaded t N c j K (s.setPlace alat ahi) ∧ (s.setPlace alat ahi).kg = 1 ∧ Place K (s.setPlace alat ahi) ∧
    (s.setPlace alat ahi).blat = alat ∧ (s.setPlace alat ahi).bhi = ahi ∧ ((s.setPlace alat ahi).kph = false → Trig K (s.setPlace alat ahi)) ∧ (s.setPlace alat ahi).g = s.g ∧
    (s.setPlace alat ahi).first = s.first := by
  unfold Igrf.setPlace
  split_ifs with e
  · have l := h.loaded
    refine ⟨⟨l.maxod, l.ra, l.re2, l.re4, l.rp2, l.rp4, l.tzero, l.gh, l.ght⟩, rfl, ⟨?_, ?_, rfl, Or.inl rfl, Or.inl rfl⟩, rfl, rfl, fun hk => ?_, rfl, rfl⟩
    · dsimp only
      rw [l.re2, l.re4, l.rp2, l.rp4]; rfl
    · dsimp only
      rw [l.re2, l.re4, l.rp2, l.rp4]; rfl
    · have tr := h.trig hk
      exact ⟨tr.cph, tr.sph, tr.tab⟩
  · push Not at e
    exact ⟨h.loaded, e.1, h.place e.1, e.2.1, e.2.2, h.trig, rfl, rfl⟩

theorem setLongitude_spec (hl : Loaded t N c j K s) (hp : Place K s) (ht : s.kph = false → Trig K s) (alon : ℝ) : Loaded t N c j K (s.setLongitude alon) ∧
    Place K (s.setLongitude alon) ∧ Trig K (s.setLongitude alon) ∧ (s.setLongitude alon).blon = alon ∧ (s.setLongitude alon).blat = s.blat ∧ (s.setLongitude alon).bhi = s.bhi ∧
    (s.setLongitude alon).kg = s.kg ∧ (s.setLongitude alon).g = s.g ∧ (s.setLongitude alon).first = s.first := by
  unfold Igrf.setLongitude
  split_ifs with e
  · exact ⟨⟨hl.maxod, hl.ra, hl.re2, hl.re4, hl.rp2, hl.rp4, hl.tzero, hl.gh, hl.ght⟩, ⟨hp.r, hp.cth, hp.sth, hp.rar, hp.p⟩, ⟨rfl, rfl, Or.inl rfl⟩, rfl, rfl, rfl, rfl, rfl, rfl⟩
  · push Not at e
    obtain ⟨e1, e2⟩ := e
    exact ⟨hl, hp, ht (by simpa using e2), e1, rfl, rfl, rfl, rfl, rfl⟩

/-- What `fcalc` leaves. -/
theorem fcalc_spec (hl : Loaded t N c j K s) (hp : Place K s) (ht : Trig K s) :
    let s' := s.fcalc
    Loaded t N c j K s' ∧ Place K s' ∧ Trig K s' ∧ s'.kg = s.kg ∧ s'.blat = s.blat ∧ s'.bhi = s.bhi ∧ s'.blon = s.blon ∧ s'.first = s.first ∧ s'.g = s.g ∧
      (∀ n ≤ K, s'.rar n = (6371.2 / s'.r) ^ (n + 2)) ∧ (s'.sth ^ 2 + s'.cth ^ 2 = 1 → Filled s'.cth s'.sth K s'.p) ∧
      (∀ m ≤ K, s'.csp m = Real.cos (m * (s'.blon / urad)) ∧ s'.snp m = Real.sin (m * (s'.blon / urad))) ∧
      (s'.x, s'.y, s'.z) = fieldSums s'.g s'.p s'.csp s'.snp s'.rar s'.sth K := by
  have r1 : Loaded t N c j K s.updateRar ∧ Place K s.updateRar ∧ Trig K s.updateRar ∧ s.updateRar.kg = s.kg ∧ s.updateRar.blat = s.blat ∧ s.updateRar.bhi = s.bhi ∧ s.updateRar.blon = s.blon ∧
      s.updateRar.first = s.first ∧ s.updateRar.g = s.g ∧ (∀ n ≤ K, s.updateRar.rar n = (6371.2 / s.updateRar.r) ^ (n + 2)) := by
    unfold Igrf.updateRar
    split_ifs with e
    · have hr : ∀ n ≤ K, calcRar s.ra s.r s.maxod s.rar n = (6371.2 / s.r) ^ (n + 2) := by
        rw [← hl.ra, ← hl.maxod]; exact calcRar_spec s.ra s.r s.maxod s.rar
      exact ⟨⟨hl.maxod, hl.ra, hl.re2, hl.re4, hl.rp2, hl.rp4, hl.tzero, hl.gh, hl.ght⟩, ⟨hp.r, hp.cth, hp.sth, Or.inr hr, hp.p⟩, ⟨ht.cph, ht.sph, ht.tab⟩, rfl, rfl, rfl, rfl, rfl, rfl, hr⟩
    · exact ⟨hl, hp, ht, rfl, rfl, rfl, rfl, rfl, rfl, hp.rar.resolve_left e⟩
  obtain ⟨hl1, hp1, ht1, a1, a2, a3, a4, a5, a6, hrar⟩ := r1
  have r2 : Loaded t N c j K s.updateRar.updateP ∧ Place K s.updateRar.updateP ∧ Trig K s.updateRar.updateP ∧ s.updateRar.updateP.kg = s.kg ∧ s.updateRar.updateP.blat = s.blat ∧
      s.updateRar.updateP.bhi = s.bhi ∧ s.updateRar.updateP.blon = s.blon ∧ s.updateRar.updateP.first = s.first ∧ s.updateRar.updateP.g = s.g ∧
      (∀ n ≤ K, s.updateRar.updateP.rar n = (6371.2 / s.updateRar.updateP.r) ^ (n + 2)) ∧
      (s.updateRar.updateP.sth ^ 2 + s.updateRar.updateP.cth ^ 2 = 1 → Filled s.updateRar.updateP.cth s.updateRar.updateP.sth K s.updateRar.updateP.p) := by
    generalize s.updateRar = u at *
    have hpos := sth_pos hp1
    unfold Igrf.updateP
    split_ifs with e
    · have hf : u.sth ^ 2 + u.cth ^ 2 = 1 → Filled u.cth u.sth K (calcP u.cth u.sth u.maxod u.p) := fun h => by
        rw [← hl1.maxod]; exact calcP_spec h hpos _ _
      exact ⟨⟨hl1.maxod, hl1.ra, hl1.re2, hl1.re4, hl1.rp2, hl1.rp4, hl1.tzero, hl1.gh, hl1.ght⟩, ⟨hp1.r, hp1.cth, hp1.sth, hp1.rar, Or.inr hf⟩, ⟨ht1.cph, ht1.sph, ht1.tab⟩,
        a1, a2, a3, a4, a5, a6, hrar, hf⟩
    · exact ⟨hl1, hp1, ht1, a1, a2, a3, a4, a5, a6, hrar, hp1.p.resolve_left e⟩
  obtain ⟨hl2, hp2, ht2, b1, b2, b3, b4, b5, b6, hrar2, hf2⟩ := r2
  have r3 : Loaded t N c j K s.updateRar.updateP.updateTrig ∧ Place K s.updateRar.updateP.updateTrig ∧ Trig K s.updateRar.updateP.updateTrig ∧ s.updateRar.updateP.updateTrig.kg = s.kg ∧
      s.updateRar.updateP.updateTrig.blat = s.blat ∧ s.updateRar.updateP.updateTrig.bhi = s.bhi ∧ s.updateRar.updateP.updateTrig.blon = s.blon ∧ s.updateRar.updateP.updateTrig.first = s.first ∧
      s.updateRar.updateP.updateTrig.g = s.g ∧
      (∀ n ≤ K, s.updateRar.updateP.updateTrig.rar n = (6371.2 / s.updateRar.updateP.updateTrig.r) ^ (n + 2)) ∧
      (s.updateRar.updateP.updateTrig.sth ^ 2 + s.updateRar.updateP.updateTrig.cth ^ 2 = 1 →
        Filled s.updateRar.updateP.updateTrig.cth s.updateRar.updateP.updateTrig.sth K s.updateRar.updateP.updateTrig.p) ∧
      (∀ m ≤ K, s.updateRar.updateP.updateTrig.csp m = Real.cos (m * (s.updateRar.updateP.updateTrig.blon / urad)) ∧
        s.updateRar.updateP.updateTrig.snp m = Real.sin (m * (s.updateRar.updateP.updateTrig.blon / urad))) := by
    generalize s.updateRar.updateP = u at *
    unfold Igrf.updateTrig
    split_ifs with e
    · have hf : ∀ m ≤ K, (calcTrig u.cph u.sph u.maxod u.csp u.snp).1 m = Real.cos (m * (u.blon / urad)) ∧ (calcTrig u.cph u.sph u.maxod u.csp u.snp).2 m = Real.sin (m * (u.blon / urad)) := by
        rw [← hl2.maxod, ht2.cph, ht2.sph]; exact calcTrig_spec _ _ _ _
      exact ⟨⟨hl2.maxod, hl2.ra, hl2.re2, hl2.re4, hl2.rp2, hl2.rp4, hl2.tzero, hl2.gh, hl2.ght⟩, ⟨hp2.r, hp2.cth, hp2.sth, hp2.rar, hp2.p⟩, ⟨ht2.cph, ht2.sph, Or.inr hf⟩,
        b1, b2, b3, b4, b5, b6, hrar2, hf2, hf⟩
    · exact ⟨hl2, hp2, ht2, b1, b2, b3, b4, b5, b6, hrar2, hf2, ht2.tab.resolve_left e⟩
  obtain ⟨hl3, hp3, ht3, c1, c2, c3, c4, c5, c6, hrar3, hf3, hg3⟩ := r3
  unfold Igrf.fcalc
  dsimp only
  generalize s.updateRar.updateP.updateTrig = u at *
  refine ⟨⟨hl3.maxod, hl3.ra, hl3.re2, hl3.re4, hl3.rp2, hl3.rp4, hl3.tzero, hl3.gh, hl3.ght⟩, ⟨hp3.r, hp3.cth, hp3.sth, hp3.rar, hp3.p⟩, ⟨ht3.cph, ht3.sph, ht3.tab⟩,
    c1, c2, c3, c4, c5, c6, hrar3, hf3, hg3, ?_⟩
  rw [hl3.maxod]

theorem kph_false (s : Igrf) : s.fcalc.kph = false := by
  unfold Igrf.fcalc
  dsimp only
  generalize s.updateRar.updateP = u
  unfold Igrf.updateTrig
  split_ifs with e
  · rfl
  · simpa using e

theorem tyear_ready (h : Ready t N c j K s) (y : ℝ) : Ready t N c j K (s.tyear y) :=
  have l := h.loaded
  ⟨⟨l.maxod, l.ra, l.re2, l.re4, l.rp2, l.rp4, l.tzero, l.gh, l.ght⟩, fun e => ⟨(h.place e).r, (h.place e).cth, (h.place e).sth, (h.place e).rar, (h.place e).p⟩,
    fun e => ⟨(h.trig e).cph, (h.trig e).sph, (h.trig e).tab⟩⟩

/-- One evaluation in a ready state. -/
theorem eval_spec (h : Ready t N c j K s) (y alat alon ahi : ℝ) :
    let s' := (s.tyear y).mfldg alat alon ahi
    Ready t N c j K s' ∧ s'.first = s.first ∧ s'.r = placeR (alat / urad) ahi ∧ s'.cth = placeC (alat / urad) ahi ∧
      s'.sth = (if Real.sqrt (1 - s'.cth * s'.cth) < 0.00000015 then 0.00000015 else Real.sqrt (1 - s'.cth * s'.cth)) ∧ s'.g = (s.tyear y).g ∧
      (∀ n ≤ K, s'.rar n = (6371.2 / s'.r) ^ (n + 2)) ∧ (s'.sth ^ 2 + s'.cth ^ 2 = 1 → Filled s'.cth s'.sth K s'.p) ∧
      (∀ m ≤ K, s'.csp m = Real.cos (m * (alon / urad)) ∧ s'.snp m = Real.sin (m * (alon / urad))) ∧
      (s'.x, s'.y, s'.z) = fieldSums s'.g s'.p s'.csp s'.snp s'.rar s'.sth K := by
  obtain ⟨l1, k1, p1, e1, e2, t1, g1, f1⟩ := setPlace_spec (tyear_ready h y) alat ahi
  obtain ⟨l2, p2, t2, e3, e4, e5, k2, g2, f2⟩ := setLongitude_spec l1 p1 t1 alon
  obtain ⟨l3, p3, t3, k3, e6, e7, e8, f3, g3, h1, h2, h3, h4⟩ := fcalc_spec l2 p2 t2
  have hk := kph_false (((s.tyear y).setPlace alat ahi).setLongitude alon)
  unfold Igrf.mfldg
  generalize (((s.tyear y).setPlace alat ahi).setLongitude alon).fcalc = u at *
  refine ⟨⟨l3, fun _ => p3, fun _ => t3⟩, by rw [f3, f2, f1]; rfl, ?_, ?_, p3.sth, by rw [g3, g2, g1], h1, h2, ?_, h4⟩
  · rw [p3.r, e6, e7, e4, e5, e1, e2]
  · rw [p3.cth, e6, e7, e4, e5, e1, e2]
  · rw [e8, e3] at h3; exact h3

/-- Coefficients above the degree found vanish. -/
theorem Degree.zero (hd : Degree t N j K) (he : t.EndsWithOrder N j) {n m : ℕ} (h1 : 1 ≤ n) (h2 : K < n) (h3 : n ≤ N) (hm : m ≤ n) :
    t.Zero j (gLine n m) ∧ (1 ≤ m → t.Zero j (hLine n m)) := by
  have e : (n + 1) ^ 2 = n ^ 2 + 2 * n + 1 := by ring
  have hn : 1 ≤ n ^ 2 := Nat.one_le_pow _ _ h1
  have hN : (n + 1) ^ 2 ≤ (N + 1) ^ 2 := Nat.pow_le_pow_left (by omega) 2
  constructor
  · by_contra hc
    rcases Nat.eq_zero_or_pos m with rfl | h0
    · obtain ⟨i, i1, i2, i3⟩ := he n h1 h3 hc
      have q1 := Nat.sqrt_le i
      have q2 := Nat.lt_succ_sqrt i
      have hge : n ≤ Nat.sqrt i := by
        rw [Nat.le_sqrt]
        rw [gLine] at i1
        rw [sq] at i1; omega
      rw [← sq] at q1
      have q3 : (Nat.sqrt i).succ * (Nat.sqrt i).succ = (Nat.sqrt i + 1) ^ 2 := by rw [sq]
      have q4 : 1 ≤ (Nat.sqrt i) ^ 2 := Nat.one_le_pow _ _ (by omega)
      have := hd.upper (Nat.sqrt i) i (by omega) (by omega) (by omega) i2 i3
      omega
    · have := hd.upper n (gLine n m) h1 (by rw [gLine]; omega) (by rw [gLine]; omega) (by rw [gLine]; omega) hc
      omega
  · intro h0
    by_contra hc
    have := hd.upper n (hLine n m) h1 (by rw [hLine]; omega) (by rw [hLine]; omega) (by rw [hLine]; omega) hc
    omega

/-- The potential up to the degree found is the whole potential. -/
theorem potential_degree (hd : Degree t N j K) (he : t.EndsWithOrder N j) (ht : t.Complete N c) (hj : j + 2 ≤ c) (y : ℝ) :
    magneticPotential 6371.2 K (fun n m => t.value c j y (gLine n m)) (fun n m => t.value c j y (hLine n m)) =
      magneticPotential 6371.2 N (fun n m => t.value c j y (gLine n m)) (fun n m => t.value c j y (hLine n m)) := by
  funext p
  rw [magneticPotential, magneticPotential]
  congr 1
  refine Finset.sum_subset (Finset.Icc_subset_Icc_right hd.le) fun n h1 h2 => Finset.sum_eq_zero fun m hm => ?_
  rw [Finset.mem_Icc] at h1 h2
  rw [Finset.mem_range] at hm
  obtain ⟨z1, z2⟩ := hd.zero he (n := n) (m := m) h1.1 (by omega) h1.2 (by omega)
  have v : ∀ i, t.Zero j i → t.value c j y i = 0 := by
    intro i hi
    rw [ht.zero_iff hj] at hi
    rw [value_slope, hi.1, hi.2]; ring
  rw [v _ z1]
  rcases Nat.eq_zero_or_pos m with rfl | h0
  · simp
  · rw [v _ (z2 h0)]; simp

/-- The result of an evaluation in a ready state. -/
theorem eval_gradient (h : Ready t N c j K s) (year lat lon alt side : ℝ) {p : Fin 3 → ℝ} (hg : HasGeodetic 6378.137 (1 / 298.25722) p (kappa * lat) (kappa * lon) (alt / 1000))
    (hu : 0 ≤ Real.cos (kappa * lat)) (hh : -6000000 < alt) (hpole : 0.00000015 * len p ≤ Real.sqrt (p 0 ^ 2 + p 1 ^ 2)) (hp : p ≠ 0) :
    let s' := (s.tyear year).mfldg (lat * (180 / Real.pi)) (lon * (180 / Real.pi)) (alt / 1000)
    IsGradient (magneticPotential 6371.2 K (fun n m => t.value c j year (gLine n m)) (fun n m => t.value c j year (hLine n m))) p
      (fun i => -turned (side + (lon - kappa * lon)) (transMagaxisToEci ![s'.x, s'.y, s'.z] lon (Real.arccos s'.cth) side) i) := by
  intro s'
  obtain ⟨e1, e2, e3, e4, e5, e6, e7, e8, e9, e10⟩ := eval_spec h year (lat * (180 / Real.pi)) (lon * (180 / Real.pi)) (alt / 1000)
  have hang : ∀ x, x * (180 / Real.pi) / urad = kappa * x := by
    intro x
    have := Real.pi_pos.ne'
    rw [urad, kappa]
    field_simp
  change s'.r = _ at e3
  change s'.cth = _ at e4
  change s'.sth = (if Real.sqrt (1 - s'.cth * s'.cth) < 0.00000015 then 0.00000015 else Real.sqrt (1 - s'.cth * s'.cth)) at e5
  change s'.g = _ at e6
  change ∀ n ≤ K, s'.rar n = (6371.2 / s'.r) ^ (n + 2) at e7
  change s'.sth ^ 2 + s'.cth ^ 2 = 1 → Filled s'.cth s'.sth K s'.p at e8
  change ∀ m ≤ K, s'.csp m = _ ∧ s'.snp m = _ at e9
  change (s'.x, s'.y, s'.z) = fieldSums s'.g s'.p s'.csp s'.snp s'.rar s'.sth K at e10
  clear_value s'
  rw [hang] at e3 e4 e9
  obtain ⟨q1, q2, q3, q4, q5, q6⟩ := place_spec hg hu (by linarith) hpole hp
  rw [← e4] at q4 q5 q6
  rw [if_neg (not_lt.mpr q4)] at e5
  rw [← e5] at q4 q5 q6
  have hs : 0 < s'.sth := lt_of_lt_of_le (by norm_num) q4
  rw [q1] at e3
  rw [trans_spec hs.le q5]
  have key := field_gradient (phi := kappa * lon) q3 hs q5 6371.2 K (fun n m => t.value c j year (gLine n m)) (fun n m => t.value c j year (hLine n m)) s'.g s'.p s'.csp s'.snp s'.rar
    (by
      intro n h1 h2 m hm
      have l := h.loaded
      obtain ⟨y1, y2⟩ := tyear_spec s year n h1 (by rw [l.maxod]; exact h2) m hm
      rw [e6]
      constructor
      · rw [y1, (l.gh n h1 h2 m hm).1, (l.ght n h1 h2 m hm).1, l.tzero]
        rw [value_slope]; ring
      · intro h0
        rw [y2 h0, (l.gh n h1 h2 m hm).2 h0, (l.ght n h1 h2 m hm).2 h0, l.tzero]
        rw [value_slope]; ring)
    (e8 q5) e9 (by rw [e3] at e7; exact e7)
  rw [← e10] at key
  dsimp only at key
  rw [← q6] at key
  exact key

end S2E.Igrf
