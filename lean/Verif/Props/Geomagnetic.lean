import Verif.Proofs.Igrf7
import Verif.Props.Quaternion
/-!
# C154-C156: the geomagnetic field
-/
namespace S2E.Igrf
open Gravity TwoBody Geodesy

/-! ## C154: the field -/

theorem before_path {path : List Char} {s : Igrf} (h : Before path s) : s = { Igrf.initial with path := path } := by
  induction h with
  | initial => rfl
  | path _ h2 ih =>
    subst ih
    unfold Igrf.setFilePath at h2
    split_ifs at h2
    exact (Res.ok.inj h2).symm

section
variable {files : List Char → Option Table} {path : List Char} {t : Table} {N c j : ℕ} {y0 : ℝ} {s : Igrf}

/-- The first evaluation loads the file. -/
theorem first_ready (hs : Before path s) (h13 : ['1', '3'] <:+: path) (hf : files path = some t) (ht : t.Complete N c) (hj : t.Column c y0 j) (junk : ℝ × ℝ) :
    ∃ s' K, (s.gigrf files junk y0) = .ok s' ∧ Ready t N c j K s' ∧ Degree t N j K ∧ (junk ≠ (0, 0) → K = N) ∧ (junk = (0, 0) → 1 ≤ K → ∃ i, K ^ 2 - 1 < i ∧ i < (N + 1) ^ 2 - 1 ∧ ¬t.Zero j i) := by
  have hp : s.path = path := by rw [before_path hs]
  obtain ⟨s', K, e1, e2, e3, e4, e5, e6, e7, e8, e9, e10⟩ := gigrf_spec (s := s) (files := files) (junk := junk) (year := y0) (by rw [hp]; exact h13) (by rw [hp]; exact hf) ht hj
  refine ⟨s', K, e1, ⟨e2, fun h => by rw [e3] at h; omega, fun h => by rw [e4] at h; simp at h⟩, ⟨e7, e8⟩, e10, fun hz h1 => ?_⟩
  rcases e9 h1 with ⟨i, i1, i2, _, i3⟩ | ⟨h2, _⟩
  · exact ⟨i, i1, i2, i3⟩
  · exact absurd hz h2

/-- All later states are ready, with the file and column of the first evaluation. -/
theorem after_ready (h13 : ['1', '3'] <:+: path) (hf : files path = some t) (ht : t.Complete N c) (hj : t.Column c y0 j) (hs : After files path y0 s) :
    ∃ K, Ready t N c j K s ∧ Degree t N j K ∧ s.first = false := by
  induction hs with
  | @first s s' junk lat lon alt side B hb he =>
    obtain ⟨u, K, e1, e2, e3, e4⟩ := first_ready hb h13 hf ht hj junk
    have hfirst : s.first = true := by rw [before_path hb]; rfl
    rw [Igrf.igrfCalc, hfirst, if_pos rfl, e1] at he
    simp only [Res.bind] at he
    obtain ⟨rfl, -⟩ := Prod.mk.inj (Res.ok.inj he)
    obtain ⟨r1, r2, _⟩ := eval_spec (s := { u with first := false }) (t := t) (N := N) (c := c) (j := j) (K := K)
      ⟨⟨e2.loaded.maxod, e2.loaded.ra, e2.loaded.re2, e2.loaded.re4, e2.loaded.rp2, e2.loaded.rp4, e2.loaded.tzero, e2.loaded.gh, e2.loaded.ght⟩,
        fun e => ⟨(e2.place e).r, (e2.place e).cth, (e2.place e).sth, (e2.place e).rar, (e2.place e).p⟩, fun e => ⟨(e2.trig e).cph, (e2.trig e).sph, (e2.trig e).tab⟩⟩
      y0 (lat * (180 / Real.pi)) (lon * (180 / Real.pi)) (alt / 1000)
    exact ⟨K, r1, e3, r2⟩
  | @next s s' junk year lat lon alt side B hb he ih =>
    obtain ⟨K, e2, e3, e4⟩ := ih
    rw [Igrf.igrfCalc, e4, if_neg (by simp)] at he
    simp only [Res.bind] at he
    obtain ⟨rfl, -⟩ := Prod.mk.inj (Res.ok.inj he)
    obtain ⟨r1, r2, _⟩ := eval_spec e2 year (lat * (180 / Real.pi)) (lon * (180 / Real.pi)) (alt / 1000)
    exact ⟨K, r1, e3, r2.trans e4⟩
  | @path s s' name hb he ih =>
    obtain ⟨K, e2, e3, e4⟩ := ih
    unfold Igrf.setFilePath at he
    split_ifs at he
    obtain rfl := Res.ok.inj he
    exact ⟨K, ⟨⟨e2.loaded.maxod, e2.loaded.ra, e2.loaded.re2, e2.loaded.re4, e2.loaded.rp2, e2.loaded.rp4, e2.loaded.tzero, e2.loaded.gh, e2.loaded.ght⟩,
        fun e => ⟨(e2.place e).r, (e2.place e).cth, (e2.place e).sth, (e2.place e).rar, (e2.place e).p⟩, fun e => ⟨(e2.trig e).cph, (e2.trig e).sph, (e2.trig e).tab⟩⟩, e3, e4⟩

/-- A place away from the poles: geodetic coordinates on the ellipsoid of `gigrf`, in kilometres, with the angles as the code takes them. -/
structure At (lat lon alt : ℝ) (p : Fin 3 → ℝ) : Prop where
  geodetic : HasGeodetic 6378.137 (1 / 298.25722) p (kappa * lat) (kappa * lon) (alt / 1000)
  latitude : 0 ≤ Real.cos (kappa * lat)
  altitude : -6000000 < alt
  off_axis : 0.00000015 * len p ≤ Real.sqrt (p 0 ^ 2 + p 1 ^ 2)
  ne : p ≠ 0

/-- An evaluation, whatever degree has been found. -/
theorem eval_any (h13 : ['1', '3'] <:+: path) (hf : files path = some t) (ht : t.Complete N c) (hj : t.Column c y0 j) {year : ℝ} (hs : Before path s ∧ year = y0 ∨ After files path y0 s)
    (junk : ℝ × ℝ) {lat lon alt : ℝ} (side : ℝ) {p : Fin 3 → ℝ} (hp : At lat lon alt p) :
    ∃ s' B K, s.igrfCalc files junk year lat lon alt side = .ok (s', B) ∧ Degree t N j K ∧
      (Before path s → (junk ≠ (0, 0) → K = N) ∧ (junk = (0, 0) → 1 ≤ K → ∃ i, K ^ 2 - 1 < i ∧ i < (N + 1) ^ 2 - 1 ∧ ¬t.Zero j i)) ∧
      IsGradient (magneticPotential 6371.2 K (fun n m => t.value c j year (gLine n m)) (fun n m => t.value c j year (hLine n m))) p
        (fun i => -turned (side + (lon - kappa * lon)) B i) := by
  rcases hs with ⟨hb, rfl⟩ | ha
  · obtain ⟨u, K, e1, e2, e3, e4⟩ := first_ready hb h13 hf ht hj junk
    have hfirst : s.first = true := by rw [before_path hb]; rfl
    have hr : Ready t N c j K { u with first := false } :=
      ⟨⟨e2.loaded.maxod, e2.loaded.ra, e2.loaded.re2, e2.loaded.re4, e2.loaded.rp2, e2.loaded.rp4, e2.loaded.tzero, e2.loaded.gh, e2.loaded.ght⟩,
        fun e => ⟨(e2.place e).r, (e2.place e).cth, (e2.place e).sth, (e2.place e).rar, (e2.place e).p⟩, fun e => ⟨(e2.trig e).cph, (e2.trig e).sph, (e2.trig e).tab⟩⟩
    refine ⟨(({ u with first := false } : Igrf).tyear year).mfldg (lat * (180 / Real.pi)) (lon * (180 / Real.pi)) (alt / 1000), _, K, ?_, e3, fun _ => e4, eval_gradient hr year lat lon alt side hp.geodetic hp.latitude hp.altitude hp.off_axis hp.ne⟩
    rw [Igrf.igrfCalc, hfirst, if_pos rfl, e1]
    rfl
  · obtain ⟨K, e2, e3, e4⟩ := after_ready h13 hf ht hj ha
    refine ⟨(s.tyear year).mfldg (lat * (180 / Real.pi)) (lon * (180 / Real.pi)) (alt / 1000), _, K, ?_, e3, fun hb => ?_, eval_gradient e2 year lat lon alt side hp.geodetic hp.latitude hp.altitude hp.off_axis hp.ne⟩
    · rw [Igrf.igrfCalc, e4, if_neg (by simp)]
      rfl
    · rw [before_path hb] at e4; simp [Igrf.initial] at e4

/-- C154: the field is minus the gradient of the potential of the coefficients of the file. After any history, the vector returned, turned back into the Earth-fixed frame, is minus the
gradient at the place asked for, with the coefficients of the asked year on the straight line of the column of the year of the first evaluation. -/
theorem C154_field (h13 : ['1', '3'] <:+: path) (hf : files path = some t) (ht : t.Complete N c) (hj : t.Column c y0 j) (he : t.EndsWithOrder N j) {year : ℝ}
    (hs : Before path s ∧ year = y0 ∨ After files path y0 s) (junk : ℝ × ℝ) {lat lon alt : ℝ} (side : ℝ) {p : Fin 3 → ℝ} (hp : At lat lon alt p) :
    ∃ s' B, s.igrfCalc files junk year lat lon alt side = .ok (s', B) ∧
      IsGradient (magneticPotential 6371.2 N (fun n m => t.value c j year (gLine n m)) (fun n m => t.value c j year (hLine n m))) p
        (fun i => -turned (side + (lon - kappa * lon)) B i) := by
  obtain ⟨s', B, K, e1, e2, _, e3⟩ := eval_any h13 hf ht hj hs junk side hp
  rw [potential_degree e2 he ht hj.1] at e3
  exact ⟨s', B, e1, e3⟩

theorem gradient_unique {f : (Fin 3 → ℝ) → ℝ} {p g k : Fin 3 → ℝ} (h1 : IsGradient f p g) (h2 : IsGradient f p k) : g = k := by
  have := HasFDerivAt.unique h1 h2
  funext i
  have := congrArg (fun L => L (Pi.single i 1)) this
  simpa [Pi.single_apply] using this

theorem turned_inj {a : ℝ} {v w : Fin 3 → ℝ} (h : turned a v = turned a w) : v = w := by
  have h0 := congrFun h 0
  have h1 := congrFun h 1
  have h2 := congrFun h 2
  simp only [turned, Matrix.cons_val] at h0 h1 h2
  have q := Real.sin_sq_add_cos_sq a
  have e0 : v 0 = w 0 := by linear_combination Real.cos a * h0 - Real.sin a * h1 + (w 0 - v 0) * q
  have e1 : v 1 = w 1 := by linear_combination Real.sin a * h0 + Real.cos a * h1 + (w 1 - v 1) * q
  funext i
  fin_cases i
  · exact e0
  · exact e1
  · exact h2

/-- C155: beyond the year of the first evaluation and the path set last before it, the history does not matter: neither earlier places, years and sidereal times, nor paths set later, nor
the uninitialised memory. -/
theorem C155_history (h13 : ['1', '3'] <:+: path) (hf : files path = some t) (ht : t.Complete N c) (hj : t.Column c y0 j) (he : t.EndsWithOrder N j) {year : ℝ} {s1 s2 : Igrf}
    (h1 : Before path s1 ∧ year = y0 ∨ After files path y0 s1) (h2 : Before path s2 ∧ year = y0 ∨ After files path y0 s2) (junk1 junk2 : ℝ × ℝ) {lat lon alt : ℝ} (side : ℝ) {p : Fin 3 → ℝ}
    (hp : At lat lon alt p) :
    ∃ s1' s2' B, s1.igrfCalc files junk1 year lat lon alt side = .ok (s1', B) ∧ s2.igrfCalc files junk2 year lat lon alt side = .ok (s2', B) := by
  obtain ⟨s1', B1, e1, g1⟩ := C154_field h13 hf ht hj he h1 junk1 side hp
  obtain ⟨s2', B2, e2, g2⟩ := C154_field h13 hf ht hj he h2 junk2 side hp
  have h3 := gradient_unique g1 g2
  have h4 : B1 = B2 := by
    apply turned_inj (a := side + (lon - kappa * lon))
    funext i
    have := congrFun h3 i
    simpa using this
  subst h4
  exact ⟨s1', s2', B1, e1, e2⟩

end

/-! ## A small file -/

/-- Two epochs, only g(1,1), which grows from 0 to 1 in five years and stays there. -/
def demo : Table := ⟨8, 3, 1900, 2010, [2000, 2005], [0, 0, 0] :: [0, 1, 0] :: List.replicate 78 [0, 0, 0]⟩

theorem getD_replicate {α : Type} (n i : ℕ) (a d : α) : (List.replicate n a).getD i d = if i < n then a else d := by
  split_ifs with h
  · rw [List.getD_eq_getElem _ _ (by simpa using h), List.getElem_replicate]
  · rw [List.getD_eq_default _ _ (by simpa using h)]

theorem getD_zeros (j : ℕ) : ([0, 0, 0] : List ℝ).getD j 0 = 0 := by rcases j with _ | _ | _ | j <;> simp

theorem demo_entry (i j : ℕ) : demo.entry i j = if i = 1 ∧ j = 1 then 1 else 0 := by
  rcases i with _ | _ | i
  · rcases j with _ | _ | _ | j <;> simp [Table.entry, demo]
  · rcases j with _ | _ | _ | j <;> simp [Table.entry, demo]
  · rw [Table.entry, demo, List.getD_cons_succ, List.getD_cons_succ, getD_replicate]
    split_ifs with h h'
    · omega
    · exact getD_zeros j
    · omega
    · rfl

theorem demo_complete : demo.Complete 8 3 where
  degree := rfl
  degree_range := by omega
  columns := rfl
  columns_range := by omega
  years := by simp [demo]
  increasing := by
    intro j hj
    obtain rfl : j = 0 := by omega
    simp [Table.year, demo]; norm_num
  rows := by simp [demo]
  full := by
    intro i hi
    rcases i with _ | _ | i
    · simp [demo]
    · simp [demo]
    · have : i < 78 := by omega
      rw [demo, List.getD_cons_succ, List.getD_cons_succ, getD_replicate, if_pos this]; simp

theorem demo_ends (j : ℕ) : demo.EndsWithOrder 8 j := by
  intro n h1 h2 h3
  exfalso
  apply h3
  have : gLine n 0 ≠ 1 := by
    rw [gLine]
    intro h
    have : n ^ 2 = 2 := by omega
    rcases n with _ | _ | n
    · omega
    · omega
    · nlinarith
  simp [Table.Zero, demo_entry, this]

theorem demo_2000 : demo.Column 3 2000 0 := ⟨by omega, fun i h1 h2 => by omega, fun _ => by simp [Table.year, demo]; norm_num⟩
theorem demo_2010 : demo.Column 3 2010 1 := ⟨by omega, fun i h1 h2 => by obtain rfl : i = 1 := by omega
                                                                         simp [Table.year, demo]; norm_num, fun h => by omega⟩

/-- The place on the equator. -/
theorem at_equator : At 0 0 0 (sphere 6378.137 1 0 0) where
  geodetic := by
    refine ⟨sphere 6378.137 1 0 0, ?_, ⟨1 / 6378.137, by norm_num, ?_⟩, ?_⟩
    · simp [OnEllipsoid, sphere]; norm_num
    · intro i
      fin_cases i <;> simp [direction, sphere] <;> norm_num
    · intro i; simp
  latitude := by simp
  altitude := by norm_num
  off_axis := by
    rw [sphere_len (by norm_num) (by norm_num)]
    apply Real.le_sqrt_of_sq_le
    simp [sphere]; norm_num
  ne := sphere_ne (by norm_num) (by norm_num)

/-- The hypotheses of C154 and C155 are met. -/
example : ∃ s : Igrf, Before "igrf13.coef".toList s := by
  have : Igrf.initial.setFilePath "igrf13.coef".toList = .ok { Igrf.initial with path := "igrf13.coef".toList } := by
    rw [Igrf.setFilePath, if_pos (by decide)]
  exact ⟨_, .path .initial this⟩

/-- Potential of the small file. -/
theorem demo_potential (j : ℕ) (y : ℝ) {q : Fin 3 → ℝ} (hq : q ≠ 0) :
    magneticPotential 6371.2 8 (fun n m => demo.value 3 j y (gLine n m)) (fun n m => demo.value 3 j y (hLine n m)) q =
      demo.value 3 j y 1 * (6371.2 ^ 3 * schmidt 1 1 * sv 1 1 q) := by
  have hv : ∀ i, i ≠ 1 → demo.value 3 j y i = 0 := by
    intro i hi
    simp [Table.value, demo_entry, hi]
  have hn : ∀ n m : ℕ, n ^ 2 + 2 * m ≠ 2 ∨ n = 0 := by
    intro n m
    rcases n with _ | _ | n
    · right; rfl
    · left; omega
    · left; have : (n + 2) ^ 2 = n ^ 2 + 4 * n + 4 := by ring
      have : n + 1 + 1 = n + 2 := rfl
      rw [this]; omega
  have hh : ∀ n m, 1 ≤ n → hLine n m ≠ 1 := by
    intro n m h1 h
    have := hn n m
    have : 1 ≤ n ^ 2 := Nat.one_le_pow _ _ h1
    rw [hLine] at h
    omega
  have hg : ∀ n m, 1 ≤ n → gLine n m = 1 → n = 1 ∧ m = 1 := by
    intro n m h1 h
    have := Nat.one_le_pow 2 n h1
    rw [gLine] at h
    rcases n with _ | _ | n
    · omega
    · exact ⟨rfl, by omega⟩
    · have : (n + 1 + 1) ^ 2 = n ^ 2 + 4 * n + 4 := by ring
      omega
  rw [potential_solid _ _ _ _ hq, Finset.sum_eq_single 1, Finset.sum_eq_single 1]
  · rw [hv _ (hh 1 1 (le_refl _))]
    have : gLine 1 1 = 1 := rfl
    rw [this]; ring
  · intro m _ hm
    rw [hv _ (hh 1 m (le_refl _)), hv _ (fun h => hm (hg 1 m (le_refl _) h).2)]; ring
  · intro h; simp at h
  · intro n hn hne
    have h1 := (Finset.mem_Icc.mp hn).1
    refine Finset.sum_eq_zero fun m _ => ?_
    rw [hv _ (hh n m h1), hv _ (fun h => hne (hg n m h1 h).1)]; ring
  · intro h; simp at h

/-- C155 (what is wrong): the segment of the table is chosen by the first evaluation only. With an evaluation in 2000 before it, that of 2010 continues the line of 2000 to 2005 beyond its
end, and gives twice the field of a program that starts in 2010. -/
theorem C155_frozen : ∃ (files : List Char → Option Table) (path : List Char) (s1 s2 s1' s2' : Igrf) (B1 B2 : Vec 3), After files path 2000 s1 ∧ Before path s2 ∧
    s1.igrfCalc files (0, 0) 2010 0 0 0 0 = .ok (s1', B1) ∧ s2.igrfCalc files (0, 0) 2010 0 0 0 0 = .ok (s2', B2) ∧ (∀ i, B1 i = 2 * B2 i) ∧ B2 ≠ 0 := by
  let files : List Char → Option Table := fun _ => some demo
  have h13 : ['1', '3'] <:+: ['1', '3'] := List.infix_refl _
  have hb : Before ['1', '3'] { Igrf.initial with path := ['1', '3'] } := .path .initial (by rw [Igrf.setFilePath, if_pos (by decide)])
  obtain ⟨s1, B, e1, -⟩ := C154_field (files := files) h13 rfl demo_complete demo_2000 (demo_ends 0) (Or.inl ⟨hb, rfl⟩) (0, 0) 0 at_equator
  have ha : After files ['1', '3'] 2000 s1 := .first hb e1
  obtain ⟨s1', B1, e2, g1⟩ := C154_field (files := files) h13 rfl demo_complete demo_2000 (demo_ends 0) (year := 2010) (Or.inr ha) (0, 0) 0 at_equator
  obtain ⟨s2', B2, e3, g2⟩ := C154_field (files := files) h13 rfl demo_complete demo_2010 (demo_ends 1) (Or.inl ⟨hb, rfl⟩) (0, 0) 0 at_equator
  have hne := at_equator.ne
  have v1 : demo.value 3 0 2010 1 = 2 := by
    have y0 : demo.year 0 = 2000 := rfl
    have y1 : demo.year (0 + 1) = 2005 := rfl
    rw [Table.value, y0, y1]
    simp only [demo_entry]; norm_num
  have v2 : demo.value 3 1 2010 1 = 1 := by simp [Table.value, demo_entry]
  obtain ⟨d, -⟩ := gradient_sphere (r := 6378.137) (s := 1) (c := 0) (phi := 0) (by norm_num) (by norm_num) (by norm_num) 1 1
  have dU := d.const_mul (6371.2 ^ 3 * schmidt 1 1)
  have k1 := gradient_unique (IsGradient.congr_of_ne hne (dU.const_mul 2) fun q hq => by rw [demo_potential 0 2010 hq, v1]) g1
  have k2 := gradient_unique (IsGradient.congr_of_ne hne (dU.const_mul 1) fun q hq => by rw [demo_potential 1 2010 hq, v2]) g2
  have hT : ∀ i, turned (0 + (0 - kappa * 0)) B1 i = 2 * turned (0 + (0 - kappa * 0)) B2 i := by
    intro i
    have a1 := congrFun k1 i
    have a2 := congrFun k2 i
    linarith
  refine ⟨files, ['1', '3'], s1, _, s1', s2', B1, B2, ha, hb, e2, e3, ?_, ?_⟩
  · have t0 := hT 0
    have t1 := hT 1
    have t2 := hT 2
    simp [turned] at t0 t1 t2
    intro i
    fin_cases i
    · exact t0
    · exact t1
    · exact t2
  · rintro rfl
    have a2 := congrFun k2 0
    have hs : 0 < schmidt 1 1 := by rw [schmidt]; exact Real.sqrt_pos.mpr (by norm_num)
    simp [turned, fromNed, PP, dl_11] at a2
    rcases a2 with (h | h) | h
    · norm_num at h
    · linarith
    · norm_num at h

/-- C155 (what is wrong): in a file in which all but the first coefficient g(1,0) vanish, the field depends on memory that has never been written: if it happens to be zero the field vanishes,
otherwise it is right. The same happens to any last coefficient of order zero (`EndsWithOrder`). -/
theorem C155_zonal {files : List Char → Option Table} {path : List Char} {t : Table} {N c j : ℕ} {year : ℝ} {s : Igrf} (h13 : ['1', '3'] <:+: path) (hf : files path = some t)
    (ht : t.Complete N c) (hj : t.Column c year j) (hz : ∀ i, 1 ≤ i → i < (N + 1) ^ 2 - 1 → t.Zero j i) (hs : Before path s) (junk : ℝ × ℝ) {lat lon alt : ℝ} (side : ℝ) {p : Fin 3 → ℝ}
    (hp : At lat lon alt p) :
    ∃ s' B, s.igrfCalc files junk year lat lon alt side = .ok (s', B) ∧ (junk = (0, 0) → B = 0) ∧
      (junk ≠ (0, 0) → IsGradient (magneticPotential 6371.2 N (fun n m => t.value c j year (gLine n m)) (fun n m => t.value c j year (hLine n m))) p
        (fun i => -turned (side + (lon - kappa * lon)) B i)) := by
  obtain ⟨s', B, K, e1, e2, e3, e4⟩ := eval_any h13 hf ht hj (Or.inl ⟨hs, rfl⟩) junk side hp
  refine ⟨s', B, e1, fun h0 => ?_, fun h0 => by rw [(e3 hs).1 h0] at e4; exact e4⟩
  have hK : K = 0 := by
    by_contra hk
    obtain ⟨i, i1, i2, i3⟩ := (e3 hs).2 h0 (by omega)
    exact i3 (hz i (by omega) i2)
  subst hK
  have hzero : IsGradient (magneticPotential 6371.2 0 (fun n m => t.value c j year (gLine n m)) (fun n m => t.value c j year (hLine n m))) p (fun _ => 0) := by
    have : magneticPotential 6371.2 0 (fun n m => t.value c j year (gLine n m)) (fun n m => t.value c j year (hLine n m)) = fun _ => 0 := by
      funext q; simp [magneticPotential]
    rw [this]; exact isGradient_const 0
  have h := gradient_unique e4 hzero
  apply turned_inj (a := side + (lon - kappa * lon))
  funext i
  have := congrFun h i
  have h0 : turned (side + (lon - kappa * lon)) 0 i = 0 := by fin_cases i <;> simp [turned]
  rw [h0]
  simpa using this

/-- C155: the first evaluation ends the program if no path with "13" in it has been set, the file is not there or its first line is out of range, and later paths cannot repair it. -/
theorem C155_exit {files : List Char → Option Table} {path : List Char} {s : Igrf} (hs : Before path s) (junk : ℝ × ℝ) (year lat lon alt side : ℝ)
    (h : ¬(['1', '3'] <:+: path) ∨ files path = none ∨ ∃ t, files path = some t ∧ (t.maxod < 8 ∨ 19 < t.maxod ∨ t.ncol < 2 ∨ 50 < t.ncol)) :
    s.igrfCalc files junk year lat lon alt side = .throws := by
  rw [before_path hs, Igrf.igrfCalc]
  rw [if_pos (by rfl)]
  have hg : ({ Igrf.initial with path := path } : Igrf).gigrf files junk year = .throws := by
    unfold Igrf.gigrf
    by_cases h13 : ['1', '3'] <:+: path
    · rw [if_neg (not_not.mpr h13)]
      rcases h with h | h | ⟨t, h, h2⟩
      · exact absurd h13 h
      · simp only [h]
      · simp only [h]
        rw [if_pos (by omega)]
    · rw [if_pos h13]
  rw [hg]; rfl

/-- C155: a path of 256 characters or more is undefined behaviour. -/
theorem C155_long (s : Igrf) (name : List Char) : s.setFilePath name = .ub ↔ 256 ≤ name.length := by
  rw [Igrf.setFilePath]
  split_ifs with h
  · exact ⟨fun h => by simp at h, fun h' => by omega⟩
  · exact ⟨fun _ => by omega, fun _ => rfl⟩

/-- The hypotheses of C155 about failures and the single zonal coefficient are met. -/
example : Before [] Igrf.initial ∧ ¬(['1', '3'] <:+: ([] : List Char)) ∧ (∃ t : Table, t.Complete 8 3 ∧ t.Column 3 2000 0 ∧ ∀ i, 1 ≤ i → i < (8 + 1) ^ 2 - 1 → t.Zero 0 i) := by
  refine ⟨.initial, by simp, ⟨8, 3, 1900, 2010, [2000, 2005], [1, 1, 0] :: List.replicate 79 [0, 0, 0]⟩, ⟨rfl, by omega, rfl, by omega, by simp, ?_, by simp, ?_⟩, ?_, ?_⟩
  · intro j hj
    obtain rfl : j = 0 := by omega
    simp [Table.year]; norm_num
  · intro i hi
    rcases i with _ | i
    · simp
    · have : i < 79 := by omega
      dsimp only
      rw [List.getD_cons_succ, getD_replicate, if_pos this]; simp
  · exact ⟨by omega, fun i h1 h2 => by omega, fun _ => by simp [Table.year]; norm_num⟩
  · intro i h1 h2
    obtain ⟨i, rfl⟩ : ∃ k, i = k + 1 := ⟨i - 1, by omega⟩
    have : i < 79 := by omega
    rw [Table.Zero, Table.entry, Table.entry]
    dsimp only
    rw [List.getD_cons_succ, getD_replicate, if_pos this]; simp

end S2E.Igrf

namespace S2E.Geomag
open Igrf TwoBody

/-! ## C156: the object used by the rest of the program -/

section
variable {γ : Type} {draw : ℝ → γ → ℝ × γ} {fresh : (Fin 3 → γ) × γ} {files : List Char → Option Table}

theorem source_add (d : γ → ℝ × γ) (g : γ) (a b : ℕ) : source d (source d g a) b = source d g (a + b) := by
  induction b with
  | zero => rfl
  | succ b ih => rw [source, ih]; rfl

/-- The statics after `n` evaluations begun by the object `o`. -/
structure Noisy (draw : ℝ → γ → ℝ × γ) (fresh : (Fin 3 → γ) × γ) (o : GeoField) (n : ℕ) (s : Statics γ) : Prop where
  walkStd : s.walkStd = o.walkStd
  walkLimit : s.walkLimit = o.walkLimit
  whiteStd : s.whiteStd = o.whiteStd
  white : s.white = source (draw o.whiteStd) fresh.2 (3 * n)
  walk : ∀ i, s.walk i = (walk (draw o.walkStd) o.walkLimit (fresh.1 i) n).1
  walkNoise : ∀ i, s.walkNoise i = (Geomag.walk (draw o.walkStd) o.walkLimit (fresh.1 i) n).2

/-- The same for the optional statics. -/
def NoisyOpt (draw : ℝ → γ → ℝ × γ) (fresh : (Fin 3 → γ) × γ) (o : Option GeoField) (n : ℕ) (st : Option (Statics γ)) : Prop :=
  match o with
  | none => st = none ∧ n = 0
  | some o => ∃ s, st = some s ∧ Noisy draw fresh o n s

/-- A step of the random walk. -/
theorem walk_step (d : γ → ℝ × γ) (limit t : ℝ) (x : Vec 3) (g : Fin 3 → γ) (k : ℕ) (g0 : Fin 3 → γ) (hx : ∀ i, x i = (walk d limit (g0 i) k).1) (hg : ∀ i, g i = (walk d limit (g0 i) k).2) :
    let w := Random.rk4 0.1 (fun _ x g => Random.walkDerivative d (fun _ => limit) x g) t x g
    (∀ i, w.2.1 i = (walk d limit (g0 i) (k + 1)).1) ∧ ∀ i, w.2.2 i = (walk d limit (g0 i) (k + 1)).2 := by
  intro w
  constructor
  · intro i
    simp only [w, Random.rk4, Random.walkDerivative, Random.walkRate, walk, white, source]
    rw [← hx i, ← hg i]
    generalize x i = X
    generalize g i = G
    have c1 : ∀ r : ℝ, X + 1 / 2 * (r * 0.1) = X + 0.05 * r := fun r => by ring
    have c2 : ∀ r : ℝ, X + r * 0.1 = X + 0.1 * r := fun r => by ring
    simp only [c1, c2, gt_iff_lt]
    ring
  · intro i
    simp only [w, Random.rk4, Random.walkDerivative, walk, source]
    rw [← hg i]

/-- The field computed by a call, with the statics before and after. -/
theorem addNoise_spec {o : Option GeoField} {n : ℕ} {st : Option (Statics γ)} (f : GeoField) (b : Vec 3) (h : NoisyOpt draw fresh o n st) :
    (∀ i : Fin 3, (addNoise draw fresh f st b).1 i = b i + ((walk (draw (o.getD f).walkStd) (o.getD f).walkLimit (fresh.1 i) n).1 + white (draw (o.getD f).whiteStd) fresh.2 (3 * n + i))) ∧
      Noisy draw fresh (o.getD f) (n + 1) (addNoise draw fresh f st b).2 := by
  have key : ∀ (p : GeoField) (s : Statics γ), st.getD ⟨f.walkStd, f.walkLimit, f.whiteStd, 0, fun _ => 0, fresh.1, fresh.2⟩ = s → Noisy draw fresh p n s →
      (∀ i : Fin 3, (addNoise draw fresh f st b).1 i = b i + ((walk (draw p.walkStd) p.walkLimit (fresh.1 i) n).1 + white (draw p.whiteStd) fresh.2 (3 * n + i))) ∧
      Noisy draw fresh p (n + 1) (addNoise draw fresh f st b).2 := by
    intro p s hs hN
    obtain ⟨w1, w2⟩ := walk_step (draw p.walkStd) p.walkLimit s.time s.walk s.walkNoise n fresh.1 hN.walk hN.walkNoise
    unfold addNoise
    rw [hs]
    dsimp only
    have s1 : (draw s.whiteStd s.white).2 = source (draw p.whiteStd) fresh.2 (3 * n + 1) := by rw [hN.whiteStd, hN.white]; rfl
    have s2 : (draw s.whiteStd (draw s.whiteStd s.white).2).2 = source (draw p.whiteStd) fresh.2 (3 * n + 2) := by rw [s1, hN.whiteStd]; rfl
    refine ⟨fun i => ?_, ⟨hN.walkStd, hN.walkLimit, hN.whiteStd, ?_, ?_, ?_⟩⟩
    · fin_cases i
      · simp only [Matrix.cons_val, Fin.zero_eta]
        rw [hN.walk 0, hN.whiteStd, hN.white]; rfl
      · simp only [Matrix.cons_val, Fin.mk_one]
        rw [s1, hN.walk 1, hN.whiteStd]; rfl
      · simp only [Matrix.cons_val, Fin.reduceFinMk]
        rw [s2, hN.walk 2, hN.whiteStd]; rfl
    · dsimp only
      rw [s2, hN.whiteStd]; rfl
    · dsimp only
      rw [hN.walkStd, hN.walkLimit]; exact w1
    · dsimp only
      rw [hN.walkStd, hN.walkLimit]; exact w2
  cases o with
  | none =>
    obtain ⟨rfl, rfl⟩ := h
    exact key f _ rfl ⟨rfl, rfl, rfl, rfl, fun _ => rfl, fun _ => rfl⟩
  | some o =>
    obtain ⟨s, rfl, hN⟩ := h
    exact key o s rfl hN

/-- What the reachable worlds know of the noise. -/
theorem ran_noise {o : Option GeoField} {n : ℕ} {w : World γ} (h : Ran draw fresh files o n w) : NoisyOpt draw fresh o n w.noise := by
  induction h with
  | start => exact ⟨rfl, rfl⟩
  | @object o n w w' f file a b c _ he ih =>
    unfold create at he
    rcases hs : w.igrf.setFilePath file with v | _ | _ | _ <;> rw [hs] at he <;> simp only [Res.bind, reduceCtorEq] at he
    obtain ⟨rfl, -⟩ := Prod.mk.inj (Res.ok.inj he)
    exact ih
  | @call o n w w' f f' junk a _ hen he ih =>
    unfold calcMagneticField at he
    rw [if_pos hen] at he
    rcases hs : w.igrf.igrfCalc files junk a.year a.lat a.lon a.alt a.sidereal with v | _ | _ | _ <;> rw [hs] at he <;> simp only [Res.bind, reduceCtorEq] at he
    obtain ⟨rfl, -⟩ := Prod.mk.inj (Res.ok.inj he)
    exact ⟨_, rfl, (addNoise_spec f v.2 ih).2⟩

/-- C156: after any objects have evaluated the field `n` times in all, the first of them being `o`, an evaluation by an object `f` returns the value of the model plus the state of one random
walk that starts with the program and makes a step at every evaluation of any object, plus the draws number 3n, 3n+1 and 3n+2 of one white noise, both with the parameters of the object that
made the first evaluation. The field in the body frame is that vector in the frame of the quaternion. -/
theorem C156_noise {o : Option GeoField} {n : ℕ} {w w' : World γ} (h : Ran draw fresh files o n w) {f f' : GeoField} (hf : f.enabled = true) {junk : ℝ × ℝ} {a : Args}
    (hc : calcMagneticField draw fresh files junk w f a = .ok (w', f')) :
    ∃ B, w.igrf.igrfCalc files junk a.year a.lat a.lon a.alt a.sidereal = .ok (w'.igrf, B) ∧
      (∀ i : Fin 3, f'.fieldI i = B i + (walk (draw (o.getD f).walkStd) (o.getD f).walkLimit (fresh.1 i) n).1 + white (draw (o.getD f).whiteStd) fresh.2 (3 * n + i)) ∧
      f'.fieldB = matVec a.i2b.toDcm f'.fieldI ∧ Ran draw fresh files (some (o.getD f)) (n + 1) w' := by
  have hr := Ran.call h hf hc
  unfold calcMagneticField at hc
  rw [if_pos hf] at hc
  rcases hs : w.igrf.igrfCalc files junk a.year a.lat a.lon a.alt a.sidereal with v | _ | _ | _ <;> rw [hs] at hc <;> simp only [Res.bind, reduceCtorEq] at hc
  obtain ⟨rfl, rfl⟩ := Prod.mk.inj (Res.ok.inj hc)
  refine ⟨v.2, rfl, fun i => ?_, ?_, hr⟩
  · rw [add_assoc]; exact (addNoise_spec f v.2 (ran_noise h)).1 i
  · exact (C66_dcm_acts _ _).1.symm

theorem walk_zero (d : γ → ℝ × γ) (hz : ∀ g, (d g).1 = 0) (limit : ℝ) (g : γ) (n : ℕ) : (walk d limit g n).1 = 0 := by
  induction n with
  | zero => rfl
  | succ n ih =>
    simp only [walk, white, hz, ih]
    simp

/-- C156: if the object that made the first evaluation has no noise, no object has any, whatever its own parameters. -/
theorem C156_exact (hz : ∀ g, (draw 0 g).1 = 0) {o : Option GeoField} {n : ℕ} {w w' : World γ} (h : Ran draw fresh files o n w) {f f' : GeoField} (hf : f.enabled = true)
    (h1 : (o.getD f).walkStd = 0) (h2 : (o.getD f).whiteStd = 0) {junk : ℝ × ℝ} {a : Args} (hc : calcMagneticField draw fresh files junk w f a = .ok (w', f')) :
    w.igrf.igrfCalc files junk a.year a.lat a.lon a.alt a.sidereal = .ok (w'.igrf, f'.fieldI) := by
  obtain ⟨B, e1, e2, _⟩ := C156_noise h hf hc
  have : f'.fieldI = B := by
    funext i
    rw [e2 i, h1, h2, walk_zero _ hz, white, hz]; ring
  rw [this]; exact e1

/-- C156: the state of the model shared by all objects is one of those of C154: before the first evaluation by any object the path of the last object constructed is in force, afterwards
constructing objects has no effect on it. -/
theorem C156_shared {o : Option GeoField} {n : ℕ} {w : World γ} (h : Ran draw fresh files o n w) :
    (n = 0 → ∃ path, Before path w.igrf) ∧ (1 ≤ n → ∃ path y, After files path y w.igrf) := by
  induction h with
  | start => exact ⟨fun _ => ⟨[], .initial⟩, fun h => by omega⟩
  | @object o n w w' f file a b c _ he ih =>
    unfold create at he
    rcases hs : w.igrf.setFilePath file with v | _ | _ | _ <;> rw [hs] at he <;> simp only [Res.bind, reduceCtorEq] at he
    obtain ⟨rfl, -⟩ := Prod.mk.inj (Res.ok.inj he)
    exact ⟨fun h => ⟨file, (ih.1 h).elim fun p hp => .path hp hs⟩, fun h => (ih.2 h).elim fun p hp => hp.elim fun y hy => ⟨p, y, .path hy hs⟩⟩
  | @call o n w w' f f' junk a _ hen he ih =>
    unfold calcMagneticField at he
    rw [if_pos hen] at he
    rcases hs : w.igrf.igrfCalc files junk a.year a.lat a.lon a.alt a.sidereal with v | _ | _ | _ <;> rw [hs] at he <;> simp only [Res.bind, reduceCtorEq] at he
    obtain ⟨rfl, -⟩ := Prod.mk.inj (Res.ok.inj he)
    refine ⟨fun h => by omega, fun _ => ?_⟩
    rcases Nat.eq_zero_or_pos n with h0 | h0
    · exact (ih.1 h0).elim fun p hp => ⟨p, a.year, .first hp hs⟩
    · exact (ih.2 h0).elim fun p hp => hp.elim fun y hy => ⟨p, y, .next hy hs⟩

/-- C156: an object is evaluated in a step exactly if the attitude is propagated in it, the centre body is the Earth and the calculation is enabled; otherwise it keeps its fields (zero from
the start), reads no file, and leaves the noise alone. -/
theorem C156_disabled (junk : ℝ × ℝ) (w : World γ) (f : GeoField) (a : Args) (flag enable : Bool) (center : String)
    (h : ¬(flag = true ∧ enable = true ∧ center = "EARTH")) :
    localUpdate draw fresh files junk flag w (f.configure enable center) a = .ok (w, f.configure enable center) := by
  unfold localUpdate calcMagneticField GeoField.configure
  dsimp only
  cases flag
  · rfl
  · rw [if_pos rfl]
    by_cases hc : center = "EARTH"
    · cases enable
      · rw [if_neg (by simp [hc])]
      · exact absurd ⟨rfl, rfl, hc⟩ h
    · rw [if_neg (by simp [hc])]

/-- C156: and is evaluated in the other cases. -/
theorem C156_enabled (junk : ℝ × ℝ) (w : World γ) (f : GeoField) (a : Args) : (f.configure true "EARTH").enabled = true ∧
    localUpdate draw fresh files junk true w (f.configure true "EARTH") a = calcMagneticField draw fresh files junk w (f.configure true "EARTH") a := ⟨rfl, rfl⟩

/-- C156: a new object shows zero fields. -/
theorem C156_new {w w' : World γ} {f : GeoField} {file : List Char} {x y z : ℝ} (h : create w file x y z = .ok (w', f)) : f.fieldI = 0 ∧ f.fieldB = 0 := by
  unfold create at h
  rcases hs : w.igrf.setFilePath file with v | _ | _ | _ <;> rw [hs] at h <;> simp only [Res.bind, reduceCtorEq] at h
  obtain ⟨-, rfl⟩ := Prod.mk.inj (Res.ok.inj h)
  exact ⟨rfl, rfl⟩

/-- The hypotheses of C156 are met: an object constructed and evaluated in a program with the small file. -/
example : ∃ (w w' : World Unit) (f f' : GeoField), Ran (fun s _ => (s, ())) (fun _ => (), ()) (fun _ => some demo) none 0 w ∧ f.enabled = true ∧
    calcMagneticField (fun s _ => (s, ())) (fun _ => (), ()) (fun _ => some demo) (0, 0) w f ⟨2000, 0, 0, 0, 0, Quat.mk 0 0 0 1⟩ = .ok (w', f') := by
  have hb : Before ['1', '3'] { Igrf.initial with path := ['1', '3'] } := .path .initial (by rw [Igrf.setFilePath, if_pos (by decide)])
  obtain ⟨s1, B, e1, -⟩ := C154_field (files := fun _ => some demo) (List.infix_refl _) rfl demo_complete demo_2000 (demo_ends 0) (Or.inl ⟨hb, rfl⟩) (0, 0) 0 at_equator
  have hc : create (World.initial : World Unit) ['1', '3'] 1 10 2 = .ok (⟨{ Igrf.initial with path := ['1', '3'] }, none⟩, ⟨true, fun _ => 0, fun _ => 0, 1, 10, 2⟩) := by
    unfold create
    rw [Igrf.setFilePath, if_pos (by decide)]; rfl
  have hcalc : ∃ r, calcMagneticField (fun s _ => (s, ())) (fun _ => (), ()) (fun _ => some demo) (0, 0) (⟨{ Igrf.initial with path := ['1', '3'] }, none⟩ : World Unit)
      ⟨true, fun _ => 0, fun _ => 0, 1, 10, 2⟩ ⟨2000, 0, 0, 0, 0, Quat.mk 0 0 0 1⟩ = .ok r := by
    unfold calcMagneticField
    rw [if_pos rfl]
    dsimp only
    rw [e1]
    exact ⟨_, rfl⟩
  obtain ⟨⟨w', f'⟩, hr⟩ := hcalc
  exact ⟨_, w', _, f', .object .start hc, rfl, hr⟩

end

end S2E.Geomag
