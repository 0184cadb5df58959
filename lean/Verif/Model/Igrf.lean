import Verif.Model.LinAlg
import Verif.Model.Basic
/-!
# `src/math_physics/geomagnetic/igrf.cpp`

Doubles are real numbers; the decimal constants `PI` and `DEG2RAD` are π and π/180, but `3.14159265359` in `URAD` is itself. The static variables of the file
form the state `Igrf`. Arrays are functions of their indices; the indices used stay in range (`maxod ≤ 19`), except for the read of `cb[nlin]`, see `fillCoefs`.

The coefficient file is given as numbers (`Table`): the scanning of the text by `sscanf` is not modelled, only which numbers are missing. Lines are assumed to
be shorter than the buffer. `exit(1)` is `throws`. `exit` codes and messages are dropped.
-/
namespace S2E.Igrf

/-- `for (n = lo; n <= hi; n++)`. -/
def loop {σ : Type} (lo hi : ℕ) (f : ℕ → σ → σ) (s : σ) : σ := (List.range' lo (hi + 1 - lo)).foldl (fun s n => f n s) s

/-- Assignment to an element of an array. -/
def set1 (a : ℕ → ℝ) (i : ℕ) (v : ℝ) : ℕ → ℝ := fun x => if x = i then v else a x

/-- Assignment to an element of a matrix. -/
def set2 (a : ℕ → ℕ → ℝ) (i j : ℕ) (v : ℝ) : ℕ → ℕ → ℝ := fun x y => if x = i ∧ y = j then v else a x y

/-- The static variables, igrf.cpp:74-86 and 469 (`first_flg`). -/
structure Igrf where
  path : List Char
  first : Bool
  ra : ℝ
  re2 : ℝ
  re4 : ℝ
  rp2 : ℝ
  rp4 : ℝ
  tzero : ℝ
  maxod : ℕ
  kg : ℕ
  kr : Bool
  kth : Bool
  kph : Bool
  blat : ℝ
  blon : ℝ
  bhi : ℝ
  r : ℝ
  cth : ℝ
  sth : ℝ
  cph : ℝ
  sph : ℝ
  x : ℝ
  y : ℝ
  z : ℝ
  gh : ℕ → ℕ → ℝ
  ght : ℕ → ℕ → ℝ
  g : ℕ → ℕ → ℝ
  rar : ℕ → ℝ
  csp : ℕ → ℝ
  snp : ℕ → ℝ
  p : ℕ → ℕ → ℝ
  vgh : ℕ → ℕ → ℝ
  vght : ℕ → ℕ → ℝ

/-- Static initialisation: zeros, and `first_flg = true`. -/
def Igrf.initial : Igrf :=
  { path := [], first := true, ra := 0, re2 := 0, re4 := 0, rp2 := 0, rp4 := 0, tzero := 0, maxod := 0, kg := 0, kr := false, kth := false, kph := false, blat := 0, blon := 0, bhi := 0, r := 0,
    cth := 0, sth := 0, cph := 0, sph := 0, x := 0, y := 0, z := 0, gh := fun _ _ => 0, ght := fun _ _ => 0, g := fun _ _ => 0, rar := fun _ => 0, csp := fun _ => 0, snp := fun _ => 0,
    p := fun _ _ => 0, vgh := fun _ _ => 0, vght := fun _ _ => 0 }

/-- `URAD`, line 68. -/
noncomputable def urad : ℝ := 180 / 3.14159265359

/-- `set_file_path`, line 90: 256 bytes with the terminating zero. -/
def Igrf.setFilePath (s : Igrf) (name : List Char) : Res Igrf := if name.length < 256 then .ok { s with path := name } else .ub

/-! ## `fcalc` -/

/-- Lines 98-100. -/
noncomputable def calcRar (ra r : ℝ) (maxod : ℕ) (rar : ℕ → ℝ) : ℕ → ℝ :=
  loop 1 maxod (fun n a => set1 a n (a (n - 1) * (ra / r))) (set1 rar 0 (ra / r * (ra / r)))

/-- Lines 114-123. -/
noncomputable def legendreRow (cth sth : ℝ) (n m : ℕ) (p : ℕ → ℕ → ℝ) : ℕ → ℕ → ℝ :=
  if sth > 0.175 then set2 p m n ((p (m - 1) (n - 1) * ((n : ℝ) + m - 1) - p (m - 1) n * cth * ((n : ℝ) - m + 1)) / sth)
  else set2 p m n ((p m (n - 1) + p (m - 1) n * sth * ((n : ℝ) - m + 1)) / cth)

/-- Lines 128-131. -/
noncomputable def slopeRow (n m : ℕ) (p : ℕ → ℕ → ℝ) : ℕ → ℕ → ℝ :=
  set2 p (n + 1) m ((p (m - 1) n * ((n : ℝ) + m) * ((n : ℝ) - m + 1) - p (m + 1) n) / 2)

/-- Lines 110-134, body. -/
noncomputable def legendreDegree (cth sth : ℝ) (n : ℕ) (p : ℕ → ℕ → ℝ) : ℕ → ℕ → ℝ :=
  let p := set2 p 0 n ((p 0 (n - 1) * cth * ((n : ℝ) + n - 1) - p 0 (n - 2) * ((n : ℝ) - 1)) / n)
  let p := loop 1 (n - 1) (legendreRow cth sth n) p
  let p := set2 p n n (p (n - 1) (n - 1) * sth * ((n : ℝ) + n - 1))
  let p := set2 p (n + 1) 0 (-p 1 n)
  let p := loop 1 (n - 1) (slopeRow n) p
  set2 p (n + 1) n ((p (n - 1) (n - 1) * cth + p n (n - 1) * sth) * ((n : ℝ) + n - 1))

/-- Lines 103-134. -/
noncomputable def calcP (cth sth : ℝ) (maxod : ℕ) (p : ℕ → ℕ → ℝ) : ℕ → ℕ → ℝ :=
  let p := set2 (set2 (set2 (set2 (set2 (set2 p 0 0 1) 1 0 0) 0 1 cth) 2 0 (-sth)) 1 1 sth) 2 1 cth
  loop 2 maxod (legendreDegree cth sth) p

/-- Lines 137-143. -/
noncomputable def calcTrig (cph sph : ℝ) (maxod : ℕ) (c s : ℕ → ℝ) : (ℕ → ℝ) × (ℕ → ℝ) :=
  loop 1 maxod (fun m a => (set1 a.1 m (a.1 (m - 1) * cph - a.2 (m - 1) * sph), set1 a.2 m (a.2 (m - 1) * cph + a.1 (m - 1) * sph))) (set1 c 0 1, set1 s 0 0)

/-- `tx`, `ty`, `tz` of degree `n`, lines 149-156. -/
noncomputable def degreeSums (g p : ℕ → ℕ → ℝ) (csp snp : ℕ → ℝ) (n : ℕ) : ℝ × ℝ × ℝ :=
  loop 1 n (fun m t => (t.1 + (g m n * csp m + g n (m - 1) * snp m) * p (n + 1) m, t.2.1 + (g m n * snp m - g n (m - 1) * csp m) * p m n * m,
    t.2.2 + (g m n * csp m + g n (m - 1) * snp m) * p m n)) (g 0 n * p (n + 1) 0, 0, g 0 n * p 0 n)

/-- `x`, `y`, `z`, lines 145-161 (`kext` is always 0; `f` is not used). -/
noncomputable def fieldSums (g p : ℕ → ℕ → ℝ) (csp snp rar : ℕ → ℝ) (sth : ℝ) (maxod : ℕ) : ℝ × ℝ × ℝ :=
  let s := loop 1 maxod (fun n a => let t := degreeSums g p csp snp n; (a.1 + rar n * t.1, a.2.1 + rar n * t.2.1, a.2.2 - rar n * t.2.2 * ((n : ℝ) + 1))) ((0 : ℝ), (0 : ℝ), (0 : ℝ))
  (s.1, s.2.1 / sth, s.2.2)

/-- Lines 96-101. -/
noncomputable def Igrf.updateRar (s : Igrf) : Igrf := if s.kr then { s with kr := false, rar := calcRar s.ra s.r s.maxod s.rar } else s

/-- Lines 102-135. -/
noncomputable def Igrf.updateP (s : Igrf) : Igrf := if s.kth then { s with kth := false, p := calcP s.cth s.sth s.maxod s.p } else s

/-- Lines 136-144. -/
noncomputable def Igrf.updateTrig (s : Igrf) : Igrf :=
  if s.kph then { s with kph := false, csp := (calcTrig s.cph s.sph s.maxod s.csp s.snp).1, snp := (calcTrig s.cph s.sph s.maxod s.csp s.snp).2 } else s

/-- `fcalc`, lines 92-169. -/
noncomputable def Igrf.fcalc (s : Igrf) : Igrf :=
  let s := s.updateRar.updateP.updateTrig
  let v := fieldSums s.g s.p s.csp s.snp s.rar s.sth s.maxod
  { s with x := v.1, y := v.2.1, z := v.2.2 }

/-! ## Coefficients -/

/-- `field`, lines 171-184. -/
noncomputable def Igrf.field (s : Igrf) (are aflat ara : ℝ) (maxoda : ℕ) : Igrf :=
  let rp := are * (1 - 1 / aflat)
  { s with ra := ara, maxod := maxoda, re2 := are * are, re4 := are * are * (are * are), rp2 := rp * rp, rp4 := rp * rp * (rp * rp), kg := 2, kph := true }

/-- Lines 197-203: `fac`, `gh`, `ght`. -/
noncomputable def normaliseDegree (v vt : ℕ → ℕ → ℝ) (n : ℕ) (a : (ℕ → ℕ → ℝ) × (ℕ → ℕ → ℝ)) : (ℕ → ℕ → ℝ) × (ℕ → ℕ → ℝ) :=
  (loop 1 n (fun m (b : ℝ × (ℕ → ℕ → ℝ) × (ℕ → ℕ → ℝ)) =>
    let fac := b.1 / Real.sqrt (((n : ℝ) + m) * ((n : ℝ) - m + 1))
    (fac, set2 (set2 b.2.1 m n (v m n * fac)) n (m - 1) (v n (m - 1) * fac), set2 (set2 b.2.2 m n (vt m n * fac)) n (m - 1) (vt n (m - 1) * fac)))
    (Real.sqrt 2, set2 a.1 0 n (v 0 n), set2 a.2 0 n (vt 0 n))).2

/-- `tcoef`, lines 186-214 (with `kexta = 0`). -/
noncomputable def Igrf.tcoef (s : Igrf) (v vt : ℕ → ℕ → ℝ) (tzero : ℝ) : Igrf :=
  let a := loop 1 s.maxod (normaliseDegree v vt) (set2 s.gh 0 0 0, set2 s.ght 0 0 0)
  { s with tzero := tzero, gh := a.1, ght := a.2 }

/-- `tyear`, lines 216-228. -/
noncomputable def Igrf.tyear (s : Igrf) (year : ℝ) : Igrf :=
  let d := year - s.tzero
  { s with g := loop 1 s.maxod (fun n a => loop 1 n (fun m a => set2 (set2 a m n (s.gh m n + s.ght m n * d)) n (m - 1) (s.gh n (m - 1) + s.ght n (m - 1) * d))
      (set2 a 0 n (s.gh 0 n + s.ght 0 n * d))) (set2 s.g 0 0 0) }

/-- The numbers of a coefficient file: the first line, the years of the second line and the rows of the others. -/
structure Table where
  maxod : ℤ
  ncol : ℤ
  y1 : ℝ
  y2 : ℝ
  years : List ℝ
  rows : List (List ℝ)

/-- Lines 388-396: `l`, `yr1`, `yr2`. -/
noncomputable def scanYears (year : ℝ) (ncol l : ℕ) (yr1 yr2 : ℝ) (rest : List ℝ) : Res (ℕ × ℝ × ℝ) :=
  if l < ncol then
    match rest with
    | [] => .throws
    | y :: rest => if year < y then .ok (l, yr2, y) else scanYears year ncol (l + 1) yr2 y rest
  else .ok (l, yr1, yr2)
termination_by ncol - l

/-- Lines 397-419: the two columns used. -/
def readRows (l : ℕ) : ℕ → List (List ℝ) → Res (List (ℝ × ℝ))
  | 0, _ => .ok []
  | _ + 1, [] => .throws
  | n + 1, row :: rows =>
    match row.drop (l - 2) with
    | b :: v :: _ => (readRows l n rows).bind fun rest => .ok ((b, v) :: rest)
    | _ => .throws

/-- Lines 427-443: `vgh`, `vght`, `i` and `k`. `c` is the array with `cb[i]` and `cv[i]`; its element `nlin` is read without having been written. -/
noncomputable def fillCoefs (c : ℕ → ℝ × ℝ) (maxod : ℕ) (vgh vght : ℕ → ℕ → ℝ) : (ℕ → ℕ → ℝ) × (ℕ → ℕ → ℝ) × ℕ × ℕ :=
  let mark (i n k : ℕ) : ℕ := open Classical in if (c i).1 ≠ 0 ∨ (c i).2 ≠ 0 then n else k
  loop 1 maxod (fun n a =>
    let i := a.2.2.1
    loop 1 n (fun m a =>
      let i := a.2.2.1
      (set2 (set2 a.1 m n (c i).1) n (m - 1) (c (i + 1)).1, set2 (set2 a.2.1 m n (c i).2) n (m - 1) (c (i + 1)).2, i + 2, mark (i + 2) n (mark (i + 1) n a.2.2.2)))
      (set2 a.1 0 n (c i).1, set2 a.2.1 0 n (c i).2, i + 1, mark (i + 1) n a.2.2.2)) (vgh, vght, 0, 0)

/-- `gigrf`, lines 316-450, for the generation 13: `strstr` must find "13" in the path (which is then replaced by "13"). `files` is the file system, `junk` the
indeterminate value of `cb[nlin]`, `cv[nlin]`. With 19 degrees `cb[nlin]` is outside the array. -/
noncomputable def Igrf.gigrf (s : Igrf) (files : List Char → Option Table) (junk : ℝ × ℝ) (year : ℝ) : Res Igrf :=
  if ¬(['1', '3'] <:+: s.path) then .throws
  else match files s.path with
  | none => .throws
  | some t =>
    if t.maxod < 8 ∨ t.maxod > 19 ∨ t.ncol < 2 ∨ t.ncol > 50 then .throws
    else
      let maxod := t.maxod.toNat
      let nlin := (maxod + 1) * (maxod + 1) - 1
      match t.years with
      | [] => .throws
      | first :: rest => (scanYears year t.ncol.toNat 2 0 first rest).bind fun x =>
        (readRows x.1 nlin t.rows).bind fun rows =>
          if maxod = 19 then .ub
          else
            let tzero := if x.1 = t.ncol.toNat then x.2.2 else x.2.1
            let rows := if x.1 = t.ncol.toNat then rows else rows.map fun c => (c.1, (c.2 - c.1) / (x.2.2 - x.2.1))
            let a := fillCoefs (fun i => rows.getD i junk) maxod s.vgh s.vght
            let s := { s with vgh := a.1, vght := a.2.1 }
            .ok (((s.field 6378.137 298.25722 6371.2 a.2.2.2).tcoef a.1 a.2.1 tzero).tyear year)

/-! ## Evaluation -/

/-- Lines 232-253. -/
noncomputable def Igrf.setPlace (s : Igrf) (alat ahi : ℝ) : Igrf :=
  open Classical in
  if s.kg ≠ 1 ∨ s.blat ≠ alat ∨ s.bhi ≠ ahi then
    let slat := Real.sin (alat / urad)
    let slat2 := slat * slat
    let clat2 := 1 - slat2
    let rm2 := s.re2 * clat2 + s.rp2 * slat2
    let rm := Real.sqrt rm2
    let rrm := (s.re4 * clat2 + s.rp4 * slat2) / rm2
    let r := Real.sqrt (rrm + 2 * ahi * rm + ahi * ahi)
    let cth := slat * (ahi + s.rp2 / rm) / r
    let sth := Real.sqrt (1 - cth * cth)
    { s with kg := 1, kr := true, kth := true, blat := alat, bhi := ahi, r := r, cth := cth, sth := if sth < 0.00000015 then 0.00000015 else sth }
  else s

/-- Lines 254-260. -/
noncomputable def Igrf.setLongitude (s : Igrf) (alon : ℝ) : Igrf :=
  open Classical in
  if s.blon ≠ alon ∨ s.kph then { s with kph := true, blon := alon, cph := Real.cos (alon / urad), sph := Real.sin (alon / urad) } else s

/-- `mfldg`, lines 230-266. -/
noncomputable def Igrf.mfldg (s : Igrf) (alat alon ahi : ℝ) : Igrf := ((s.setPlace alat ahi).setLongitude alon).fcalc

/-- `RotationY`, sgp4ext.cpp:58-71. -/
noncomputable def rotationY (v : Vec 3) (a : ℝ) : Vec 3 := ![Real.cos a * v 0 - Real.sin a * v 2, v 1, Real.sin a * v 0 + Real.cos a * v 2]

/-- `RotationZ`, sgp4ext.cpp:74-87. -/
noncomputable def rotationZ (v : Vec 3) (a : ℝ) : Vec 3 := ![Real.cos a * v 0 + Real.sin a * v 1, -Real.sin a * v 0 + Real.cos a * v 1, v 2]

/-- `TransMagaxisToECI`, igrf.cpp:458-464. -/
noncomputable def transMagaxisToEci (mag : Vec 3) (lon theta gmst : ℝ) : Vec 3 := rotationZ (rotationZ (rotationY mag (Real.pi - theta)) (-lon)) (-gmst)

/-- `IgrfCalc`, igrf.cpp:468-497: the new state and `mag`. -/
noncomputable def Igrf.igrfCalc (s : Igrf) (files : List Char → Option Table) (junk : ℝ × ℝ) (decyear lat lon alt side : ℝ) : Res (Igrf × Vec 3) :=
  (if s.first then (s.gigrf files junk decyear).bind fun s => .ok { s with first := false } else .ok s).bind fun s =>
    let s := (s.tyear decyear).mfldg (lat * (180 / Real.pi)) (lon * (180 / Real.pi)) (alt / 1000)
    .ok (s, transMagaxisToEci ![s.x, s.y, s.z] lon (Real.arccos s.cth) side)

end S2E.Igrf
