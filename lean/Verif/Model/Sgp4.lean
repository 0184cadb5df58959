import Verif.Model.InitOrbit
import Verif.Model.Julian

/-!
# SGP4: `src/math_physics/orbit/sgp4/sgp4unit.{h,cpp}`

`getgravconst`, `initl`, `sgp4init` (with `dscom` and `dsinit`), `dspace`, `dpper` and `sgp4`.

Simplifications: the numbers are real, the literal for pi is pi, and `pow(x, 3)`, `pow(x, 4.0)` are the powers. Where the C++ divides by zero or takes a
root or a power of a number without one, it goes on with an infinity or a NaN; the theorems about values exclude these cases. `(int)floor(ts70 + 1.0e-8)`
is the floor itself: it fits an `int` for every date the calendar code of twoline2rv gives. The members of `elsetrec` that `sgp4init` and `sgp4` neither read
nor write (`epochyr`, `epochtynumrev`, `epochdays`, `ndot`, `nddot`, `rcse`, `a`, `alta`, `altp`) are left out, and so is the file `dbgfile`.
A position or velocity that `sgp4` leaves unwritten is `none`.
-/
namespace S2E.Sgp4

open S2E.Julian (fmod)
open S2E.InitOrbit (Wgs)

/-- The outputs of `getgravconst`. -/
structure Consts where
  tumin : ℝ
  mu : ℝ
  radius : ℝ
  xke : ℝ
  j2 : ℝ
  j3 : ℝ
  j4 : ℝ
  j3oj2 : ℝ

/-- `getgravconst`, sgp4unit.cpp:1811-1852. -/
noncomputable def consts : Wgs → Consts
  | .wgs72old =>
    let xke := 0.0743669161
    let j2 := 0.001082616
    let j3 := -0.00000253881
    { mu := 398600.79964, radius := 6378.135, xke := xke, tumin := 1 / xke, j2 := j2, j3 := j3, j4 := -0.00000165597, j3oj2 := j3 / j2 }
  | .wgs72 =>
    let mu := 398600.8
    let radius := 6378.135
    let xke := 60 / Real.sqrt (radius * radius * radius / mu)
    let j2 := 0.001082616
    let j3 := -0.00000253881
    { mu := mu, radius := radius, xke := xke, tumin := 1 / xke, j2 := j2, j3 := j3, j4 := -0.00000165597, j3oj2 := j3 / j2 }
  | .wgs84 =>
    let mu := 398600.5
    let radius := 6378.137
    let xke := 60 / Real.sqrt (radius * radius * radius / mu)
    let j2 := 0.00108262998905
    let j3 := -0.00000253215306
    { mu := mu, radius := radius, xke := xke, tumin := 1 / xke, j2 := j2, j3 := j3, j4 := -0.00000161098761, j3oj2 := j3 / j2 }

/-- `elsetrec`, sgp4unit.h:37-58, with the members named in the header of this file left out. -/
structure Elset where
  error : ℕ
  init : Char
  method : Char
  isimp : ℕ
  aycof : ℝ
  con41 : ℝ
  cc1 : ℝ
  cc4 : ℝ
  cc5 : ℝ
  d2 : ℝ
  d3 : ℝ
  d4 : ℝ
  delmo : ℝ
  eta : ℝ
  argpdot : ℝ
  omgcof : ℝ
  sinmao : ℝ
  t : ℝ
  t2cof : ℝ
  t3cof : ℝ
  t4cof : ℝ
  t5cof : ℝ
  x1mth2 : ℝ
  x7thm1 : ℝ
  mdot : ℝ
  nodedot : ℝ
  xlcof : ℝ
  xmcof : ℝ
  nodecf : ℝ
  irez : ℕ
  d2201 : ℝ
  d2211 : ℝ
  d3210 : ℝ
  d3222 : ℝ
  d4410 : ℝ
  d4422 : ℝ
  d5220 : ℝ
  d5232 : ℝ
  d5421 : ℝ
  d5433 : ℝ
  dedt : ℝ
  del1 : ℝ
  del2 : ℝ
  del3 : ℝ
  didt : ℝ
  dmdt : ℝ
  dnodt : ℝ
  domdt : ℝ
  e3 : ℝ
  ee2 : ℝ
  peo : ℝ
  pgho : ℝ
  pho : ℝ
  pinco : ℝ
  plo : ℝ
  se2 : ℝ
  se3 : ℝ
  sgh2 : ℝ
  sgh3 : ℝ
  sgh4 : ℝ
  sh2 : ℝ
  sh3 : ℝ
  si2 : ℝ
  si3 : ℝ
  sl2 : ℝ
  sl3 : ℝ
  sl4 : ℝ
  gsto : ℝ
  xfact : ℝ
  xgh2 : ℝ
  xgh3 : ℝ
  xgh4 : ℝ
  xh2 : ℝ
  xh3 : ℝ
  xi2 : ℝ
  xi3 : ℝ
  xl2 : ℝ
  xl3 : ℝ
  xl4 : ℝ
  xlamo : ℝ
  zmol : ℝ
  zmos : ℝ
  atime : ℝ
  xli : ℝ
  xni : ℝ
  jdsatepoch : ℝ
  bstar : ℝ
  inclo : ℝ
  nodeo : ℝ
  ecco : ℝ
  argpo : ℝ
  mo : ℝ
  no : ℝ

/-! ## dspace -/

/-- The rates of the resonance at one point, sgp4unit.cpp:930-953: `xndt`, `xldot`, `xnddt`. -/
noncomputable def rates (s : Elset) (atime xli xni : ℝ) : ℝ × ℝ × ℝ :=
  let fasx2 : ℝ := 0.13130908
  let fasx4 : ℝ := 2.8843198
  let fasx6 : ℝ := 0.37448087
  let g22 : ℝ := 5.7686396
  let g32 : ℝ := 0.95240898
  let g44 : ℝ := 1.8014998
  let g52 : ℝ := 1.0508330
  let g54 : ℝ := 4.4108898
  let xldot := xni + s.xfact
  if s.irez ≠ 2 then
    let xndt := s.del1 * Real.sin (xli - fasx2) + s.del2 * Real.sin (2 * (xli - fasx4)) + s.del3 * Real.sin (3 * (xli - fasx6))
    let xnddt := s.del1 * Real.cos (xli - fasx2) + 2 * s.del2 * Real.cos (2 * (xli - fasx4)) + 3 * s.del3 * Real.cos (3 * (xli - fasx6))
    (xndt, xldot, xnddt * xldot)
  else
    let xomi := s.argpo + s.argpdot * atime
    let x2omi := xomi + xomi
    let x2li := xli + xli
    let xndt := s.d2201 * Real.sin (x2omi + xli - g22) + s.d2211 * Real.sin (xli - g22) + s.d3210 * Real.sin (xomi + xli - g32)
      + s.d3222 * Real.sin (-xomi + xli - g32) + s.d4410 * Real.sin (x2omi + x2li - g44) + s.d4422 * Real.sin (x2li - g44)
      + s.d5220 * Real.sin (xomi + xli - g52) + s.d5232 * Real.sin (-xomi + xli - g52) + s.d5421 * Real.sin (xomi + x2li - g54)
      + s.d5433 * Real.sin (-xomi + x2li - g54)
    let xnddt := s.d2201 * Real.cos (x2omi + xli - g22) + s.d2211 * Real.cos (xli - g22) + s.d3210 * Real.cos (xomi + xli - g32)
      + s.d3222 * Real.cos (-xomi + xli - g32) + s.d5220 * Real.cos (xomi + xli - g52) + s.d5232 * Real.cos (-xomi + xli - g52)
      + 2 * (s.d4410 * Real.cos (x2omi + x2li - g44) + s.d4422 * Real.cos (x2li - g44) + s.d5421 * Real.cos (xomi + x2li - g54)
        + s.d5433 * Real.cos (-xomi + x2li - g54))
    (xndt, xldot, xnddt * xldot)

/-- What the integration of the resonance leaves: sgp4unit.cpp:962-963 read it. -/
structure Integrated where
  atime : ℝ
  xli : ℝ
  xni : ℝ
  ft : ℝ
  xndt : ℝ
  xldot : ℝ
  xnddt : ℝ

/-- The loop `while (iretn == 381)`, sgp4unit.cpp:905-960; `back`: `iret` is 351. -/
noncomputable def dspaceLoop (s : Elset) (t : ℝ) : ℕ → Bool → ℝ → ℝ → ℝ → Res Integrated
  | 0, _, _, _, _ => .stuck
  | fuel + 1, back, atime, xli, xni =>
    let stepp : ℝ := 720
    let stepn : ℝ := -720
    let step2 : ℝ := 259200
    let d := rates s atime xli xni
    if |t| < |atime| ∨ back = true then
      let delt := if 0 ≤ t then stepn else stepp
      dspaceLoop s t fuel true (atime + delt) (xli + d.2.1 * delt + d.1 * step2) (xni + d.1 * delt + d.2.2 * step2)
    else
      let delt := if 0 < t then stepp else stepn
      if stepp ≤ |t - atime| then
        dspaceLoop s t fuel false (atime + delt) (xli + d.2.1 * delt + d.1 * step2) (xni + d.1 * delt + d.2.2 * step2)
      else .ok ⟨atime, xli, xni, t - atime, d.1, d.2.1, d.2.2⟩

/-- The mean elements that `dspace` updates. -/
structure Mean where
  em : ℝ
  argpm : ℝ
  inclm : ℝ
  mm : ℝ
  nodem : ℝ
  nm : ℝ

/-- `dspace`, sgp4unit.cpp:843-975, as it is called at 1560-1563 (`tc = t`). The condition at 894 always holds: `atime` has just been set to 0. -/
noncomputable def dspace (fuel : ℕ) (s : Elset) (m : Mean) : Res (Elset × Mean) :=
  let t := s.t
  let rptim : ℝ := 4.37526908801129966e-3
  let theta := fmod (s.gsto + t * rptim) (2 * Real.pi)
  let em := m.em + s.dedt * t
  let inclm := m.inclm + s.didt * t
  let argpm := m.argpm + s.domdt * t
  let nodem := m.nodem + s.dnodt * t
  let mm := m.mm + s.dmdt * t
  if s.irez ≠ 0 then
    (dspaceLoop s t fuel false 0 s.xlamo s.no).bind fun o =>
      let nm := o.xni + o.xndt * o.ft + o.xnddt * o.ft * o.ft * 0.5
      let xl := o.xli + o.xldot * o.ft + o.xndt * o.ft * o.ft * 0.5
      let mm := if s.irez ≠ 1 then xl - 2 * nodem + 2 * theta else xl - nodem - argpm + theta
      let dndt := nm - s.no
      .ok ({ s with atime := o.atime, xli := o.xli, xni := o.xni }, ⟨em, argpm, inclm, mm, nodem, s.no + dndt⟩)
  else .ok ({ s with atime := 0 }, ⟨em, argpm, inclm, mm, nodem, m.nm⟩)

/-! ## dpper -/

/-- The elements that `dpper` updates. -/
structure Periodic where
  ep : ℝ
  inclp : ℝ
  nodep : ℝ
  argpp : ℝ
  mp : ℝ

/-- `f2`, `f3` and `sinzf` for one body, sgp4unit.cpp:170-176 and 182-189. -/
noncomputable def bodyTerms (zm ze : ℝ) : ℝ × ℝ × ℝ :=
  let zf := zm + 2 * ze * Real.sin zm
  let sinzf := Real.sin zf
  (0.5 * sinzf * sinzf - 0.25, -0.5 * sinzf * Real.cos zf, sinzf)

/-- `dpper`, sgp4unit.cpp:149-256. -/
noncomputable def dpper (s : Elset) (t : ℝ) (init : Char) (p : Periodic) : Periodic :=
  let twopi := 2 * Real.pi
  let zns : ℝ := 1.19459e-5
  let zes : ℝ := 0.01675
  let znl : ℝ := 1.5835218e-4
  let zel : ℝ := 0.05490
  let sun := bodyTerms (if init = 'y' then s.zmos else s.zmos + zns * t) zes
  let ses := s.se2 * sun.1 + s.se3 * sun.2.1
  let sis := s.si2 * sun.1 + s.si3 * sun.2.1
  let sls := s.sl2 * sun.1 + s.sl3 * sun.2.1 + s.sl4 * sun.2.2
  let sghs := s.sgh2 * sun.1 + s.sgh3 * sun.2.1 + s.sgh4 * sun.2.2
  let shs := s.sh2 * sun.1 + s.sh3 * sun.2.1
  let moon := bodyTerms (if init = 'y' then s.zmol else s.zmol + znl * t) zel
  let sel := s.ee2 * moon.1 + s.e3 * moon.2.1
  let sil := s.xi2 * moon.1 + s.xi3 * moon.2.1
  let sll := s.xl2 * moon.1 + s.xl3 * moon.2.1 + s.xl4 * moon.2.2
  let sghl := s.xgh2 * moon.1 + s.xgh3 * moon.2.1 + s.xgh4 * moon.2.2
  let shll := s.xh2 * moon.1 + s.xh3 * moon.2.1
  let pe := ses + sel
  let pinc := sis + sil
  let pl := sls + sll
  let pgh := sghs + sghl
  let ph := shs + shll
  if init = 'n' then
    let pe := pe - s.peo
    let pinc := pinc - s.pinco
    let pl := pl - s.plo
    let pgh := pgh - s.pgho
    let ph := ph - s.pho
    let inclp := p.inclp + pinc
    let ep := p.ep + pe
    let sinip := Real.sin inclp
    let cosip := Real.cos inclp
    if 0.2 ≤ inclp then
      let ph := ph / sinip
      let pgh := pgh - cosip * ph
      { ep := ep, inclp := inclp, nodep := p.nodep + ph, argpp := p.argpp + pgh, mp := p.mp + pl }
    else
      let sinop := Real.sin p.nodep
      let cosop := Real.cos p.nodep
      let alfdp := sinip * sinop
      let betdp := sinip * cosop
      let dalf := ph * cosop + pinc * cosip * sinop
      let dbet := -ph * sinop + pinc * cosip * cosop
      let alfdp := alfdp + dalf
      let betdp := betdp + dbet
      let nodep := fmod p.nodep twopi
      let nodep := if nodep < 0 then nodep + twopi else nodep
      let xls := p.mp + p.argpp + cosip * nodep
      let dls := pl + pgh - pinc * nodep * sinip
      let xls := xls + dls
      let xnoh := nodep
      let nodep := atan2 alfdp betdp
      let nodep := if nodep < 0 then nodep + twopi else nodep
      let nodep := if Real.pi < |xnoh - nodep| then (if nodep < xnoh then nodep + twopi else nodep - twopi) else nodep
      let mp := p.mp + pl
      { ep := ep, inclp := inclp, nodep := nodep, argpp := xls - mp - cosip * nodep, mp := mp }
  else p

/-! ## sgp4 -/

/-- The result of the secular part, sgp4unit.cpp:1530-1555. -/
structure Secular where
  mm : ℝ
  argpm : ℝ
  nodem : ℝ
  tempa : ℝ
  tempe : ℝ
  templ : ℝ

/-- The secular effects of gravity and drag, sgp4unit.cpp:1530-1555. -/
noncomputable def secular (s : Elset) : Secular :=
  let xmdf := s.mo + s.mdot * s.t
  let argpdf := s.argpo + s.argpdot * s.t
  let nodedf := s.nodeo + s.nodedot * s.t
  let t2 := s.t * s.t
  let nodem := nodedf + s.nodecf * t2
  let tempa := 1 - s.cc1 * s.t
  let tempe := s.bstar * s.cc4 * s.t
  let templ := s.t2cof * t2
  if s.isimp ≠ 1 then
    let delomg := s.omgcof * s.t
    let delm := s.xmcof * ((1 + s.eta * Real.cos xmdf) ^ 3 - s.delmo)
    let temp := delomg + delm
    let mm := xmdf + temp
    let t3 := t2 * s.t
    let t4 := t3 * s.t
    { mm := mm
      argpm := argpdf - temp
      nodem := nodem
      tempa := tempa - s.d2 * t2 - s.d3 * t3 - s.d4 * t4
      tempe := tempe + s.bstar * s.cc5 * (Real.sin mm - s.sinmao)
      templ := templ + s.t3cof * t3 + t4 * (s.t4cof + s.t * s.t5cof) }
  else { mm := xmdf, argpm := argpdf, nodem := nodem, tempa := tempa, tempe := tempe, templ := templ }

/-- The mean elements after the drag, and the error code so far: sgp4unit.cpp:1566-1597. -/
structure Drag where
  am : ℝ
  nm : ℝ
  em : ℝ
  inclm : ℝ
  mm : ℝ
  argpm : ℝ
  nodem : ℝ
  error : ℕ

/-- Drag and reduction of the angles, sgp4unit.cpp:1566-1597. -/
noncomputable def drag (c : Consts) (s : Elset) (q : Secular) (m : Mean) : Drag :=
  let twopi := 2 * Real.pi
  let error := if m.nm ≤ 0 then 2 else 0
  let am := (c.xke / m.nm) ^ (2 / 3 : ℝ) * q.tempa * q.tempa
  let nm := c.xke / am ^ (1.5 : ℝ)
  let em := m.em - q.tempe
  let error := if 1 ≤ em ∨ em < -0.001 ∨ am < 0.95 then 1 else error
  let em := if em < 0 then 1.0e-6 else em
  let mm := m.mm + s.no * q.templ
  let xlm := mm + m.argpm + m.nodem
  let nodem := fmod m.nodem twopi
  let argpm := fmod m.argpm twopi
  let xlm := fmod xlm twopi
  let mm := fmod (xlm - argpm - nodem) twopi
  { am := am, nm := nm, em := em, inclm := m.inclm, mm := mm, argpm := argpm, nodem := nodem, error := error }

/-- The lunar-solar periodics with the error code so far, sgp4unit.cpp:1599-1624. -/
noncomputable def lunisolar (s : Elset) (d : Drag) : Periodic × ℕ :=
  let p : Periodic := { ep := d.em, inclp := d.inclm, nodep := d.nodem, argpp := d.argpm, mp := d.mm }
  if s.method = 'd' then
    let p := dpper s s.t 'n' p
    let p := if p.inclp < 0 then { p with inclp := -p.inclp, nodep := p.nodep + Real.pi, argpp := p.argpp - Real.pi } else p
    (p, if p.ep < 0 ∨ 1 < p.ep then 3 else d.error)
  else (p, d.error)

/-- `temp4`, sgp4unit.cpp:1514 and 1182. -/
noncomputable def temp4 : ℝ := 1 + Real.cos (Real.pi - 1.0e-9)

/-- The coefficients of the long-period periodics, sgp4unit.cpp:1627-1636. -/
noncomputable def longPeriod (c : Consts) (s : Elset) (incl : ℝ) : Elset :=
  if s.method = 'd' then
    let sinip := Real.sin incl
    let cosip := Real.cos incl
    { s with
      aycof := -0.5 * c.j3oj2 * sinip
      xlcof := if 1.5e-12 < |cosip + 1| then -0.25 * c.j3oj2 * sinip * (3 + 5 * cosip) / (1 + cosip)
               else -0.25 * c.j3oj2 * sinip * (3 + 5 * cosip) / temp4 }
  else s

/-- The loop of Kepler's equation, sgp4unit.cpp:1653-1661: `n` iterations are left (`ktr = 11 - n`). The result is `sineo1`, `coseo1`. -/
noncomputable def keplerLoop (u axnl aynl : ℝ) : ℕ → ℝ → ℝ → ℝ → ℝ → ℝ × ℝ
  | 0, _, _, sineo1, coseo1 => (sineo1, coseo1)
  | n + 1, tem5, eo1, sineo1, coseo1 =>
    if 1.0e-12 ≤ |tem5| then
      let sineo1 := Real.sin eo1
      let coseo1 := Real.cos eo1
      let tem5 := 1 - coseo1 * axnl - sineo1 * aynl
      let tem5 := (u - aynl * coseo1 + axnl * sineo1 - eo1) / tem5
      let tem5 := if 0.95 ≤ |tem5| then (if 0 < tem5 then 0.95 else -0.95) else tem5
      keplerLoop u axnl aynl n tem5 (eo1 + tem5) sineo1 coseo1
    else (sineo1, coseo1)

/-- The result of one call of `sgp4`: the record (its `error` is the value returned), and what was written to `r` and `v`. -/
structure Out where
  elset : Elset
  written : Option (Vec 3 × Vec 3)

/-- The last part of `sgp4`, sgp4unit.cpp:1664-1720. -/
noncomputable def shortPeriod (c : Consts) (s : Elset) (am nm sinip cosip axnl aynl sineo1 coseo1 xincp nodep : ℝ) (error : ℕ) : Out :=
  let vkmpersec := c.radius * c.xke / 60
  let ecose := axnl * coseo1 + aynl * sineo1
  let esine := axnl * sineo1 - aynl * coseo1
  let el2 := axnl * axnl + aynl * aynl
  let pl := am * (1 - el2)
  if pl < 0 then
    let error := 4
    let mrt : ℝ := 0
    { elset := { s with error := if mrt < 1 then 6 else error }, written := none }
  else
    let rl := am * (1 - ecose)
    let rdotl := Real.sqrt am * esine / rl
    let rvdotl := Real.sqrt pl / rl
    let betal := Real.sqrt (1 - el2)
    let temp := esine / (1 + betal)
    let sinu := am / rl * (sineo1 - aynl - axnl * temp)
    let cosu := am / rl * (coseo1 - axnl + aynl * temp)
    let su := atan2 sinu cosu
    let sin2u := (cosu + cosu) * sinu
    let cos2u := 1 - 2 * sinu * sinu
    let temp := 1 / pl
    let temp1 := 0.5 * c.j2 * temp
    let temp2 := temp1 * temp
    let cosisq := cosip * cosip
    let s := if s.method = 'd' then { s with con41 := 3 * cosisq - 1, x1mth2 := 1 - cosisq, x7thm1 := 7 * cosisq - 1 } else s
    let mrt := rl * (1 - 1.5 * temp2 * betal * s.con41) + 0.5 * temp1 * s.x1mth2 * cos2u
    let su := su - 0.25 * temp2 * s.x7thm1 * sin2u
    let xnode := nodep + 1.5 * temp2 * cosip * sin2u
    let xinc := xincp + 1.5 * temp2 * cosip * sinip * cos2u
    let mvt := rdotl - nm * temp1 * s.x1mth2 * sin2u / c.xke
    let rvdot := rvdotl + nm * temp1 * (s.x1mth2 * cos2u + 1.5 * s.con41) / c.xke
    let sinsu := Real.sin su
    let cossu := Real.cos su
    let snod := Real.sin xnode
    let cnod := Real.cos xnode
    let sini := Real.sin xinc
    let cosi := Real.cos xinc
    let xmx := -snod * cosi
    let xmy := cnod * cosi
    let ux := xmx * sinsu + cnod * cossu
    let uy := xmy * sinsu + snod * cossu
    let uz := sini * sinsu
    let vx := xmx * cossu - cnod * sinsu
    let vy := xmy * cossu - snod * sinsu
    let vz := sini * cossu
    { elset := { s with error := if mrt < 1 then 6 else error }
      written := some
        (![(mrt * ux) * c.radius, (mrt * uy) * c.radius, (mrt * uz) * c.radius],
         ![(mvt * ux + rvdot * vx) * vkmpersec, (mvt * uy + rvdot * vy) * vkmpersec, (mvt * uz + rvdot * vz) * vkmpersec]) }

/-- Long-period periodics and Kepler's equation, sgp4unit.cpp:1626-1662, then the last part. `sinip` and `cosip` are those of `inclm` for a near-Earth
record and those of `xincp` for a deep-space one (1601-1602, 1611-1612, 1628-1629). -/
noncomputable def finish (c : Consts) (s : Elset) (d : Drag) (p : Periodic) (error : ℕ) : Out :=
  let sinip := if s.method = 'd' then Real.sin p.inclp else Real.sin d.inclm
  let cosip := if s.method = 'd' then Real.cos p.inclp else Real.cos d.inclm
  let s := longPeriod c s p.inclp
  let axnl := p.ep * Real.cos p.argpp
  let temp := 1 / (d.am * (1 - p.ep * p.ep))
  let aynl := p.ep * Real.sin p.argpp + temp * s.aycof
  let xl := p.mp + p.argpp + p.nodep + temp * s.xlcof * axnl
  let u := fmod (xl - p.nodep) (2 * Real.pi)
  let e := keplerLoop u axnl aynl 10 9999.9 u (Real.sin u) (Real.cos u)
  shortPeriod c s d.am d.nm sinip cosip axnl aynl e.1 e.2 p.inclp p.nodep error

/-- `sgp4` after the time and the error flag have been set, sgp4unit.cpp:1528-1721; `fuel` bounds the loop of `dspace`. -/
noncomputable def advance (fuel : ℕ) (c : Consts) (s : Elset) : Res Out :=
  let q := secular s
  let m : Mean := { em := s.ecco, argpm := q.argpm, inclm := s.inclo, mm := q.mm, nodem := q.nodem, nm := s.no }
  (if s.method = 'd' then dspace fuel s m else .ok (s, m)).bind fun sm =>
    let d := drag c sm.1 q sm.2
    let p := lunisolar sm.1 d
    .ok (finish c sm.1 d p.1 p.2)

/-- `sgp4`, sgp4unit.cpp:1504-1721. -/
noncomputable def sgp4 (fuel : ℕ) (w : Wgs) (s : Elset) (tsince : ℝ) : Res Out :=
  advance fuel (consts w) { s with t := tsince, error := 0 }

/-! ## sgp4init -/

/-- The outputs of `initl`. -/
structure Epoch where
  no : ℝ
  ainv : ℝ
  ao : ℝ
  con41 : ℝ
  con42 : ℝ
  cosio : ℝ
  cosio2 : ℝ
  eccsq : ℝ
  omeosq : ℝ
  posq : ℝ
  rp : ℝ
  rteosq : ℝ
  sinio : ℝ
  gsto : ℝ

/-- `initl`, sgp4unit.cpp:1025-1088 (it also sets `method` to `'n'`, which it already is). -/
noncomputable def initl (c : Consts) (ecco epoch inclo no : ℝ) : Epoch :=
  let twopi := 2 * Real.pi
  let eccsq := ecco * ecco
  let omeosq := 1 - eccsq
  let rteosq := Real.sqrt omeosq
  let cosio := Real.cos inclo
  let cosio2 := cosio * cosio
  let ak := (c.xke / no) ^ (2 / 3 : ℝ)
  let d1 := 0.75 * c.j2 * (3 * cosio2 - 1) / (rteosq * omeosq)
  let del := d1 / (ak * ak)
  let adel := ak * (1 - del * del - del * (1 / 3 + 134 * del * del / 81))
  let del := d1 / (adel * adel)
  let no := no / (1 + del)
  let ao := (c.xke / no) ^ (2 / 3 : ℝ)
  let po := ao * omeosq
  let con42 := 1 - 5 * cosio2
  let ts70 := epoch - 7305
  let ids70 : ℤ := ⌊ts70 + 1.0e-8⌋
  let tfrac := ts70 - ids70
  let c1 := 1.72027916940703639e-2
  let thgr70 := 1.7321343856509374
  let fk5r := 5.07551419432269442e-15
  let c1p2p := c1 + twopi
  let gsto := fmod (thgr70 + c1 * ids70 + c1p2p * tfrac + ts70 * ts70 * fk5r) twopi
  { no := no, ainv := 1 / ao, ao := ao, con41 := -con42 - cosio2 - cosio2, con42 := con42, cosio := cosio, cosio2 := cosio2, eccsq := eccsq
    omeosq := omeosq, posq := po * po, rp := ao * (1 - ecco), rteosq := rteosq, sinio := Real.sin inclo
    gsto := if gsto < 0 then gsto + twopi else gsto }

/-- The coefficients of one body, sgp4unit.cpp:396-437. -/
structure Body where
  s1 : ℝ
  s2 : ℝ
  s3 : ℝ
  s4 : ℝ
  s5 : ℝ
  s6 : ℝ
  s7 : ℝ
  z1 : ℝ
  z2 : ℝ
  z3 : ℝ
  z11 : ℝ
  z12 : ℝ
  z13 : ℝ
  z21 : ℝ
  z22 : ℝ
  z23 : ℝ
  z31 : ℝ
  z32 : ℝ
  z33 : ℝ

/-- One turn of the loop of `dscom`, sgp4unit.cpp:396-437. -/
noncomputable def body (em sinim cosim sinomm cosomm nm zcosg zsing zcosi zsini zcosh zsinh cc : ℝ) : Body :=
  let emsq := em * em
  let betasq := 1 - emsq
  let rtemsq := Real.sqrt betasq
  let xnoi := 1 / nm
  let a1 := zcosg * zcosh + zsing * zcosi * zsinh
  let a3 := -zsing * zcosh + zcosg * zcosi * zsinh
  let a7 := -zcosg * zsinh + zsing * zcosi * zcosh
  let a8 := zsing * zsini
  let a9 := zsing * zsinh + zcosg * zcosi * zcosh
  let a10 := zcosg * zsini
  let a2 := cosim * a7 + sinim * a8
  let a4 := cosim * a9 + sinim * a10
  let a5 := -sinim * a7 + cosim * a8
  let a6 := -sinim * a9 + cosim * a10
  let x1 := a1 * cosomm + a2 * sinomm
  let x2 := a3 * cosomm + a4 * sinomm
  let x3 := -a1 * sinomm + a2 * cosomm
  let x4 := -a3 * sinomm + a4 * cosomm
  let x5 := a5 * sinomm
  let x6 := a6 * sinomm
  let x7 := a5 * cosomm
  let x8 := a6 * cosomm
  let z31 := 12 * x1 * x1 - 3 * x3 * x3
  let z32 := 24 * x1 * x2 - 6 * x3 * x4
  let z33 := 12 * x2 * x2 - 3 * x4 * x4
  let z1 := 3 * (a1 * a1 + a2 * a2) + z31 * emsq
  let z2 := 6 * (a1 * a3 + a2 * a4) + z32 * emsq
  let z3 := 3 * (a3 * a3 + a4 * a4) + z33 * emsq
  let s3 := cc * xnoi
  let s4 := s3 * rtemsq
  { s1 := -15 * em * s4
    s2 := -0.5 * s3 / rtemsq
    s3 := s3
    s4 := s4
    s5 := x1 * x3 + x2 * x4
    s6 := x2 * x3 + x1 * x4
    s7 := x2 * x4 - x1 * x3
    z1 := z1 + z1 + betasq * z31
    z2 := z2 + z2 + betasq * z32
    z3 := z3 + z3 + betasq * z33
    z11 := -6 * a1 * a5 + emsq * (-24 * x1 * x7 - 6 * x3 * x5)
    z12 := -6 * (a1 * a6 + a3 * a5) + emsq * (-24 * (x2 * x7 + x1 * x8) - 6 * (x3 * x6 + x4 * x5))
    z13 := -6 * a3 * a6 + emsq * (-24 * x2 * x8 - 6 * x4 * x6)
    z21 := 6 * a2 * a5 + emsq * (24 * x1 * x5 - 6 * x3 * x7)
    z22 := 6 * (a4 * a5 + a2 * a6) + emsq * (24 * (x2 * x5 + x1 * x6) - 6 * (x4 * x7 + x3 * x8))
    z23 := 6 * a4 * a6 + emsq * (24 * x2 * x6 - 6 * x4 * x8)
    z31 := z31
    z32 := z32
    z33 := z33 }

/-- `dscom`, sgp4unit.cpp:325-502, as it is called at 1341-1348 (`tc = 0`): the record with its lunar-solar coefficients, the Sun's and the Moon's body. -/
noncomputable def dscom (epoch : ℝ) (s : Elset) : Elset × Body × Body :=
  let twopi := 2 * Real.pi
  let zes : ℝ := 0.01675
  let zel : ℝ := 0.05490
  let em := s.ecco
  let snodm := Real.sin s.nodeo
  let cnodm := Real.cos s.nodeo
  let sinomm := Real.sin s.argpo
  let cosomm := Real.cos s.argpo
  let sinim := Real.sin s.inclo
  let cosim := Real.cos s.inclo
  let emsq := em * em
  let day := epoch + 18261.5 + 0 / 1440
  let xnodce := fmod (4.5236020 - 9.2422029e-4 * day) twopi
  let stem := Real.sin xnodce
  let ctem := Real.cos xnodce
  let zcosil := 0.91375164 - 0.03568096 * ctem
  let zsinil := Real.sqrt (1 - zcosil * zcosil)
  let zsinhl := 0.089683511 * stem / zsinil
  let zcoshl := Real.sqrt (1 - zsinhl * zsinhl)
  let gam := 5.8351514 + 0.0019443680 * day
  let zx := 0.39785416 * stem / zsinil
  let zy := zcoshl * ctem + 0.91744867 * zsinhl * stem
  let zx := atan2 zx zy
  let zx := gam + zx - xnodce
  let zcosgl := Real.cos zx
  let zsingl := Real.sin zx
  let sun := body em sinim cosim sinomm cosomm s.no 0.1945905 (-0.98088458) 0.91744867 0.39785416 cnodm snodm 2.9864797e-6
  let moon := body em sinim cosim sinomm cosomm s.no zcosgl zsingl zcosil zsinil (zcoshl * cnodm + zsinhl * snodm) (snodm * zcoshl - cnodm * zsinhl) 4.7968065e-7
  ({ s with
     peo := 0, pinco := 0, plo := 0, pgho := 0, pho := 0
     zmol := fmod (4.7199672 + 0.22997150 * day - gam) twopi
     zmos := fmod (6.2565837 + 0.017201977 * day) twopi
     se2 := 2 * sun.s1 * sun.s6
     se3 := 2 * sun.s1 * sun.s7
     si2 := 2 * sun.s2 * sun.z12
     si3 := 2 * sun.s2 * (sun.z13 - sun.z11)
     sl2 := -2 * sun.s3 * sun.z2
     sl3 := -2 * sun.s3 * (sun.z3 - sun.z1)
     sl4 := -2 * sun.s3 * (-21 - 9 * emsq) * zes
     sgh2 := 2 * sun.s4 * sun.z32
     sgh3 := 2 * sun.s4 * (sun.z33 - sun.z31)
     sgh4 := -18 * sun.s4 * zes
     sh2 := -2 * sun.s2 * sun.z22
     sh3 := -2 * sun.s2 * (sun.z23 - sun.z21)
     ee2 := 2 * moon.s1 * moon.s6
     e3 := 2 * moon.s1 * moon.s7
     xi2 := 2 * moon.s2 * moon.z12
     xi3 := 2 * moon.s2 * (moon.z13 - moon.z11)
     xl2 := -2 * moon.s3 * moon.z2
     xl3 := -2 * moon.s3 * (moon.z3 - moon.z1)
     xl4 := -2 * moon.s3 * (-21 - 9 * emsq) * zel
     xgh2 := 2 * moon.s4 * moon.z32
     xgh3 := 2 * moon.s4 * (moon.z33 - moon.z31)
     xgh4 := -18 * moon.s4 * zel
     xh2 := -2 * moon.s2 * moon.z22
     xh3 := -2 * moon.s2 * (moon.z23 - moon.z21) }, sun, moon)

/-- The node rate of one body, sgp4unit.cpp:625-627 and 636-638. -/
noncomputable def nodeRate (incl zn s2 z21 z23 : ℝ) : ℝ :=
  if incl < 5.2359877e-2 ∨ Real.pi - 5.2359877e-2 < incl then 0 else -zn * s2 * (z21 + z23)

/-- The terms of half-day resonance, sgp4unit.cpp:669-738. -/
noncomputable def halfDay (aonv theta : ℝ) (s : Elset) : Elset :=
  let root22 : ℝ := 1.7891679e-6
  let root44 : ℝ := 7.3636953e-9
  let root54 : ℝ := 2.1765803e-9
  let rptim : ℝ := 4.37526908801129966e-3
  let root32 : ℝ := 3.7393792e-7
  let root52 : ℝ := 1.1428639e-7
  let sinim := Real.sin s.inclo
  let cosim := Real.cos s.inclo
  let cosisq := cosim * cosim
  let em := s.ecco
  let emsq := em * em
  let eoc := em * emsq
  let g201 := -0.306 - (em - 0.64) * 0.440
  let g211 := if em ≤ 0.65 then 3.616 - 13.2470 * em + 16.2900 * emsq else -72.099 + 331.819 * em - 508.738 * emsq + 266.724 * eoc
  let g310 := if em ≤ 0.65 then -19.302 + 117.3900 * em - 228.4190 * emsq + 156.5910 * eoc else -346.844 + 1582.851 * em - 2415.925 * emsq + 1246.113 * eoc
  let g322 := if em ≤ 0.65 then -18.9068 + 109.7927 * em - 214.6334 * emsq + 146.5816 * eoc else -342.585 + 1554.908 * em - 2366.899 * emsq + 1215.972 * eoc
  let g410 := if em ≤ 0.65 then -41.122 + 242.6940 * em - 471.0940 * emsq + 313.9530 * eoc else -1052.797 + 4758.686 * em - 7193.992 * emsq + 3651.957 * eoc
  let g422 := if em ≤ 0.65 then -146.407 + 841.8800 * em - 1629.014 * emsq + 1083.4350 * eoc else -3581.690 + 16178.110 * em - 24462.770 * emsq + 12422.520 * eoc
  let g520 := if em ≤ 0.65 then -532.114 + 3017.977 * em - 5740.032 * emsq + 3708.2760 * eoc
    else if 0.715 < em then -5149.66 + 29936.92 * em - 54087.36 * emsq + 31324.56 * eoc else 1464.74 - 4664.75 * em + 3763.64 * emsq
  let g533 := if em < 0.7 then -919.22770 + 4988.6100 * em - 9064.7700 * emsq + 5542.21 * eoc
    else -37995.780 + 161616.52 * em - 229838.20 * emsq + 109377.94 * eoc
  let g521 := if em < 0.7 then -822.71072 + 4568.6173 * em - 8491.4146 * emsq + 5337.524 * eoc
    else -51752.104 + 218913.95 * em - 309468.16 * emsq + 146349.42 * eoc
  let g532 := if em < 0.7 then -853.66600 + 4690.2500 * em - 8624.7700 * emsq + 5341.4 * eoc
    else -40023.880 + 170470.89 * em - 242699.48 * emsq + 115605.82 * eoc
  let sini2 := sinim * sinim
  let f220 := 0.75 * (1 + 2 * cosim + cosisq)
  let f221 := 1.5 * sini2
  let f321 := 1.875 * sinim * (1 - 2 * cosim - 3 * cosisq)
  let f322 := -1.875 * sinim * (1 + 2 * cosim - 3 * cosisq)
  let f441 := 35 * sini2 * f220
  let f442 := 39.3750 * sini2 * sini2
  let f522 := 9.84375 * sinim * (sini2 * (1 - 2 * cosim - 5 * cosisq) + 0.33333333 * (-2 + 4 * cosim + 6 * cosisq))
  let f523 := sinim * (4.92187512 * sini2 * (-2 - 4 * cosim + 10 * cosisq) + 6.56250012 * (1 + 2 * cosim - 3 * cosisq))
  let f542 := 29.53125 * sinim * (2 - 8 * cosim + cosisq * (-12 + 8 * cosim + 10 * cosisq))
  let f543 := 29.53125 * sinim * (-2 - 8 * cosim + cosisq * (12 + 8 * cosim - 10 * cosisq))
  let xno2 := s.no * s.no
  let ainv2 := aonv * aonv
  let temp2 := 3 * xno2 * ainv2
  let temp3 := temp2 * aonv
  let temp4 := temp3 * aonv
  let temp5 := temp4 * aonv
  { s with
    d2201 := temp2 * root22 * f220 * g201
    d2211 := temp2 * root22 * f221 * g211
    d3210 := temp3 * root32 * f321 * g310
    d3222 := temp3 * root32 * f322 * g322
    d4410 := 2 * temp4 * root44 * f441 * g410
    d4422 := 2 * temp4 * root44 * f442 * g422
    d5220 := temp5 * root52 * f522 * g520
    d5232 := temp5 * root52 * f523 * g532
    d5421 := 2 * temp5 * root54 * f542 * g521
    d5433 := 2 * temp5 * root54 * f543 * g533
    xlamo := fmod (s.mo + s.nodeo + s.nodeo - theta - theta) (2 * Real.pi)
    xfact := s.mdot + s.dmdt + 2 * (s.nodedot + s.dnodt - rptim) - s.no }

/-- The terms of synchronous resonance, sgp4unit.cpp:744-757. -/
noncomputable def synchronous (aonv theta : ℝ) (s : Elset) : Elset :=
  let q22 : ℝ := 1.7891679e-6
  let q31 : ℝ := 2.1460748e-6
  let q33 : ℝ := 2.2123015e-7
  let rptim : ℝ := 4.37526908801129966e-3
  let sinim := Real.sin s.inclo
  let cosim := Real.cos s.inclo
  let emsq := s.ecco * s.ecco
  let g200 := 1 + emsq * (-2.5 + 0.8125 * emsq)
  let g310 := 1 + 2 * emsq
  let g300 := 1 + emsq * (-6 + 6.60937 * emsq)
  let f220 := 0.75 * (1 + cosim) * (1 + cosim)
  let f311 := 0.9375 * sinim * sinim * (1 + 3 * cosim) - 0.75 * (1 + cosim)
  let f330 := 1 + cosim
  let f330 := 1.875 * f330 * f330 * f330
  let del1 := 3 * s.no * s.no * aonv * aonv
  { s with
    del2 := 2 * del1 * f220 * g200 * q22
    del3 := 3 * del1 * f330 * g300 * q33 * aonv
    del1 := del1 * f311 * g310 * q31 * aonv
    xlamo := fmod (s.mo + s.nodeo + s.argpo - theta) (2 * Real.pi)
    xfact := s.mdot + (s.argpdot + s.nodedot) - rptim + s.dmdt + s.domdt + s.dnodt - s.no }

/-- `dsinit`, sgp4unit.cpp:584-768, as it is called at 1358-1363: `t = tc = 0`, so that `em`, `inclm`, `argpm`, `nodem` and `mm` keep the values they have;
`nm` is the mean motion and `em` the eccentricity of the record. -/
noncomputable def dsinit (c : Consts) (sun moon : Body) (s : Elset) : Elset :=
  let znl : ℝ := 1.5835218e-4
  let zns : ℝ := 1.19459e-5
  let emsq := s.ecco * s.ecco
  let sinim := Real.sin s.inclo
  let cosim := Real.cos s.inclo
  let irez := if 8.26e-3 ≤ s.no ∧ s.no ≤ 9.24e-3 ∧ 0.5 ≤ s.ecco then 2
    else if s.no < 0.0052359877 ∧ 0.0034906585 < s.no then 1 else 0
  let ses := sun.s1 * zns * sun.s5
  let sis := sun.s2 * zns * (sun.z11 + sun.z13)
  let sls := -zns * sun.s3 * (sun.z1 + sun.z3 - 14 - 6 * emsq)
  let sghs := sun.s4 * zns * (sun.z31 + sun.z33 - 6)
  let shs := nodeRate s.inclo zns sun.s2 sun.z21 sun.z23
  let shs := if sinim ≠ 0 then shs / sinim else shs
  let sgs := sghs - cosim * shs
  let sghl := moon.s4 * znl * (moon.z31 + moon.z33 - 6)
  let shll := nodeRate s.inclo znl moon.s2 moon.z21 moon.z23
  let domdt := sgs + sghl
  let theta := fmod s.gsto (2 * Real.pi)
  let s := { s with
    irez := irez
    dedt := ses + moon.s1 * znl * moon.s5
    didt := sis + moon.s2 * znl * (moon.z11 + moon.z13)
    dmdt := sls - znl * moon.s3 * (moon.z1 + moon.z3 - 14 - 6 * emsq)
    domdt := if sinim ≠ 0 then domdt - cosim / sinim * shll else domdt
    dnodt := if sinim ≠ 0 then shs + shll / sinim else shs }
  let aonv := (s.no / c.xke) ^ (2 / 3 : ℝ)
  if s.irez = 2 then
    let s := halfDay aonv theta s
    { s with xli := s.xlamo, xni := s.no, atime := 0 }
  else if s.irez = 1 then
    let s := synchronous aonv theta s
    { s with xli := s.xlamo, xni := s.no, atime := 0 }
  else s

/-- The record with every near-Earth and deep-space member set to zero and the elements stored, sgp4unit.cpp:1184-1287. -/
def cleared (s : Elset) (bstar ecco argpo inclo mo no nodeo : ℝ) : Elset where
  error := s.error
  init := 'y'
  method := 'n'
  isimp := 0
  aycof := 0
  con41 := 0
  cc1 := 0
  cc4 := 0
  cc5 := 0
  d2 := 0
  d3 := 0
  d4 := 0
  delmo := 0
  eta := 0
  argpdot := 0
  omgcof := 0
  sinmao := 0
  t := 0
  t2cof := 0
  t3cof := 0
  t4cof := 0
  t5cof := 0
  x1mth2 := 0
  x7thm1 := 0
  mdot := 0
  nodedot := 0
  xlcof := 0
  xmcof := 0
  nodecf := 0
  irez := 0
  d2201 := 0
  d2211 := 0
  d3210 := 0
  d3222 := 0
  d4410 := 0
  d4422 := 0
  d5220 := 0
  d5232 := 0
  d5421 := 0
  d5433 := 0
  dedt := 0
  del1 := 0
  del2 := 0
  del3 := 0
  didt := 0
  dmdt := 0
  dnodt := 0
  domdt := 0
  e3 := 0
  ee2 := 0
  peo := 0
  pgho := 0
  pho := 0
  pinco := 0
  plo := 0
  se2 := 0
  se3 := 0
  sgh2 := 0
  sgh3 := 0
  sgh4 := 0
  sh2 := 0
  sh3 := 0
  si2 := 0
  si3 := 0
  sl2 := 0
  sl3 := 0
  sl4 := 0
  gsto := 0
  xfact := 0
  xgh2 := 0
  xgh3 := 0
  xgh4 := 0
  xh2 := 0
  xh3 := 0
  xi2 := 0
  xi3 := 0
  xl2 := 0
  xl3 := 0
  xl4 := 0
  xlamo := 0
  zmol := 0
  zmos := 0
  atime := 0
  xli := 0
  xni := 0
  jdsatepoch := s.jdsatepoch
  bstar := bstar
  inclo := inclo
  nodeo := nodeo
  ecco := ecco
  argpo := argpo
  mo := mo
  no := no

/-- `sfour` and `qzms24`, sgp4unit.cpp:1308-1319. -/
noncomputable def density (c : Consts) (rp : ℝ) : ℝ × ℝ :=
  let ss := 78 / c.radius + 1
  let qzms2t := ((120 - 78) / c.radius) ^ 4
  let perige := (rp - 1) * c.radius
  if perige < 156 then
    let sfour := if perige < 98 then 20 else perige - 78
    (sfour / c.radius + 1, ((120 - sfour) / c.radius) ^ 4)
  else (ss, qzms2t)

/-- The coefficients of the near-Earth theory, sgp4unit.cpp:1306-1332 (`isimp`, drag and secular rates). -/
noncomputable def nearEarth (c : Consts) (i : Epoch) (s : Elset) : Elset :=
  let x2o3 : ℝ := 2 / 3
  let isimp := if i.rp < 220 / c.radius + 1 then 1 else 0
  let sfour := (density c i.rp).1
  let qzms24 := (density c i.rp).2
  let pinvsq := 1 / i.posq
  let tsi := 1 / (i.ao - sfour)
  let eta := i.ao * s.ecco * tsi
  let etasq := eta * eta
  let eeta := s.ecco * eta
  let psisq := |1 - etasq|
  let coef := qzms24 * tsi ^ 4
  let coef1 := coef / psisq ^ (3.5 : ℝ)
  let cc2 := coef1 * s.no * (i.ao * (1 + 1.5 * etasq + eeta * (4 + etasq)) + 0.375 * c.j2 * tsi / psisq * s.con41 * (8 + 3 * etasq * (8 + etasq)))
  let cc1 := s.bstar * cc2
  let cc3 := if 1.0e-4 < s.ecco then -2 * coef * tsi * c.j3oj2 * s.no * i.sinio / s.ecco else 0
  let x1mth2 := 1 - i.cosio2
  let cc4 := 2 * s.no * coef1 * i.ao * i.omeosq
    * (eta * (2 + 0.5 * etasq) + s.ecco * (0.5 + 2 * etasq)
      - c.j2 * tsi / (i.ao * psisq)
        * (-3 * s.con41 * (1 - 2 * eeta + etasq * (1.5 - 0.5 * eeta))
          + 0.75 * x1mth2 * (2 * etasq - eeta * (1 + etasq)) * Real.cos (2 * s.argpo)))
  let cc5 := 2 * coef1 * i.ao * i.omeosq * (1 + 2.75 * (etasq + eeta) + eeta * etasq)
  let cosio4 := i.cosio2 * i.cosio2
  let temp1 := 1.5 * c.j2 * pinvsq * s.no
  let temp2 := 0.5 * temp1 * c.j2 * pinvsq
  let temp3 := -0.46875 * c.j4 * pinvsq * pinvsq * s.no
  let xhdot1 := -temp1 * i.cosio
  { s with
    isimp := isimp
    eta := eta
    cc1 := cc1
    x1mth2 := x1mth2
    cc4 := cc4
    cc5 := cc5
    mdot := s.no + 0.5 * temp1 * i.rteosq * s.con41 + 0.0625 * temp2 * i.rteosq * (13 - 78 * i.cosio2 + 137 * cosio4)
    argpdot := -0.5 * temp1 * i.con42 + 0.0625 * temp2 * (7 - 114 * i.cosio2 + 395 * cosio4) + temp3 * (3 - 36 * i.cosio2 + 49 * cosio4)
    nodedot := xhdot1 + (0.5 * temp2 * (4 - 19 * i.cosio2) + 2 * temp3 * (3 - 7 * i.cosio2)) * i.cosio
    omgcof := s.bstar * cc3 * Real.cos s.argpo
    xmcof := if 1.0e-4 < s.ecco then -x2o3 * coef * s.bstar / eeta else 0
    nodecf := 3.5 * i.omeosq * xhdot1 * cc1
    t2cof := 1.5 * cc1
    xlcof := if 1.5e-12 < |i.cosio + 1| then -0.25 * c.j3oj2 * i.sinio * (3 + 5 * i.cosio) / (1 + i.cosio)
             else -0.25 * c.j3oj2 * i.sinio * (3 + 5 * i.cosio) / temp4
    aycof := -0.5 * c.j3oj2 * i.sinio
    delmo := (1 + eta * Real.cos s.mo) ^ 3
    sinmao := Real.sin s.mo
    x7thm1 := 7 * i.cosio2 - 1 }

/-- The deep-space part, sgp4unit.cpp:1336-1364. The call of `dpper` at 1349-1352 is made with `init` equal to `'y'`. -/
noncomputable def deepSpace (c : Consts) (epoch : ℝ) (s : Elset) : Elset :=
  if 225 ≤ 2 * Real.pi / s.no then
    let s := { s with method := 'd', isimp := 1 }
    let l := dscom epoch s
    let s := l.1
    let p := dpper s s.t s.init { ep := s.ecco, inclp := s.inclo, nodep := s.nodeo, argpp := s.argpo, mp := s.mo }
    let s := { s with ecco := p.ep, inclo := p.inclp, nodeo := p.nodep, argpo := p.argpp, mo := p.mp }
    dsinit c l.2.1 l.2.2 s
  else s

/-- The higher drag terms, sgp4unit.cpp:1367-1376. -/
noncomputable def higherDrag (c : Consts) (i : Epoch) (s : Elset) : Elset :=
  if s.isimp ≠ 1 then
    let sfour := (density c i.rp).1
    let tsi := 1 / (i.ao - sfour)
    let cc1sq := s.cc1 * s.cc1
    let d2 := 4 * i.ao * tsi * cc1sq
    let temp := d2 * tsi * s.cc1 / 3
    let d3 := (17 * i.ao + sfour) * temp
    let d4 := 0.5 * temp * i.ao * tsi * (221 * i.ao + 31 * sfour) * s.cc1
    { s with
      d2 := d2
      d3 := d3
      d4 := d4
      t3cof := d2 + 2 * cc1sq
      t4cof := 0.25 * (3 * d3 + s.cc1 * (12 * d2 + 10 * cc1sq))
      t5cof := 0.2 * (3 * d4 + 12 * s.cc1 * d3 + 6 * d2 * d2 + 15 * cc1sq * (2 * d2 + cc1sq)) }
  else s

/-- `sgp4init` up to the first propagation, sgp4unit.cpp:1171-1378. -/
noncomputable def prepare (w : Wgs) (epoch bstar ecco argpo inclo mo no nodeo : ℝ) (s : Elset) : Elset :=
  let c := consts w
  let s := cleared s bstar ecco argpo inclo mo no nodeo
  let i := initl c s.ecco epoch s.inclo s.no
  let s := { s with no := i.no, con41 := i.con41, gsto := i.gsto, error := if i.rp < 1 then 5 else 0 }
  if 0 ≤ i.omeosq ∨ 0 ≤ s.no then higherDrag c i (deepSpace c epoch (nearEarth c i s)) else s

/-- `sgp4init`, sgp4unit.cpp:1171-1387. -/
noncomputable def sgp4init (fuel : ℕ) (w : Wgs) (epoch bstar ecco argpo inclo mo no nodeo : ℝ) (s : Elset) : Res Elset :=
  let s := prepare w epoch bstar ecco argpo inclo mo no nodeo s
  (if s.error = 0 then (sgp4 fuel w s 0).bind fun o => .ok o.elset else .ok s).bind fun s => .ok { s with init := 'n' }

end S2E.Sgp4
