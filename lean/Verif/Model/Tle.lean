import Verif.Model.Julian
import Verif.Model.Ini
import Mathlib.Data.Rat.Defs
import Mathlib.Analysis.SpecialFunctions.Pow.Real
/-!
# Two-line elements: `twoline2rv` of `src/math_physics/orbit/sgp4/sgp4io.cpp`, with run type `'c'` (sgp4_orbit_propagation.cpp:27)

The buffers are lists of characters; a read outside of them is undefined behaviour. `sscanf` is modelled for the conversions used (`%Nd`, `%Nld`, `%1c`, `%Ns`,
`%Nlf`, each after white space in the format); of `%lf` the texts of infinities, of not-a-number and of hexadecimal numbers are taken as no numbers. Doubles are real
numbers. `numb`, `elnum`, `revnum`, `classification`, `intldesg` and `cardnumb` are assigned but never used: conversions after the last one used are left out.
-/
namespace S2E.Tle
open Log Ini Julian

/-- The terminator. -/
def nul : Char := Char.ofNat 0

/-! ## `sscanf` -/

/-- `isspace` in the C locale. -/
def isSpace (c : Char) : Bool := c = ' ' ∨ c = '\t' ∨ c = '\n' ∨ c = '\r' ∨ c = Char.ofNat 11 ∨ c = Char.ofNat 12

/-- White space in the format. -/
def skip (s : Str) : Str := s.dropWhile isSpace

/-- At most `w` digits, and the rest. -/
def takeDigits : ℕ → Str → Str × Str
  | w + 1, c :: s => if c.isDigit then (c :: (takeDigits w s).1, (takeDigits w s).2) else ([], c :: s)
  | _, s => ([], s)

/-- The value of decimal digits. -/
def natOf (ds : Str) : ℕ := ds.foldl (fun n c => 10 * n + (c.toNat - 48)) 0

/-- A sign, if there is one: whether it is minus, the width left and the rest. -/
def sign : ℕ → Str → Bool × ℕ × Str
  | w + 1, '-' :: s => (true, w, s)
  | w + 1, '+' :: s => (false, w, s)
  | w, s => (false, w, s)

/-- ` %Nd`, ` %Nld`. -/
def scanInt (w : ℕ) (s : Str) : Option (ℤ × Str) :=
  let g := sign w (skip s)
  let d := takeDigits g.2.1 g.2.2
  if d.1.isEmpty then none else some (if g.1 then -(natOf d.1 : ℤ) else natOf d.1, d.2)

/-- The digits after a decimal point, if there is one: digits, width left and rest. -/
def fraction : ℕ → Str → Str × ℕ × Str
  | w + 1, '.' :: s => ((takeDigits w s).1, w - (takeDigits w s).1.length, (takeDigits w s).2)
  | w, s => ([], w, s)

/-- The exponent and the rest: 0 if there is none; `none`: there is a letter, but no number after it. -/
def exponent : ℕ → Str → Option (ℤ × Str)
  | w + 1, c :: s =>
    if c = 'e' ∨ c = 'E' then
      let g := sign w s
      let d := takeDigits g.2.1 g.2.2
      if d.1.isEmpty then none else some (if g.1 then -(natOf d.1 : ℤ) else natOf d.1, d.2)
    else some (0, c :: s)
  | _, s => some (0, s)

/-- ` %Nlf`. -/
def scanReal (w : ℕ) (s : Str) : Option (ℚ × Str) :=
  let g := sign w (skip s)
  let d := takeDigits g.2.1 g.2.2
  let f := fraction (g.2.1 - d.1.length) d.2
  if d.1.isEmpty && f.1.isEmpty then none
  else (exponent f.2.1 f.2.2).map fun e =>
    ((if g.1 then -1 else 1) * (natOf (d.1 ++ f.1) : ℚ) / 10 ^ f.1.length * (10 : ℚ) ^ e.1, e.2)

/-- ` %1c`. -/
def scanChar (s : Str) : Option (Char × Str) :=
  match skip s with
  | [] => none
  | c :: r => some (c, r)

/-- At most `w` characters that are no white space, and the rest. -/
def takeText : ℕ → Str → Str × Str
  | w + 1, c :: s => if isSpace c then ([], c :: s) else (c :: (takeText w s).1, (takeText w s).2)
  | _, s => ([], s)

/-- ` %Ns`. -/
def scanText (w : ℕ) (s : Str) : Option (Str × Str) :=
  let t := takeText w (skip s)
  if t.1.isEmpty then none else some t

/-! ## The lines -/

/-- `if (l[i] == ' ') l[i] = c`. -/
def blankAt (c : Char) (i : ℕ) (l : Str) : Str := if l[i]? = some ' ' then l.set i c else l

/-- The same for `n` indices from `i` on. -/
def blankFrom (c : Char) : ℕ → ℕ → Str → Str
  | _, 0, l => l
  | i, n + 1, l => blankFrom c (i + 1) n (blankAt c i l)

/-- `if (l[i + 1] != ' ') l[i] = l[i + 1]; l[i + 1] = '.'`. -/
def moveSign (i : ℕ) (l : Str) : Str :=
  (if l[i + 1]? ≠ some ' ' then l.set i (l.getD (i + 1) nul) else l).set (i + 1) '.'

/-- The corrections of the first line, sgp4io.cpp:102-113 and 117-118. -/
def fix1 (l : Str) : Str :=
  let l := blankFrom '_' 10 6 l
  let l := moveSign 43 l
  let l := blankAt 'U' 7 l
  let l := blankAt '.' 9 l
  let l := blankFrom '0' 45 5 l
  let l := blankAt '0' 51 l
  let l := moveSign 52 l
  let l := blankAt '0' 62 l
  blankAt '0' 68 l

/-- The corrections of the second line, sgp4io.cpp:114-116. -/
def fix2 (l : Str) : Str := blankFrom '0' 26 7 (l.set 25 '.')

/-- The text in a buffer; without a terminator `sscanf` reads on after its end. -/
def text (buffer : Str) : Res Str := if nul ∈ buffer then .ok (buffer.takeWhile (· ≠ nul)) else .ub

/-- What is used of the first line. -/
structure Raw1 where
  epochyr : ℤ
  epochdays : ℚ
  ndot : ℚ
  nddot : ℚ
  nexp : ℤ
  bstar : ℚ
  ibexp : ℤ
  deriving DecidableEq

/-- The conversions of the first line, sgp4io.cpp:120-121; `none`: one of them fails, and what is used below is not assigned. -/
def scan1 (s : Str) : Option Raw1 :=
  (scanInt 2 s).bind fun a => (scanInt 5 a.2).bind fun a => (scanChar a.2).bind fun a => (scanText 10 a.2).bind fun a =>
    (scanInt 2 a.2).bind fun yr => (scanReal 12 yr.2).bind fun days => (scanReal 11 days.2).bind fun n1 => (scanReal 7 n1.2).bind fun n2 =>
      (scanInt 2 n2.2).bind fun e => (scanReal 7 e.2).bind fun b => (scanInt 2 b.2).bind fun f => some ⟨yr.1, days.1, n1.1, n2.1, e.1, b.1, f.1⟩

/-- What is used of the second line. -/
structure Raw2 where
  satnum : ℤ
  inclo : ℚ
  nodeo : ℚ
  ecco : ℚ
  argpo : ℚ
  mo : ℚ
  no : ℚ
  deriving DecidableEq

/-- The conversions of the second line, sgp4io.cpp:140-145; `wide`: the first of the two formats is not taken. -/
def scan2 (wide : Bool) (s : Str) : Option Raw2 :=
  (scanInt 2 s).bind fun a => (scanInt 5 a.2).bind fun sat => (scanReal 9 sat.2).bind fun i => (scanReal 9 i.2).bind fun o => (scanReal 8 o.2).bind fun e =>
    (scanReal 9 e.2).bind fun w => (scanReal 9 w.2).bind fun m => (scanReal (if wide then 11 else 10) m.2).bind fun n =>
      some ⟨sat.1, i.1, o.1, e.1, w.1, m.1, n.1⟩

/-- The record `satrec` as it is given to `sgp4init`, with its epoch argument. -/
structure Elements where
  satnum : ℤ
  ndot : ℝ
  nddot : ℝ
  bstar : ℝ
  inclo : ℝ
  nodeo : ℝ
  ecco : ℝ
  argpo : ℝ
  mo : ℝ
  no : ℝ
  a : ℝ
  alta : ℝ
  altp : ℝ
  jdsatepoch : ℝ
  /-- the argument `epoch` of `sgp4init` -/
  epoch : ℝ

/-- `xpdotp`, sgp4io.cpp:85. -/
noncomputable def xpdotp : ℝ := 1440 / (2 * Real.pi)

/-- The conversions of units and the epoch, sgp4io.cpp:149-181, 242-243. -/
noncomputable def convert (tumin : ℝ) (x : Raw1) (y : Raw2) : Elements :=
  let no : ℝ := y.no / xpdotp
  let nddot : ℝ := x.nddot * 10 ^ x.nexp
  let bstar : ℝ := x.bstar * 10 ^ x.ibexp
  let a := (no * tumin) ^ (-2 / 3 : ℝ)
  let year := if x.epochyr < 57 then x.epochyr + 2000 else x.epochyr + 1900
  let jd := jday (days2mdhms year x.epochdays)
  { satnum := y.satnum
    ndot := x.ndot / (xpdotp * 1440)
    nddot := nddot / (xpdotp * 1440 * 1440)
    bstar := bstar
    inclo := y.inclo * (Real.pi / 180)
    nodeo := y.nodeo * (Real.pi / 180)
    ecco := y.ecco
    argpo := y.argpo * (Real.pi / 180)
    mo := y.mo * (Real.pi / 180)
    no := no
    a := a
    alta := a * (1 + y.ecco) - 1
    altp := a * (1 - y.ecco) - 1
    jdsatepoch := jd
    epoch := jd - 2433281.5 }

/-- `twoline2rv`, sgp4io.cpp:82-243, up to the call of `sgp4init`; `tumin` is the constant of `getgravconst`. -/
noncomputable def twoline2rv (tumin : ℝ) (buffer1 buffer2 : Str) : Res Elements :=
  if buffer1.length < 69 ∨ buffer2.length < 53 then .ub
  else
    (text (fix1 buffer1)).bind fun s1 => (text (fix2 buffer2)).bind fun s2 =>
      match scan1 s1, scan2 (decide ((fix2 buffer2).getD 52 nul ≠ ' ')) s2 with
      | some x, some y => .ok (convert tumin x y)
      | _, _ => .ub

end S2E.Tle
