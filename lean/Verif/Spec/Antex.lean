import Verif.Model.Antex
import Verif.Spec.TextLines
/-!
# The layout of an ANTEX file as the reader takes it, independently of the reader

Columns count from 0.
-/
namespace S2E.Antex
open S2E.Log S2E.Sp3 S2E.Time

/-- The label is in column 60 and nowhere before. -/
def Label (p : String) (l : Str) : Prop := p.toList <+: l.drop 60 ∧ ∀ i < 60, ¬ p.toList <+: l.drop i

/-- The last line with the label. -/
def LastOf (p : String) (B : List Str) (l : Str) : Prop := Label p l ∧ ∃ A C, B = A ++ l :: C ∧ ∀ m ∈ C, ¬ Label p m

/-- A line with the word `NOAZI` anywhere. -/
def NoAzimuth (l : Str) : Prop := "NOAZI".toList <:+: l

/-- The `n` variations in a line: fields of eight columns from column 8 on. -/
def Variation (c : Codec) (n : ℕ) (l : Str) (v : List ℝ) : Prop :=
  v.length = n ∧ ∀ i < n, 8 + i * 8 ≤ l.length ∧ c.stod (cols l (8 + i * 8) 8) = v[i]?

/-- The data of one frequency: the lines `B` and the line `e` with the label `END OF FREQUENCY`, with the grid `g`. -/
structure IsPhase (c : Codec) (g : Grid) (B : List Str) (e : Str) (p : Phase) : Prop where
  inner : ∀ m ∈ B, ¬ Label "END OF FREQUENCY" m
  last : Label "END OF FREQUENCY" e
  name : p.name = cols e 3 3
  grid : p.grid = g
  /-- the last offset; the numbers that could be read, 0 for the others -/
  offset : (∀ l, LastOf "NORTH / EAST / UP" B l → ∀ i : Fin 3, p.offset i = (c.reals l).getD i 0) ∧
    ((∀ l ∈ B, ¬ Label "NORTH / EAST / UP" l) → p.offset = fun _ => 0)
  /-- all lines with variations can be read -/
  variations : ∀ l ∈ B, NoAzimuth l → ∃ v, Variation c g.zeniths l v
  /-- and the last one gives the variations -/
  variation : (∀ A l C, B = A ++ l :: C → NoAzimuth l → (∀ m ∈ C, ¬ NoAzimuth m) → ∃ v, Variation c g.zeniths l v ∧ p.variation = [v]) ∧
    ((∀ l ∈ B, ¬ NoAzimuth l) → p.variation = [])

/-- A grid of zenith angles of a file. -/
def IsGrid (a b d : ℝ) (g : Grid) : Prop :=
  g.start = a ∧ g.stop = b ∧ g.step = d ∧ g.azimuthStep = 0 ∧ g.azimuths = 0 ∧
  if d ≤ 0 then g.zeniths = 0 else -1 < (b - a) / d ∧ (b - a) / d < 2 ^ 64 ∧ g.zeniths = (⌊(b - a) / d⌋₊ + 1) % 2 ^ 64

/-- A line outside of the frequencies that can be read. -/
structure Readable (c : Codec) (l : Str) : Prop where
  grid : Label "ZEN1 / ZEN2 / DZEN" l → ∃ a b d g, c.reals (l.take 60) = [a, b, d] ∧ IsGrid a b d g
  frequencies : Label "# OF FREQUENCIES" l → ∃ v, c.stoi (l.take 20) = some v
  validFrom : Label "VALID FROM" l → ∃ t, c.scan (l.take 59) = some t
  validUntil : Label "VALID UNTIL" l → ∃ t, c.scan (l.take 59) = some t

/-- The lines of an antenna between its type and its end: the lines outside of the frequencies, and the frequencies with the grid given last before them. -/
inductive Sections (c : Codec) : Grid → List Str → List Str → List Phase → Prop
  | nil (g : Grid) : Sections c g [] [] []
  | grid (g : Grid) (l : Str) (L O : List Str) (ps : List Phase) (a b d : ℝ) (g' : Grid) (hl : Label "ZEN1 / ZEN2 / DZEN" l) (hr : c.reals (l.take 60) = [a, b, d])
      (hg : IsGrid a b d g') (hL : Sections c g' L O ps) : Sections c g (l :: L) (l :: O) ps
  | line (g : Grid) (l : Str) (L O : List Str) (ps : List Phase) (h0 : ¬ Label "ZEN1 / ZEN2 / DZEN" l) (h1 : ¬ Label "START OF FREQUENCY" l)
      (h2 : ¬ Label "END OF ANTENNA" l) (hr : Readable c l) (hL : Sections c g L O ps) : Sections c g (l :: L) (l :: O) ps
  | frequency (g : Grid) (l : Str) (B : List Str) (e : Str) (L O : List Str) (p : Phase) (ps : List Phase) (hl : Label "START OF FREQUENCY" l)
      (hp : IsPhase c g B e p) (hL : Sections c g L O ps) : Sections c g (l :: (B ++ e :: L)) O (p :: ps)

/-- The value of the last line with the label, or the value of the default. -/
def Field {α : Type} (p : String) (O : List Str) (dflt : α) (value : Str → α → Prop) (x : α) : Prop :=
  (∀ l, LastOf p O l → value l x) ∧ ((∀ l ∈ O, ¬ Label p l) → x = dflt)

/-- The grid after the lines `O` outside of the frequencies. -/
def GridAfter (c : Codec) (g : Grid) (O : List Str) : Grid → Prop :=
  Field "ZEN1 / ZEN2 / DZEN" O g fun l g' => ∃ a b d, c.reals (l.take 60) = [a, b, d] ∧ IsGrid a b d g'

/-- Lines of an antenna, without its end, up to the end of the file: after complete frequencies or in a frequency. -/
inductive Open (c : Codec) : List Str → Prop
  | outer (C O : List Str) (ps : List Phase) (h : Sections c defaultGrid C O ps) : Open c C
  | frequency (C O : List Str) (ps : List Phase) (g : Grid) (l : Str) (B : List Str) (h : Sections c defaultGrid C O ps) (hg : GridAfter c defaultGrid O g)
      (hl : Label "START OF FREQUENCY" l) (hB : ∀ m ∈ B, ¬ Label "END OF FREQUENCY" m ∧ (NoAzimuth m → ∃ v, Variation c g.zeniths m v)) : Open c (C ++ l :: B)

/-- The data of a satellite antenna: the line `t` with the type and the lines `B` up to the end of the antenna. -/
structure IsSatellite (c : Codec) (t : Str) (B : List Str) (d : Satellite) : Prop where
  antenna : d.antenna = t.take 20
  serial : d.serial = cols t 20 20
  fields : ∃ O, Sections c defaultGrid B O d.phases ∧
    Field "# OF FREQUENCIES" O 1 (fun l x => ∃ v, c.stoi (l.take 20) = some v ∧ x = toU64 v) d.frequencies ∧
    Field "VALID FROM" O ⟨0, 1, 1, 0, 0, 0⟩ (fun l x => c.scan (l.take 59) = some x) d.validFrom ∧
    Field "VALID UNTIL" O ⟨0, 1, 1, 0, 0, 0⟩ (fun l x => c.scan (l.take 59) = some x) d.validUntil

/-- The lines of a file and the satellites in them in their order, each with its index. -/
inductive Reads (c : Codec) : List Str → List (ℕ × Satellite) → Prop
  | nil : Reads c [] []
  | line (l : Str) (L : List Str) (d : List (ℕ × Satellite)) (h : ¬ Label "START OF ANTENNA" l) (hL : Reads c L d) : Reads c (l :: L) d
  | other (l : Str) (H : List Str) (t : Str) (L : List Str) (d : List (ℕ × Satellite)) (h : Label "START OF ANTENNA" l)
      (hH : ∀ m ∈ H, ¬ Label "TYPE / SERIAL NO" m) (ht : Label "TYPE / SERIAL NO" t) (hi : Gnss.numberToIndex (cols t 20 20) = .ok (2 ^ 32 - 1)) (hL : Reads c L d) :
      Reads c (l :: (H ++ t :: L)) d
  | satellite (l : Str) (H : List Str) (t : Str) (B : List Str) (e : Str) (L : List Str) (i : ℕ) (x : Satellite) (d : List (ℕ × Satellite))
      (h : Label "START OF ANTENNA" l) (hH : ∀ m ∈ H, ¬ Label "TYPE / SERIAL NO" m) (ht : Label "TYPE / SERIAL NO" t)
      (hi : Gnss.numberToIndex (cols t 20 20) = .ok i) (h0 : i ≠ 2 ^ 32 - 1) (hx : IsSatellite c t B x) (he : Label "END OF ANTENNA" e) (hL : Reads c L d) :
      Reads c (l :: (H ++ t :: (B ++ e :: L))) ((i, x) :: d)

/-- The map of a list of satellites. -/
def IsMap (d : List (ℕ × Satellite)) (m : Data) : Prop :=
  (∀ i, satellite i m = if i ∈ d.map Prod.fst then .ok ((d.filter fun x => x.1 = i).map Prod.snd) else .throws) ∧
    count m = (d.map Prod.fst).toFinset.card

end S2E.Antex
