import Verif.Model.Sgp4

/-!
# What a call of SGP4 shows its caller

A caller of `sgp4` sees the value returned (also kept in `satrec.error`), and the two arrays if they were written.
-/
namespace S2E.Sgp4

open S2E.InitOrbit (Wgs)

/-- The observable result of a call. -/
def observe : Res Out → Res (ℕ × Option (Vec 3 × Vec 3))
  | .ok o => .ok (o.elset.error, o.written)
  | .ub => .ub
  | .throws => .throws
  | .stuck => .stuck

/-- The record after calls at the times of a list. -/
noncomputable def runs (fuel : ℕ) (w : Wgs) : List ℝ → Elset → Res Elset
  | [], s => .ok s
  | t :: ts, s => (sgp4 fuel w s t).bind fun o => runs fuel w ts o.elset

end S2E.Sgp4
