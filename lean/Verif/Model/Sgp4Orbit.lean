import Verif.Model.Sgp4
import Verif.Model.Tle

/-!
# `Sgp4OrbitPropagation` with the SGP4 code

`src/dynamics/orbit/sgp4_orbit_propagation.cpp` on top of the models of `twoline2rv` (Model/Tle) and of `sgp4init` and `sgp4` (Model/Sgp4). The Earth-fixed
state that `Propagate` computes at the end (lines 68-69) is the subject of Model/InitOrbit and is left out here, and so is the text of the warnings.
-/
namespace S2E.Sgp4

open S2E.InitOrbit (Wgs wgsOf)
open S2E.Log (Str)

/-- `twoline2rv` with run type `'c'` and its call of `sgp4init`, sgp4io.cpp:82-243; `junk` is what the record held before. -/
noncomputable def readTle (fuel : ℕ) (w : Wgs) (tle1 tle2 : Str) (junk : Elset) : Res Elset :=
  (Tle.twoline2rv (consts w).tumin tle1 tle2).bind fun x =>
    sgp4init fuel w x.epoch x.bstar x.ecco x.argpo x.inclo x.mo x.no x.nodeo { junk with jdsatepoch := x.jdsatepoch }

/-- `Sgp4OrbitPropagation`, sgp4_orbit_propagation.hpp:22-48, with the members of `Orbit` that it uses; `printed` are the codes in the messages of line 61. -/
structure Propagator where
  wgs : Wgs
  data : Elset
  position : Vec 3
  velocity : Vec 3
  enabled : Bool
  printed : List ℕ

/-- `Propagate`, sgp4_orbit_propagation.cpp:49-66. The local arrays are not initialised: reading them when `sgp4` has not written them is undefined. -/
noncomputable def Propagator.propagate (fuel : ℕ) (jd : ℝ) (p : Propagator) : Res Propagator :=
  if !p.enabled then .ok p
  else
    (sgp4 fuel p.wgs p.data ((jd - p.data.jdsatepoch) * (24 * 60))).bind fun o =>
      let printed := if 0 < o.elset.error then p.printed ++ [o.elset.error] else p.printed
      match o.written with
      | none => .ub
      | some (r, v) => .ok { p with data := o.elset, printed := printed, position := fun i => r i * 1000, velocity := fun i => v i * 1000 }

/-- The constructor, sgp4_orbit_propagation.cpp:14-47. A setting other than 0, 1 and 2 leaves `gravity_constant_setting_` uninitialised. -/
noncomputable def Propagator.new (fuel : ℕ) (tle1 tle2 : Str) (setting : ℤ) (jd : ℝ) (junk : Elset) : Res Propagator :=
  match wgsOf setting with
  | none => .ub
  | some w =>
    (readTle fuel w tle1 tle2 junk).bind fun s =>
      (Propagator.propagate fuel jd ⟨w, s, 0, 0, true, []⟩).bind fun p => .ok { p with enabled := false }

/-- A public call: `SetIsCalcEnabled` (orbit.hpp:138) or `Propagate`. -/
inductive Call where
  | enable (b : Bool)
  | propagate (jd : ℝ)

/-- One call. -/
noncomputable def Propagator.call (fuel : ℕ) (p : Propagator) : Call → Res Propagator
  | .enable b => .ok { p with enabled := b }
  | .propagate jd => p.propagate fuel jd

/-- A sequence of calls. -/
noncomputable def Propagator.calls (fuel : ℕ) : List Call → Propagator → Res Propagator
  | [], p => .ok p
  | c :: cs, p => (p.call fuel c).bind fun p => Propagator.calls fuel cs p

end S2E.Sgp4
