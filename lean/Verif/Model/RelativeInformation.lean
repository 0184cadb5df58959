import Verif.Model.OrbitProp
/-!
# `src/simulation/multiple_spacecraft/relative_information.{cpp,hpp}`

Doubles are real numbers. The log strings are left out. `P` is the type of the registered pointers (`const Dynamics*`); what the objects they point to
return at the moment of an update is a function `read : P → Craft`, so that the same registration can be read at different times.
-/
namespace S2E.Rel
open S2E.OrbitProp

/-- What `Update` reads of a spacecraft: `GetPosition_i_m`, `GetVelocity_i_m_s` of its orbit and `GetQuaternion_i2b` of its attitude. -/
structure Craft where
  position : Vec 3
  velocity : Vec 3
  i2b : Quat

/-- One cell of each of the six lists, relative_information.hpp:144-149. -/
structure Entry where
  positionI : Vec 3
  velocityI : Vec 3
  distance : ℝ
  positionRtn : Vec 3
  velocityRtn : Vec 3
  attitude : Quat

/-- The cell `ResizeLists` writes, relative_information.cpp:161-166. -/
def Entry.zero : Entry := ⟨fun _ => 0, fun _ => 0, 0, fun _ => 0, fun _ => 0, ⟨0, 0, 0, 1⟩⟩

/-- `CalcRelativeAttitudeQuaternion`, relative_information.cpp:116-125. -/
def attitudeQuaternion (target reference : Craft) : Quat := target.i2b.mul reference.i2b.conjugate

/-- `CalcRelativePosition_rtn_m`, relative_information.cpp:127-137. -/
noncomputable def positionRtn (target reference : Craft) : Vec 3 :=
  (calcQuaternionI2Lvlh reference.position reference.velocity).frameConversion (vsub target.position reference.position)

/-- `CalcRelativeVelocity_rtn_m_s`, relative_information.cpp:139-157. -/
noncomputable def velocityRtn (target reference : Craft) : Vec 3 :=
  let relative := vsub target.position reference.position
  let rot := vdiv (outerProduct reference.position reference.velocity) (calcNorm reference.position * calcNorm reference.position)
  (calcQuaternionI2Lvlh reference.position reference.velocity).frameConversion
    (vsub (vsub target.velocity reference.velocity) (outerProduct rot relative))

/-- The body of the two loops of `Update`, relative_information.cpp:18-37. -/
noncomputable def calcEntry (target reference : Craft) : Entry where
  positionI := vsub target.position reference.position
  velocityI := vsub target.velocity reference.velocity
  distance := calcNorm (vsub target.position reference.position)
  positionRtn := positionRtn target reference
  velocityRtn := velocityRtn target reference
  attitude := attitudeQuaternion target reference

/-- Members of `RelativeInformation`, relative_information.hpp:142-149. The map is a list of pairs with distinct keys; the six lists of lists always have
the same shape, `side` rows of `side` cells (relative_information.cpp:159-167), and are one table here. -/
structure Info (P : Type) where
  database : List (ℕ × P)
  side : ℕ
  table : ℕ → ℕ → Entry

/-- The constructor, relative_information.cpp:10. -/
def Info.new (P : Type) : Info P := ⟨[], 0, fun _ _ => Entry.zero⟩

/-- `dynamics_database_.at(id)`, also `GetReferenceSatDynamics`, relative_information.hpp:137-139. -/
def Info.at {P : Type} (s : Info P) (id : ℕ) : Res P :=
  match s.database.lookup id with
  | some p => .ok p
  | none => .throws

/-- `ResizeLists`, relative_information.cpp:159-167. -/
def Info.resize {P : Type} (s : Info P) : Info P := { s with side := s.database.length, table := fun _ _ => Entry.zero }

/-- `RegisterDynamicsInfo`, relative_information.cpp:42-45; `emplace` does nothing if the key is present. -/
def Info.register {P : Type} (s : Info P) (id : ℕ) (p : P) : Info P :=
  Info.resize { s with database := if (s.database.lookup id).isSome then s.database else (id, p) :: s.database }

/-- `RemoveDynamicsInfo`, relative_information.cpp:47-50. -/
def Info.remove {P : Type} (s : Info P) (id : ℕ) : Info P :=
  Info.resize { s with database := s.database.filter fun x => x.1 ≠ id }

/-- The accesses `list[t][r] = ...` of `Update`. -/
def Info.write {P : Type} (s : Info P) (t r : ℕ) (e : Entry) : Res (Info P) :=
  if t < s.side ∧ r < s.side then .ok { s with table := fun t' r' => if t' = t ∧ r' = r then e else s.table t' r' } else .ub

/-- The inner loop of `Update`, relative_information.cpp:16-38, over the reference ids still to come. -/
noncomputable def Info.inner {P : Type} (read : P → Craft) (t : ℕ) : List ℕ → Info P → Res (Info P)
  | [], s => .ok s
  | r :: rest, s =>
    (s.at t).bind fun a => (s.at r).bind fun b => (s.write t r (calcEntry (read a) (read b))).bind (Info.inner read t rest)

/-- The outer loop of `Update`, relative_information.cpp:15-39; both loops run to the size of the database. -/
noncomputable def Info.outer {P : Type} (read : P → Craft) : List ℕ → Info P → Res (Info P)
  | [], s => .ok s
  | t :: rest, s => (s.inner read t (List.range s.database.length)).bind (Info.outer read rest)

/-- `Update`, relative_information.cpp:14-40. -/
noncomputable def Info.update {P : Type} (read : P → Craft) (s : Info P) : Res (Info P) :=
  s.outer read (List.range s.database.length)

/-- The getters, relative_information.hpp:83-130, all of the form `list[t][r]`. -/
def Info.get {P : Type} (s : Info P) (t r : ℕ) : Res Entry := if t < s.side ∧ r < s.side then .ok (s.table t r) else .ub

/-- The calls that change the object. -/
inductive Op (P : Type) where
  | register (id : ℕ) (p : P)
  | remove (id : ℕ)
  | update (read : P → Craft)

/-- A history of calls. -/
noncomputable def Info.run {P : Type} : List (Op P) → Info P → Res (Info P)
  | [], s => .ok s
  | .register id p :: rest, s => Info.run rest (s.register id p)
  | .remove id :: rest, s => Info.run rest (s.remove id)
  | .update read :: rest, s => (s.update read).bind (Info.run rest)

end S2E.Rel
