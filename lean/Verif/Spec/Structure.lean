import Verif.Model.Structure
/-!
# Specification: what a history of setters means for each quantity

Each quantity is given by the history alone: the last value that was set and acceptable.
-/
namespace S2E.StructSpec
open Struct Dist

/-- The last element of a list, `d` if there is none. -/
def lastOr {α : Type} (d : α) (l : List α) : α := l.getLast?.getD d

/-- Values given to the centre of gravity and to the inertia tensor. -/
def cogs (ops : List Op) : List (Vec 3) := ops.filterMap fun | .setCog v => some v | _ => none
def inertias (ops : List Op) : List (Mat 3 3) := ops.filterMap fun | .setInertia m => some m | _ => none

/-- What is done to surface `i`. -/
def onSurface (i : ℕ) (ops : List Op) : List SurfaceOp := ops.filterMap fun | .surface j op => if j = i then some op else none | _ => none

def positions (ops : List SurfaceOp) : List (Vec 3) := ops.filterMap fun | .position v => some v | _ => none
def normals (ops : List SurfaceOp) : List (Vec 3) := ops.filterMap fun | .normal v => some v | _ => none
def areas (ops : List SurfaceOp) : List ℝ := ops.filterMap fun | .area x => some x | _ => none
def reflectivities (ops : List SurfaceOp) : List ℝ := ops.filterMap fun | .reflectivity x => some x | _ => none
def specularities (ops : List SurfaceOp) : List ℝ := ops.filterMap fun | .specularity x => some x | _ => none
def airSpecularities (ops : List SurfaceOp) : List ℝ := ops.filterMap fun | .airSpecularity x => some x | _ => none

/-- A vector scaled to length 1 (zero stays zero). -/
noncomputable def unit (v : Vec 3) : Vec 3 := fun i => v i / Real.sqrt (v 0 ^ 2 + v 1 ^ 2 + v 2 ^ 2)

open Classical in
noncomputable def positive (l : List ℝ) : List ℝ := l.filter fun x => 0 < x
open Classical in
noncomputable def fractions (l : List ℝ) : List ℝ := l.filter fun x => 0 ≤ x ∧ x ≤ 1

/-- A surface that was `f` before the history `ops` of its setters. -/
noncomputable def surface (f : Surface) (ops : List SurfaceOp) : Surface :=
  ⟨lastOr f.position (positions ops), lastOr f.normal ((normals ops).map unit), lastOr f.area (positive (areas ops)),
    lastOr f.reflectivity (fractions (reflectivities ops)), lastOr f.specularity (fractions (specularities ops)),
    lastOr f.airSpecularity (fractions (airSpecularities ops))⟩

/-- New totals proposed for the mass are taken when positive. -/
inductive Mass : ℝ → List Op → ℝ → Prop
  | nil (m) : Mass m [] m
  | set {m x ops r} : 0 < x → Mass x ops r → Mass m (.setMass x :: ops) r
  | setRefused {m x ops r} : x ≤ 0 → Mass m ops r → Mass m (.setMass x :: ops) r
  | add {m x ops r} : 0 < m + x → Mass (m + x) ops r → Mass m (.addMass x :: ops) r
  | addRefused {m x ops r} : m + x ≤ 0 → Mass m ops r → Mass m (.addMass x :: ops) r
  | other {m op ops r} : (∀ x, op ≠ .setMass x) → (∀ x, op ≠ .addMass x) → Mass m ops r → Mass m (op :: ops) r

/-- The constant magnetic moment: what was set last plus what was added since. -/
def moment (v : Vec 3) : List Op → Vec 3
  | [] => v
  | .setRmm w :: ops => moment w ops
  | .addRmm w :: ops => moment (v + w) ops
  | _ :: ops => moment v ops

/-- A structure that makes physical sense. -/
def Physical (s : Structure) : Prop :=
  0 < s.mass ∧ ∀ f ∈ s.surfaces, 0 ≤ f.area ∧ (0 ≤ f.reflectivity ∧ f.reflectivity ≤ 1) ∧ (0 ≤ f.specularity ∧ f.specularity ≤ 1) ∧
    (0 ≤ f.airSpecularity ∧ f.airSpecularity ≤ 1) ∧ f.normal 0 ^ 2 + f.normal 1 ^ 2 + f.normal 2 ^ 2 = 1

end S2E.StructSpec
