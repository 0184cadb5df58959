import Verif.Model.LinAlg
/-!
# `src/math_physics/math/quaternion.cpp` and `quaternion.hpp`

Real arithmetic in place of doubles; see `Model/LinAlg.lean`. `DBL_EPSILON` is a parameter `eps`.
-/
namespace S2E

/-- `Quaternion`, quaternion.hpp:18-160; `x y z w` are `quaternion_[0..3]`. -/
@[ext] structure Quat where
  x : ℝ
  y : ℝ
  z : ℝ
  w : ℝ

namespace Quat

/-- `Quaternion(rotation_axis, rotation_angle_rad)`, quaternion.cpp:14-23. -/
noncomputable def ofAxisAngle (axis : Vec 3) (angle : ℝ) : Quat where
  x := axis 0 * Real.sin (angle * (1 / 2))
  y := axis 1 * Real.sin (angle * (1 / 2))
  z := axis 2 * Real.sin (angle * (1 / 2))
  w := Real.cos (angle * (1 / 2))

/-- `Quaternion(vector_before, vector_after)`, quaternion.cpp:25-55; the assertions (27-28, 47) abort the program. -/
noncomputable def ofTwoVectors (eps : ℝ) (before after : Vec 3) : Res Quat :=
  open Classical in
  if ¬ calcNorm before > eps then .throws
  else if ¬ calcNorm after > eps then .throws
  else
    let nb := scale (1 / calcNorm before) before
    let na := scale (1 / calcNorm after) after
    let ip := innerProduct nb na
    let op := outerProduct nb na
    if ip > 1 - eps then .ok ⟨0, 0, 0, 1⟩
    else if ip < -1 + eps then
      let ax := generateOrthogonalUnitVector before
      .ok ⟨ax 0, ax 1, ax 2, 0⟩
    else if ¬ calcNorm op > 0 then .throws
    else
      let ax := scale (1 / calcNorm op) op
      let ang := Real.arccos ip
      .ok ⟨ax 0 * Real.sin (1 / 2 * ang), ax 1 * Real.sin (1 / 2 * ang), ax 2 * Real.sin (1 / 2 * ang), Real.cos (1 / 2 * ang)⟩

/-- `operator-`, quaternion.cpp:57-63. -/
def sub (l r : Quat) : Quat := ⟨l.x - r.x, l.y - r.y, l.z - r.z, l.w - r.w⟩

/-- `operator+`, quaternion.cpp:65-71. -/
def add (l r : Quat) : Quat := ⟨l.x + r.x, l.y + r.y, l.z + r.z, l.w + r.w⟩

/-- `operator*(Quaternion, Quaternion)`, quaternion.cpp:73-82. -/
def mul (l r : Quat) : Quat where
  x := l.w * r.x - l.z * r.y + l.y * r.z + l.x * r.w
  y := l.z * r.x + l.w * r.y - l.x * r.z + l.y * r.w
  z := -l.y * r.x + l.x * r.y + l.w * r.z + l.z * r.w
  w := -l.x * r.x - l.y * r.y - l.z * r.z + l.w * r.w

/-- `operator*(Quaternion, Vector<3>)`, quaternion.cpp:84-93. -/
def mulVec (l : Quat) (r : Vec 3) : Quat where
  x := l.y * r 2 - l.z * r 1 + l.w * r 0
  y := -l.x * r 2 + l.z * r 0 + l.w * r 1
  z := l.x * r 1 - l.y * r 0 + l.w * r 2
  w := -l.x * r 0 - l.y * r 1 - l.z * r 2

/-- `operator*(double, Quaternion)`, quaternion.cpp:95-101. -/
def smul (a : ℝ) (q : Quat) : Quat := ⟨a * q.x, a * q.y, a * q.z, a * q.w⟩

/-- The sum of squares computed in `Normalize`, quaternion.cpp:104-107. -/
def normSq (q : Quat) : ℝ := q.x ^ 2 + q.y ^ 2 + q.z ^ 2 + q.w ^ 2

/-- `Normalize`, quaternion.cpp:103-118 (the object is changed to the returned value). -/
noncomputable def normalize (q : Quat) : Quat :=
  if q.normSq = 0 then q
  else
    let n := 1 / Real.sqrt q.normSq
    ⟨q.x * n, q.y * n, q.z * n, q.w * n⟩

/-- `Conjugate`, quaternion.cpp:120-126. -/
def conjugate (q : Quat) : Quat := ⟨q.x * (-1), q.y * (-1), q.z * (-1), q.w⟩

/-- `ConvertToDcm`, quaternion.cpp:128-144. -/
def toDcm (q : Quat) : Mat 3 3 :=
  !![q.w * q.w + q.x * q.x - q.y * q.y - q.z * q.z, 2 * (q.x * q.y + q.w * q.z), 2 * (q.x * q.z - q.w * q.y);
     2 * (q.x * q.y - q.w * q.z), q.w * q.w - q.x * q.x + q.y * q.y - q.z * q.z, 2 * (q.y * q.z + q.w * q.x);
     2 * (q.x * q.z + q.w * q.y), 2 * (q.y * q.z - q.w * q.x), q.w * q.w - q.x * q.x - q.y * q.y + q.z * q.z]

/-- Index of the largest element, quaternion.cpp:152-160: strict comparison against the running maximum, starting from (0, index 0). -/
noncomputable def maxIndex (a b c d : ℝ) : Fin 4 :=
  let step := fun (acc : ℝ × Fin 4) (p : ℝ × Fin 4) => if |p.1| > acc.1 then (|p.1|, p.2) else acc
  (step (step (step (step (0, 0) (a, 0)) (b, 1)) (c, 2)) (d, 3)).2

/-- `ConvertFromDcm`, quaternion.cpp:146-185. (The square root of a negative number, NaN in C++, is 0 here; it cannot arise from a rotation
matrix in exact arithmetic.) -/
noncomputable def fromDcm (m : Mat 3 3) : Quat :=
  let q0 := Real.sqrt (1 + m 0 0 - m 1 1 - m 2 2) / 2
  let q1 := Real.sqrt (1 - m 0 0 + m 1 1 - m 2 2) / 2
  let q2 := Real.sqrt (1 - m 0 0 - m 1 1 + m 2 2) / 2
  let q3 := Real.sqrt (1 + m 0 0 + m 1 1 + m 2 2) / 2
  match maxIndex q0 q1 q2 q3 with
  | 0 => ⟨q0, (m 0 1 + m 1 0) / (4 * q0), (m 0 2 + m 2 0) / (4 * q0), (m 1 2 - m 2 1) / (4 * q0)⟩
  | 1 => ⟨(m 0 1 + m 1 0) / (4 * q1), q1, (m 2 1 + m 1 2) / (4 * q1), (m 2 0 - m 0 2) / (4 * q1)⟩
  | 2 => ⟨(m 2 0 + m 0 2) / (4 * q2), (m 2 1 + m 1 2) / (4 * q2), q2, (m 0 1 - m 1 0) / (4 * q2)⟩
  | 3 => ⟨(m 1 2 - m 2 1) / (4 * q3), (m 2 0 - m 0 2) / (4 * q3), (m 0 1 - m 1 0) / (4 * q3), q3⟩

/-- `ConvertToEuler`, quaternion.cpp:187-194. -/
noncomputable def toEuler (q : Quat) : Vec 3 :=
  let d := q.toDcm
  ![atan2 (d 1 2) (d 2 2), atan2 (-d 0 2) (Real.sqrt (d 1 2 * d 1 2 + d 2 2 * d 2 2)), atan2 (d 0 1) (d 0 0)]

/-- The matrix built in `ConvertFromEuler`, quaternion.cpp:197-211. -/
noncomputable def eulerDcm (e : Vec 3) : Mat 3 3 :=
  let s := fun i => Real.sin (e i)
  let c := fun i => Real.cos (e i)
  !![c 1 * c 2, c 1 * s 2, -s 1;
     -c 0 * s 2 + s 0 * s 1 * c 2, c 0 * c 2 + s 0 * s 1 * s 2, s 0 * c 1;
     s 0 * s 2 + c 0 * s 1 * c 2, -s 0 * c 2 + c 0 * s 1 * s 2, c 0 * c 1]

/-- `ConvertFromEuler`, quaternion.cpp:196-213. -/
noncomputable def fromEuler (e : Vec 3) : Quat := fromDcm (eulerDcm e)

/-- `FrameConversion`, quaternion.cpp:215-224. -/
def frameConversion (q : Quat) (v : Vec 3) : Vec 3 :=
  let t := (q.conjugate.mulVec v).mul q
  ![t.x, t.y, t.z]

/-- `InverseFrameConversion`, quaternion.cpp:226-235. -/
def inverseFrameConversion (q : Quat) (v : Vec 3) : Vec 3 :=
  let t := (q.mulVec v).mul q.conjugate
  ![t.x, t.y, t.z]

end Quat
end S2E
