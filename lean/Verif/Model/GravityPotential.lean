import Verif.Model.Basic
import Verif.Model.LinAlg
/-!
# `src/math_physics/gravity/gravity_potential.{cpp,hpp}`

Doubles are real numbers, `size_t` is a natural number. The members `n_`, `m_`, `xcxf_x_m_`, `radius_m_`, ... that the functions use as scratch
variables are passed as arguments; every call sets them before reading them. The local tables `v`, `w` have `degree_vw + 1` rows and columns; the loops
below access them only at indices up to `degree_vw`, and they are total functions here. The coefficient tables are checked: an access outside is `ub`.
Memory exhaustion is left out.
-/
namespace S2E.GravityModel

/-- Coefficient tables `std::vector<std::vector<double>>`. -/
abbrev Coefs := List (List ℝ)

/-- `c_[n][m]`. -/
def Coefs.at (c : Coefs) (n m : ℕ) : Res ℝ :=
  match c[n]? with
  | none => .ub
  | some row =>
    match row[m]? with
    | none => .ub
    | some x => .ok x

/-- Members of `GravityPotential`, gravity_potential.hpp:62-67. -/
structure Potential where
  degree : ℕ
  c : Coefs
  s : Coefs
  mu : ℝ
  radius : ℝ

/-- The constructor, gravity_potential.cpp:15-29. -/
def Potential.new (degree : ℕ) (c s : Coefs) (mu radius : ℝ) : Potential where
  degree := if degree ≤ 1 then 0 else degree
  c := c
  s := s
  mu := mu
  radius := radius

/-- The local tables `v` and `w`. -/
structure Tables where
  v : ℕ → ℕ → ℝ
  w : ℕ → ℕ → ℝ

/-- Assignment through the two pointers `&v[n][m]`, `&w[n][m]`. -/
def Tables.set (t : Tables) (n m : ℕ) (x : ℝ × ℝ) : Tables where
  v := fun i j => if i = n ∧ j = m then x.1 else t.v i j
  w := fun i j => if i = n ∧ j = m then x.2 else t.w i j

/-- `v_w_nn_update`, gravity_potential.cpp:235-253, for `n_ = m_ = n`. -/
noncomputable def nnUpdate (radius r : ℝ) (p : Vec 3) (n : ℕ) (vPrev wPrev : ℝ) : ℝ × ℝ :=
  let tmp := radius / r ^ 2
  let x := p 0 * tmp
  let y := p 1 * tmp
  let k := if n = 1 then (2 * n - 1) * Real.sqrt (2 * n + 1) else Real.sqrt ((2 * n + 1) / (2 * n))
  (k * (x * vPrev - y * wPrev), k * (x * wPrev + y * vPrev))

/-- `v_w_nm_update`, gravity_potential.cpp:255-279, for `n_ = n`, `m_ = m`; the callers have `n ≠ m`. -/
noncomputable def nmUpdate (radius r : ℝ) (p : Vec 3) (n m : ℕ) (vPrev wPrev vPrev2 wPrev2 : ℝ) : ℝ × ℝ :=
  let tmp := radius / r ^ 2
  let z := p 2 * tmp
  let re := radius * tmp
  let c1 : ℝ := (2 * n - 1) / (n - m)
  let c2 : ℝ := (n + m - 1) / (n - m)
  let k : ℝ := Real.sqrt (((2 * n + 1) * (n - m)) / ((2 * n - 1) * (n + m)))
  let k2 : ℝ := if n ≤ 1 then 1 else Real.sqrt (((2 * n - 1) * (n - m - 1)) / ((2 * n - 3) * (n + m - 1)))
  (k * (c1 * z * vPrev - c2 * k2 * re * vPrev2), k * (c1 * z * wPrev - c2 * k2 * re * wPrev2))

/-- One pass of the `for` loop, gravity_potential.cpp:50-56 (also 116-122). -/
noncomputable def columnStep (radius r : ℝ) (p : Vec 3) (m : ℕ) (t : Tables) (n : ℕ) : Tables :=
  if n ≤ m + 1 then t.set n m (nmUpdate radius r p n m (t.v (n - 1) m) (t.w (n - 1) m) 0 0)
  else t.set n m (nmUpdate radius r p n m (t.v (n - 1) m) (t.w (n - 1) m) (t.v (n - 2) m) (t.w (n - 2) m))

/-- The `for` loop `n_ = m_ + 1, ..., degree_vw`, gravity_potential.cpp:50-56 (also 116-122). -/
noncomputable def column (radius r : ℝ) (p : Vec 3) (degreeVw m : ℕ) (t : Tables) : Tables :=
  (List.range' (m + 1) (degreeVw - m)).foldl (columnStep radius r p m) t

/-- One pass of the `while` loop, gravity_potential.cpp:49-61 (also 115-127), entered with `m_ = m`. -/
noncomputable def tablesStep (radius r : ℝ) (p : Vec 3) (degreeVw : ℕ) (t : Tables) (m : ℕ) : Tables :=
  let t := column radius r p degreeVw m t
  t.set (m + 1) (m + 1) (nnUpdate radius r p (m + 1) (t.v m m) (t.w m m))

/-- The tables before the loop, gravity_potential.cpp:41-47 (also 108-114). -/
noncomputable def tablesInit (radius r : ℝ) : Tables :=
  Tables.set ⟨fun _ _ => 0, fun _ _ => 0⟩ 0 0 (radius / r, 0)

/-- The `while` loop, gravity_potential.cpp:41-61 (also 108-127). -/
noncomputable def tables (radius : ℝ) (p : Vec 3) (degreeVw : ℕ) : Tables :=
  (List.range degreeVw).foldl (tablesStep radius (calcNorm p) p degreeVw) (tablesInit radius (calcNorm p))

/-- A `for` loop whose body can fail. -/
def forLoop {α : Type} (body : α → ℕ → Res α) : List ℕ → α → Res α
  | [], a => .ok a
  | n :: rest, a => (body a n).bind (forLoop body rest)

/-- The statements for order 0, gravity_potential.cpp:66-73. -/
noncomputable def accelOrder0 (g : Potential) (t : Tables) (n : ℕ) (a : Vec 3) : Res (Vec 3) :=
  let normalize : ℝ := Real.sqrt ((2 * n + 1) / (2 * n + 3))
  let normalizeXy : ℝ := normalize * Real.sqrt ((n + 2) * (n + 1) / 2)
  (g.c.at n 0).bind fun c => (g.s.at n 0).bind fun s =>
    .ok ![a 0 + -c * t.v (n + 1) 1 * normalizeXy, a 1 + -c * t.w (n + 1) 1 * normalizeXy,
      a 2 + (n + 1) * (-c * t.v (n + 1) 0 - s * t.w (n + 1) 0) * normalize]

/-- The body of the loop over the orders, gravity_potential.cpp:75-91. -/
noncomputable def accelOrder (g : Potential) (t : Tables) (n : ℕ) (a : Vec 3) (m : ℕ) : Res (Vec 3) :=
  let normalize : ℝ := Real.sqrt ((2 * n + 1) / (2 * n + 3))
  let factorial : ℝ := (n - m + 1) * (n - m + 2)
  let xy1 : ℝ := normalize * Real.sqrt ((n + m + 1) * (n + m + 2))
  let xy2 : ℝ := if m = 1 then normalize * Real.sqrt factorial * Real.sqrt 2 else normalize * Real.sqrt factorial
  let zz : ℝ := normalize * Real.sqrt ((n + m + 1) / (n - m + 1))
  (g.c.at n m).bind fun c => (g.s.at n m).bind fun s =>
    .ok ![a 0 + 0.5 * (xy1 * (-c * t.v (n + 1) (m + 1) - s * t.w (n + 1) (m + 1)) + xy2 * (c * t.v (n + 1) (m - 1) + s * t.w (n + 1) (m - 1))),
      a 1 + 0.5 * (xy1 * (-c * t.w (n + 1) (m + 1) + s * t.v (n + 1) (m + 1)) + xy2 * (-c * t.w (n + 1) (m - 1) + s * t.v (n + 1) (m - 1))),
      a 2 + (n - m + 1) * (-c * t.v (n + 1) m - s * t.w (n + 1) m) * zz]

/-- The body of the loop over the degrees, gravity_potential.cpp:64-92. -/
noncomputable def accelDegree (g : Potential) (t : Tables) (a : Vec 3) (n : ℕ) : Res (Vec 3) :=
  (accelOrder0 g t n a).bind fun a => forLoop (accelOrder g t n) (List.range' 1 n) a

/-- `CalcAcceleration_xcxf_m_s2`, gravity_potential.cpp:31-96. With a degree so large that `degree_ + 2` wraps around, the tables are smaller than the
loops need; a table longer than `max_size()` raises `length_error`. -/
noncomputable def Potential.calcAcceleration (g : Potential) (p : Vec 3) : Res (Vec 3) :=
  if g.degree ≤ 0 then .ok (fun _ => 0)
  else if g.degree ≥ 2 ^ 64 - 2 then .ub
  else if g.degree + 2 > 384307168202282325 then .throws
  else
    (forLoop (accelDegree g (tables g.radius p (g.degree + 1))) (List.range (g.degree + 1)) (fun _ => 0)).bind fun a =>
      .ok (scale (g.mu / g.radius ^ 2) a)

/-- What the loop over the orders of `CalcPartialDerivative_xcxf_s2` adds to `[0][0]`, `[1][1]`, `[0][1]`, gravity_potential.cpp:132-192. -/
noncomputable def partialXy (t : Tables) (n m : ℕ) (c s : ℝ) : ℝ × ℝ × ℝ :=
  let k : ℝ := Real.sqrt ((2 * n + 1) / (2 * n + 5))
  if m = 0 then
    let k22 : ℝ := k * Real.sqrt ((n + 1) * (n + 2) * (n + 3) * (n + 4) / 2)
    (0.5 * (c * t.v (n + 2) 2 * k22 - c * t.v (n + 2) 0 * (n + 1) * (n + 2) * k),
     0.5 * (-c * t.v (n + 2) 2 * k22 - c * t.v (n + 2) 0 * (n + 1) * (n + 2) * k),
     0.5 * (c * t.w (n + 2) 2 * k22))
  else if m = 1 then
    let k21 : ℝ := k * Real.sqrt ((n + 2) * (n + 3) / (n * (n + 1)))
    let k21c : ℝ := n * (n + 1) * k21
    let k23 : ℝ := k * Real.sqrt ((n + 2) * (n + 3) * (n + 4) * (n + 5))
    (0.25 * ((c * t.v (n + 2) 3 + s * t.w (n + 2) 3) * k23 - (3 * c * t.v (n + 2) 1 + s * t.w (n + 2) 1) * k21c),
     0.25 * ((-c * t.v (n + 2) 3 - s * t.w (n + 2) 3) * k23 - (c * t.v (n + 2) 1 + 3 * s * t.w (n + 2) 1) * k21c),
     0.25 * ((c * t.w (n + 2) 3 - s * t.v (n + 2) 3) * k23 - (c * t.w (n + 2) 1 + s * t.v (n + 2) 1) * k21c))
  else
    let p2 : ℝ := k * Real.sqrt ((n + m + 1) * (n + m + 2) * (n + m + 3) * (n + m + 4))
    let m2 : ℝ := k * Real.sqrt ((if m = 2 then 2 else 1) / ((n - m + 1) * (n - m + 2) * (n - m + 3) * (n - m + 4)))
    let m2c : ℝ := (n - m + 1) * (n - m + 2) * (n - m + 3) * (n - m + 4) * m2
    let k0 : ℝ := k * Real.sqrt ((n + m + 1) * (n + m + 2) / ((n - m + 1) * (n - m + 2)))
    let k0c : ℝ := 2 * (n - m + 1) * (n - m + 2) * k0
    (0.25 * ((c * t.v (n + 2) (m + 2) + s * t.w (n + 2) (m + 2)) * p2 - (c * t.v (n + 2) m + s * t.w (n + 2) m) * k0c +
        (c * t.v (n + 2) (m - 2) + s * t.w (n + 2) (m - 2)) * m2c),
     0.25 * ((-c * t.v (n + 2) (m + 2) - s * t.w (n + 2) (m + 2)) * p2 - (c * t.v (n + 2) m + s * t.w (n + 2) m) * k0c -
        (c * t.v (n + 2) (m - 2) + s * t.w (n + 2) (m - 2)) * m2c),
     0.25 * ((c * t.w (n + 2) (m + 2) - s * t.v (n + 2) (m + 2)) * p2 + (-c * t.w (n + 2) (m - 2) + s * t.v (n + 2) (m - 2)) * m2c))

/-- What it adds to `[0][2]`, `[1][2]`, gravity_potential.cpp:193-217. -/
noncomputable def partialZ (t : Tables) (n m : ℕ) (c s : ℝ) : ℝ × ℝ :=
  let k : ℝ := Real.sqrt ((2 * n + 1) / (2 * n + 5))
  if m = 0 then
    let k21 : ℝ := k * Real.sqrt ((n + 2) * (n + 3) / 2)
    ((n + 1) * (c * t.v (n + 2) 1 * k21), (n + 1) * (c * t.w (n + 2) 1 * k21))
  else
    let p1 : ℝ := k * Real.sqrt ((n + m + 1) * (n + m + 2) * (n + m + 3) / (n - m + 1))
    let p1c : ℝ := (n - m + 1) * p1
    let m1 : ℝ := if m = 1 then k * Real.sqrt (2 * (n + m + 1) / ((n - m + 1) * (n - m + 2) * (n - m + 3)))
      else k * Real.sqrt ((n + m + 1) / ((n - m + 1) * (n - m + 2) * (n - m + 3)))
    let m1c : ℝ := (n - m + 1) * (n - m + 2) * (n - m + 3) * m1
    (0.5 * ((c * t.v (n + 2) (m + 1) + s * t.w (n + 2) (m + 1)) * p1c + (-c * t.v (n + 2) (m - 1) - s * t.w (n + 2) (m - 1)) * m1c),
     0.5 * ((c * t.w (n + 2) (m + 1) - s * t.v (n + 2) (m + 1)) * p1c + (c * t.w (n + 2) (m - 1) - s * t.v (n + 2) (m - 1)) * m1c))

/-- What it adds to `[2][2]`, gravity_potential.cpp:218-221. -/
noncomputable def partialZz (t : Tables) (n m : ℕ) (c s : ℝ) : ℝ :=
  let k : ℝ := Real.sqrt ((2 * n + 1) / (2 * n + 5))
  let k0 : ℝ := k * Real.sqrt ((n + m + 1) * (n + m + 2) / ((n - m + 1) * (n - m + 2)))
  let k0c : ℝ := (n - m + 1) * (n - m + 2) * k0
  (c * t.v (n + 2) m + s * t.w (n + 2) m) * k0c

/-- The body of the loop over the orders, gravity_potential.cpp:139-222. For order 0 the sine coefficient is read only in line 221, for the others both are
read throughout. -/
noncomputable def partialOrder (g : Potential) (t : Tables) (n : ℕ) (a : Mat 3 3) (m : ℕ) : Res (Mat 3 3) :=
  (g.c.at n m).bind fun c => (g.s.at n m).bind fun s =>
    let xy := partialXy t n m c s
    let z := partialZ t n m c s
    .ok (a + !![xy.1, xy.2.2, z.1; 0, xy.2.1, z.2; 0, 0, partialZz t n m c s])

/-- `CalcPartialDerivative_xcxf_s2`, gravity_potential.cpp:98-233. -/
noncomputable def Potential.calcPartialDerivative (g : Potential) (p : Vec 3) : Res (Mat 3 3) :=
  if g.degree ≤ 0 then .ok (fun _ _ => 0)
  else if g.degree ≥ 2 ^ 64 - 3 then .ub
  else if g.degree + 3 > 384307168202282325 then .throws
  else
    (forLoop (fun a n => forLoop (partialOrder g (tables g.radius p (g.degree + 2)) n) (List.range (n + 1)) a) (List.range (g.degree + 1))
      0).bind fun a =>
        let k := g.mu / g.radius ^ 3
        .ok !![k * a 0 0, k * a 0 1, k * a 0 2; k * a 0 1, k * a 1 1, k * a 1 2; k * a 0 2, k * a 1 2, k * a 2 2]

end S2E.GravityModel
