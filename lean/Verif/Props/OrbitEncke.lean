import Verif.Proofs.OdeLoop
import Verif.Props.OrbitRk4
import Verif.Props.OrbitalElements
/-!
# C94: `EnckeOrbitPropagation`
-/
namespace S2E.OrbitProp
open S2E.Integ S2E.TwoBody S2E.Kepler

/-! ## Encke's function -/

/-- **C94 (q function).** For every non-zero satellite position `r` and every difference `d` the code's series-free q function is exactly
`(|r - d| / |r|)^3 - 1`, where `r - d` is the reference position. -/
theorem C94_q_function (r d : Fin 3 → ℝ) (hr : r ≠ 0) : calcQFunction r d = (len (r - d) / len r) ^ 3 - 1 := by
  have hl := len_pos hr
  have h2 := len_sq r
  have hd := len_sq (r - d)
  have hd0 := len_nonneg (r - d)
  have hq : innerProduct d (vsub d (scale 2 r)) / innerProduct r r = (len (r - d) / len r) ^ 2 - 1 := by
    rw [innerProduct_dot, innerProduct_dot, ← h2, div_pow, hd, eq_sub_iff_add_eq, div_add_one (by positivity)]
    congr 1
    rw [h2]
    simp only [dot, vsub, scale, Pi.sub_apply]
    ring
  set k := len (r - d) / len r with hk
  have hk0 : 0 ≤ k := by positivity
  have hp : (1 + (k ^ 2 - 1)) ^ (1.5 : ℝ) = k ^ 3 := by
    rw [show 1 + (k ^ 2 - 1) = k ^ ((2 : ℕ) : ℝ) by rw [Real.rpow_natCast]; ring, ← Real.rpow_mul hk0,
      show ((2 : ℕ) : ℝ) * 1.5 = ((3 : ℕ) : ℝ) by norm_num, Real.rpow_natCast]
  simp only [calcQFunction, hq, hp]
  have : k ^ 3 + 1 ≠ 0 := by positivity
  field_simp
  ring

/-- **C94 (right-hand side).** If the stored satellite position is the reference position plus the difference, the derivative used for the
difference is its true acceleration: gravity at the satellite minus gravity at the reference, plus the disturbance. -/
theorem C94_derivative (mu : ℝ) (ref d dv acc : Fin 3 → ℝ) (href : ref ≠ 0) (hr : ref + d ≠ 0) (t : ℝ) :
    statePosition (enckeDerivative mu ref (ref + d) acc t (joinState d dv)) = dv ∧
    stateVelocity (enckeDerivative mu ref (ref + d) acc t (joinState d dv)) =
      -(mu / len (ref + d) ^ 3) • (ref + d) - (-(mu / len ref ^ 3) • ref) + acc := by
  constructor
  · funext i
    fin_cases i <;> rfl
  · have hq := C94_q_function (ref + d) d hr
    rw [add_sub_cancel_right] at hq
    have h1 := len_pos href
    have h2 := len_pos hr
    have key : ∀ i, stateVelocity (enckeDerivative mu ref (ref + d) acc t (joinState d dv)) i =
        -(mu / len ref ^ 3) * (calcQFunction (ref + d) d * (ref + d) i + d i) + acc i := by
      intro i
      fin_cases i <;> simp only [stateVelocity, enckeDerivative, join_position, calcNorm_len, vadd, scale] <;> rfl
    funext i
    rw [key, hq]
    simp only [Pi.add_apply, Pi.sub_apply, Pi.smul_apply, smul_eq_mul]
    field_simp
    ring

/-! ## Without disturbances -/

theorem q_zero (r : Vec 3) : calcQFunction r 0 = 0 := by simp [calcQFunction, innerProduct]

theorem encke_zero (mu : ℝ) (ref r : Vec 3) (t : ℝ) : enckeDerivative mu ref r 0 t 0 = 0 := by
  have : statePosition (0 : Vec 6) = 0 := by funext i; fin_cases i <;> rfl
  funext i
  fin_cases i <;> simp [enckeDerivative, this, q_zero, vadd, scale]

theorem updates_zero {n : ℕ} (f : ℝ → Vec n → Vec n) (hf : ∀ t, f t 0 = 0) (l : List ℝ) :
    ∀ t, (updates f l (t, 0)).2 = 0 := by
  induction l with
  | nil => intro t; rfl
  | cons h l ih =>
    intro t
    have : odeUpdate f h t 0 = (t + h, 0) := by simp [odeUpdate, hf]
    simp only [updates, List.foldl_cons, this] at ih ⊢
    exact ih _

/-- The propagator is on its reference orbit. -/
structure OnReference (mu : ℝ) (oe : OrbitalElements) (s : Encke) : Prop where
  mu : s.mu = mu
  oe : s.oe = oe
  diff : s.diffPosition = 0
  ode : s.ode.2 = 0
  acc : s.acceleration = 0

theorem onReference_propagate {mu : ℝ} {oe : OrbitalElements} {s : Encke} (h : OnReference mu oe s) (hen : s.enabled = true) (hs : 0 < s.step)
    (ht : 0 ≤ s.tolerance) (endTime jd : ℝ) :
    ∃ (N : ℕ) (s' : Encke), (∀ fuel, N ≤ fuel → s.propagate fuel endTime jd = .ok s') ∧ OnReference mu oe s' ∧ s'.enabled = true ∧
      s'.step = s.step ∧ s'.tolerance = s.tolerance ∧ s'.time = endTime ∧
      s'.position = Kepler.position mu oe jd ∧ s'.velocity = Kepler.velocity mu oe jd := by
  have hrect : s.rectify jd = s := by
    rw [Encke.rectify, if_neg]
    rw [h.diff, calcNorm_len, len]
    simpa using ht
  set f := enckeDerivative s.mu (Kepler.position s.mu s.oe jd) s.position s.acceleration with hf
  have hf0 : ∀ t, f t 0 = 0 := by intro t; rw [hf, h.acc]; exact encke_zero _ _ _ _
  obtain ⟨m, N, last, h1, h2, h3, h4⟩ := odePropagate_spec f endTime s.step hs s.time s.ode
  set z := updates f (List.replicate m s.step ++ [last]) s.ode with hz
  have hz0 : z.2 = 0 := by
    rw [hz, show s.ode = (s.ode.1, (0 : Vec 6)) from Prod.ext rfl h.ode]
    exact updates_zero f hf0 _ _
  have hz1 : statePosition z.2 = 0 := by rw [hz0]; funext i; fin_cases i <;> rfl
  have hz2 : stateVelocity z.2 = 0 := by rw [hz0]; funext i; fin_cases i <;> rfl
  set w : Encke :=
    { s with
      refPosition := Kepler.position s.mu s.oe jd
      refVelocity := Kepler.velocity s.mu s.oe jd
      ode := z
      time := endTime
      diffPosition := statePosition z.2
      diffVelocity := stateVelocity z.2 }
  refine ⟨N, w.updateSatOrbit, fun fuel hfu => ?_, ?_⟩
  · rw [Encke.propagate, if_pos hen]
    simp only [hrect]
    rw [← hf, h4 fuel hfu]
    rfl
  · refine ⟨⟨h.mu, h.oe, hz1, hz0, h.acc⟩, hen, rfl, rfl, rfl, ?_, ?_⟩
    · change vadd (Kepler.position s.mu s.oe jd) (statePosition z.2) = _
      rw [hz1, h.mu, h.oe]; funext i; simp [vadd]
    · change vadd (Kepler.velocity s.mu s.oe jd) (stateVelocity z.2) = _
      rw [hz2, h.mu, h.oe]; funext i; simp [vadd]

/-- A sequence of orbit updates `(end time, Julian day)` without disturbances. -/
noncomputable def enckeRuns (fuel : ℕ) : List (ℝ × ℝ) → Encke → Res Encke
  | [], s => .ok s
  | (e, jd) :: rest, s => do
    let s' ← s.propagate fuel e jd
    enckeRuns fuel rest s'

theorem enckeRuns_undisturbed {mu : ℝ} {oe : OrbitalElements} (l : List (ℝ × ℝ)) :
    ∀ (s : Encke), OnReference mu oe s → s.enabled = true → 0 < s.step → 0 ≤ s.tolerance → ∀ e jd,
    ∃ (N : ℕ) (s' : Encke), (∀ fuel, N ≤ fuel → enckeRuns fuel (l ++ [(e, jd)]) s = .ok s') ∧
      s'.position = Kepler.position mu oe jd ∧ s'.velocity = Kepler.velocity mu oe jd ∧ s'.time = e := by
  induction l with
  | nil =>
    intro s h hen hs ht e jd
    obtain ⟨N, s', h1, _, _, _, _, h2, h3, h4⟩ := onReference_propagate h hen hs ht e jd
    refine ⟨N, s', fun fuel hf => ?_, h3, h4, h2⟩
    simp only [List.nil_append, enckeRuns, h1 fuel hf, Res.bind_ok]
  | cons a l ih =>
    intro s h hen hs ht e jd
    obtain ⟨N, s1, h1, g1, g2, g3, g4, _⟩ := onReference_propagate h hen hs ht a.1 a.2
    obtain ⟨N', s', k1, k2⟩ := ih s1 g1 g2 (by rw [g3]; exact hs) (by rw [g4]; exact ht) e jd
    refine ⟨max N N', s', fun fuel hf => ?_, k2⟩
    simp only [List.cons_append, enckeRuns, h1 fuel (le_trans (le_max_left _ _) hf), Res.bind_ok]
    exact k1 fuel (le_trans (le_max_right _ _) hf)

/-- **C94 (undisturbed).** Without disturbance acceleration the propagator is at every update exactly on the Kepler orbit through its initial
position and velocity, for every step width, every sequence of updates and every non-negative tolerance. -/
theorem C94_undisturbed (mu step jd0 tolerance : ℝ) (p v : Fin 3 → ℝ) (hs : 0 < step) (ht : 0 ≤ tolerance) (l : List (ℝ × ℝ)) (e jd : ℝ) :
    ∃ (N : ℕ) (s' : Encke), (∀ fuel, N ≤ fuel →
        enckeRuns fuel (l ++ [(e, jd)]) { Encke.new mu step jd0 p v tolerance with enabled := true } = .ok s') ∧ s'.time = e ∧
      s'.position = Kepler.position mu (calcOeFromPosVel mu jd0 p v) jd ∧ s'.velocity = Kepler.velocity mu (calcOeFromPosVel mu jd0 p v) jd := by
  obtain ⟨N, s', h1, h2, h3, h4⟩ := enckeRuns_undisturbed (mu := mu) (oe := calcOeFromPosVel mu jd0 p v) l
    { Encke.new mu step jd0 p v tolerance with enabled := true } ⟨rfl, rfl, rfl, rfl, rfl⟩ rfl hs ht e jd
  exact ⟨N, s', h1, h4, h2, h3⟩

/-- Consequently it follows the two-body motion (within the accuracy of the Kepler solver, under the conditions of C92). -/
theorem C94_undisturbed_motion (mu step jd0 tolerance : ℝ) (p v : Fin 3 → ℝ) (hs : 0 < step) (ht : 0 ≤ tolerance) (hmu : 0 < mu) (hne : cross p v ≠ 0)
    (hE : dot v v < 2 * mu / len p) (hn : NodeAhead (cross p v)) (hq : (calcOeFromPosVel mu jd0 p v).eccentricity ≤ 1 / 4)
    (R V : ℝ → Fin 3 → ℝ) (hM : Motion mu R V) (hR : R 0 = p) (hV : V 0 = v) (l : List (ℝ × ℝ)) (e : ℝ) :
    ∃ (N : ℕ) (s' : Encke), (∀ fuel, N ≤ fuel →
        enckeRuns fuel (l ++ [(e, jd0 + e / 86400)]) { Encke.new mu step jd0 p v tolerance with enabled := true } = .ok s') ∧
      len (s'.position - R e) ≤ 2 / 100000 * (calcOeFromPosVel mu jd0 p v).semiMajorAxis := by
  obtain ⟨N, s', h1, _, h2, _⟩ := C94_undisturbed mu step jd0 tolerance p v hs ht l e (jd0 + e / 86400)
  refine ⟨N, s', h1, ?_⟩
  rw [h2]
  exact C92_round_trip mu jd0 p v hmu hne hE hn hq R V hM hR hV e

/-! ## Rectification -/

/-- **C94 (rectification).** Whenever the difference exceeds the tolerance at the beginning of a `Propagate`, a new reference orbit is laid
through the *old* position and velocity at the *new* time. So after that update the satellite is (within the Kepler solver's accuracy)
still where it was before the update, however much time has passed, the difference is zero, and the disturbance acceleration of that
update has been thrown away. -/
theorem C94_rectification_freezes (s : Encke) (hen : s.enabled = true) (hs : 0 < s.step) (endTime jd : ℝ)
    (htol : len s.diffPosition / len s.position > s.tolerance) (h0 : 0 ≤ s.tolerance) (hmu : 0 < s.mu) (hne : cross s.position s.velocity ≠ 0)
    (hE : dot s.velocity s.velocity < 2 * s.mu / len s.position) (hn : NodeAhead (cross s.position s.velocity))
    (hq : (calcOeFromPosVel s.mu jd s.position s.velocity).eccentricity ≤ 1 / 4) :
    ∃ (N : ℕ) (s' : Encke), (∀ fuel, N ≤ fuel → s.propagate fuel endTime jd = .ok s') ∧ s'.time = endTime ∧
      len (s'.position - s.position) ≤ 2 / 100000 * (calcOeFromPosVel s.mu jd s.position s.velocity).semiMajorAxis ∧
      s'.diffPosition = 0 ∧ s'.acceleration = 0 := by
  set oe := calcOeFromPosVel s.mu jd s.position s.velocity with hoe
  set s1 := s.init jd s.position s.velocity with hs1
  have hpos1 : s1.position = s.position := by
    change vadd s.position 0 = s.position
    funext i; simp [vadd]
  have hrect : s.rectify jd = s1 := by rw [Encke.rectify, if_pos (by rw [calcNorm_len, calcNorm_len]; exact htol)]
  have hon : OnReference s.mu oe s1 := ⟨rfl, rfl, rfl, rfl, rfl⟩
  have hidem : s1.rectify jd = s1 := by
    rw [Encke.rectify, if_neg]
    rw [hon.diff, calcNorm_len, len]
    have h0' : 0 ≤ s1.tolerance := h0
    simpa using h0'
  have hsame : ∀ fuel, s.propagate fuel endTime jd = s1.propagate fuel endTime jd := by
    intro fuel
    have hen1 : s1.enabled = true := hen
    rw [Encke.propagate, if_pos hen, Encke.propagate, if_pos hen1]
    simp only [hrect, hidem]
  obtain ⟨N, s', h1, h2, _, _, _, h3, h4, _⟩ := onReference_propagate hon hen hs h0 endTime jd
  refine ⟨N, s', fun fuel hf => (hsame fuel).trans (h1 fuel hf), h3, ?_, h2.diff, h2.acc⟩
  rw [h4]
  obtain ⟨hell, hall⟩ := C92_elements s.mu jd s.position s.velocity hmu hne hE hn
  obtain ⟨R, V, hM, hS, _⟩ := C91_motion s.mu oe hell
  obtain ⟨hR, _⟩ := hall R V hM hS
  have := (C91_follows s.mu oe hell hq R V hM hS jd).1
  rwa [hR] at this

/-- With a disturbance acceleration perpendicular to the orbit plane the very first update leaves a difference which exceeds the tolerance
zero, so that the next update rectifies: the situation of `C94_rectification_freezes` is reached. -/
theorem C94_rectification_reached (mu h jd0 jd r w α : ℝ) (hh : 0 < h) (hr : 0 < r) (hα : α ≠ 0)
    (hsmall : mu * h ^ 2 < 12 * len (Kepler.position mu (calcOeFromPosVel mu jd0 ![r, 0, 0] ![0, w, 0]) jd) ^ 3) :
    ∃ (N : ℕ) (s' : Encke), (∀ fuel, N ≤ fuel →
        Encke.propagate { Encke.new mu h jd0 ![r, 0, 0] ![0, w, 0] 0 with enabled := true, acceleration := ![0, 0, α] } fuel h jd = .ok s') ∧
      len s'.diffPosition ≠ 0 := by
  set s : Encke := { Encke.new mu h jd0 ![r, 0, 0] ![0, w, 0] 0 with enabled := true, acceleration := ![0, 0, α] } with hsdef
  have hrect : s.rectify jd = s := by
    have hd : s.diffPosition = 0 := rfl
    have ht : s.tolerance = 0 := rfl
    rw [Encke.rectify, if_neg]
    rw [hd, ht, calcNorm_len, len]
    simp
  have hpos : s.position = ![r, 0, 0] := by
    change vadd ![r, 0, 0] 0 = _
    funext i; simp [vadd]
  set ref := Kepler.position mu (calcOeFromPosVel mu jd0 ![r, 0, 0] ![0, w, 0]) jd with href
  set f := enckeDerivative mu ref ![r, 0, 0] ![0, 0, α] with hf
  have hprop : ∀ fuel, odePropagate f h h (fuel + 1) 0 (0, 0) = .ok (odeUpdate f h 0 0) := by
    intro fuel
    rw [odePropagate, odeLoop, if_neg (by norm_num)]
    simp [Bind.bind, Res.bind]
  set z := odeUpdate f h 0 0 with hz
  set w : Encke :=
    { s with
      refPosition := ref
      refVelocity := Kepler.velocity mu s.oe jd
      ode := z
      time := h
      diffPosition := statePosition z.2
      diffVelocity := stateVelocity z.2 }
  refine ⟨1, w.updateSatOrbit, fun fuel hfu => ?_, ?_⟩
  · obtain ⟨k, rfl⟩ : ∃ k, fuel = k + 1 := ⟨fuel - 1, by omega⟩
    have hen : s.enabled = true := rfl
    rw [Encke.propagate, if_pos hen]
    simp only [hrect]
    have : odePropagate (enckeDerivative s.mu (Kepler.position s.mu s.oe jd) s.position s.acceleration) h s.step (k + 1) s.time s.ode =
        .ok z := by
      rw [hpos]
      exact hprop k
    rw [this]
    rfl
  · -- the third component of the difference
    have hzc : ∀ t (x : Vec 6), f t x 5 = -(mu / len ref ^ 3) * x 2 + α := by
      intro t x
      simp [hf, enckeDerivative, vadd, scale, calcNorm_len, statePosition]
    have hzv : ∀ t (x : Vec 6), f t x 2 = x 5 := by
      intro t x
      simp [hf, enckeDerivative]
    have hz2 : z.2 2 = h ^ 2 * α * (3 - mu / len ref ^ 3 * h ^ 2 / 4) / 6 := by
      simp only [hz, odeUpdate, Pi.add_apply, Pi.smul_apply, smul_eq_mul, hzv, hzc, Pi.zero_apply]
      ring
    have hlen : 0 < len ref ^ 3 ∨ len ref = 0 := by
      rcases (len_nonneg ref).lt_or_eq with h1 | h1
      · exact Or.inl (pow_pos h1 3)
      · exact Or.inr h1.symm
    have hfac : 3 - mu / len ref ^ 3 * h ^ 2 / 4 ≠ 0 := by
      rcases hlen with hl | hl
      · have : mu / len ref ^ 3 * h ^ 2 < 12 := by
          rw [div_mul_eq_mul_div, div_lt_iff₀ hl]; exact hsmall
        intro h0
        linarith
      · rw [hl]; norm_num
    have hne : statePosition z.2 ≠ 0 := by
      intro h0
      have h2 := congrFun h0 2
      have h3 : z.2 2 = 0 := h2
      rw [hz2] at h3
      have : h ^ 2 * α * (3 - mu / len ref ^ 3 * h ^ 2 / 4) / 6 ≠ 0 := by positivity
      exact this h3
    exact (len_pos hne).ne'

/-- Non-vacuity of `C94_rectification_freezes`: a circular orbit with a difference of a tenth of the radius and tolerance 1/100. -/
example (jd : ℝ) : ∃ s : Encke, s.enabled = true ∧ 0 < s.step ∧ len s.diffPosition / len s.position > s.tolerance ∧ 0 ≤ s.tolerance ∧ 0 < s.mu ∧
    cross s.position s.velocity ≠ 0 ∧ dot s.velocity s.velocity < 2 * s.mu / len s.position ∧ NodeAhead (cross s.position s.velocity) ∧
    (calcOeFromPosVel s.mu jd s.position s.velocity).eccentricity ≤ 1 / 4 := by
  refine ⟨⟨1, 1 / 100, 1, 10, ⟨1, 0, 0, 0, 0, 0⟩, ![1, 0, 1 / 10], ![0, 1, 0], ![0, 0, -1 / 10], ![0, 0, 0], (10, ![0, 0, -1 / 10, 0, 0, 0]),
    ![1, 0, 0], ![0, 1, 0], ![0, 0, 0], true⟩, rfl, by norm_num, ?_, by norm_num, by norm_num, ?_, ?_, ?_, ?_⟩
  · have h1 : len ![0, 0, -1 / 10] = 1 / 10 := by
      rw [len, Real.sqrt_eq_iff_mul_self_eq_of_pos (by norm_num)]; simp; norm_num
    simp only [h1]
    simp [len]
    norm_num
  · intro h0
    have := congrFun h0 2
    simp [cross] at this
  · simp [dot, len]
  · exact Or.inr ⟨by simp [cross], by simp [cross]⟩
  · have hc : cross ![1, 0, 0] ![0, 1, 0] = ![0, 0, 1] := by funext k; fin_cases k <;> simp [cross]
    have hr : raanOf ![0, 0, 1] = 0 := by simp [raanOf]
    have hn : calcNormalizedVector ![0, 0, (1 : ℝ)] = ![0, 0, 1] := by
      unfold calcNormalizedVector
      split_ifs
      · rfl
      · funext k; fin_cases k <;> simp [scale, vdiv, calcNorm_len, len]
    simp only [calcOeFromPosVel, outerProduct_cross, hc, hr, hn, calcNorm_len, vdiv, scale]
    simp [len, innerProduct, Fin.sum_univ_three]
    try norm_num

end S2E.OrbitProp
