import Verif.Model.Ideal
import Verif.Props.RelativeInformation
import Verif.Props.StarSensor
import Verif.Props.SunSensor
import Verif.Props.Shadow
/-!
# C147, C148: ideal force and torque generators, attitude and orbit observers
-/
namespace S2E.Ideal
open Quat S2E.TwoBody S2E.Shadow OrbitProp

/-! ## Direction noise -/

/-- Conversion by a quaternion whose axis is perpendicular to the vector, of any length. -/
theorem conv_perp (u a : Vec 3) (hu : dot u u = 1) (ha : dot a u = 0) (e : ℝ) :
    dot ((ofAxisAngle a e).frameConversion u) u = Real.cos (e / 2) ^ 2 - dot a a * Real.sin (e / 2) ^ 2 ∧
    dot ((ofAxisAngle a e).frameConversion u) ((ofAxisAngle a e).frameConversion u) = (Real.cos (e / 2) ^ 2 + dot a a * Real.sin (e / 2) ^ 2) ^ 2 := by
  rw [frame_explicit]
  unfold ofAxisAngle
  have h2 : e * (1 / 2) = e / 2 := by ring
  rw [h2]
  generalize Real.sin (e / 2) = s at *
  generalize Real.cos (e / 2) = c at *
  simp only [dot] at *
  simp
  generalize u 0 = x at *
  generalize u 1 = y at *
  generalize u 2 = z at *
  generalize a 0 = p at *
  generalize a 1 = q at *
  generalize a 2 = r at *
  constructor
  · grind
  · have h3 : (x * x + y * y + z * z) * (c ^ 2 + (p * p + q * q + r * r) * s ^ 2) ^ 2 = (c ^ 2 + (p * p + q * q + r * r) * s ^ 2) ^ 2 := by rw [hu, one_mul]
    rw [← h3]
    ring

theorem cross_sq (u v : Vec 3) : dot (cross u v) (cross u v) = dot u u * dot v v - dot u v ^ 2 := by
  simp [dot, cross]; ring

theorem cross_perp (u v : Vec 3) : dot (cross u v) u = 0 := by simp [dot, cross]; ring

/-- Unit vector of a vector that is not zero. -/
theorem unit_of {F : Vec 3} (hF : F ≠ 0) : dot (calcNormalizedVector F) (calcNormalizedVector F) = 1 ∧ F = len F • calcNormalizedVector F := by
  obtain ⟨h1, h2⟩ := Dist.normalized_len hF
  exact ⟨by rw [← len_sq, h1, one_pow], h2.symm⟩

theorem unit_dot {F r : Vec 3} (hF : F ≠ 0) (hr : r ≠ 0) : dot (calcNormalizedVector F) (calcNormalizedVector r) = dot F r / (len F * len r) := by
  obtain ⟨-, h1⟩ := unit_of hF
  obtain ⟨-, h2⟩ := unit_of hr
  have p1 := (len_pos hF).ne'
  have p2 := (len_pos hr).ne'
  have : dot F r = len F * len r * dot (calcNormalizedVector F) (calcNormalizedVector r) := by
    conv_lhs => rw [h1, h2]
    simp only [dot, Pi.smul_apply, smul_eq_mul]
    ring
  rw [this]
  field_simp

/-- The squared sine of the angle between the ordered force and the random direction is the squared length of the axis. -/
theorem axis_sq {F r : Vec 3} (hF : F ≠ 0) (hr : r ≠ 0) :
    dot (cross (calcNormalizedVector F) (calcNormalizedVector r)) (cross (calcNormalizedVector F) (calcNormalizedVector r)) = Real.sin (angle F r) ^ 2 := by
  rw [cross_sq, (unit_of hF).1, (unit_of hr).1, unit_dot hF hr, angle, Real.sin_arccos, Real.sq_sqrt]
  · ring
  · have := Env.dot_bound F r (len_pos hF) (len_pos hr)
    nlinarith

/-- **C147 (noise).** For an ordered force above `eps` and a random direction that is not (nearly) parallel to it, with `α` the angle between the two and `e` the drawn error angle: the
generated force has the length of the disturbed magnitude times `cos²(e/2) + sin²α sin²(e/2)`, and its component along the order is that magnitude times
`cos²(e/2) - sin²α sin²(e/2)`. -/
theorem C147_noise (eps sd : ℝ) (F : Vec 3) (n : Noise) (hF : F ≠ 0) (hF' : eps < len F) (hr : n.direction ≠ 0) (hα : eps ≤ Real.sin (angle F n.direction)) :
    len (withNoise eps sd F n) = |len F + n.magnitude| * (Real.cos (n.angle * sd / 2) ^ 2 + Real.sin (angle F n.direction) ^ 2 * Real.sin (n.angle * sd / 2) ^ 2) ∧
    dot (withNoise eps sd F n) F = (len F + n.magnitude) * len F * (Real.cos (n.angle * sd / 2) ^ 2 - Real.sin (angle F n.direction) ^ 2 * Real.sin (n.angle * sd / 2) ^ 2) := by
  have hs0 : 0 ≤ Real.sin (angle F n.direction) := by rw [angle, Real.sin_arccos]; exact Real.sqrt_nonneg _
  have hax : calcNorm (outerProduct (calcNormalizedVector F) (calcNormalizedVector n.direction)) = Real.sin (angle F n.direction) := by
    rw [Kepler.calcNorm_len, Kepler.outerProduct_cross]
    have := len_sq (cross (calcNormalizedVector F) (calcNormalizedVector n.direction))
    rw [axis_sq hF hr] at this
    exact (pow_left_inj₀ (len_nonneg _) hs0 two_ne_zero).mp this
  obtain ⟨k1, k2⟩ := conv_perp (calcNormalizedVector F) (cross (calcNormalizedVector F) (calcNormalizedVector n.direction)) (unit_of hF).1 (cross_perp _ _) (n.angle * sd)
  rw [axis_sq hF hr] at k1 k2
  have hw : withNoise eps sd F n = (len F + n.magnitude) •
      (ofAxisAngle (cross (calcNormalizedVector F) (calcNormalizedVector n.direction)) (n.angle * sd)).frameConversion (calcNormalizedVector F) := by
    rw [withNoise, if_pos (by rw [Kepler.calcNorm_len]; exact hF')]
    simp only [noiseQuaternion, hax, if_neg (not_lt.mpr hα)]
    simp only [Kepler.outerProduct_cross, Kepler.calcNorm_len]
    rfl
  rw [hw]
  have hFu := (unit_of hF).2
  generalize (ofAxisAngle (cross (calcNormalizedVector F) (calcNormalizedVector n.direction)) (n.angle * sd)).frameConversion (calcNormalizedVector F) = w at *
  generalize calcNormalizedVector F = u at *
  constructor
  · have : len ((len F + n.magnitude) • w) ^ 2 =
        (|len F + n.magnitude| * (Real.cos (n.angle * sd / 2) ^ 2 + Real.sin (angle F n.direction) ^ 2 * Real.sin (n.angle * sd / 2) ^ 2)) ^ 2 := by
      rw [len_sq, mul_pow, sq_abs, ← k2]
      simp only [dot, Pi.smul_apply, smul_eq_mul]
      ring
    exact (pow_left_inj₀ (len_nonneg _) (by positivity) two_ne_zero).mp this
  · have : dot ((len F + n.magnitude) • w) F = (len F + n.magnitude) * len F * dot w u := by
      have : dot ((len F + n.magnitude) • w) F = dot ((len F + n.magnitude) • w) (len F • u) := by rw [← hFu]
      rw [this]
      simp only [dot, Pi.smul_apply, smul_eq_mul]
      ring
    rw [this, k1]

/-- **C147 (too weak).** Without magnitude noise a direction error never strengthens the force, and it weakens it unless the error angle is a multiple of a whole turn or the random
direction is perpendicular to the order. -/
theorem C147_weak (eps sd : ℝ) (F : Vec 3) (n : Noise) (hF : F ≠ 0) (hF' : eps < len F) (hr : n.direction ≠ 0) (hα : eps ≤ Real.sin (angle F n.direction)) (hm : n.magnitude = 0) :
    len (withNoise eps sd F n) ≤ len F ∧ (len (withNoise eps sd F n) = len F ↔ Real.sin (n.angle * sd / 2) = 0 ∨ dot F n.direction = 0) := by
  have hl := len_pos hF
  have hl2 := len_pos hr
  rw [(C147_noise eps sd F n hF hF' hr hα).1, hm, add_zero, abs_of_pos hl]
  have e1 := Real.sin_sq_add_cos_sq (n.angle * sd / 2)
  have e2 := Real.sin_sq_add_cos_sq (angle F n.direction)
  have e3 : Real.cos (angle F n.direction) = dot F n.direction / (len F * len n.direction) := by
    obtain ⟨b1, b2⟩ := Env.dot_bound F n.direction hl hl2
    rw [angle, Real.cos_arccos b1 b2]
  have key : Real.cos (n.angle * sd / 2) ^ 2 + Real.sin (angle F n.direction) ^ 2 * Real.sin (n.angle * sd / 2) ^ 2 =
      1 - (Real.cos (angle F n.direction) * Real.sin (n.angle * sd / 2)) ^ 2 := by
    rw [mul_pow]
    linear_combination e1 + Real.sin (n.angle * sd / 2) ^ 2 * e2 
  rw [key]
  constructor
  · nlinarith [sq_nonneg (Real.cos (angle F n.direction) * Real.sin (n.angle * sd / 2))]
  · rw [mul_eq_left₀ hl.ne', sub_eq_self, sq_eq_zero_iff, mul_eq_zero, e3, div_eq_zero_iff]
    have : len F * len n.direction ≠ 0 := by positivity
    constructor
    · rintro ((h | h) | h)
      · exact Or.inr h
      · exact absurd h this
      · exact Or.inl h
    · rintro (h | h)
      · exact Or.inr h
      · exact Or.inl (Or.inl h)

/-- **C147 (no direction error).** For a random direction nearly parallel to the order, and for an error angle 0, only the magnitude is disturbed; an order of at most `eps` is generated as it is. -/
theorem C147_exact (eps sd : ℝ) (F : Vec 3) (n : Noise) (he : 0 ≤ eps) :
    (eps < len F → Real.sin (angle F n.direction) < eps ∧ n.direction ≠ 0 ∨ n.angle * sd = 0 → withNoise eps sd F n = ((len F + n.magnitude) / len F) • F) ∧
    (len F ≤ eps → withNoise eps sd F n = F) := by
  constructor
  · intro hF' h
    have hl : 0 < len F := by linarith
    have hF : F ≠ 0 := by rintro rfl; simp [len] at hl
    have hFu := (unit_of hF).2
    have hu := (unit_of hF).1
    have fin : ∀ q : Quat, q.frameConversion (calcNormalizedVector F) = calcNormalizedVector F → scale (len F + n.magnitude) (q.frameConversion (calcNormalizedVector F)) =
        ((len F + n.magnitude) / len F) • F := by
      intro q hq
      rw [hq]
      conv_rhs => rw [hFu, smul_smul]
      have : len (len F • calcNormalizedVector F) = len F := by rw [← hFu]
      rw [this, div_mul_cancel₀ _ hl.ne']
      rfl
    rw [withNoise, if_pos (by rw [Kepler.calcNorm_len]; exact hF')]
    simp only [Kepler.calcNorm_len]
    apply fin
    simp only [noiseQuaternion]
    rcases h with ⟨h1, hr⟩ | h1
    · have hs0 : 0 ≤ Real.sin (angle F n.direction) := by rw [angle, Real.sin_arccos]; exact Real.sqrt_nonneg _
      have hax : calcNorm (outerProduct (calcNormalizedVector F) (calcNormalizedVector n.direction)) = Real.sin (angle F n.direction) := by
        rw [Kepler.calcNorm_len, Kepler.outerProduct_cross]
        have := len_sq (cross (calcNormalizedVector F) (calcNormalizedVector n.direction))
        rw [axis_sq hF hr] at this
        exact (pow_left_inj₀ (len_nonneg _) hs0 two_ne_zero).mp this
      simp only [hax, if_pos h1]
      exact (C69_axis_angle _ 0 _ (by rw [Star.dot3_dot]; exact hu)).2.1
    · rw [h1, frame_explicit]
      simp only [ofAxisAngle, zero_mul, Real.sin_zero, Real.cos_zero, mul_zero]
      apply vec3_ext <;> simp
  · intro h
    rw [withNoise, if_neg (by rw [Kepler.calcNorm_len]; exact not_lt.mpr h)]

/-! ## Histories -/

/-- The command an event gives, in body components, if it is one. -/
noncomputable def commandB : Event → Option (Vec 3)
  | .setB f => some f
  | .setI f d => some (d.i2b.frameConversion f)
  | .setRtn f d => some (d.i2b.frameConversion (d.i2rtn.inverseFrameConversion f))
  | _ => none

/-- Whether an event is a command. -/
def IsCommand : Event → Prop
  | .main _ _ => False
  | .off => False
  | _ => True

theorem run_ordered (eps sd : ℝ) (l : List Event) (hl : ∀ e ∈ l, ¬IsCommand e) (s : Force) : (s.run eps sd l).ordered = s.ordered := by
  induction l generalizing s with
  | nil => rfl
  | cons e l ih =>
    rw [Force.run, List.foldl_cons, ← Force.run, ih (fun x hx => hl x (by simp [hx]))]
    have := hl e (by simp)
    cases e <;> first | rfl | exact absurd trivial this

theorem run_generated (eps sd : ℝ) (l : List Event) (hl : ∀ e ∈ l, IsCommand e) (s : Force) :
    (s.run eps sd l).b = s.b ∧ (s.run eps sd l).i = s.i ∧ (s.run eps sd l).rtn = s.rtn := by
  induction l generalizing s with
  | nil => exact ⟨rfl, rfl, rfl⟩
  | cons e l ih =>
    rw [Force.run, List.foldl_cons, ← Force.run]
    obtain ⟨h1, h2, h3⟩ := ih (fun x hx => hl x (by simp [hx])) (s.step eps sd e)
    rw [h1, h2, h3]
    have := hl e (by simp)
    cases e <;> first | exact ⟨rfl, rfl, rfl⟩ | exact absurd this id

theorem run_append (eps sd : ℝ) (l m : List Event) (s : Force) : s.run eps sd (l ++ m) = (s.run eps sd l).run eps sd m := by
  rw [Force.run, List.foldl_append]; rfl

/-- The state after the last update. -/
theorem after_main (eps sd : ℝ) (s0 : Force) (before : List Event) (c : Event) (f : Vec 3) (hc : commandB c = some f) (between : List Event) (hb : ∀ e ∈ between, ¬IsCommand e)
    (n : Noise) (d : Dyn) (after : List Event) (ha : ∀ e ∈ after, IsCommand e) :
    (s0.run eps sd (before ++ c :: between ++ .main n d :: after)).b = withNoise eps sd f n ∧
    (s0.run eps sd (before ++ c :: between ++ .main n d :: after)).i = d.i2b.inverseFrameConversion (withNoise eps sd f n) ∧
    (s0.run eps sd (before ++ c :: between ++ .main n d :: after)).rtn = d.i2rtn.frameConversion (d.i2b.inverseFrameConversion (withNoise eps sd f n)) := by
  rw [run_append, run_append]
  set s1 := s0.run eps sd before
  have h1 : (s1.run eps sd (c :: between)).ordered = f := by
    rw [Force.run, List.foldl_cons, ← Force.run, run_ordered eps sd between hb]
    cases c <;> simp only [commandB, reduceCtorEq, Option.some.injEq] at hc <;> rw [Force.step] <;> exact hc
  set s2 := s1.run eps sd (c :: between)
  rw [Force.run, List.foldl_cons, ← Force.run]
  obtain ⟨g1, g2, g3⟩ := run_generated eps sd after ha (s2.step eps sd (.main n d))
  rw [g1, g2, g3, Force.step]
  dsimp only
  rw [h1]
  exact ⟨rfl, rfl, rfl⟩

/-- **C147 (frames).** After any history the force generated at the last update is the last command, taken in the attitude and orbit at the time of the command, with the noise of the
update; the inertial and the radial-tangential-normal components are those of this force in the attitude and orbit of the update. -/
theorem C147_frames (eps sd : ℝ) (before : List Event) (c : Event) (f : Vec 3) (hc : commandB c = some f) (between : List Event) (hb : ∀ e ∈ between, ¬IsCommand e)
    (n : Noise) (d : Dyn) (hd : d.i2b.IsUnit) (hne : cross d.position d.velocity ≠ 0) (after : List Event) (ha : ∀ e ∈ after, IsCommand e) :
    let s := Force.new.run eps sd (before ++ c :: between ++ .main n d :: after)
    s.b = withNoise eps sd f n ∧ d.i2b.frameConversion s.i = s.b ∧ len s.i = len s.b ∧
    s.rtn = ![dot s.i d.position / len d.position, dot s.i (cross (cross d.position d.velocity) d.position) / (len (cross d.position d.velocity) * len d.position),
      dot s.i (cross d.position d.velocity) / len (cross d.position d.velocity)] := by
  intro s
  obtain ⟨h1, h2, h3⟩ := after_main eps sd Force.new before c f hc between hb n d after ha
  have h4 : d.i2b.frameConversion s.i = s.b := by
    rw [show s.i = _ from h2, show s.b = _ from h1]; exact (C64_inverse _ hd _).2
  refine ⟨h1, h4, ?_, ?_⟩
  · rw [← h4, Sun.frame_len _ hd]
  · rw [show s.rtn = _ from h3, ← show s.i = _ from h2]
    exact Rel.rtn_apply _ _ _ hne

/-- **C147 (command in the inertial frame).** A command in inertial components is turned into body components once: without noise the force generated later is the commanded one if the
attitude is still the same, and otherwise the commanded one turned with the body. -/
theorem C147_inertial (eps sd : ℝ) (he : 0 ≤ eps) (before : List Event) (f : Vec 3) (d0 : Dyn) (between : List Event) (hb : ∀ e ∈ between, ¬IsCommand e) (n : Noise) (hn : n.angle = 0)
    (hm : n.magnitude = 0) (d : Dyn) (hd0 : d0.i2b.IsUnit) :
    let s := Force.new.run eps sd (before ++ .setI f d0 :: between ++ [.main n d])
    s.i = d.i2b.inverseFrameConversion (d0.i2b.frameConversion f) ∧ (d.i2b = d0.i2b → s.i = f) := by
  intro s
  obtain ⟨-, h2, -⟩ := after_main eps sd Force.new before (.setI f d0) _ rfl between hb n d [] (by simp)
  have hw : withNoise eps sd (d0.i2b.frameConversion f) n = d0.i2b.frameConversion f := by
    rcases le_or_gt (len (d0.i2b.frameConversion f)) eps with h | h
    · exact (C147_exact eps sd _ n he).2 h
    · rw [(C147_exact eps sd _ n he).1 h (Or.inr (by rw [hn, zero_mul])), hm, add_zero, div_self (by linarith), one_smul]
  rw [hw] at h2
  refine ⟨h2, fun h => ?_⟩
  rw [show s.i = _ from h2, h]
  exact (C64_inverse _ hd0 f).1

/-- **C147 (power off).** Without power the force is zero in all frames; the command is kept, so that the next update generates it again. -/
theorem C147_off (eps sd : ℝ) (before : List Event) (after : List Event) (ha : ∀ e ∈ after, IsCommand e) :
    let s := Force.new.run eps sd (before ++ .off :: after)
    s.b = 0 ∧ s.i = 0 ∧ s.rtn = 0 ∧ (Force.new.run eps sd (before ++ [.off])).ordered = (Force.new.run eps sd before).ordered := by
  intro s
  have hz : ∀ v : Vec 3, scale 0 v = 0 := by intro v; funext k; simp [scale]
  have hs : s = (Force.new.run eps sd before |>.step eps sd .off).run eps sd after := by
    simp only [s]; rw [run_append, Force.run, List.foldl_cons, ← Force.run]
  obtain ⟨g1, g2, g3⟩ := run_generated eps sd after ha ((Force.new.run eps sd before).step eps sd .off)
  rw [hs, g1, g2, g3, Force.step]
  refine ⟨hz _, hz _, hz _, ?_⟩
  rw [run_append]; rfl

/-- **C147 (torque).** The torque generator disturbs its command in the same way, keeps it through power losses and generates nothing without power. -/
theorem C147_torque (eps sd : ℝ) (s : Torque) (f : Vec 3) (n : Noise) (ns : List Noise) :
    ((s.step eps sd (.setB f)).step eps sd (.main n)).b = withNoise eps sd f n ∧ (s.step eps sd .off).b = 0 ∧
    (((ns.foldl (fun s n => (s.step eps sd (.main n)).step eps sd .off) (s.step eps sd (.setB f))).step eps sd (.main n))).b = withNoise eps sd f n := by
  refine ⟨rfl, by funext k; simp [Torque.step, scale], ?_⟩
  have : ∀ (ns : List Noise) (t : Torque), (ns.foldl (fun s n => (s.step eps sd (.main n)).step eps sd .off) t).ordered = t.ordered := by
    intro ns
    induction ns with
    | nil => intro t; rfl
    | cons x ns ih => intro t; rw [List.foldl_cons, ih]; rfl
  exact congrArg (fun x => withNoise eps sd x n) (this ns (s.step eps sd (.setB f)))

/-! ## Observers -/

/-- **C148 (attitude).** The observed quaternion is a unit quaternion; it converts from inertial to body components after a turn by the drawn angle about the drawn direction, taken in
inertial components, so that it deviates from the true attitude by exactly the drawn angle. -/
theorem C148_attitude (i2b : Quat) (hq : i2b.IsUnit) (r : Vec 3) (hr : r ≠ 0) (e : ℝ) :
    let n : Vec 3 := calcNormalizedVector r
    let o := observeAttitude i2b r e
    o.IsUnit ∧ o.frameConversion n = i2b.frameConversion n ∧ len n = 1 ∧ r = len r • n ∧
    (∀ v : Vec 3, dot v n = 0 → dot (o.frameConversion v) (i2b.frameConversion v) = Real.cos e * dot v v ∧
      i2b.inverseFrameConversion (o.frameConversion v) = Real.cos e • v - Real.sin e • cross n v) ∧ (e = 0 → o = i2b) := by
  intro n o
  obtain ⟨hn, hrn⟩ := unit_of hr
  have hn3 : dot3 n n = 1 := by rw [Star.dot3_dot]; exact hn
  obtain ⟨a1, a2, -, -⟩ := C69_axis_angle n 0 e hn3
  have ho : ∀ v, o.frameConversion v = i2b.frameConversion ((ofAxisAngle n e).frameConversion v) := fun v => (C65_composition _ _ v).1
  refine ⟨?_, by rw [ho, a2], (Dist.normalized_len hr).1, hrn, ?_, ?_⟩
  · have h1 : Quat.normSq (ofAxisAngle n e) = 1 := a1
    have h2 : Quat.normSq i2b = 1 := hq
    show Quat.normSq ((ofAxisAngle n e).mul i2b) = 1
    unfold Quat.normSq at *
    simp only [mul]
    grind
  · intro v hv
    have a4 := (C69_axis_angle n v e hn3).2.2.2
    have hdot : dot3 n v = 0 := by rw [Star.dot3_dot]; rw [← hv]; simp only [dot]; ring
    have hconv : (ofAxisAngle n e).frameConversion v = Real.cos e • v - Real.sin e • cross n v := by
      rw [a4, hdot]
      apply vec3_ext <;> simp [vadd, scale, outerProduct, cross] <;> ring
    refine ⟨?_, by rw [ho, (C64_inverse _ hq _).1, hconv]⟩
    rw [ho, hconv, ← Star.dot3_dot, (C64_isometry _ hq _ _).1, Star.dot3_dot]
    simp [dot, cross]
    ring
  · intro he
    show (ofAxisAngle n e).mul i2b = i2b
    rw [he]
    simp [ofAxisAngle, mul]

/-- **C148 (orbit).** The observed position and velocity are the true ones plus the drawn values, in inertial components or, with the noise frame RTN, along the radial, transverse and
normal direction of the orbit. -/
theorem C148_orbit (d : Dyn) (p v : Vec 3) (hne : cross d.position d.velocity ≠ 0) :
    observeOrbit false d p v = (d.position + p, d.velocity + v) ∧
    let o := observeOrbit true d p v
    let along (a : Vec 3) : Vec 3 := ![dot a d.position / len d.position, dot a (cross (cross d.position d.velocity) d.position) / (len (cross d.position d.velocity) * len d.position),
      dot a (cross d.position d.velocity) / len (cross d.position d.velocity)]
    along (o.1 - d.position) = p ∧ along (o.2 - d.velocity) = v := by
  refine ⟨rfl, ?_⟩
  have hu := (i2Lvlh_spec _ _ hne).1
  intro o along
  have h : ∀ x : Vec 3, along (d.i2rtn.inverseFrameConversion x) = x := by
    intro x
    rw [show along (d.i2rtn.inverseFrameConversion x) = _ from (Rel.rtn_apply d.position d.velocity (d.i2rtn.inverseFrameConversion x) hne).symm]
    exact (C64_inverse _ hu x).2
  constructor
  · have : o.1 - d.position = d.i2rtn.inverseFrameConversion p := by
      funext k
      simp [o, observeOrbit, vadd]
    rw [this, h]
  · have : o.2 - d.velocity = d.i2rtn.inverseFrameConversion v := by
      funext k
      simp [o, observeOrbit, vadd]
    rw [this, h]

/-- **C148 (noise frame).** Every name but RTN means the inertial frame. -/
theorem C148_frame (name : String) : noiseFrame name = true ↔ name = "RTN" := by
  rw [noiseFrame]
  split_ifs with h1 h2
  · subst h1; simp
  · simp [h2]
  · simp [h2]

/-! ## Examples -/

example : ∃ (eps : ℝ) (F : Vec 3) (n : Noise), F ≠ 0 ∧ eps < len F ∧ n.direction ≠ 0 ∧ eps ≤ Real.sin (angle F n.direction) ∧ n.magnitude = 0 ∧ dot F n.direction ≠ 0 := by
  refine ⟨1e-15, ![1, 0, 0], ⟨![1, 1, 0], 1, 0⟩, fun h => one_ne_zero (α := ℝ) (congrFun h 0), ?_, fun h => one_ne_zero (α := ℝ) (congrFun h 0), ?_, rfl, by simp [dot]⟩
  · have h1 : len (![1, 0, 0] : Vec 3) = 1 := by simp [len]
    rw [h1]
    norm_num
  · have h1 : len (![1, 0, 0] : Vec 3) = 1 := by simp [len]
    have h2 : len (![1, 1, 0] : Vec 3) = Real.sqrt 2 := by simp [len]; norm_num
    have h3 : dot (![1, 0, 0] : Vec 3) ![1, 1, 0] = 1 := by simp [dot]
    rw [angle, h1, h2, h3, one_mul, Real.sin_arccos, div_pow, Real.sq_sqrt (by norm_num)]
    apply Real.le_sqrt_of_sq_le
    norm_num

example : ∃ d : Dyn, d.i2b.IsUnit ∧ cross d.position d.velocity ≠ 0 :=
  ⟨⟨⟨0, 0, 0, 1⟩, ![7000000, 0, 0], ![0, 7500, 0]⟩, by simp [Quat.IsUnit], fun h => by
    have := congrFun h 2
    simp [cross] at this⟩

end S2E.Ideal
