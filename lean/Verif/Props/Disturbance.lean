import Verif.Model.Disturbance
import Verif.Props.Quaternion
/-!
# C100: which disturbances act, when they are refreshed, and what reaches the propagation
-/
namespace S2E.Dist

variable {E S : Type}

/-- One call of `Disturbances::Update`: the environment at that time, the orbit flag and the attitude flag. -/
structure Call (E : Type) where
  env : E
  orbit : Bool
  attitude : Bool

/-- All calls of a history, first to last. -/
def runCalls (s : Disturbances E S) (h : List (Call E)) : Disturbances E S := h.foldl (fun s c => s.update c.env c.orbit c.attitude) s

/-- Specification: a disturbance is recomputed at the calls where the orbit is propagated, and, if it depends on the attitude, also where the
attitude is propagated. -/
def Recomputed (d : Disturbance E S) (c : Call E) : Prop := c.orbit = true ∨ (c.attitude = true ∧ d.attitudeDependent = true)

instance (d : Disturbance E S) (c : Call E) : Decidable (Recomputed d c) := by unfold Recomputed; infer_instance

/-- Specification: the environment of the last call of the history at which `d` is recomputed. -/
def lastEnv (d : Disturbance E S) (h : List (Call E)) : Option E := ((h.filter fun c => decide (Recomputed d c)).getLast?).map Call.env

theorem foldl_vadd {α : Type} (f : α → Vec 3) (l : List α) (a : Vec 3) : l.foldl (fun a d => vadd a (f d)) a = a + (l.map f).sum := by
  induction l generalizing a with
  | nil => simp
  | cons x l ih => rw [List.foldl_cons, ih, List.map_cons, List.sum_cons, ← add_assoc]; rfl

theorem visit_eq (d : Disturbance E S) (c : Call E) :
    d.visit c.env c.orbit c.attitude = if Recomputed d c then d.updateIfEnabled c.env else d := by
  obtain ⟨e, o, a⟩ := c
  by_cases h : d.attitudeDependent = true <;> cases o <;> cases a <;> simp [Disturbance.visit, Recomputed, h]

theorem runCalls_append (s : Disturbances E S) (h : List (Call E)) (c : Call E) :
    runCalls s (h ++ [c]) = (runCalls s h).update c.env c.orbit c.attitude := by simp [runCalls]

/-- The history of one disturbance. -/
def runOne (d : Disturbance E S) (h : List (Call E)) : Disturbance E S := h.foldl (fun d c => d.visit c.env c.orbit c.attitude) d

theorem runCalls_list (l : List (Disturbance E S)) (h : List (Call E)) : (runCalls (Disturbances.new l) h).list = l.map fun d => runOne d h := by
  induction h using List.reverseRecOn with
  | nil => simp [runCalls, Disturbances.new, runOne]
  | append_singleton h c ih =>
    rw [runCalls_append]
    simp only [Disturbances.update, ih, List.map_map]
    congr 1
    funext d
    simp [runOne]

theorem updateIfEnabled_flags (d : Disturbance E S) (e : E) :
    (d.updateIfEnabled e).enabled = d.enabled ∧ (d.updateIfEnabled e).attitudeDependent = d.attitudeDependent ∧
    (d.updateIfEnabled e).compute = d.compute := by
  unfold Disturbance.updateIfEnabled; split <;> simp_all

theorem runOne_flags (d : Disturbance E S) (h : List (Call E)) :
    (runOne d h).enabled = d.enabled ∧ (runOne d h).attitudeDependent = d.attitudeDependent ∧ (runOne d h).compute = d.compute := by
  induction h using List.reverseRecOn with
  | nil => simp [runOne]
  | append_singleton h c ih =>
    have : runOne d (h ++ [c]) = (runOne d h).visit c.env c.orbit c.attitude := by simp [runOne]
    rw [this, visit_eq]
    split
    · have := updateIfEnabled_flags (runOne d h) c.env
      exact ⟨this.1.trans ih.1, this.2.1.trans ih.2.1, this.2.2.trans ih.2.2⟩
    · exact ih

/-- C100: after every call the reported totals are the sums, over all disturbances, of the values they hold at that moment. -/
theorem C100_totals (l : List (Disturbance E S)) (h : List (Call E)) (hne : h ≠ []) :
    (runCalls (Disturbances.new l) h).force = (l.map fun d => (runOne d h).effect.force).sum ∧
    (runCalls (Disturbances.new l) h).torque = (l.map fun d => (runOne d h).effect.torque).sum ∧
    (runCalls (Disturbances.new l) h).acceleration = (l.map fun d => (runOne d h).effect.accelerationI).sum := by
  obtain ⟨h', c, rfl⟩ : ∃ h' c, h = h' ++ [c] := ⟨h.dropLast, h.getLast hne, (List.dropLast_append_getLast hne).symm⟩
  rw [runCalls_append]
  have hl := runCalls_list l (h' ++ [c])
  rw [runCalls_append] at hl
  have hl' : (runCalls (Disturbances.new l) h').list.map (fun d => d.visit c.env c.orbit c.attitude) = l.map fun d => runOne d (h' ++ [c]) := hl
  have z : (fun _ => 0 : Vec 3) = 0 := rfl
  refine ⟨?_, ?_, ?_⟩ <;>
  · simp only [Disturbances.update, hl', foldl_vadd, z, zero_add, List.map_map]
    rfl

/-- C100: a switched-off disturbance contributes exactly nothing, whatever happens. -/
theorem C100_disabled (a : Bool) (f : E → S → Effect → S × Effect) (i : S) (h : List (Call E)) :
    (runOne (Disturbance.new false a f i) h).effect = Effect.zero := by
  induction h using List.reverseRecOn with
  | nil => rfl
  | append_singleton h c ih =>
    have : runOne (Disturbance.new false a f i) (h ++ [c]) = (runOne (Disturbance.new false a f i) h).visit c.env c.orbit c.attitude := by
      simp [runOne]
    rw [this, visit_eq]
    split
    · have hen : (runOne (Disturbance.new false a f i) h).enabled = false := (runOne_flags _ h).1
      unfold Disturbance.updateIfEnabled
      rw [hen]
      simp only [Bool.false_eq_true, if_false, ih]
      ext i <;> simp [Effect.zero, scale]
    · exact ih

/-- C100: between two calls at which a disturbance is recomputed its value is held, and at such a call (when switched on) it is what its own
computation returns. -/
theorem C100_held (d : Disturbance E S) (h : List (Call E)) (c : Call E) :
    (¬ Recomputed d c → (runOne d (h ++ [c])).effect = (runOne d h).effect) ∧
    (Recomputed d c → d.enabled = true →
      (runOne d (h ++ [c])).effect = (d.compute c.env (runOne d h).inner (runOne d h).effect).2) := by
  have e : runOne d (h ++ [c]) = (runOne d h).visit c.env c.orbit c.attitude := by simp [runOne]
  obtain ⟨f1, f2, f3⟩ := runOne_flags d h
  have hr : Recomputed (runOne d h) c ↔ Recomputed d c := by simp [Recomputed, f2]
  rw [e, visit_eq]
  refine ⟨fun hn => by rw [if_neg (hr.not.mpr hn)], fun hy hen => ?_⟩
  rw [if_pos (hr.mpr hy)]
  unfold Disturbance.updateIfEnabled
  rw [f1, if_pos hen, f3]

/-- C100: for a disturbance whose computation depends on the environment only, the value after any history is the one computed from the
environment of the last call at which it was recomputed, and zero before the first. -/
theorem C100_latest (a : Bool) (g : E → Effect) (i : S) (h : List (Call E)) :
    (runOne (Disturbance.new true a (fun e s _ => (s, g e)) i) h).effect =
      ((lastEnv (Disturbance.new true a (fun e s _ => (s, g e)) i : Disturbance E S) h).map g).getD Effect.zero := by
  induction h using List.reverseRecOn with
  | nil => rfl
  | append_singleton h c ih =>
    obtain ⟨h1, h2⟩ := C100_held (Disturbance.new true a (fun e s _ => (s, g e)) i) h c
    by_cases hr : Recomputed (Disturbance.new true a (fun e s _ => (s, g e)) i : Disturbance E S) c
    · rw [h2 hr rfl]
      simp [lastEnv, List.filter_append, hr]
      rfl
    · rw [h1 hr, ih]
      simp [lastEnv, List.filter_append, hr]

/-- Non-vacuity: three calls (orbit, attitude only, neither); an attitude dependent disturbance follows the second environment, one that does
not depend on the attitude keeps the first. -/
example (g : ℕ → Effect) :
    (runOne (Disturbance.new true true (fun e s _ => (s, g e)) ()) [⟨10, true, true⟩, ⟨20, false, true⟩, ⟨30, false, false⟩]).effect = g 20 ∧
    (runOne (Disturbance.new true false (fun e s _ => (s, g e)) ()) [⟨10, true, true⟩, ⟨20, false, true⟩, ⟨30, false, false⟩]).effect = g 10 ∧
    ([⟨10, true, true⟩, ⟨20, false, true⟩, ⟨30, false, false⟩] : List (Call ℕ)) ≠ [] :=
  ⟨rfl, rfl, by simp⟩

/-- C100: which disturbances exist. Gravity gradient, solar radiation pressure and third bodies always; the lunar gravity field around the
Moon; air drag, magnetic torque and the geopotential around the Earth; each exactly once. Of these gravity gradient, solar radiation
pressure, air drag and magnetic torque depend on the attitude. -/
theorem C100_instances (center : String) :
    (initializeInstances center).Nodup ∧
    (∀ k, k ∈ initializeInstances center ↔
      k = .gravityGradient ∨ k = .solarRadiationPressure ∨ k = .thirdBodyGravity ∨ (k = .lunarGravityField ∧ center = "MOON") ∨
      ((k = .airDrag ∨ k = .magnetic ∨ k = .geopotential) ∧ center = "EARTH")) ∧
    (∀ k : Kind, k.attitudeDependent = true ↔ k = .gravityGradient ∨ k = .solarRadiationPressure ∨ k = .airDrag ∨ k = .magnetic) := by
  refine ⟨?_, fun k => ?_, fun k => by cases k <;> simp [Kind.attitudeDependent]⟩
  · simp only [initializeInstances]
    by_cases h1 : center = "MOON"
    · subst h1
      rw [if_pos rfl, if_pos (by decide)]
      decide
    · by_cases h2 : center = "EARTH"
      · subst h2
        rw [if_neg (by decide), if_neg (by decide)]
        decide
      · rw [if_neg h1, if_pos h2]; decide
  · simp only [initializeInstances]
    by_cases h1 : center = "MOON"
    · subst h1
      rw [if_pos rfl, if_pos (by decide)]
      cases k <;> decide
    · by_cases h2 : center = "EARTH"
      · subst h2
        rw [if_neg (by decide), if_neg (by decide)]
        cases k <;> decide
      · rw [if_neg h1, if_pos h2]
        cases k <;> simp [h1, h2]

/-- C100: one spacecraft step. The torque that reaches the attitude propagation is the disturbance torque plus the component torque; the
acceleration that reaches the orbit propagation is the disturbance acceleration plus both forces, turned to the inertial frame with the
attitude before the step and divided by the mass. Nothing of the previous step's loads survives. The disturbances see the environment of
the state before the step. Attitude and orbit move exactly when their flag is set. -/
theorem C100_spacecraft {A O : Type} (environment : A → O → E) (components : A → O → Vec 3 × Vec 3) (mass : ℝ) (propA : A → Vec 3 → A)
    (propO : O → Vec 3 → O) (o a : Bool) (c : Craft E S A O) :
    let c' := c.update environment components mass propA propO o a
    let d' := c.disturbances.update (environment c.attitude c.orbit) o a
    let torque := d'.torque + (components c.attitude c.orbit).1
    let acceleration := d'.acceleration + (1 / mass) • ((c.quaternion c.attitude).inverseFrameConversion
      (d'.force + (components c.attitude c.orbit).2))
    c'.loads.torque = torque ∧ c'.loads.acceleration = acceleration ∧ c'.disturbances = d' ∧
    c'.attitude = (if a then propA c.attitude torque else c.attitude) ∧ c'.orbit = (if o then propO c.orbit acceleration else c.orbit) := by
  simp only [Craft.update]
  have hT : (((((c.loads.clear.addAcceleration (c.disturbances.update (environment c.attitude c.orbit) o a).acceleration).addTorque
      (c.disturbances.update (environment c.attitude c.orbit) o a).torque).addForce
      (c.disturbances.update (environment c.attitude c.orbit) o a).force (c.quaternion c.attitude) mass).addTorque
      (components c.attitude c.orbit).1).addForce (components c.attitude c.orbit).2 (c.quaternion c.attitude) mass).torque =
      (c.disturbances.update (environment c.attitude c.orbit) o a).torque + (components c.attitude c.orbit).1 := by
    funext i
    simp [Loads.addForce, Loads.addTorque, Loads.addAcceleration, Loads.clear, vadd]
  have hA : (((((c.loads.clear.addAcceleration (c.disturbances.update (environment c.attitude c.orbit) o a).acceleration).addTorque
      (c.disturbances.update (environment c.attitude c.orbit) o a).torque).addForce
      (c.disturbances.update (environment c.attitude c.orbit) o a).force (c.quaternion c.attitude) mass).addTorque
      (components c.attitude c.orbit).1).addForce (components c.attitude c.orbit).2 (c.quaternion c.attitude) mass).acceleration =
      (c.disturbances.update (environment c.attitude c.orbit) o a).acceleration + (1 / mass) • ((c.quaternion c.attitude).inverseFrameConversion
      ((c.disturbances.update (environment c.attitude c.orbit) o a).force + (components c.attitude c.orbit).2)) := by
    funext i
    fin_cases i <;>
    simp [Loads.addForce, Loads.addTorque, Loads.addAcceleration, Loads.clear, vadd, OrbitProp.addForceB, OrbitProp.addForceI, vdiv, scale,
      Quat.inverseFrameConversion, Quat.mulVec, Quat.mul, Quat.conjugate] <;> ring
  exact ⟨hT, hA, trivial, by rw [hT], by rw [hA]⟩

/-- Non-vacuity: with a component force of 2 N along body x, mass 4 kg and the identity attitude, an orbit state that records the received
acceleration gets 0.5 m/s2 along x. -/
example (d : Disturbances ℕ Unit) (l : Loads) (hd : d.list = []) :
    ((⟨fun _ => ⟨0, 0, 0, 1⟩, (), (fun _ => 0), d, l⟩ : Craft ℕ Unit Unit (Vec 3)).update (fun _ _ => 0) (fun _ _ => (![0, 0, 0], ![2, 0, 0]))
      4 (fun x _ => x) (fun _ x => x) true false).orbit = ![1 / 2, 0, 0] := by
  rw [(C100_spacecraft _ _ _ _ _ _ _ _).2.2.2.2, if_pos rfl]
  funext i
  fin_cases i <;>
  simp [Disturbances.update, hd, Quat.inverseFrameConversion, Quat.mulVec, Quat.mul, Quat.conjugate] <;> norm_num

end S2E.Dist
