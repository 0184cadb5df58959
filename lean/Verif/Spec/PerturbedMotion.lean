import Verif.Spec.TwoBody
/-!
# Motion under central gravity and a piecewise constant extra acceleration, independently of the model
-/
namespace S2E.TwoBody

/-- Between the times `lo` and `hi`, `R` and `V` obey `R' = V`, `V' = -mu R / |R|^3 + acc` and `R` does not reach the centre. -/
structure MotionOn (mu : ℝ) (acc : Fin 3 → ℝ) (lo hi : ℝ) (R V : ℝ → Fin 3 → ℝ) : Prop where
  away : ∀ t, lo < t → t < hi → R t ≠ 0
  vel : ∀ t, lo < t → t < hi → HasDerivAt R (V t) t
  acc : ∀ t, lo < t → t < hi → HasDerivAt V (-(mu / len (R t) ^ 3) • R t + acc) t

/-- A flight through a schedule of arcs `(end time, extra acceleration)`: starting at time `t` with position `p` and velocity `v`, each
arc is flown under its constant extra acceleration up to its end time, where the next one begins with the same position and velocity. The
last three arguments are the final time, position and velocity. -/
inductive Flight (mu : ℝ) : ℝ → (Fin 3 → ℝ) → (Fin 3 → ℝ) → List (ℝ × (Fin 3 → ℝ)) → ℝ → (Fin 3 → ℝ) → (Fin 3 → ℝ) → Prop
  | done (t : ℝ) (p v : Fin 3 → ℝ) : Flight mu t p v [] t p v
  | arc {t e lo hi t' : ℝ} {a : Fin 3 → ℝ} {R V : ℝ → Fin 3 → ℝ} {rest : List (ℝ × (Fin 3 → ℝ))} {p' v' : Fin 3 → ℝ} :
      t ≤ e → lo < t → e < hi → MotionOn mu a lo hi R V → Flight mu e (R e) (V e) rest t' p' v' →
      Flight mu t (R t) (V t) ((e, a) :: rest) t' p' v'

/-- An unperturbed motion is a flight without extra acceleration. -/
theorem Motion.on {mu : ℝ} {R V : ℝ → Fin 3 → ℝ} (h : Motion mu R V) (lo hi : ℝ) : MotionOn mu 0 lo hi R V :=
  ⟨fun t _ _ => h.away t, fun t _ _ => h.vel t, fun t _ _ => by simpa using h.acc t⟩

end S2E.TwoBody
