import Verif.Model.WheelJitter
import Verif.Spec.WheelJitter
import Verif.Props.ReactionWheel
import Mathlib.Analysis.SpecificLimits.Basic
import Mathlib.Analysis.SpecialFunctions.Complex.Circle
import Mathlib.Tactic.LinearCombination
/-!
# C120–C122: the jitter of the reaction wheel
-/
namespace S2E.Wheel
open WheelSpec Filter Topology

/-! ## The harmonics -/

/-- The phases after the wheel has turned through the angle `a`. -/
def advanced (a : ℝ) : List (List ℝ) → List ℝ → List ℝ
  | row :: rows, phase :: phases => (phase + row.getD 0 0 * a) :: advanced a rows phases
  | _, _ => []

theorem advanced_add (a b : ℝ) : ∀ (rows : List (List ℝ)) (phases : List ℝ), advanced b rows (advanced a rows phases) = advanced (a + b) rows phases
  | [], _ => by simp [advanced]
  | _ :: _, [] => by simp [advanced]
  | row :: rows, phase :: phases => by
    simp only [advanced, advanced_add a b rows phases, List.cons.injEq, and_true]; ring

theorem advanced_zero : ∀ (rows : List (List ℝ)) (phases : List ℝ), rows.length = phases.length → advanced 0 rows phases = phases
  | [], [], _ => rfl
  | row :: rows, phase :: phases, h => by
    simp only [advanced, mul_zero, add_zero, advanced_zero rows phases (by simpa using h)]

theorem advanced_length (a : ℝ) : ∀ (rows : List (List ℝ)) (phases : List ℝ), rows.length = phases.length → (advanced a rows phases).length = rows.length
  | [], [], _ => rfl
  | row :: rows, phase :: phases, h => by
    simp only [advanced, List.length_cons, advanced_length a rows phases (by simpa using h)]

/-- The sum of the harmonics as vectors of the plane `x + i y` with the sine first: the imaginary part is the first component. -/
theorem harmonics_spec (T ω : ℝ) : ∀ (rows : List (List ℝ)) (phases : List ℝ) (sx sy : ℝ), rows.length = phases.length →
    (∀ r ∈ rows, 2 ≤ r.length) →
    harmonics T ω rows phases sx sy = .ok (advanced (ω * T) rows phases,
      sx + (harmonicSum (fun _ => 1) ω rows (advanced (ω * T) rows phases)).im,
      sy + (harmonicSum (fun _ => 1) ω rows (advanced (ω * T) rows phases)).re)
  | [], [], sx, sy, _, _ => by simp [harmonics, advanced, harmonicSum]
  | row :: rows, phase :: phases, sx, sy, hl, hr => by
    obtain ⟨h, c, tl, rfl⟩ : ∃ h c tl, row = h :: c :: tl := by
      have := hr row (List.mem_cons_self ..)
      match row, this with
      | h :: c :: tl, _ => exact ⟨h, c, tl, rfl⟩
    have ih := harmonics_spec T ω rows phases (sx + c * ω * ω * Real.sin (phase + h * ω * T)) (sy + c * ω * ω * Real.cos (phase + h * ω * T))
      (by simpa using hl) (fun r h => hr r (List.mem_cons_of_mem _ h))
    simp only [harmonics, ih, Res.bind, advanced, harmonicSum, List.getD_cons_zero, List.getD_cons_succ]
    rw [show phase + h * ω * T = phase + h * (ω * T) by ring]
    simp only [Complex.add_im, Complex.add_re, mul_one, Complex.exp_ofReal_mul_I_im, Complex.exp_ofReal_mul_I_re, Complex.re_ofReal_mul,
      Complex.im_ofReal_mul, Res.ok.injEq, Prod.mk.injEq, true_and]
    constructor <;> ring

theorem harmonics_ub (T ω : ℝ) : ∀ (rows : List (List ℝ)) (phases : List ℝ) (sx sy : ℝ), rows.length = phases.length →
    ¬ (∀ r ∈ rows, 2 ≤ r.length) → harmonics T ω rows phases sx sy = .ub
  | [], [], sx, sy, _, h => absurd (by simp) h
  | row :: rows, phase :: phases, sx, sy, hl, hr => by
    match row with
    | [] => rfl
    | [_] => rfl
    | h :: c :: tl =>
      have := harmonics_ub T ω rows phases (sx + c * ω * ω * Real.sin (phase + h * ω * T)) (sy + c * ω * ω * Real.cos (phase + h * ω * T))
        (by simpa using hl) (by
          intro hc
          apply hr
          intro r hr'
          rcases List.mem_cons.1 hr' with rfl | hr'
          · simp
          · exact hc r hr')
      simp only [harmonics, this, Res.bind]

/-- The vector of the component frame whose first component is the imaginary part: sine first. -/
noncomputable def planar (z : ℂ) : Vec 3 := ![z.im, z.re, 0]

/-- What every call keeps. -/
structure Fits (j : Jitter) : Prop where
  force : j.forceRows.length = j.forcePhase.length
  torque : j.torqueRows.length = j.torquePhase.length

/-- Every row has a harmonic number and a coefficient. -/
def Complete (j : Jitter) : Prop := (∀ r ∈ j.forceRows, 2 ≤ r.length) ∧ ∀ r ∈ j.torqueRows, 2 ≤ r.length

theorem calc_plain (j : Jitter) (hf : Fits j) (hc : Complete j) (hr : j.considers = false) (ω : ℝ) :
    ∃ j', j.calcJitter ω = .ok j' ∧ Fits j' ∧ Complete j' ∧ j'.considers = false ∧ j'.forceRows = j.forceRows ∧ j'.torqueRows = j.torqueRows ∧
      j'.interval = j.interval ∧ j'.b2c = j.b2c ∧
      j'.forcePhase = advanced (ω * j.interval) j.forceRows j.forcePhase ∧ j'.torquePhase = advanced (ω * j.interval) j.torqueRows j.torquePhase ∧
      j'.forceC = planar (harmonicSum (fun _ => 1) ω j.forceRows j'.forcePhase) ∧
      j'.torqueC = planar (harmonicSum (fun _ => 1) ω j.torqueRows j'.torquePhase) ∧
      j'.forceB = j.b2c.inverseFrameConversion j'.forceC ∧ j'.torqueB = j.b2c.inverseFrameConversion j'.torqueC := by
  unfold Jitter.calcJitter
  simp only [harmonics_spec _ _ _ _ _ _ hf.force hc.1, harmonics_spec _ _ _ _ _ _ hf.torque hc.2, Res.bind, hr, Bool.false_eq_true, if_false, zero_add]
  refine ⟨_, rfl, ⟨(advanced_length _ _ _ hf.force).symm, (advanced_length _ _ _ hf.torque).symm⟩, hc, rfl, rfl, rfl, rfl, rfl, rfl, rfl, ?_⟩
  simp [Jitter.forceC, Jitter.torqueC, planar]

/-- **C120.** Without structural resonance, call the jitter with the wheel speeds `ω_1, …, ω_n`, whatever they are: each harmonic `(h, c)` has
turned through `h` times the angle the wheel turned (speed times update interval, summed), and force and torque in the component frame are the
sums of vectors of length `c ω_n²` in the plane perpendicular to the rotation axis at these phases; in the body frame they are the same vectors turned by
the inverse of the mounting quaternion. -/
theorem C120_harmonics (j : Jitter) (hf : Fits j) (hc : Complete j) (hr : j.considers = false) (speeds : List ℝ) (ω : ℝ) :
    ∃ j', Jitter.run (speeds ++ [ω]) j = .ok j' ∧
      j'.forcePhase = advanced ((speeds ++ [ω]).sum * j.interval) j.forceRows j.forcePhase ∧
      j'.torquePhase = advanced ((speeds ++ [ω]).sum * j.interval) j.torqueRows j.torquePhase ∧
      j'.forceC = planar (harmonicSum (fun _ => 1) ω j.forceRows j'.forcePhase) ∧
      j'.torqueC = planar (harmonicSum (fun _ => 1) ω j.torqueRows j'.torquePhase) ∧
      j'.forceB = j.b2c.inverseFrameConversion j'.forceC ∧ j'.torqueB = j.b2c.inverseFrameConversion j'.torqueC := by
  induction speeds generalizing j with
  | nil =>
    obtain ⟨j', h0, -, -, -, -, -, -, -, h8, h9, h10, h11, h12, h13⟩ := calc_plain j hf hc hr ω
    exact ⟨j', by simp [Jitter.run, h0, Res.bind], by simpa using h8, by simpa using h9, h10, h11, h12, h13⟩
  | cons v speeds ih =>
    obtain ⟨j1, h0, h1, h2, h3, h4, h5, h6, h7, h8, h9, -⟩ := calc_plain j hf hc hr v
    obtain ⟨j', g0, g1, g2, g3, g4, g5, g6⟩ := ih j1 h1 h2 h3
    rw [h4, h8, h6, advanced_add] at g1
    rw [h5, h9, h6, advanced_add] at g2
    refine ⟨j', by simp only [List.cons_append, Jitter.run, h0, Res.bind, g0], ?_, ?_, by rw [g3, h4], by rw [g4, h5], by rw [g5, h7], by rw [g6, h7]⟩
    · rw [g1]; congr 1; simp; ring
    · rw [g2]; congr 1; simp; ring

/-- The length of the jitter force is at most the sum of the coefficients times the squared speed; at standstill it is zero. -/
theorem harmonicSum_norm (ω : ℝ) : ∀ (rows : List (List ℝ)) (phases : List ℝ), rows.length = phases.length →
    ‖harmonicSum (fun _ => 1) ω rows phases‖ ≤ (rows.map fun r => |r.getD 1 0|).sum * ω ^ 2
  | [], [], _ => by simp [harmonicSum]
  | row :: rows, phase :: phases, h => by
    have ih := harmonicSum_norm ω rows phases (by simpa using h)
    simp only [harmonicSum, List.map_cons, List.sum_cons, mul_one]
    refine (norm_add_le _ _).trans ?_
    rw [norm_mul, Complex.norm_exp_ofReal_mul_I, mul_one, Complex.norm_real, Real.norm_eq_abs, abs_mul, abs_of_nonneg (sq_nonneg ω)]
    linarith

theorem C120_amplitude (j : Jitter) (hf : Fits j) (hc : Complete j) (hr : j.considers = false) (speeds : List ℝ) (ω : ℝ) (j' : Jitter)
    (h : Jitter.run (speeds ++ [ω]) j = .ok j') :
    j'.forceC 2 = 0 ∧ j'.forceC 0 ^ 2 + j'.forceC 1 ^ 2 ≤ ((j.forceRows.map fun r => |r.getD 1 0|).sum * ω ^ 2) ^ 2 ∧
    j'.torqueC 2 = 0 ∧ j'.torqueC 0 ^ 2 + j'.torqueC 1 ^ 2 ≤ ((j.torqueRows.map fun r => |r.getD 1 0|).sum * ω ^ 2) ^ 2 := by
  obtain ⟨x, h0, h1, h2, h3, h4, -⟩ := C120_harmonics j hf hc hr speeds ω
  rw [h] at h0
  obtain rfl := Res.ok.inj h0
  have key : ∀ (z : ℂ) (B : ℝ), ‖z‖ ≤ B → planar z 0 ^ 2 + planar z 1 ^ 2 ≤ B ^ 2 := by
    intro z B hz
    have e : planar z 0 ^ 2 + planar z 1 ^ 2 = ‖z‖ ^ 2 := by
      rw [← Complex.normSq_eq_norm_sq, Complex.normSq_apply]; simp [planar]; ring
    rw [e]
    exact pow_le_pow_left₀ (norm_nonneg _) hz 2
  have l1 : j.forceRows.length = j'.forcePhase.length := by rw [h1, advanced_length _ _ _ hf.force]
  have l2 : j.torqueRows.length = j'.torquePhase.length := by rw [h2, advanced_length _ _ _ hf.torque]
  refine ⟨by rw [h3]; simp [planar], ?_, by rw [h4]; simp [planar], ?_⟩
  · rw [h3]; exact key _ _ (harmonicSum_norm ω _ _ l1)
  · rw [h4]; exact key _ _ (harmonicSum_norm ω _ _ l2)

/-- A coefficient file with a row of fewer than two columns makes the first call read out of range. -/
theorem C120_incomplete (j : Jitter) (hf : Fits j) (hc : ¬ Complete j) (ω : ℝ) : j.calcJitter ω = .ub := by
  unfold Jitter.calcJitter
  by_cases h1 : ∀ r ∈ j.forceRows, 2 ≤ r.length
  · have h2 : ¬ ∀ r ∈ j.torqueRows, 2 ≤ r.length := fun h2 => hc ⟨h1, h2⟩
    rw [harmonics_spec _ _ _ _ _ _ hf.force h1, harmonics_ub _ _ _ _ _ _ hf.torque h2]
    rfl
  · rw [harmonics_ub _ _ _ _ _ _ hf.force h1]
    rfl

end S2E.Wheel
