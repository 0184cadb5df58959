import Verif.Model.OrbitProp
import Verif.Props.Convergence
import Verif.Proofs.OneStepVar
/-! # The propagation loop takes equal steps and one adjusted step -/
namespace S2E.OrbitProp
open S2E.Integ

variable {n : ℕ}

/-- `Update()` for a list of step widths. -/
noncomputable def updates (f : ℝ → Vec n → Vec n) (l : List ℝ) (z : ℝ × Vec n) : ℝ × Vec n :=
  l.foldl (fun z h => odeUpdate f h z.1 z.2) z

theorem odeLoop_spec (f : ℝ → Vec n → Vec n) (e step : ℝ) (hs : 0 < step) :
    ∀ (N : ℕ) (p : ℝ) (z : ℝ × Vec n), e - p ≤ N * step → ∃ m : ℕ, m ≤ N ∧
      (m = 0 ∨ 1e-6 < e - (p + m * step)) ∧ e - (p + m * step) ≤ step + 1e-6 ∧
      ∀ fuel, N < fuel → odeLoop f e step fuel p z = .ok (p + m * step, updates f (List.replicate m step) z) := by
  intro N
  induction N with
  | zero =>
    intro p z h
    refine ⟨0, le_rfl, Or.inl rfl, ?_, ?_⟩
    · simp only [Nat.cast_zero, zero_mul, add_zero] at h ⊢; norm_num; linarith
    · intro fuel hf
      obtain ⟨k, rfl⟩ : ∃ k, fuel = k + 1 := ⟨fuel - 1, by omega⟩
      rw [odeLoop, if_neg (by simp only [Nat.cast_zero, zero_mul] at h; norm_num; linarith)]
      simp [updates]
  | succ N ih =>
    intro p z h
    by_cases hc : e - p - step > 1e-6
    · obtain ⟨m, h1, h2, h3, h4⟩ := ih (p + step) (odeUpdate f step z.1 z.2) (by push_cast at h; linarith)
      refine ⟨m + 1, by omega, Or.inr ?_, ?_, ?_⟩
      · rcases h2 with rfl | h2
        · simp only [Nat.cast_zero, zero_mul, zero_add, Nat.cast_one, one_mul]; linarith
        · push_cast; linarith
      · push_cast; linarith
      · intro fuel hf
        obtain ⟨k, rfl⟩ : ∃ k, fuel = k + 1 := ⟨fuel - 1, by omega⟩
        rw [odeLoop, if_pos hc, h4 k (by omega)]
        simp only [updates, List.replicate_succ, List.foldl_cons]
        congr 2
        push_cast; ring
    · refine ⟨0, by omega, Or.inl rfl, ?_, ?_⟩
      · simp only [Nat.cast_zero, zero_mul, add_zero]; linarith
      · intro fuel hf
        obtain ⟨k, rfl⟩ : ∃ k, fuel = k + 1 := ⟨fuel - 1, by omega⟩
        rw [odeLoop, if_neg hc]
        simp [updates]

/-- Equal steps, then one step to the end. -/
theorem odePropagate_spec (f : ℝ → Vec n → Vec n) (e step : ℝ) (hs : 0 < step) (p : ℝ) (z : ℝ × Vec n) :
    ∃ (m N : ℕ) (last : ℝ), p + m * step + last = e ∧ last ≤ step + 1e-6 ∧ (m = 0 ∨ 1e-6 < last) ∧
      ∀ fuel, N ≤ fuel → odePropagate f e step fuel p z = .ok (updates f (List.replicate m step ++ [last]) z) := by
  obtain ⟨N, hN⟩ : ∃ N : ℕ, (e - p) / step ≤ N := exists_nat_ge _
  obtain ⟨m, _, h2, h3, h4⟩ := odeLoop_spec f e step hs N p z (by rwa [div_le_iff₀ hs] at hN)
  refine ⟨m, N + 1, e - (p + m * step), by ring, h3, h2, fun fuel hf => ?_⟩
  rw [odePropagate, h4 fuel hf]
  simp [updates, List.foldl_append, Bind.bind, Res.bind]

theorem odeLoop_stuck (f : ℝ → Vec n → Vec n) (e step : ℝ) (hs : step ≤ 0) (fuel : ℕ) :
    ∀ (p : ℝ) (z : ℝ × Vec n), e - p - step > 1e-6 → odeLoop f e step fuel p z = .stuck := by
  induction fuel with
  | zero => intro p z _; rfl
  | succ k ih => intro p z h; rw [odeLoop, if_pos h, ih _ _ (by linarith)]

/-! ## Convergence -/

theorem odeUpdate_eq (f : ℝ → Vec n → Vec n) (h t : ℝ) (x : Vec n) :
    odeUpdate f h t x = (t + h, x + h • increment rk4 rk4.weights f (t, x, h)) := by
  have := C81_ode_update f { setState (new rk4 f h) t x with stepWidth := h }
  simp only [setState] at this
  rw [this]
  refine Prod.ext rfl ?_
  rw [integrate_current]
  rfl

theorem updates_eq (f : ℝ → Vec n → Vec n) (l : List ℝ) (z : ℝ × Vec n) :
    updates f l z = OneStep.runSteps (increment rk4 rk4.weights f) l z := by
  unfold updates OneStep.runSteps
  congr 1
  funext z h
  exact odeUpdate_eq f h z.1 z.2

theorem updates_autonomous (f : ℝ → Vec n → Vec n) (hf : ∀ t t' x, f t x = f t' x) (l : List ℝ) :
    ∀ (t t' : ℝ) (x : Vec n), (updates f l (t, x)).2 = (updates f l (t', x)).2 := by
  induction l with
  | nil => intro t t' x; rfl
  | cons h l ih =>
    intro t t' x
    simp only [updates, List.foldl_cons]
    have e : (odeUpdate f h t x).2 = (odeUpdate f h t' x).2 := by
      have key : ∀ s x, f s x = f 0 x := fun s x => hf s 0 x
      simp only [odeUpdate, key]
    have := ih (odeUpdate f h t x).1 (odeUpdate f h t' x).1 (odeUpdate f h t x).2
    simp only [updates] at this
    conv_rhs at this => rw [e]
    exact this

/-- The propagation loop converges with order 4, also from an inexact start. -/
theorem odePropagate_converges (f : ℝ → Vec n → Vec n) (hf : ∀ t t' x, f t x = f t' x) (x : ℝ → Vec n) {a e : ℝ} (hae : a ≤ e)
    (hF : ∀ t ∈ Set.Icc a e, ContDiffAt ℝ 5 (fun z : ℝ × Vec n => f z.1 z.2) (t, x t))
    (hx : ∀ t ∈ Set.Icc a e, ∀ᶠ s in nhds t, HasDerivAt x (f s (x s)) s) :
    ∃ C h0, 0 ≤ C ∧ 0 < h0 ∧ ∀ step, 0 < step → step + 1e-6 ≤ h0 → ∀ y : ℝ × Vec n, ‖y.2 - x a‖ ≤ h0 →
      ∃ N, ∃ z, (∀ fuel, N ≤ fuel → odePropagate f e step fuel a y = .ok z) ∧ ‖z.2 - x e‖ ≤ C * (‖y.2 - x a‖ + (step + 1e-6) ^ 4) := by
  obtain ⟨C, h0, hC, hpos, H⟩ := OneStep.converges_var (p := 4) hae (by omega) (increment rk4 rk4.weights f) x
    (fun t ht => increment_smooth rk4 rk4.weights f t (x t) _ (by exact_mod_cast hF t ht))
    (fun t ht => OneStep.solution_smooth _ (by exact_mod_cast hF t ht) (hx t ht)) (fun t ht => by
      have := local_error_model (p := 4) rk4 rk4_explicit 1 (fun i => ((rk4.weights i : ℚ) : ℝ)) (cast_order rk4_order) f t x
        ((hF t ht).of_le (by norm_num)) (hx t ht)
      simpa [increment] using this)
  refine ⟨C, h0, hC, hpos, fun step hs hle y hy => ?_⟩
  obtain ⟨m, N, last, h1, h2, h3, h4⟩ := odePropagate_spec f e step hs a y
  refine ⟨N, _, h4, ?_⟩
  have hlast : 0 ≤ last := by
    rcases h3 with rfl | h3
    · simp only [Nat.cast_zero, zero_mul, add_zero] at h1; linarith
    · norm_num at h3; linarith
  have hsum : (List.replicate m step ++ [last]).sum = m * step + last := by simp
  have hε : (0 : ℝ) < 1e-6 := by norm_num
  have := H (step + 1e-6) (by linarith) hle (List.replicate m step ++ [last]) (by
    intro h hh
    rcases List.mem_append.1 hh with hh | hh
    · rw [List.eq_of_mem_replicate hh]; exact ⟨hs.le, by linarith⟩
    · rw [List.mem_singleton.1 hh]; exact ⟨hlast, h2⟩) (by rw [hsum]; linarith) y.2 hy
  rw [hsum, ← add_assoc, h1, ← updates_eq] at this
  rw [show y = (y.1, y.2) from rfl, updates_autonomous f hf _ y.1 a y.2]
  exact this

end S2E.OrbitProp
