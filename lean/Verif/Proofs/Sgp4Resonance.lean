import Verif.Spec.Sgp4Resonance
import Verif.Proofs.Sgp4
import Mathlib.Analysis.SpecialFunctions.Trigonometric.Deriv

/-! Lemmas for the resonance theorems. -/
namespace S2E.Sgp4

theorem term_deriv (x : Term) (w l : ℝ) : HasDerivAt (fun l => x.D * Real.sin (x.j * w + x.k * l - x.G)) (x.D * x.k * Real.cos (x.j * w + x.k * l - x.G)) l := by
  have h1 : HasDerivAt (fun l => x.j * w + x.k * l - x.G) x.k l := by
    have := (((hasDerivAt_id l).const_mul x.k).const_add (x.j * w)).sub_const x.G
    exact this.congr_deriv (by ring)
  exact (h1.sin.const_mul x.D).congr_deriv (by ring)

theorem sum_deriv (ts : List Term) (w l : ℝ) :
    HasDerivAt (fun l => (ts.map fun x => x.D * Real.sin (x.j * w + x.k * l - x.G)).sum) (ts.map fun x => x.D * x.k * Real.cos (x.j * w + x.k * l - x.G)).sum l := by
  induction ts with
  | nil => exact (hasDerivAt_const l (0 : ℝ))
  | cons a ts ih =>
    simp only [List.map_cons, List.sum_cons]
    exact (term_deriv a w l).add ih

theorem rates_eq (s : Elset) (x : Angle) : rates s x.time x.l x.n =
    (force s (s.argpo + s.argpdot * x.time) x.l, x.n + s.xfact, deriv (force s (s.argpo + s.argpdot * x.time)) x.l * (x.n + s.xfact)) := by
  have hd : deriv (force s (s.argpo + s.argpdot * x.time)) x.l = _ := (sum_deriv (terms s) (s.argpo + s.argpdot * x.time) x.l).deriv
  rw [hd]
  unfold rates force terms
  by_cases h : s.irez = 2
  · rw [if_neg (not_not.2 h), if_pos h]
    simp only [List.map_cons, List.map_nil, List.sum_cons, List.sum_nil, Prod.mk.injEq]
    generalize s.argpo + s.argpdot * x.time = w
    refine ⟨?_, trivial, ?_⟩ <;> ring_nf
  · rw [if_pos h, if_neg h]
    simp only [List.map_cons, List.map_nil, List.sum_cons, List.sum_nil, Prod.mk.injEq]
    generalize s.argpo + s.argpdot * x.time = w
    refine ⟨?_, trivial, ?_⟩ <;> ring_nf

theorem taylor_time (s : Elset) (h : ℝ) (n : ℕ) (x : Angle) : ((taylor s h)^[n] x).time = x.time + n * h := by
  induction n with
  | zero => simp
  | succ n ih =>
    rw [Function.iterate_succ_apply']
    change ((taylor s h)^[n] x).time + h = _
    rw [ih]; push_cast; ring

theorem stepTo_abs (t : ℝ) : |stepTo t| = 720 := by unfold stepTo; split_ifs <;> norm_num

theorem left_abs (t : ℝ) (k : ℕ) (hk : (k : ℝ) * 720 ≤ |t|) : |t - k * stepTo t| = |t| - k * 720 := by
  unfold stepTo
  by_cases h : 0 < t
  · rw [if_pos h, abs_of_pos h] at *
    rw [abs_of_nonneg (by linarith)]
  · rw [if_neg h]
    rw [abs_of_nonpos (not_lt.1 h)] at *
    rw [abs_of_nonpos (by linarith)]; ring

theorem loop_steps (s : Elset) (t : ℝ) (j : ℕ) : ∀ (k fuel : ℕ), k + j = steps t → j < fuel →
    let x := (taylor s (stepTo t))^[k] ⟨0, s.xlamo, s.no⟩
    dspaceLoop s t fuel false x.time x.l x.n =
      .ok ⟨(lastPoint s t).time, (lastPoint s t).l, (lastPoint s t).n, t - (lastPoint s t).time, (rates s (lastPoint s t).time (lastPoint s t).l (lastPoint s t).n).1,
        (rates s (lastPoint s t).time (lastPoint s t).l (lastPoint s t).n).2.1, (rates s (lastPoint s t).time (lastPoint s t).l (lastPoint s t).n).2.2⟩ := by
  have hN : (steps t : ℝ) ≤ |t| / 720 := Nat.floor_le (by positivity)
  have hN' : |t| / 720 < steps t + 1 := Nat.lt_floor_add_one _
  induction j with
  | zero =>
    intro k fuel hk hf
    obtain ⟨fuel, rfl⟩ : ∃ f, fuel = f + 1 := ⟨fuel - 1, by omega⟩
    have hkN : k = steps t := by omega
    subst hkN
    dsimp only
    change dspaceLoop s t (fuel + 1) false (lastPoint s t).time (lastPoint s t).l (lastPoint s t).n = _
    have ht : (lastPoint s t).time = steps t * stepTo t := by unfold lastPoint; rw [taylor_time]; simp
    have h1 : ¬(|t| < |(lastPoint s t).time| ∨ false = true) := by
      rw [ht, abs_mul, stepTo_abs]; simp; linarith
    have h2 : ¬(720 ≤ |t - (lastPoint s t).time|) := by
      rw [ht, left_abs t _ (by linarith)]; linarith
    unfold dspaceLoop
    dsimp only
    rw [if_neg h1, if_neg h2]
  | succ j ih =>
    intro k fuel hk hf
    obtain ⟨fuel, rfl⟩ : ∃ f, fuel = f + 1 := ⟨fuel - 1, by omega⟩
    have hkN : (k : ℝ) + 1 ≤ steps t := by exact_mod_cast (by omega : k + 1 ≤ steps t)
    have := ih (k + 1) fuel (by omega) (by omega)
    dsimp only at this ⊢
    rw [← this]
    rw [Function.iterate_succ_apply']
    have ht : ((taylor s (stepTo t))^[k] ⟨0, s.xlamo, s.no⟩).time = k * stepTo t := by rw [taylor_time]; simp
    generalize (taylor s (stepTo t))^[k] ⟨0, s.xlamo, s.no⟩ = x at ht ⊢
    have h1 : ¬(|t| < |x.time| ∨ false = true) := by
      rw [ht, abs_mul, stepTo_abs]; simp; linarith
    have h2 : 720 ≤ |t - x.time| := by
      rw [ht, left_abs t _ (by linarith)]; linarith
    rw [dspaceLoop]
    dsimp only
    rw [if_neg h1, if_pos h2, rates_eq]
    have e2 : stepTo t ^ 2 / 2 = 259200 := by rw [← sq_abs, stepTo_abs]; norm_num
    unfold taylor
    dsimp only
    rw [e2]
    rfl

theorem loop_result (s : Elset) (t : ℝ) (fuel : ℕ) (hf : steps t < fuel) :
    ∃ o, dspaceLoop s t fuel false 0 s.xlamo s.no = .ok o ∧ o.atime = (lastPoint s t).time ∧ o.xli = (lastPoint s t).l ∧ o.xni = (lastPoint s t).n ∧
      o.xni + o.xndt * o.ft + o.xnddt * o.ft * o.ft * 0.5 = (resonance s t).n ∧ o.xli + o.xldot * o.ft + o.xndt * o.ft * o.ft * 0.5 = (resonance s t).l := by
  have h := loop_steps s t (steps t) 0 fuel (by omega) hf
  refine ⟨_, h, rfl, rfl, rfl, ?_, ?_⟩ <;>
  · dsimp only
    rw [rates_eq]
    unfold resonance taylor
    dsimp only
    ring

/-- The two numbers of an angle. -/
def pair (x : Angle) : ℝ × ℝ := (x.l, x.n)

/-- The solution in the direction of `h`, as a function of the number of steps. -/
noncomputable def along (s : Elset) (h y : ℝ) : ℝ × ℝ :=
  pair (taylor s ((y - ⌊y⌋₊) * h) ((taylor s h)^[⌊y⌋₊] ⟨0, s.xlamo, s.no⟩))

theorem taylor_continuous (s : Elset) (x : Angle) : Continuous fun h => pair (taylor s h x) := by
  unfold taylor pair
  dsimp only
  fun_prop

theorem taylor_zero (s : Elset) (x : Angle) : pair (taylor s 0 x) = pair x := by
  unfold taylor pair; simp

theorem along_on (s : Elset) (h : ℝ) (n : ℕ) (y : ℝ) (hy : y ≤ n + 1) (hn : n ≤ y ∨ n = 0) :
    along s h y = pair (taylor s ((y - n) * h) ((taylor s h)^[n] ⟨0, s.xlamo, s.no⟩)) := by
  rcases eq_or_lt_of_le hy with rfl | hlt
  · have e : ⌊(n : ℝ) + 1⌋₊ = n + 1 := by exact_mod_cast Nat.floor_natCast (R := ℝ) (n + 1)
    unfold along
    rw [e, Function.iterate_succ_apply']
    have e1 : ((n : ℝ) + 1 - ((n + 1 : ℕ) : ℝ)) * h = 0 := by push_cast; ring
    have e2 : ((n : ℝ) + 1 - n) * h = h := by ring
    rw [e1, e2, taylor_zero]
  · have e : ⌊y⌋₊ = n := by
      rcases hn with hn | rfl
      · exact (Nat.floor_eq_iff (le_trans (by positivity) hn)).2 ⟨hn, hlt⟩
      · exact Nat.floor_eq_zero.2 (by simpa using hlt)
    unfold along
    rw [e]

theorem along_continuousOn (s : Elset) (h : ℝ) (n : ℕ) : ContinuousOn (along s h) (Set.Iic ((n : ℝ) + 1)) := by
  have piece : ∀ n : ℕ, Continuous fun y : ℝ => pair (taylor s ((y - n) * h) ((taylor s h)^[n] ⟨0, s.xlamo, s.no⟩)) := fun n =>
    (taylor_continuous s _).comp (by fun_prop)
  induction n with
  | zero => exact (piece 0).continuousOn.congr fun y hy => along_on s h 0 y hy (.inr rfl)
  | succ n ih =>
    have e : Set.Iic (((n + 1 : ℕ) : ℝ) + 1) = Set.Iic ((n : ℝ) + 1) ∪ Set.Icc ((n + 1 : ℕ) : ℝ) (((n + 1 : ℕ) : ℝ) + 1) := by
      push_cast
      rw [Set.Iic_union_Icc_eq_Iic (by linarith)]
    rw [e]
    refine ContinuousOn.union_of_isClosed ih ?_ isClosed_Iic isClosed_Icc
    exact (piece (n + 1)).continuousOn.congr fun y hy => along_on s h (n + 1) y hy.2 (.inl hy.1)

theorem along_continuous (s : Elset) (h : ℝ) : Continuous (along s h) := by
  rw [continuous_iff_continuousAt]
  intro y
  obtain ⟨n, hn⟩ := exists_nat_gt y
  exact (along_continuousOn s h n).continuousAt (Iic_mem_nhds (by linarith))

theorem resonance_along (s : Elset) (t : ℝ) : pair (resonance s t) = if 0 ≤ t then along s 720 (t / 720) else along s (-720) (t / -720) := by
  unfold resonance lastPoint along
  rw [taylor_time]
  unfold steps
  by_cases h : 0 < t
  · rw [if_pos h.le, abs_of_pos h, show stepTo t = 720 from if_pos h]
    congr 2
    ring
  · rcases eq_or_lt_of_le (not_lt.1 h) with rfl | h0
    · simp
    · rw [if_neg (not_le.2 h0), abs_of_neg h0, show stepTo t = -720 from if_neg h, show -t / 720 = t / -720 by ring]
      congr 2
      ring

theorem resonance_continuous (s : Elset) : Continuous fun t => pair (resonance s t) := by
  simp only [resonance_along]
  refine Continuous.if_le ((along_continuous s _).comp (by fun_prop)) ((along_continuous s _).comp (by fun_prop)) continuous_const continuous_id ?_
  rintro t rfl
  simp [along, taylor_zero]

theorem dspace_result (fuel : ℕ) (s : Elset) (m : Mean) (hz : s.irez ≠ 0) (hf : steps s.t < fuel) :
    Sgp4.dspace fuel s m = .ok ({ s with atime := (lastPoint s s.t).time, xli := (lastPoint s s.t).l, xni := (lastPoint s s.t).n },
      { em := m.em + s.dedt * s.t, argpm := m.argpm + s.domdt * s.t, inclm := m.inclm + s.didt * s.t,
        mm := if s.irez ≠ 1 then (resonance s s.t).l - 2 * (m.nodem + s.dnodt * s.t) + 2 * Julian.fmod (s.gsto + s.t * 4.37526908801129966e-3) (2 * Real.pi)
          else (resonance s s.t).l - (m.nodem + s.dnodt * s.t) - (m.argpm + s.domdt * s.t) + Julian.fmod (s.gsto + s.t * 4.37526908801129966e-3) (2 * Real.pi),
        nodem := m.nodem + s.dnodt * s.t, nm := (resonance s s.t).n }) := by
  obtain ⟨o, h, h1, h2, h3, h4, h5⟩ := loop_result s s.t fuel hf
  unfold Sgp4.dspace
  dsimp only
  rw [if_pos hz, h]
  simp only [Res.bind, h1, h2, h3, h4, h5, add_sub_cancel]
  rw [h1] at *
  rw [← h2, ← h3, h4, h5]

theorem fmod_shift (x : ℝ) : ∃ k : ℤ, Julian.fmod x (2 * Real.pi) = x + 2 * Real.pi * k := by
  unfold Julian.fmod
  split_ifs
  · exact ⟨-⌊x / (2 * Real.pi)⌋, by push_cast; ring⟩
  · exact ⟨⌊-x / (2 * Real.pi)⌋, by push_cast; ring⟩

theorem advance_returns (fuel : ℕ) (c : Consts) (s : Elset) (hf : steps s.t < fuel) : ∃ o, Sgp4.advance fuel c s = .ok o := by
  unfold Sgp4.advance
  dsimp only
  by_cases hd : s.method = 'd'
  · rw [if_pos hd]
    by_cases hz : s.irez ≠ 0
    · rw [dspace_result fuel s _ hz hf]; exact ⟨_, rfl⟩
    · unfold Sgp4.dspace
      dsimp only
      rw [if_neg hz]; exact ⟨_, rfl⟩
  · rw [if_neg hd]; exact ⟨_, rfl⟩

theorem advance_fuel (fuel fuel' : ℕ) (c : Consts) (s : Elset) (hf : steps s.t < fuel) (hf' : steps s.t < fuel') : Sgp4.advance fuel c s = Sgp4.advance fuel' c s := by
  unfold Sgp4.advance
  dsimp only
  by_cases hd : s.method = 'd'
  · rw [if_pos hd, if_pos hd]
    by_cases hz : s.irez ≠ 0
    · rw [dspace_result fuel s _ hz hf, dspace_result fuel' s _ hz hf']
    · unfold Sgp4.dspace
      dsimp only
      rw [if_neg hz, if_neg hz]
  · rw [if_neg hd, if_neg hd]

end S2E.Sgp4
