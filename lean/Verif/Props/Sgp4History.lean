import Verif.Proofs.Sgp4Resonance

/-!
# C173, C174: SGP4 has no memory, and always returns
-/
namespace S2E.Sgp4

open S2E.InitOrbit (Wgs)

/-- C173: what a call of `sgp4` returns and writes depends on the record that `sgp4init` made, the constants and the time only. Calls at any other times
before it, in any order and with any return code, make no difference. -/
theorem C173_history (fuel : ℕ) (w : Wgs) (s s' : Elset) (before : List ℝ) (t : ℝ) (h : runs fuel w before s = .ok s') :
    observe (sgp4 fuel w s' t) = observe (sgp4 fuel w s t) := (runs_same fuel w before s s' h).sgp4 fuel w t

/-- C173: the record that `sgp4init` makes does not depend on what was in it before, except for the epoch, which it leaves alone. -/
theorem C173_fresh (fuel : ℕ) (w : Wgs) (epoch bstar ecco argpo inclo mo no nodeo : ℝ) (s s' : Elset) (h : s.jdsatepoch = s'.jdsatepoch) :
    sgp4init fuel w epoch bstar ecco argpo inclo mo no nodeo s = sgp4init fuel w epoch bstar ecco argpo inclo mo no nodeo s' := by
  unfold sgp4init prepare cleared
  simp only [h]

/-- C174: every call returns: the loop of the resonance ends for every record and every time, after one turn for every 720 minutes from the epoch and one
more. (`fuel` only bounds the number of turns of the model.) -/
theorem C174_returns (fuel : ℕ) (w : Wgs) (s : Elset) (t : ℝ) (hf : ⌊|t| / 720⌋₊ < fuel) :
    ∃ o, sgp4 fuel w s t = .ok o ∧ ∀ more, fuel ≤ more → sgp4 more w s t = .ok o := by
  obtain ⟨o, ho⟩ := advance_returns fuel (consts w) { s with t := t, error := 0 } hf
  refine ⟨o, ho, fun more hm => ?_⟩
  have := advance_fuel more fuel (consts w) { s with t := t, error := 0 } (lt_of_lt_of_le hf hm) hf
  exact this.trans ho

/-- C174: `sgp4init` returns as well. -/
theorem C174_init_returns (fuel : ℕ) (w : Wgs) (epoch bstar ecco argpo inclo mo no nodeo : ℝ) (s : Elset) (hf : 0 < fuel) :
    ∃ s', sgp4init fuel w epoch bstar ecco argpo inclo mo no nodeo s = .ok s' := by
  unfold sgp4init
  dsimp only
  generalize prepare w epoch bstar ecco argpo inclo mo no nodeo s = x
  by_cases he : x.error = 0
  · rw [if_pos he]
    obtain ⟨o, ho, _⟩ := C174_returns fuel w x 0 (by simpa using hf)
    rw [ho]
    exact ⟨_, rfl⟩
  · rw [if_neg he]; exact ⟨_, rfl⟩

/-- C174: the resonance of a deep-space record is integrated from the epoch by Taylor steps of second order: whole steps of 720 minutes towards the time,
and one last step of the time left. The mean motion is that of the last point, and the mean longitude is turned back into the mean anomaly with the node,
the perigee and the rotation of the Earth. -/
theorem C174_resonance (fuel : ℕ) (s : Elset) (m : Mean) (hz : s.irez ≠ 0) (hf : ⌊|s.t| / 720⌋₊ < fuel) :
    ∃ s' m' theta, dspace fuel s m = .ok (s', m') ∧
      (∃ k : ℤ, theta = s.gsto + s.t * 4.37526908801129966e-3 + 2 * Real.pi * k) ∧
      m'.em = m.em + s.dedt * s.t ∧ m'.inclm = m.inclm + s.didt * s.t ∧ m'.argpm = m.argpm + s.domdt * s.t ∧ m'.nodem = m.nodem + s.dnodt * s.t ∧
      m'.nm = (resonance s s.t).n ∧
      (s.irez = 1 → m'.mm + m'.argpm + m'.nodem - theta = (resonance s s.t).l) ∧
      (s.irez ≠ 1 → m'.mm + 2 * m'.nodem - 2 * theta = (resonance s s.t).l) ∧
      s' = { s with atime := s'.atime, xli := s'.xli, xni := s'.xni } ∧
      s'.atime = (if 0 < s.t then 720 else -720) * ⌊|s.t| / 720⌋₊ ∧ |s.t - s'.atime| < 720 := by
  refine ⟨_, _, _, dspace_result fuel s m hz hf, fmod_shift _, rfl, rfl, rfl, rfl, rfl, fun h1 => ?_, fun h1 => ?_, rfl, ?_, ?_⟩
  · dsimp only
    rw [if_neg (not_not.2 h1)]; ring
  · dsimp only
    rw [if_pos h1]; ring
  · dsimp only
    unfold lastPoint
    rw [taylor_time]
    change 0 + (⌊|s.t| / 720⌋₊ : ℝ) * (if 0 < s.t then 720 else -720) = _
    ring
  · dsimp only
    unfold lastPoint
    rw [taylor_time]
    change |s.t - (0 + steps s.t * stepTo s.t)| < 720
    have hN : (steps s.t : ℝ) ≤ |s.t| / 720 := Nat.floor_le (by positivity)
    have hN' : |s.t| / 720 < steps s.t + 1 := Nat.lt_floor_add_one _
    rw [zero_add, left_abs _ _ (by linarith)]
    linarith

/-- C174: the integration has no jumps: the angle and the mean motion are continuous functions of time, also where the number of whole steps changes. -/
theorem C174_continuous (s : Elset) : (Continuous fun t => (resonance s t).l) ∧ Continuous fun t => (resonance s t).n :=
  ⟨continuous_fst.comp (resonance_continuous s), continuous_snd.comp (resonance_continuous s)⟩

/-- C174: a record without resonance keeps its mean motion and moves at constant rates. -/
theorem C174_no_resonance (fuel : ℕ) (s : Elset) (m : Mean) (hz : s.irez = 0) :
    dspace fuel s m = .ok ({ s with atime := 0 },
      ⟨m.em + s.dedt * s.t, m.argpm + s.domdt * s.t, m.inclm + s.didt * s.t, m.mm + s.dmdt * s.t, m.nodem + s.dnodt * s.t, m.nm⟩) := by
  unfold dspace
  dsimp only
  rw [if_neg (not_not.2 hz)]

/-! Cases that meet the hypotheses. -/

/-- Any record, of any kind, after calls at three times: the calls return, and the record they leave is the subject of `C173_history`. -/
example (w : Wgs) (s : Elset) : ∃ s', runs 5 w [1500, -2200.5, 0] s = .ok s' := by
  obtain ⟨a, ha, _⟩ := C174_returns 5 w s 1500 (by norm_num [Nat.floor_lt])
  obtain ⟨b, hb, _⟩ := C174_returns 5 w a.elset (-2200.5) (by norm_num [Nat.floor_lt, abs_of_neg])
  obtain ⟨c, hc, _⟩ := C174_returns 5 w b.elset 0 (by norm_num)
  exact ⟨c.elset, by simp [runs, ha, hb, hc, Res.bind]⟩

/-- A resonant record at 1500 minutes: two whole steps. -/
example (s : Elset) (m : Mean) (hz : s.irez = 1) (ht : s.t = 1500) : ∃ s' m', dspace 3 s m = .ok (s', m') ∧ s'.atime = 1440 := by
  have e : ⌊|s.t| / 720⌋₊ = 2 := by rw [ht, Nat.floor_eq_iff (by norm_num)]; norm_num
  obtain ⟨s', m', _, h, _, _, _, _, _, _, _, _, _, h2, _⟩ := C174_resonance 3 s m (by omega) (by rw [e]; norm_num)
  refine ⟨s', m', h, ?_⟩
  rw [h2, e, ht]; norm_num

/-- The force moves the angle: with one term of the synchronous resonance the mean motion changes. -/
example (s : Elset) (h1 : s.irez = 1) (h2 : s.del1 = 1) (h3 : s.del2 = 0) (h4 : s.del3 = 0) : force s 0 (Real.pi / 2 + 0.13130908) = 1 := by
  simp [force, terms, h1, h2, h3, h4]

end S2E.Sgp4
