import Verif.Model.SimTime
import Mathlib.Tactic.NormNum
/-!
# One step of the simulation clock
-/
namespace S2E

variable {K : Type} [Field K] [LinearOrder K] [IsStrictOrderedRing K] [FloorRing K]

/-! ## Single step -/

omit [IsStrictOrderedRing K] in
theorem TimeSt.pace_frame {c : TimeCfg K} {r : ClockReads} {s s' : TimeSt K} (h : s.pace c r = .ok s') :
    s' = { s with elapsed := s'.elapsed, clockLast := s'.clockLast } := by
  unfold pace at h
  split at h
  · rcases h1 : toInt32 (s.elapsed * 1000 - (durMs r.wait s.clockStart : K) * c.speed) with v | _ | _ | _ <;>
      simp only [h1, Res.bind_ok, Res.bind_ub, Res.bind_throws, Res.bind_stuck, reduceCtorEq] at h
    split at h
    · split at h <;> · cases h; rfl
    · cases h; rfl
  · cases h; rfl

omit [IsStrictOrderedRing K] in
theorem TimeSt.pace_off {c : TimeCfg K} (hoff : c.speed ≤ 0) (r : ClockReads) (s : TimeSt K) : s.pace c r = .ok s := by
  simp [pace, not_lt.2 hoff]

omit [IsStrictOrderedRing K] in
/-- Everything one update does to the counters, flags and clocks. -/
theorem TimeSt.update_spec {A : Arith K} {c : TimeCfg K} {r : ClockReads} {s s' : TimeSt K} (h : s.update A c r = .ok s') :
    s'.attitude = s.attitude.tick A c.step c.attitude ∧ s'.orbit = s.orbit.tick A c.step c.orbit ∧
    s'.thermal = s.thermal.tick A c.step c.thermal ∧ s'.component = s.component.tick A c.step c.component ∧
    (s'.logOut = true ↔ c.log ≤ A.prod (s.logCount + 1) c.step) ∧
    (s'.logCount = if c.log ≤ A.prod (s.logCount + 1) c.step then 0 else s.logCount + 1) ∧
    (s'.finish = true ↔ c.endSec < s'.elapsed) ∧ s'.jd = c.startJd + s'.elapsed / 86400 ∧
    (s'.dispOut = true ↔ c.displayPeriod ≤ ((s.dispCount + 1 : Int) : K)) ∧
    (c.displayPeriod ≤ ((s.dispCount + 1 : Int) : K) → s'.dispCount = s.dispCount + 1 - truncZ c.displayPeriod) ∧
    (¬ c.displayPeriod ≤ ((s.dispCount + 1 : Int) : K) → s'.dispCount = s.dispCount + 1) ∧
    s'.clockStart = s.clockStart ∧
    (∃ p, (s.advance A c).pace c r = .ok p ∧ s'.elapsed = p.elapsed ∧ s'.clockLast = p.clockLast) := by
  unfold update at h
  simp only at h
  rcases hp : (s.advance A c).pace c r with p | _ | _ | _ <;>
    simp only [hp, Res.bind_ok, Res.bind_ub, Res.bind_throws, Res.bind_stuck, reduceCtorEq] at h
  have hf := pace_frame hp
  have e60 : (60 * 60 * 24 : K) = 86400 := by norm_num
  rw [e60] at h
  rw [hf] at h
  simp only [advance, initializeState, tickLog, tickDisp, ge_iff_le, gt_iff_lt] at h
  clear hf hp e60
  generalize (86400 : K) = d at h ⊢
  by_cases h3 : c.displayPeriod ≤ ((s.dispCount + 1 : Int) : K)
  · rcases hd : toInt32 c.displayPeriod with v | _ | _ | _ <;>
      by_cases h1 : c.endSec < p.elapsed <;> by_cases h2 : c.log ≤ A.prod (s.logCount + 1) c.step <;>
      simp only [h1, h2, h3, hd, if_true, if_false, Res.bind_ok, Res.bind_ub, Res.bind_throws, Res.bind_stuck, reduceCtorEq] at h ⊢
    all_goals
      have hv : truncZ c.displayPeriod = v := by
        unfold toInt32 at hd; split at hd
        · exact Res.ok.inj hd
        · cases hd
      rw [hv]
      obtain rfl := Res.ok.inj h
      refine ⟨rfl, rfl, rfl, rfl, by simp, by simp, by simp [h1], rfl, by simp, by simp, by simp, rfl, p, rfl, rfl, rfl⟩
  · by_cases h1 : c.endSec < p.elapsed <;> by_cases h2 : c.log ≤ A.prod (s.logCount + 1) c.step <;>
      simp only [h1, h2, h3, if_true, if_false, Res.bind_ok] at h ⊢
    all_goals
      obtain rfl := Res.ok.inj h
      refine ⟨rfl, rfl, rfl, rfl, by simp, by simp, by simp [h1], rfl, by simp, by simp, by simp, rfl, p, rfl, rfl, rfl⟩

end S2E
