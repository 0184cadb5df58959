import Verif.Proofs.SimTime
import Mathlib.Data.Rat.Floor
import Mathlib.Algebra.Order.Floor.Semiring
import Mathlib.Tactic.Linarith
import Mathlib.Tactic.FieldSimp
import Mathlib.Tactic.NormNum
import Mathlib.Tactic.Ring
import Mathlib.Tactic.Positivity
/-!
# C26–C32: simulation time, scheduling flags and the main loop
-/
namespace S2E

variable {K : Type} [Field K] [LinearOrder K] [IsStrictOrderedRing K] [FloorRing K]

/-! ## Specification vocabulary -/

/-- The four propagated subsystems. -/
inductive Subsystem where
  | attitude | orbit | thermal | component

/-- Configured update interval. -/
def TimeCfg.interval (c : TimeCfg K) : Subsystem → K
  | .attitude => c.attitude
  | .orbit => c.orbit
  | .thermal => c.thermal
  | .component => c.component

/-- The public update flags. -/
def TimeSt.updateFlag (s : TimeSt K) : Subsystem → Bool
  | .attitude => s.attitude.flag
  | .orbit => s.orbit.flag
  | .thermal => s.thermal.flag
  | .component => s.component.flag

/-- `k` is the least positive number of steps whose (rounded) total duration `f k` reaches the interval. -/
def LeastCount (f : Nat → K) (interval : K) (k : Nat) : Prop :=
  0 < k ∧ interval ≤ f k ∧ ∀ j, 0 < j → j < k → f j < interval

/-! ## C26, C27: periodic flags -/

omit [Field K] [IsStrictOrderedRing K] [FloorRing K] in
theorem LeastCount.iff {f : Nat → K} {I : K} {k m : Nat} (h : LeastCount f I k) (hm : m < k) : I ≤ f (m + 1) ↔ m + 1 = k := by
  constructor
  · intro hi
    by_contra hne
    exact absurd (h.2.2 (m + 1) (by omega) (by omega)) (not_lt.2 hi)
  · intro e; rw [e]; exact h.2.1

omit [IsStrictOrderedRing K] [FloorRing K] in
theorem Timer.tick_least {A : Arith K} {step I : K} {k : Nat} (h : LeastCount (fun n => A.prod n step) I k) {t : Timer} (ht : t.count < k) :
    t.tick A step I = ⟨(t.count + 1) % k, decide (k ∣ t.count + 1)⟩ := by
  have hi := h.iff ht
  unfold tick
  by_cases e : t.count + 1 = k
  · rw [if_pos (hi.2 e), e]; simp
  · rw [if_neg (fun hh => e (hi.1 hh)), Nat.mod_eq_of_lt (by omega)]
    congr 1
    symm
    rw [decide_eq_false_iff_not]
    intro hd
    exact absurd (Nat.le_of_dvd (by omega) hd) (by omega)

omit [IsStrictOrderedRing K] [FloorRing K] in
/-- A counter started at 1 fires at call `n` iff `k ∣ n + 1`. -/
theorem Timer.iterate_from_one {A : Arith K} {step I : K} {k : Nat} (h : LeastCount (fun n => A.prod n step) I k)
    (hmono : I ≤ A.prod 1 step → I ≤ A.prod 2 step) (n : Nat) :
    (Timer.tick A step I)^[n + 1] ⟨1, false⟩ = ⟨(n + 2) % k, decide (k ∣ n + 2)⟩ := by
  have hk := h.1
  induction n with
  | zero =>
    simp only [Function.iterate_succ, Function.iterate_zero, Function.comp_apply, id]
    by_cases h1 : 1 < k
    · rw [tick_least h (by simpa using h1)]
    · have : k = 1 := by omega
      subst this
      have := hmono h.2.1
      simp [tick, this]
  | succ n ih =>
    rw [Function.iterate_succ', Function.comp_apply, ih, tick_least h (Nat.mod_lt _ hk)]
    have e : ((n + 2) % k + 1) % k = (n + 1 + 2) % k := by
      rw [Nat.add_mod ((n + 2) % k), Nat.mod_mod, ← Nat.add_mod]
    have e2 : k ∣ (n + 2) % k + 1 ↔ k ∣ n + 1 + 2 := by
      rw [Nat.dvd_iff_mod_eq_zero, Nat.dvd_iff_mod_eq_zero, e]
    simp only [e, e2]

omit [IsStrictOrderedRing K] in
theorem TimeSt.steps_timers {A : Arith K} {c : TimeCfg K} {r : Nat → ClockReads} (n : Nat) : ∀ {s s' : TimeSt K},
    s.steps A c r n = .ok s' →
    s'.attitude = (Timer.tick A c.step c.attitude)^[n] s.attitude ∧ s'.orbit = (Timer.tick A c.step c.orbit)^[n] s.orbit ∧
    s'.thermal = (Timer.tick A c.step c.thermal)^[n] s.thermal ∧
    s'.component = (Timer.tick A c.step c.component)^[n] s.component := by
  induction n with
  | zero => intro s s' h; cases h; exact ⟨rfl, rfl, rfl, rfl⟩
  | succ n ih =>
    intro s s' h
    rw [steps] at h
    rcases h1 : s.steps A c r n with s1 | _ | _ | _ <;>
      simp only [h1, Res.bind_ok, Res.bind_ub, Res.bind_throws, Res.bind_stuck, reduceCtorEq] at h
    obtain ⟨a1, a2, a3, a4⟩ := ih h1
    obtain ⟨b1, b2, b3, b4, -⟩ := update_spec h
    rw [b1, b2, b3, b4, a1, a2, a3, a4]
    simp only [Function.iterate_succ', Function.comp_apply, and_self]

/-- **C26.** For every configuration, every rounding of the counter product, every wall clock and every number `n ≥ 1` of updates:
the flag of a subsystem is raised by the `n`-th update iff `k ∣ n + 1`, where `k` is the least positive number of steps that
reaches the configured interval. Nothing relates the four subsystems. `hmono` is the only use of the rounding: two steps are not
shorter than one. -/
theorem C26_flags_periodic (A : Arith K) (c : TimeCfg K) (clk : Int) (r : Nat → ClockReads) (sub : Subsystem) (k : Nat)
    (hk : LeastCount (fun n => A.prod n c.step) (c.interval sub) k)
    (hmono : A.prod 1 c.step ≤ A.prod 2 c.step)
    (n : Nat) (hn : 1 ≤ n) (s : TimeSt K) (hs : (TimeSt.init c clk).steps A c r n = .ok s) :
    s.updateFlag sub = true ↔ k ∣ n + 1 := by
  obtain ⟨m, rfl⟩ : ∃ m, n = m + 1 := ⟨n - 1, by omega⟩
  obtain ⟨a1, a2, a3, a4⟩ := TimeSt.steps_timers _ hs
  have hm := Timer.iterate_from_one hk (fun h => le_trans h hmono) m
  cases sub <;> simp only [TimeSt.updateFlag] <;>
    [rw [a1]; rw [a2]; rw [a3]; rw [a4]] <;>
    (simp only [TimeCfg.interval] at hm; simp only [TimeSt.init]; rw [hm]; simp)

/-- **C26.** Consecutive raises are exactly `k` updates apart. -/
theorem C26_spacing (A : Arith K) (c : TimeCfg K) (clk : Int) (r : Nat → ClockReads) (sub : Subsystem) (k : Nat)
    (hk : LeastCount (fun n => A.prod n c.step) (c.interval sub) k) (hmono : A.prod 1 c.step ≤ A.prod 2 c.step)
    (n m : Nat) (hn : 1 ≤ n) (hm : 0 < m) (s s' : TimeSt K)
    (hs : (TimeSt.init c clk).steps A c r n = .ok s) (hs' : (TimeSt.init c clk).steps A c r (n + m) = .ok s')
    (hraised : s.updateFlag sub = true) : (s'.updateFlag sub = true ↔ k ∣ m) := by
  have h1 := (C26_flags_periodic A c clk r sub k hk hmono n hn s hs).1 hraised
  rw [C26_flags_periodic A c clk r sub k hk hmono (n + m) (by omega) s' hs', show n + m + 1 = (n + 1) + m by omega]
  exact Nat.dvd_add_right h1

omit [IsStrictOrderedRing K] in
theorem TimeSt.steps_log {A : Arith K} {c : TimeCfg K} {clk : Int} {r : Nat → ClockReads} {k : Nat}
    (hk : LeastCount (fun n => A.prod n c.step) c.log k) (n : Nat) : ∀ {s : TimeSt K},
    (TimeSt.init c clk).steps A c r n = .ok s → s.logCount = n % k ∧ (s.logOut = true ↔ k ∣ n) := by
  induction n with
  | zero => intro s h; cases h; simp [init]
  | succ n ih =>
    intro s h
    rw [steps] at h
    rcases h1 : (TimeSt.init c clk).steps A c r n with s1 | _ | _ | _ <;>
      simp only [h1, Res.bind_ok, Res.bind_ub, Res.bind_throws, Res.bind_stuck, reduceCtorEq] at h
    obtain ⟨a1, -⟩ := ih h1
    obtain ⟨-, -, -, -, b1, b2, -⟩ := update_spec h
    have hlt : n % k < k := Nat.mod_lt _ hk.1
    have hi := hk.iff hlt
    rw [a1, hi] at b1
    rw [a1] at b2
    have hdv : k ∣ n + 1 ↔ n % k + 1 = k := by
      rw [Nat.dvd_iff_mod_eq_zero, Nat.add_mod]
      constructor
      · intro hz
        by_contra hne
        rcases Nat.lt_or_ge 1 k with hk1 | hk1
        · rw [Nat.mod_eq_of_lt hk1, Nat.mod_eq_of_lt (by omega)] at hz
          omega
        · have : k = 1 := by have := hk.1; omega
          subst this; omega
      · intro he
        rcases Nat.lt_or_ge 1 k with hk1 | hk1
        · rw [Nat.mod_eq_of_lt hk1, he, Nat.mod_self]
        · have : k = 1 := by have := hk.1; omega
          subst this; omega
    refine ⟨?_, by rw [b1, hdv]⟩
    rw [b2]
    by_cases he : n % k + 1 = k
    · rw [if_pos (hi.2 he)]; symm; exact Nat.mod_eq_zero_of_dvd (hdv.2 he)
    · rw [if_neg (fun hh => he (hi.1 hh))]
      rcases Nat.lt_or_ge 1 k with hk1 | hk1
      · symm
        rw [Nat.add_mod n 1, Nat.mod_eq_of_lt hk1, Nat.mod_eq_of_lt (show n % k + 1 < k by omega)]
      · have : k = 1 := by have := hk.1; omega
        subst this; omega

omit [IsStrictOrderedRing K] in
/-- **C27.** A log row is requested after `n` updates iff `k ∣ n` (in particular at `n = 0`), with `k` the least positive number of
steps that reaches the log interval; for every rounding and every wall clock. -/
theorem C27_log_periodic (A : Arith K) (c : TimeCfg K) (clk : Int) (r : Nat → ClockReads) (k : Nat)
    (hk : LeastCount (fun n => A.prod n c.step) c.log k) (n : Nat) (s : TimeSt K)
    (hs : (TimeSt.init c clk).steps A c r n = .ok s) : s.logOut = true ↔ k ∣ n :=
  (TimeSt.steps_log hk n hs).2

-- Non-vacuity of C26/C27: step 0.1, interval 0.25 gives `k = 3`; exact products are monotone; ten updates succeed.
example : LeastCount (fun n => (Arith.exact : Arith ℚ).prod n (1 / 10)) (1 / 4) 3 := by
  refine ⟨by omega, by norm_num [Arith.exact], fun j h1 h2 => ?_⟩
  have : j = 1 ∨ j = 2 := by omega
  rcases this with rfl | rfl <;> norm_num [Arith.exact]

/-! ## C28–C30: the main loop -/

/-- The configuration a run without real-time pacing needs: pacing off, a positive step, a non-negative duration, and a display period
that fits an `int` (otherwise line 173 is undefined). -/
structure TimeCfg.Plain (c : TimeCfg K) : Prop where
  speed : c.speed ≤ 0
  step : 0 < c.step
  endSec : 0 ≤ c.endSec
  display : c.displayPeriod < 2 ^ 31

theorem TimeCfg.Plain.toInt {c : TimeCfg K} (h : c.Plain) : ∃ d, toInt32 c.displayPeriod = .ok d := by
  have h0 : 0 ≤ c.displayPeriod := by
    unfold displayPeriod
    exact div_nonneg (div_nonneg h.endSec h.step.le) (by norm_num)
  refine ⟨truncZ c.displayPeriod, ?_⟩
  unfold toInt32
  rw [if_pos]
  rw [truncZ, if_pos h0]
  have h1 := Int.floor_nonneg.2 h0
  have h2 : ⌊c.displayPeriod⌋ < 2 ^ 31 := by
    rw [Int.floor_lt]; have := h.display; norm_num at this ⊢; exact this
  constructor <;> omega

theorem TimeSt.update_plain {A : Arith K} {c : TimeCfg K} (h : c.Plain) (r : ClockReads) (s : TimeSt K) :
    ∃ s', s.update A c r = .ok s' ∧ s'.elapsed = A.add s.elapsed c.step := by
  obtain ⟨d, hd⟩ := h.toInt
  have hex : ∃ s', s.update A c r = .ok s' := by
    have htd : ∀ s : TimeSt K, ∃ s', s.tickDisp c = .ok s' := by
      intro s
      unfold tickDisp
      split
      · exact ⟨_, by rw [hd]; rfl⟩
      · exact ⟨_, rfl⟩
    unfold update
    rw [pace_off h.speed]
    simp only [Res.bind_ok]
    obtain ⟨s', hs'⟩ := htd (((let s := if (s.advance A c).elapsed > c.endSec then { s.advance A c with finish := true } else s.advance A c
      let s := { s with jd := c.startJd + s.elapsed / (60 * 60 * 24) }
      { s with
        attitude := s.attitude.tick A c.step c.attitude
        orbit := s.orbit.tick A c.step c.orbit
        thermal := s.thermal.tick A c.step c.thermal
        component := s.component.tick A c.step c.component } : TimeSt K)).tickLog A c)
    simp only at hs'
    rw [hs']
    exact ⟨_, rfl⟩
  obtain ⟨s', hs⟩ := hex
  refine ⟨s', hs, ?_⟩
  obtain ⟨-, -, -, -, -, -, -, -, -, -, -, -, p, hp, he, -⟩ := update_spec hs
  rw [pace_off h.speed] at hp
  rw [he, ← Res.ok.inj hp]
  rfl

theorem TimeSt.steps_plain {A : Arith K} {c : TimeCfg K} (h : c.Plain) (r : Nat → ClockReads) (n : Nat) (s : TimeSt K) :
    ∃ s', s.steps A c r n = .ok s' ∧ s'.elapsed = (fun e => A.add e c.step)^[n] s.elapsed := by
  induction n with
  | zero => exact ⟨s, rfl, rfl⟩
  | succ n ih =>
    obtain ⟨s1, h1, e1⟩ := ih
    obtain ⟨s2, h2, e2⟩ := update_plain (A := A) h (r n) s1
    exact ⟨s2, by simp [steps, h1, h2], by rw [Function.iterate_succ', Function.comp_apply, ← e1, e2]⟩

/-- The history of states without pacing. -/
theorem TimeSt.history_plain {A : Arith K} {c : TimeCfg K} (h : c.Plain) (clk : Int) (r : Nat → ClockReads) :
    ∃ T : Nat → TimeSt K, T 0 = TimeSt.init c clk ∧ (∀ n, (T n).update A c (r n) = .ok (T (n + 1))) ∧
      (∀ n, (TimeSt.init c clk).steps A c r n = .ok (T n)) ∧ ∀ n, (T n).elapsed = (fun e => A.add e c.step)^[n] 0 := by
  choose T hT using fun n => steps_plain (A := A) h r n (TimeSt.init c clk)
  have h0 : T 0 = TimeSt.init c clk := (Res.ok.inj (hT 0).1).symm
  refine ⟨T, h0, fun n => ?_, fun n => (hT n).1, fun n => (hT n).2⟩
  have := (hT (n + 1)).1
  rw [steps, (hT n).1] at this
  exact this

/-- State of everything but the time after `n` updates of a time history `T`. -/
def worldAt {W : Type} (world : TimeSt K → W → W) (T : Nat → TimeSt K) (w : W) : Nat → W
  | 0 => w
  | n + 1 => world (T (n + 1)) (worldAt world T w n)

/-- Rows among the events. -/
def CaseEvent.rowOf {R : Type} : CaseEvent R → Option R
  | .row r => some r
  | _ => none

omit [IsStrictOrderedRing K] in
theorem caseLoop_spec {W R : Type} {A : Arith K} {c : TimeCfg K} {r : Nat → ClockReads} (world : TimeSt K → W → W)
    (row : TimeSt K → W → R) (T : Nat → TimeSt K) (w0 : W) (N : Nat)
    (hT : ∀ j < N, (T j).update A c (r j) = .ok (T (j + 1))) (hf : ∀ j < N, (T j).finish = false) (hN : (T N).finish = true)
    (d : Nat) : ∀ (j fuel : Nat), j + d = N → d < fuel →
    ∃ ev, caseLoop A c r world row fuel j (T j) (worldAt world T w0 j) = .ok (N, T N, worldAt world T w0 N, ev) ∧
      ev.filterMap CaseEvent.rowOf =
        (((List.range d).map (j + ·)).filter fun i => (T i).logOut).map (fun i => row (T i) (worldAt world T w0 i)) ∧
      CaseEvent.header ∉ ev := by
  induction d with
  | zero =>
    intro j fuel hj hfuel
    obtain ⟨f, rfl⟩ : ∃ f, fuel = f + 1 := ⟨fuel - 1, by omega⟩
    have : j = N := by omega
    subst this
    exact ⟨[], by rw [caseLoop, if_pos hN], by simp, by simp⟩
  | succ d ih =>
    intro j fuel hj hfuel
    obtain ⟨f, rfl⟩ : ∃ f, fuel = f + 1 := ⟨fuel - 1, by omega⟩
    obtain ⟨ev, e1, e2, e3⟩ := ih (j + 1) f (by omega) (by omega)
    have hl : (List.range (d + 1)).map (j + ·) = j :: (List.range d).map (j + 1 + ·) := by
      rw [List.range_succ_eq_map]
      simp only [List.map_cons, List.map_map, Nat.add_zero]
      congr 1
      apply List.map_congr_left
      intro i _; simp only [Function.comp]; omega
    refine ⟨(if (T j).logOut then [CaseEvent.row (row (T j) (worldAt world T w0 j))] else []) ++
      ((if (T (j + 1)).dispOut then [CaseEvent.progress ((T (j + 1)).progression c)] else []) ++ ev), ?_, ?_, ?_⟩
    · rw [caseLoop, if_neg (by simp [hf j (by omega)])]
      rw [hT j (by omega)]
      simp only [Res.bind_ok]
      have : world (T (j + 1)) (worldAt world T w0 j) = worldAt world T w0 (j + 1) := rfl
      rw [this, e1]
      rfl
    · rw [hl, List.filter_cons]
      simp only [List.filterMap_append, e2]
      by_cases h1 : (T j).logOut = true <;> by_cases h2 : (T (j + 1)).dispOut = true <;> simp [h1, h2, CaseEvent.rowOf]
    · simp only [List.mem_append, not_or]
      refine ⟨?_, ?_, e3⟩
      · split <;> simp
      · split <;> simp

theorem iterate_add (step : K) (n : Nat) : (fun e => (Arith.exact : Arith K).add e step)^[n] 0 = n * step := by
  induction n with
  | zero => simp
  | succ n ih => rw [Function.iterate_succ', Function.comp_apply, ih]; simp only [Arith.exact]; push_cast; ring

/-- Elapsed time after `n` updates without pacing, with the rounded addition `A.add`. -/
def elapsedAfter (A : Arith K) (step : K) (n : Nat) : K := (fun e => A.add e step)^[n] 0

/-- **C28** (any rounding of the addition). If `N > 0` is the first number of updates after which the elapsed time exceeds the end
time, the run performs exactly `N` updates and returns, for every behaviour of the simulated world. -/
theorem C28_stops_at_first_excess {W R : Type} (A : Arith K) (c : TimeCfg K) (h : c.Plain) (clk : Int) (r : Nat → ClockReads)
    (world : TimeSt K → W → W) (row : TimeSt K → W → R) (w0 : W) (N : Nat) (hpos : 0 < N)
    (hN : c.endSec < elapsedAfter A c.step N) (hmin : ∀ j, 0 < j → j < N → elapsedAfter A c.step j ≤ c.endSec)
    (fuel : Nat) (hfuel : N < fuel) :
    ∃ t w ev, caseRun A c clk r world row fuel w0 = .ok (N, t, w, ev) ∧ t.elapsed = elapsedAfter A c.step N := by
  obtain ⟨T, h0, hu, -, he⟩ := TimeSt.history_plain (A := A) h clk r
  have hfin : ∀ j, 0 < j → ((T j).finish = true ↔ c.endSec < elapsedAfter A c.step j) := by
    intro j hj
    obtain ⟨i, rfl⟩ : ∃ i, j = i + 1 := ⟨j - 1, by omega⟩
    obtain ⟨-, -, -, -, -, -, hf, -⟩ := TimeSt.update_spec (hu i)
    rw [hf, he]; rfl
  obtain ⟨ev, h1, -, -⟩ := caseLoop_spec (A := A) (c := c) (r := r) world row T w0 N (fun j _ => hu j)
    (fun j hj => by
      rcases Nat.eq_zero_or_pos j with rfl | hp
      · rw [h0]; rfl
      · rw [← Bool.not_eq_true, hfin j hp]; exact not_lt.2 (hmin j hp hj))
    ((hfin N hpos).2 hN) N 0 fuel (by omega) hfuel
  refine ⟨T N, worldAt world T w0 N, .header :: ev, ?_, he N⟩
  rw [h0] at h1
  have : worldAt world T w0 0 = w0 := rfl
  rw [this] at h1
  simp [caseRun, h1]

/-- **C28** (exact arithmetic). The run performs exactly `⌊end/step⌋ + 1` updates, ending at the first elapsed time beyond the end. -/
theorem C28_terminates {W R : Type} (c : TimeCfg K) (h : c.Plain) (clk : Int) (r : Nat → ClockReads)
    (world : TimeSt K → W → W) (row : TimeSt K → W → R) (w0 : W) :
    ∃ t w ev, (∀ fuel > ⌊c.endSec / c.step⌋₊ + 1,
        caseRun Arith.exact c clk r world row fuel w0 = .ok (⌊c.endSec / c.step⌋₊ + 1, t, w, ev)) ∧
      c.endSec < t.elapsed ∧ t.elapsed ≤ c.endSec + c.step := by
  have hs := h.step
  have hq : 0 ≤ c.endSec / c.step := div_nonneg h.endSec hs.le
  have el : ∀ n, elapsedAfter (Arith.exact : Arith K) c.step n = n * c.step := iterate_add c.step
  have hN : c.endSec < elapsedAfter (Arith.exact : Arith K) c.step (⌊c.endSec / c.step⌋₊ + 1) := by
    rw [el]; push_cast
    exact (div_lt_iff₀ hs).1 (Nat.lt_floor_add_one _)
  have hle : (⌊c.endSec / c.step⌋₊ : K) * c.step ≤ c.endSec := (le_div_iff₀ hs).1 (Nat.floor_le hq)
  have hmin : ∀ j, 0 < j → j < ⌊c.endSec / c.step⌋₊ + 1 → elapsedAfter (Arith.exact : Arith K) c.step j ≤ c.endSec := by
    intro j _ hj
    rw [el]
    have : (j : K) ≤ ⌊c.endSec / c.step⌋₊ := by exact_mod_cast Nat.lt_succ_iff.1 hj
    exact le_trans (mul_le_mul_of_nonneg_right this hs.le) hle
  obtain ⟨T, h0, hu, -, he⟩ := TimeSt.history_plain (A := Arith.exact) h clk r
  have key := fun fuel hf => C28_stops_at_first_excess Arith.exact c h clk r world row w0 _ (Nat.succ_pos _) hN hmin fuel hf
  obtain ⟨t, w, ev, h1, h2⟩ := key (⌊c.endSec / c.step⌋₊ + 2) (by omega)
  refine ⟨t, w, ev, fun fuel hf => ?_, by rw [h2]; exact hN, ?_⟩
  · -- the result does not depend on the fuel
    have mono : ∀ (f n : Nat) (t : TimeSt K) (w : W) x, caseLoop Arith.exact c r world row f n t w = .ok x →
        caseLoop Arith.exact c r world row (f + 1) n t w = .ok x := by
      intro f
      induction f with
      | zero => intro n t w x h; cases h
      | succ f ih =>
        intro n t w x hx
        rw [caseLoop] at hx ⊢
        split at hx
        · rw [if_pos (by assumption)]; exact hx
        · rw [if_neg (by assumption)]
          rcases h1 : t.update Arith.exact c (r n) with t1 | _ | _ | _ <;>
            simp only [h1, Res.bind_ok, Res.bind_ub, Res.bind_throws, Res.bind_stuck, reduceCtorEq] at hx ⊢
          rcases h2 : caseLoop Arith.exact c r world row f (n + 1) t1 (world t1 w) with y | _ | _ | _ <;>
            simp only [h2, Res.bind_ok, Res.bind_ub, Res.bind_throws, Res.bind_stuck, reduceCtorEq] at hx
          rw [ih _ _ _ _ h2]
          simpa using hx
    have mono2 : ∀ d, caseRun Arith.exact c clk r world row (⌊c.endSec / c.step⌋₊ + 2 + d) w0 =
        .ok (⌊c.endSec / c.step⌋₊ + 1, t, w, ev) := by
      intro d
      induction d with
      | zero => exact h1
      | succ d ih =>
        unfold caseRun at ih ⊢
        rcases h2 : caseLoop Arith.exact c r world row (⌊c.endSec / c.step⌋₊ + 2 + d) 0 (TimeSt.init c clk) w0 with y | _ | _ | _ <;>
          simp only [h2, Res.bind_ok, Res.bind_ub, Res.bind_throws, Res.bind_stuck, reduceCtorEq] at ih
        rw [← Nat.add_assoc, mono _ _ _ _ _ h2]
        simpa using ih
    obtain ⟨d, rfl⟩ : ∃ d, fuel = ⌊c.endSec / c.step⌋₊ + 2 + d := ⟨fuel - (⌊c.endSec / c.step⌋₊ + 2), by omega⟩
    exact mono2 d
  · rw [h2, el]; push_cast
    rw [add_mul, one_mul]
    exact add_le_add_left hle _

/-- **C29.** Without pacing, after `n` updates the elapsed time is `n * step`, the Julian date is `start + n * step / 86400` and the
ephemeris time is `start + n * step`. -/
theorem C29_uniform_clocks (c : TimeCfg K) (h : c.Plain) (clk : Int) (r : Nat → ClockReads) (n : Nat) :
    ∃ s, (TimeSt.init c clk).steps Arith.exact c r n = .ok s ∧ s.elapsed = n * c.step ∧
      s.jd = c.startJd + n * c.step / 86400 ∧ s.ephemeris c = c.startEt + n * c.step := by
  obtain ⟨T, h0, hu, hst, he⟩ := TimeSt.history_plain (A := Arith.exact) h clk r
  have hel := (he n).trans (iterate_add c.step n)
  refine ⟨T n, hst n, hel, ?_, by rw [TimeSt.ephemeris, hel]⟩
  rcases Nat.eq_zero_or_pos n with rfl | hp
  · rw [h0]; simp [TimeSt.init]
  · obtain ⟨i, rfl⟩ : ∃ i, n = i + 1 := ⟨n - 1, by omega⟩
    obtain ⟨-, -, -, -, -, -, -, hj, -⟩ := TimeSt.update_spec (hu i)
    rw [hj, hel]

theorem range_filter_dvd (k n : Nat) (hk : 0 < k) :
    (List.range (n + 1)).filter (fun i => decide (k ∣ i)) = (List.range (n / k + 1)).map (· * k) := by
  induction n with
  | zero => simp
  | succ n ih =>
    rw [List.range_succ, List.filter_append, ih]
    by_cases hd : k ∣ n + 1
    · obtain ⟨q, hq⟩ := hd
      have e : (n + 1) / k = q := by rw [hq, Nat.mul_div_cancel_left _ hk]
      have e2 : n / k + 1 = q := by
        have h1 := Nat.div_add_mod n k
        have h2 := Nat.mod_lt n hk
        have h3 : k * (n / k) < k * q := by omega
        have h4 := Nat.lt_of_mul_lt_mul_left h3
        have h5 : k * q ≤ k * (n / k) + k := by omega
        have h6 : k * q ≤ k * (n / k + 1) := by rw [Nat.mul_add]; omega
        have h7 := Nat.le_of_mul_le_mul_left h6 hk
        omega
      rw [e, e2, List.range_succ, List.map_append]
      simp [hq, Nat.mul_comm]
    · have e : (n + 1) / k = n / k := by
        rw [Nat.succ_div, if_neg hd, Nat.add_zero]
      rw [e]; simp [hd]

/-- **C30.** A complete run writes the header first and only once, and then exactly `⌊⌊end/step⌋/k⌋ + 1` rows; row `i` shows the time
`i*k*step` together with the state of the world after exactly `i*k` updates (before the update of that step), for every world. -/
theorem C30_log_rows {W R : Type} (c : TimeCfg K) (h : c.Plain) (k : Nat)
    (hk : LeastCount (fun n => (n : K) * c.step) c.log k) (clk : Int) (r : Nat → ClockReads)
    (world : TimeSt K → W → W) (row : TimeSt K → W → R) (w0 : W) (fuel : Nat) (hfuel : ⌊c.endSec / c.step⌋₊ + 1 < fuel) :
    ∃ T : Nat → TimeSt K, T 0 = TimeSt.init c clk ∧ (∀ n, (T n).update Arith.exact c (r n) = .ok (T (n + 1))) ∧
      (∀ n, (T n).elapsed = n * c.step) ∧
      ∃ n t w ev, caseRun Arith.exact c clk r world row fuel w0 = .ok (n, t, w, .header :: ev) ∧ .header ∉ ev ∧
        ev.filterMap CaseEvent.rowOf =
          (List.range (⌊c.endSec / c.step⌋₊ / k + 1)).map fun i => row (T (i * k)) (worldAt world T w0 (i * k)) := by
  obtain ⟨T, h0, hu, hst, he⟩ := TimeSt.history_plain (A := Arith.exact) h clk r
  have hs := h.step
  have hq : 0 ≤ c.endSec / c.step := div_nonneg h.endSec hs.le
  have hel : ∀ n, (T n).elapsed = n * c.step := fun n => (he n).trans (iterate_add c.step n)
  have hfin : ∀ j, 0 < j → ((T j).finish = true ↔ c.endSec < j * c.step) := by
    intro j hj
    obtain ⟨i, rfl⟩ : ∃ i, j = i + 1 := ⟨j - 1, by omega⟩
    obtain ⟨-, -, -, -, -, -, hf, -⟩ := TimeSt.update_spec (hu i)
    rw [hf, hel]
  have hle : (⌊c.endSec / c.step⌋₊ : K) * c.step ≤ c.endSec := (le_div_iff₀ hs).1 (Nat.floor_le hq)
  obtain ⟨ev, h1, h2, h3⟩ := caseLoop_spec (A := Arith.exact) (c := c) (r := r) world row T w0 (⌊c.endSec / c.step⌋₊ + 1)
    (fun j _ => hu j)
    (fun j hj => by
      rcases Nat.eq_zero_or_pos j with rfl | hp
      · rw [h0]; rfl
      · rw [← Bool.not_eq_true, hfin j hp]
        have : (j : K) ≤ ⌊c.endSec / c.step⌋₊ := by exact_mod_cast Nat.lt_succ_iff.1 hj
        exact not_lt.2 (le_trans (mul_le_mul_of_nonneg_right this hs.le) hle))
    ((hfin _ (Nat.succ_pos _)).2 (by push_cast; exact (div_lt_iff₀ hs).1 (Nat.lt_floor_add_one _)))
    (⌊c.endSec / c.step⌋₊ + 1) 0 fuel (by omega) hfuel
  refine ⟨T, h0, hu, hel, ⌊c.endSec / c.step⌋₊ + 1, T (⌊c.endSec / c.step⌋₊ + 1),
    worldAt world T w0 (⌊c.endSec / c.step⌋₊ + 1), ev, ?_, h3, ?_⟩
  · rw [h0] at h1
    have : worldAt world T w0 0 = w0 := rfl
    rw [this] at h1
    simp [caseRun, h1]
  · rw [h2]
    have : ((List.range (⌊c.endSec / c.step⌋₊ + 1)).map (0 + ·)) = List.range (⌊c.endSec / c.step⌋₊ + 1) := by simp
    rw [this]
    have : (fun i => (T i).logOut) = fun i => decide (k ∣ i) := by
      funext i
      rw [Bool.eq_iff_iff, decide_eq_true_iff]
      exact C27_log_periodic Arith.exact c clk r k hk i (T i) (hst i)
    rw [this, range_filter_dvd _ _ hk.1, List.map_map]
    rfl

-- Non-vacuity: 10 s at 0.1 s steps, logging every 0.25 s.
example : TimeCfg.Plain (⟨10, 1 / 10, 1, 1, 1, 1, 1 / 4, 2459000, 0, 0, 1⟩ : TimeCfg ℚ) :=
  ⟨by norm_num, by norm_num, by norm_num, by norm_num [TimeCfg.displayPeriod]⟩

/-! ## C31: progress display -/

/-- **C31.** Displays happen exactly at updates `⌈D⌉, ⌈D⌉ + ⌊D⌋, ⌈D⌉ + 2⌊D⌋, …` where `D = end/step/100` is the display period,
provided `D ≥ 1`; for every rounding of the schedule and every wall clock. -/
theorem C31_display (A : Arith K) (c : TimeCfg K) (hD : 1 ≤ c.displayPeriod) (clk : Int) (r : Nat → ClockReads) (n : Nat)
    (hn : 1 ≤ n) (s : TimeSt K) (hs : (TimeSt.init c clk).steps A c r n = .ok s) :
    s.dispOut = true ↔ ⌈c.displayPeriod⌉ ≤ n ∧ ⌊c.displayPeriod⌋ ∣ (n : ℤ) - ⌈c.displayPeriod⌉ := by
  have hF : 1 ≤ ⌊c.displayPeriod⌋ := by rw [Int.le_floor]; simpa using hD
  have hFC : ⌊c.displayPeriod⌋ ≤ ⌈c.displayPeriod⌉ := Int.floor_le_ceil _
  have hCF : ⌈c.displayPeriod⌉ ≤ ⌊c.displayPeriod⌋ + 1 := Int.ceil_le_floor_add_one _
  have htr : truncZ c.displayPeriod = ⌊c.displayPeriod⌋ := by rw [truncZ, if_pos (le_trans zero_le_one hD)]
  generalize hFe : ⌊c.displayPeriod⌋ = F at *
  generalize hCe : ⌈c.displayPeriod⌉ = C at *
  have hcond : ∀ m : Int, c.displayPeriod ≤ (m : K) ↔ C ≤ m := by intro m; rw [← hCe, Int.ceil_le]
  -- invariant: the counter is `n - q F` for some number `q` of past displays, below the period
  have inv : ∀ n (s : TimeSt K), (TimeSt.init c clk).steps A c r n = .ok s →
      (0 ≤ s.dispCount ∧ s.dispCount < C) ∧
      (((n : Int) < C ∧ s.dispCount = n) ∨ (C ≤ n ∧ C - F ≤ s.dispCount ∧ F ∣ (n : Int) - s.dispCount)) ∧
      (1 ≤ n → (s.dispOut = true ↔ C ≤ n ∧ F ∣ (n : ℤ) - C)) := by
    intro n
    induction n with
    | zero =>
      intro s h; cases h
      refine ⟨⟨by simp [TimeSt.init], by simp [TimeSt.init]; omega⟩, Or.inl ⟨by simp; omega, by simp [TimeSt.init]⟩, by omega⟩
    | succ n ih =>
      intro s h
      rw [TimeSt.steps] at h
      rcases h1 : (TimeSt.init c clk).steps A c r n with s1 | _ | _ | _ <;>
        simp only [h1, Res.bind_ok, Res.bind_ub, Res.bind_throws, Res.bind_stuck, reduceCtorEq] at h
      obtain ⟨⟨i1, i2⟩, i3, -⟩ := ih s1 h1
      obtain ⟨-, -, -, -, -, -, -, -, b1, b2, b3, -⟩ := TimeSt.update_spec h
      rw [hcond] at b1 b2 b3
      rw [htr] at b2
      by_cases hc : C ≤ s1.dispCount + 1
      · have e1 : s1.dispCount + 1 = C := by omega
        have e2 := b2 hc
        have hdvd : F ∣ ((n + 1 : Nat) : Int) - C := by
          rcases i3 with ⟨_, i3⟩ | ⟨_, _, i3⟩
          · have : ((n + 1 : Nat) : Int) - C = 0 := by push_cast; omega
            rw [this]; exact dvd_zero _
          · have : ((n + 1 : Nat) : Int) - C = (n : Int) - s1.dispCount := by push_cast; omega
            rw [this]; exact i3
        have hCn : C ≤ ((n + 1 : Nat) : Int) := by
          rcases i3 with ⟨_, i3⟩ | ⟨i3, _, _⟩ <;> push_cast <;> omega
        refine ⟨⟨by omega, by omega⟩, Or.inr ⟨hCn, by omega, ?_⟩, fun _ => ?_⟩
        · have : ((n + 1 : Nat) : Int) - s.dispCount = (((n + 1 : Nat) : Int) - C) + F := by rw [e2]; omega
          rw [this]; exact dvd_add hdvd (dvd_refl F)
        · rw [b1]; exact ⟨fun _ => ⟨hCn, hdvd⟩, fun _ => hc⟩
      · have e2 := b3 hc
        refine ⟨⟨by omega, by omega⟩, ?_, fun _ => ?_⟩
        · rcases i3 with ⟨i3, i4⟩ | ⟨i3, i4, i5⟩
          · exact Or.inl ⟨by push_cast; omega, by push_cast; omega⟩
          · refine Or.inr ⟨by push_cast; omega, by omega, ?_⟩
            have : ((n + 1 : Nat) : Int) - s.dispCount = (n : Int) - s1.dispCount := by push_cast; omega
            rw [this]; exact i5
        · rw [b1]
          refine ⟨fun hh => absurd hh hc, fun ⟨hh1, hh2⟩ => ?_⟩
          exfalso
          rcases i3 with ⟨i3, i4⟩ | ⟨i3, i4, i5⟩
          · push_cast at hh1; omega
          · -- F divides C - (count + 1), which lies strictly between 0 and F
            have hd : F ∣ C - (s1.dispCount + 1) := by
              have : C - (s1.dispCount + 1) = ((n : Int) - s1.dispCount) - (((n + 1 : Nat) : Int) - C) := by push_cast; omega
              rw [this]; exact dvd_sub i5 hh2
            have := Int.le_of_dvd (by omega) hd
            omega
  exact (inv n s hs).2.2 hn

/-- **C31.** With fewer than 100 steps to go (`0 ≤ D < 1`) every update displays. -/
theorem C31_display_short (A : Arith K) (c : TimeCfg K) (h0 : 0 ≤ c.displayPeriod) (h1 : c.displayPeriod < 1) (clk : Int)
    (r : Nat → ClockReads) (n : Nat) (hn : 1 ≤ n) (s : TimeSt K) (hs : (TimeSt.init c clk).steps A c r n = .ok s) :
    s.dispOut = true := by
  have htr : truncZ c.displayPeriod = 0 := by
    rw [truncZ, if_pos h0]; exact Int.floor_eq_zero_iff.2 ⟨h0, h1⟩
  have inv : ∀ n (s : TimeSt K), (TimeSt.init c clk).steps A c r n = .ok s → s.dispCount = n ∧ (1 ≤ n → s.dispOut = true) := by
    intro n
    induction n with
    | zero => intro s h; cases h; exact ⟨rfl, by omega⟩
    | succ n ih =>
      intro s h
      rw [TimeSt.steps] at h
      rcases h2 : (TimeSt.init c clk).steps A c r n with s1 | _ | _ | _ <;>
        simp only [h2, Res.bind_ok, Res.bind_ub, Res.bind_throws, Res.bind_stuck, reduceCtorEq] at h
      have i1 := (ih s1 h2).1
      obtain ⟨-, -, -, -, -, -, -, -, b1, b2, -⟩ := TimeSt.update_spec h
      have hc : c.displayPeriod ≤ ((s1.dispCount + 1 : Int) : K) := by
        rw [i1]; push_cast
        have : (0 : K) ≤ n := Nat.cast_nonneg n
        linarith
      refine ⟨by rw [b2 hc, htr, i1]; push_cast; ring, fun _ => b1.2 hc⟩
  exact (inv n s hs).2 hn

/-! ## C32: real-time pacing -/

/-- **C32.** With pacing on and clock readings that do not run backwards, one update either advances the elapsed time by exactly one
step, or sets it to the scaled wall-clock time since the start; the latter is later than the regular value minus one millisecond and
happens only if the step was due (no waiting needed). -/
theorem C32_pacing (A : Arith K) (c : TimeCfg K) (hsp : 0 < c.speed) (r : ClockReads) (s s' : TimeSt K)
    (hclk : s.clockStart ≤ r.wait ∧ r.wait ≤ r.resync) (h : s.update A c r = .ok s') :
    s'.elapsed = A.add s.elapsed c.step ∨
    (s'.elapsed = ((r.resync - s.clockStart : Int) : K) / 1000000000 * c.speed ∧
     A.add s.elapsed c.step - 1 / 1000 < s'.elapsed ∧ s'.clockLast = r.last ∧
     c.limitSec * 1000 < (wrapInt32 (durMs r.exceed s.clockLast) : K)) := by
  obtain ⟨-, -, -, -, -, -, -, -, -, -, -, -, p, hp, he, hl⟩ := TimeSt.update_spec h
  unfold TimeSt.pace at hp
  rw [if_pos hsp] at hp
  rcases h1 : toInt32 ((s.advance A c).elapsed * 1000 - (durMs r.wait (s.advance A c).clockStart : K) * c.speed) with v | _ | _ | _ <;>
    simp only [h1, Res.bind_ok, Res.bind_ub, Res.bind_throws, Res.bind_stuck, reduceCtorEq] at hp
  split at hp
  · next hv =>
    by_cases hx : (wrapInt32 (durMs r.exceed (s.advance A c).clockLast) : K) > c.limitSec * 1000
    · rw [if_pos hx] at hp
      right
      obtain rfl := Res.ok.inj hp
      simp only at he hl
      refine ⟨he, ?_, hl, hx⟩
      have hvt : truncZ (A.add s.elapsed c.step * 1000 - (durMs r.wait s.clockStart : K) * c.speed) = v := by
        unfold toInt32 at h1; split at h1
        · exact Res.ok.inj h1
        · cases h1
      have hlt : A.add s.elapsed c.step * 1000 - (durMs r.wait s.clockStart : K) * c.speed < 1 := by
        by_contra hge
        have hge := not_lt.1 hge
        rw [truncZ, if_pos (by linarith)] at hvt
        have : (1 : Int) ≤ v := by rw [← hvt, Int.le_floor]; simpa using hge
        omega
      have hdur : ((durMs r.wait s.clockStart : Int) : K) * 1000000 ≤ ((r.resync - s.clockStart : Int) : K) := by
        have h2 : durMs r.wait s.clockStart * 1000000 ≤ r.resync - s.clockStart := by
          unfold durMs
          rw [Int.tdiv_eq_ediv_of_nonneg (by omega)]
          have := Int.ediv_mul_le (r.wait - s.clockStart) (show (1000000 : Int) ≠ 0 by omega)
          omega
        exact_mod_cast h2
      rw [he]
      have h3 : (durMs r.wait s.clockStart : K) * c.speed ≤ ((r.resync - s.clockStart : Int) : K) / 1000000 * c.speed := by
        apply mul_le_mul_of_nonneg_right _ hsp.le
        rw [le_div_iff₀ (by norm_num)]; exact hdur
      have h4 : ((r.resync - s.clockStart : Int) : K) / 1000000000 * c.speed =
          ((r.resync - s.clockStart : Int) : K) / 1000000 * c.speed / 1000 := by ring
      show A.add s.elapsed c.step - 1 / 1000 < ((r.resync - s.clockStart : Int) : K) / 1000000000 * c.speed
      rw [h4]
      linarith
    · rw [if_neg hx] at hp
      left; obtain rfl := Res.ok.inj hp; exact he
  · left; obtain rfl := Res.ok.inj hp; exact he

/-- **C32.** If the last in-time completion lies at most `2^31` ms back, a resynchronisation means that more than the limit (1 s) has
passed since then: a shorter overrun never disturbs the simulated time. -/
theorem C32_short_overrun_tolerated (A : Arith K) (c : TimeCfg K) (hsp : 0 < c.speed) (r : ClockReads) (s s' : TimeSt K)
    (hclk : s.clockStart ≤ r.wait ∧ r.wait ≤ r.resync) (hlast : s.clockLast ≤ r.exceed)
    (hshort : ((r.exceed - s.clockLast : Int) : K) ≤ c.limitSec * 1000000000) (hlim : c.limitSec ≤ 2000000)
    (h : s.update A c r = .ok s') : s'.elapsed = A.add s.elapsed c.step := by
  rcases C32_pacing A c hsp r s s' hclk h with h1 | ⟨-, -, -, h1⟩
  · exact h1
  · exfalso
    have hd0 : 0 ≤ durMs r.exceed s.clockLast := by
      unfold durMs; exact Int.tdiv_nonneg (by omega) (by omega)
    have hd1 : durMs r.exceed s.clockLast * 1000000 ≤ r.exceed - s.clockLast := by
      unfold durMs
      rw [Int.tdiv_eq_ediv_of_nonneg (by omega)]
      exact Int.ediv_mul_le _ (by omega)
    have hd2 : ((durMs r.exceed s.clockLast : Int) : K) * 1000000 ≤ c.limitSec * 1000000000 :=
      le_trans (by exact_mod_cast hd1) hshort
    have hd3 : durMs r.exceed s.clockLast ≤ 2000000000 := by
      have : ((durMs r.exceed s.clockLast : Int) : K) ≤ ((2000000000 : Int) : K) := by push_cast; linarith
      exact_mod_cast this
    have hw : wrapInt32 (durMs r.exceed s.clockLast) = durMs r.exceed s.clockLast := by
      unfold wrapInt32
      apply Int.bmod_eq_of_le <;> omega
    rw [hw] at h1
    linarith

-- Non-vacuity of C32: a 0.1 s step finished 2 s late, 2 s after the last in-time step, resynchronises to 2.1 s.
example : (TimeSt.update Arith.exact (⟨10, 1 / 10, 1, 1, 1, 1, 1 / 4, 2459000, 0, 1, 1⟩ : TimeCfg ℚ)
    ⟨2100000000, 2100000000, 2100000000, 2100000000⟩
    { TimeSt.init ⟨10, 1 / 10, 1, 1, 1, 1, 1 / 4, 2459000, 0, 1, 1⟩ 0 with clockLast := 100000000 } >>= fun s => .ok s.elapsed) =
    .ok (21 / 10) := by decide +kernel

/-- Consequence of never initialising the time of the last in-time step (it is the clock's epoch): the very first step, finished 1 ms
late on a machine whose clock shows 2 s after a multiple of 2^32 ms, is treated as an overrun of more than a second. -/
theorem C32_first_step_unprotected :
    let c : TimeCfg ℚ := ⟨10, 1 / 10, 1, 1, 1, 1, 1 / 4, 2459000, 0, 1, 1⟩
    let start : Int := (2 ^ 32 * 400 + 2000) * 1000000
    let now : Int := start + 101000000
    ((TimeSt.init c start).update Arith.exact c ⟨now, now, now, now⟩ >>= fun s => .ok s.elapsed) = .ok (101 / 1000) := by
  decide +kernel

end S2E
