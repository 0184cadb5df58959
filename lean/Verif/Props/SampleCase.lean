import Verif.Model.SampleCase
import Verif.Props.InitCase
import Verif.Props.SimTime
/-! # C197: the lines of the example's log are consistent -/
namespace S2E.SampleCase
open Log Ini InitOrbit InitCase Settings Ground

variable {C : Type} (craft : TimeSt ℝ → C → C) (ecef : C → Vec 3) (rotation : ℝ → Mat 3 3) (T : ℕ → TimeSt ℝ) (start : C) (s : Station)

/-- The updates of the station in the first `n` steps. -/
noncomputable def updates : ℕ → List (Mat 3 3 × ℕ × Vec 3)
  | 0 => []
  | n + 1 => updates n ++ [(rotation (T (n + 1)).elapsed, 0, ecef (worldAt (Targets.update craft ecef rotation) T ⟨start, s⟩ (n + 1)).spacecraft)]

theorem station_at (n : ℕ) : (worldAt (Targets.update craft ecef rotation) T ⟨start, s⟩ n).station = s.run (updates craft ecef rotation T start s n) := by
  induction n with
  | zero => rfl
  | succ n ih =>
    rw [updates, run_append, ← ih]
    rfl

theorem updates_zero (n : ℕ) : ∀ u ∈ updates craft ecef rotation T start s n, u.2.1 = 0 := by
  induction n with
  | zero => intro u hu; exact absurd hu (by simp [updates])
  | succ n ih =>
    intro u hu
    rw [updates, List.mem_append, List.mem_singleton] at hu
    rcases hu with hu | rfl
    · exact ih u hu
    · rfl

/-- **C197.** A complete run of the example case writes a line every `k` steps. In every line but the first, the time, the position of the spacecraft, the
visibility flag and the position of the station belong together: spacecraft 0 is shown as visible exactly when the position in the same line is above
the written elevation limit of the written station, and the Earth rotation of the time in the same line takes the station's inertial position to
its place on the Earth. In the first line (time 0) nothing is visible and the station is at the origin, wherever the spacecraft is. Further
spacecraft in the settings are never visible. -/
theorem C197_lines (rd : Reader) (files : Str → File) (base : Str) (cs : CaseSheet) (hcs : cs.In rd (files base)) (fuel : ℕ)
    (h1 : cs.spacecraftFiles.length < fuel) (h2 : cs.stationFiles.length < fuel) (first : Str) (rest : List Str) (hfirst : cs.stationFiles = first :: rest)
    (st : StationSheet) (h : st.In rd (files first) (numbered "GROUND_STATION_" 0)) (hl : |st.longitude| < 2 ^ 31 * 360) (hlim : |st.limit| ≤ 90)
    (cfg : TimeCfg ℝ) (hp : cfg.Plain) (k : ℕ) (hk : LeastCount (fun n => (n : ℝ) * cfg.step) cfg.log k) (clk : ℤ) (reads : ℕ → ClockReads)
    (hrot : ∀ t, IsRotation (rotation t)) (steps : ℕ) (hsteps : ⌊cfg.endSec / cfg.step⌋₊ + 1 < steps) :
    ∃ (place : Vec 3) (lines : ℕ → Line) (n : ℕ) (t : TimeSt ℝ) (w : Targets C) (ev : List (CaseEvent Line)),
      run rd files base fuel cfg clk reads craft ecef rotation steps start = .ok (n, t, w, .header :: ev) ∧
      ev.filterMap CaseEvent.rowOf = (List.range (⌊cfg.endSec / cfg.step⌋₊ / k + 1)).map lines ∧
      Geodesy.HasGeodetic Geodetic.earthRadius Geodetic.flattening place (st.latitude * (Real.pi / 180)) (st.longitude * (Real.pi / 180)) st.height ∧
      (∀ i, (lines i).time = (i * k : ℕ) * cfg.step) ∧
      (lines 0).position = ecef start ∧ (lines 0).stationPosition = (fun _ => 0) ∧ (∀ j < cs.spacecraftNumber, (lines 0).visible j = .ok false) ∧
      (∀ i, 0 < i →
        (∃ b, (lines i).visible 0 = .ok b ∧
          (b = true ↔ st.limit * (Real.pi / 180) < elevation (st.latitude * (Real.pi / 180)) (st.longitude * (Real.pi / 180)) place (lines i).position)) ∧
        matVec (rotation (lines i).time) (lines i).stationPosition = place ∧
        ∀ j, 0 < j → j < cs.spacecraftNumber → (lines i).visible j = .ok false) := by
  obtain ⟨g, hg, hn, hgeo⟩ := C196_station rd files
    ⟨base, cs.spacecraftNumber, cs.spacecraftFiles, cs.stationNumber, cs.stationFiles, cs.interSatFile, cs.gnssFile⟩ first rest hfirst 0 st h hl
  obtain ⟨g', hg', hgeo', hpos⟩ := C127_station st.latitude st.longitude st.height st.limit cs.spacecraftNumber hl
  obtain rfl : g' = g := Res.ok.inj (hg'.symm.trans hn)
  obtain ⟨T, hT0, hT, hel, n, t, w, ev, hrun, -, hrows⟩ := C30_log_rows cfg hp k hk clk reads (Targets.update craft ecef rotation) (line ecef) ⟨start, g'⟩ steps hsteps
  have hz := updates_zero craft ecef rotation T start g'
  refine ⟨g'.positionEcef, fun i => line ecef (T (i * k)) (worldAt (Targets.update craft ecef rotation) T ⟨start, g'⟩ (i * k)), n, t, w, ev, ?_, hrows, hgeo,
    fun i => ?_, ?_, ?_, ?_, ?_⟩
  · unfold run
    rw [C196_configuration rd files base cs hcs fuel h1 h2]
    change (initStation rd files _ 0).bind _ = _
    rw [hg]
    exact hrun
  · exact hel _
  · dsimp only [line]
    rw [Nat.zero_mul]; rfl
  · dsimp only [line]
    rw [Nat.zero_mul, station_at]
    show g'.positionI = _
    unfold Station.new at hn
    dsimp only at hn
    rcases e : (Geodetic.GeodeticPosition.new (st.latitude * degToRad) (st.longitude * degToRad) st.height).calcEcefPosition with q | _ | _ | _ <;>
      rw [e] at hn <;> simp only [Res.bind, reduceCtorEq] at hn
    obtain rfl := Res.ok.inj hn
    rfl
  · intro j hj
    dsimp only [line]
    rw [Nat.zero_mul, station_at]
    exact (C127_initial _ _ _ _ _ g' hn [] j (by simp)).1 hj
  · intro i hi
    obtain ⟨m, hm⟩ : ∃ m, i * k = m + 1 := ⟨i * k - 1, by have := Nat.mul_pos hi hk.1; omega⟩
    have hs := station_at craft ecef rotation T start g' (m + 1)
    rw [updates] at hs
    refine ⟨?_, ?_, ?_⟩
    · dsimp only [line]
      rw [hm, hs]
      have := C127_visible _ _ _ _ _ g' hn hlim (updates craft ecef rotation T start g' m) [] (rotation (T (m + 1)).elapsed) 0
        (ecef (worldAt (Targets.update craft ecef rotation) T ⟨start, g'⟩ (m + 1)).spacecraft) (by simp)
      rw [List.append_nil] at this
      exact this
    · dsimp only [line]
      rw [hm, hs]
      exact (hpos _ _ _ _ (hrot _)).1
    · intro j hj hj2
      dsimp only [line]
      rw [hm, station_at]
      exact (C127_initial _ _ _ _ _ g' hn _ j (fun u hu => by rw [hz _ u hu]; omega)).1 hj2

/-! ### A spacecraft that is carried straight above the station -/

/-- The settings of C196 with a station number 0. -/
def exFiles : Str → File := fun path sec key => InitCase.exFiles path (if sec = "GROUND_STATION_0".toList then "GROUND_STATION_1".toList else sec) key

theorem exFiles_base (sec key : Str) : exFiles "base.ini".toList sec key = InitCase.exFiles "base.ini".toList sec key := by
  unfold exFiles InitCase.exFiles
  rw [if_pos rfl, if_pos rfl]

theorem exCase_in : exCase.In exReader (exFiles "base.ini".toList) := by
  rw [show exFiles "base.ini".toList = InitCase.exFiles "base.ini".toList from funext fun sec => funext fun key => exFiles_base sec key]
  exact InitCase.exCase_in

theorem exStation_in : (⟨26, 127, 0, 5⟩ : StationSheet).In exReader (exFiles "gs.ini".toList) (numbered "GROUND_STATION_" 0) := by
  obtain ⟨⟨a, a1, a2⟩, ⟨b, b1, b2⟩, ⟨c, c1, c2⟩, ⟨d, d1, d2⟩⟩ := InitCase.exStation_in
  have e : ∀ key, exFiles "gs.ini".toList (numbered "GROUND_STATION_" 0) key = InitCase.exFiles "gs.ini".toList (numbered "GROUND_STATION_" 1) key := by
    intro key
    unfold exFiles
    rw [if_pos (by decide +kernel), show numbered "GROUND_STATION_" 1 = "GROUND_STATION_1".toList by decide +kernel]
  exact ⟨⟨a, (e _).trans a1, a2⟩, ⟨b, (e _).trans b1, b2⟩, ⟨c, (e _).trans c1, c2⟩, ⟨d, (e _).trans d1, d2⟩⟩

/-- 10 s at 0.1 s with a line every 0.25 s (three steps): 34 lines, and the second spacecraft of the settings is not visible in line 20. -/
example : ∃ (lines : ℕ → Line) (n : ℕ) (t : TimeSt ℝ) (w : Targets ℝ) (ev : List (CaseEvent Line)),
    run exReader exFiles "base.ini".toList 10 ⟨10, 1 / 10, 1, 1, 1, 1, 1 / 4, 2459000, 0, 0, 1⟩ 0 (fun _ => ⟨0, 0, 0, 0⟩) (fun t x => x + t.elapsed)
      (fun x => ![x, 0, 7000000]) (fun _ => (1 : Matrix (Fin 3) (Fin 3) ℝ)) 200 0 = .ok (n, t, w, .header :: ev) ∧
    ev.filterMap CaseEvent.rowOf = (List.range 34).map lines ∧ (lines 20).time = 6 ∧ (lines 20).visible 1 = .ok false ∧ (lines 0).position = ![0, 0, 7000000] := by
  have hf : ⌊(10 : ℝ) / (1 / 10)⌋₊ = 100 := by norm_num
  obtain ⟨place, lines, n, t, w, ev, a, b, -, d, e, -, -, f⟩ := C197_lines (fun (t : TimeSt ℝ) (x : ℝ) => x + t.elapsed) (fun x => ![x, 0, 7000000])
    (fun _ => (1 : Matrix (Fin 3) (Fin 3) ℝ)) 0 exReader exFiles "base.ini".toList exCase exCase_in 10 (by decide) (by decide) "gs.ini".toList [] rfl ⟨26, 127, 0, 5⟩
    exStation_in (by norm_num) (by norm_num) ⟨10, 1 / 10, 1, 1, 1, 1, 1 / 4, 2459000, 0, 0, 1⟩
    ⟨by norm_num, by norm_num, by norm_num, by norm_num [TimeCfg.displayPeriod]⟩ 3
    ⟨by norm_num, by norm_num, by intro j h1 h2; interval_cases j <;> norm_num⟩ 0 (fun _ => ⟨0, 0, 0, 0⟩)
    (fun _ => ⟨by simp, by simp⟩) 200 (by rw [hf]; norm_num)
  refine ⟨lines, n, t, w, ev, a, ?_, ?_, (f 20 (by norm_num)).2.2 1 (by norm_num) (by decide), e⟩
  · rw [b, hf]
  · rw [d]; norm_num

end S2E.SampleCase
