import Verif.Spec.InitCase
import Verif.Proofs.Settings
import Verif.Props.Ini
import Verif.Props.GroundStation
/-! # C196: the simulation settings and the ground stations -/
namespace S2E.InitCase
open Log Ini InitOrbit Settings Ground

theorem list_read {rd : Reader} {file : File} {sec key : Str} {list : List Str} (h : TextList rd file sec key list) {fuel : ℕ} (hf : list.length < fuel) :
    readStrVector rd.paths (file sec) key fuel = .ok list := by
  rw [readStrVector, IniRead.readStrVectorFrom_ok rd.paths _ _ list.length h.few ?_ ?_ fuel list.length 0 (by simp) hf]
  · congr 1
    rw [List.nil_append]
    refine List.ext_getElem (by simp) ?_
    intro i h1 h2
    rw [List.getElem_map, List.getElem_range', zero_add, one_mul]
    exact (h.each i h2).1.read
  · intro i hi
    have := (h.each i hi).1.read
    rw [indexedKey, this]
    exact (h.each i hi).2
  · exact (IniRead.C52_missing (K := Nat) rd.paths (fun _ => 0) (file sec) _ h.last).1

theorem toUInt32_nat (n : ℕ) (h : n < 2 ^ 31) : toUInt32 n = n := by
  unfold toUInt32; omega

/-- **C196.** The configuration is what is written in the base file: the numbers, all files of the two lists (however many the numbers say) and the
other two files. -/
theorem C196_configuration (rd : Reader) (files : Str → File) (base : Str) (s : CaseSheet) (h : s.In rd (files base)) (fuel : ℕ)
    (h1 : s.spacecraftFiles.length < fuel) (h2 : s.stationFiles.length < fuel) :
    readConfiguration rd files base fuel =
      .ok ⟨base, s.spacecraftNumber, s.spacecraftFiles, s.stationNumber, s.stationFiles, s.interSatFile, s.gnssFile⟩ := by
  obtain ⟨a1, a2, a3, a4, a5, a6, a7, a8⟩ := h
  unfold readConfiguration
  dsimp only
  rw [list_read a3 h1, list_read a6 h2, a1.read, a4.read, a7.read, a8.read, toUInt32_nat _ a2, toUInt32_nat _ a5]
  rfl

/-- **C196.** The station with the number `id` is the one written in the section `GROUND_STATION_<id>` of the first file of the list, and it is
where that section says; other files of the list and other sections have no effect. -/
theorem C196_station (rd : Reader) (files : Str → File) (c : Configuration) (first : Str) (rest : List Str) (hc : c.stationFiles = first :: rest) (id : ℕ)
    (s : StationSheet) (h : s.In rd (files first) (numbered "GROUND_STATION_" id)) (hl : |s.longitude| < 2 ^ 31 * 360) :
    ∃ g, initStation rd files c id = .ok g ∧ Station.new s.latitude s.longitude s.height s.limit c.spacecraftNumber = .ok g ∧
      Geodesy.HasGeodetic Geodetic.earthRadius Geodetic.flattening g.positionEcef (s.latitude * (Real.pi / 180)) (s.longitude * (Real.pi / 180)) s.height := by
  obtain ⟨g, hg, hpos, -⟩ := C127_station s.latitude s.longitude s.height s.limit c.spacecraftNumber hl
  refine ⟨g, ?_, hg, hpos⟩
  have hsec : numbered "GROUND_STATION_" id = "GROUND_STATION_".toList ++ dec id := by
    unfold numbered
    rw [if_neg (by omega), List.append_nil, Int.natAbs_natCast]
  rw [hsec] at h
  obtain ⟨b1, b2, b3, b4⟩ := h
  unfold initStation
  rw [hc]
  dsimp only
  rw [b1.read, b2.read, b3.read, b4.read]
  exact hg

/-- **C196.** From the settings to the visibility: after any updates, a spacecraft is visible from the station exactly when, at its last update, its
elevation above the horizon of the written latitude and longitude was above the written limit; not visible before its first update; and a number
that is not below the written number of spacecraft and was never updated is refused. -/
theorem C196_visible (rd : Reader) (files : Str → File) (base : Str) (cs : CaseSheet) (hcs : cs.In rd (files base)) (fuel : ℕ)
    (h1 : cs.spacecraftFiles.length < fuel) (h2 : cs.stationFiles.length < fuel) (first : Str) (rest : List Str) (hfirst : cs.stationFiles = first :: rest)
    (id : ℕ) (s : StationSheet) (h : s.In rd (files first) (numbered "GROUND_STATION_" id)) (hl : |s.longitude| < 2 ^ 31 * 360) (hlim : |s.limit| ≤ 90) :
    ∃ g, ((readConfiguration rd files base fuel).bind fun c => initStation rd files c id) = .ok g ∧
      (∀ (before after : List (Mat 3 3 × ℕ × Vec 3)) (dcm : Mat 3 3) (sc : ℕ) (p : Fin 3 → ℝ), (∀ u ∈ after, u.2.1 ≠ sc) →
        ∃ b, (g.run (before ++ [(dcm, sc, p)] ++ after)).isVisible sc = .ok b ∧
          (b = true ↔ s.limit * (Real.pi / 180) < elevation (s.latitude * (Real.pi / 180)) (s.longitude * (Real.pi / 180)) g.positionEcef p)) ∧
      (∀ (l : List (Mat 3 3 × ℕ × Vec 3)) (sc : ℕ), (∀ u ∈ l, u.2.1 ≠ sc) →
        (sc < cs.spacecraftNumber → (g.run l).isVisible sc = .ok false) ∧ (¬ sc < cs.spacecraftNumber → (g.run l).isVisible sc = .throws)) := by
  obtain ⟨g, hg, hn, -⟩ := C196_station rd files ⟨base, cs.spacecraftNumber, cs.spacecraftFiles, cs.stationNumber, cs.stationFiles, cs.interSatFile, cs.gnssFile⟩
    first rest hfirst id s h hl
  refine ⟨g, ?_, ?_, ?_⟩
  · rw [C196_configuration rd files base cs hcs fuel h1 h2]
    exact hg
  · intro before after dcm sc p ha
    exact C127_visible _ _ _ _ _ g hn hlim before after dcm sc p ha
  · intro l sc hs
    exact C127_initial _ _ _ _ _ g hn l sc hs

/-- **C196.** Without a file for ground stations in the base file, making a station is undefined behaviour (the first element of an empty list is used),
even if the number of stations is not zero. -/
theorem C196_no_file (rd : Reader) (files : Str → File) (base : Str) (cs : CaseSheet) (hcs : cs.In rd (files base)) (fuel : ℕ)
    (h1 : cs.spacecraftFiles.length < fuel) (h2 : 0 < fuel) (hnone : cs.stationFiles = []) (id : ℕ) :
    ((readConfiguration rd files base fuel).bind fun c => initStation rd files c id) = .ub := by
  rw [C196_configuration rd files base cs hcs fuel h1 (by rw [hnone]; exact h2), hnone]
  rfl

/-- **C196.** A negative number of spacecraft is taken modulo `2 ^ 32`: `-1` means 4294967295 spacecraft. -/
theorem C196_negative (rd : Reader) (files : Str → File) (base : Str) (n : ℤ) (hn : -2 ^ 31 ≤ n) (hneg : n < 0)
    (hi : Integer rd (files base) "SIMULATION_SETTINGS".toList "number_of_simulated_spacecraft".toList n) (fuel : ℕ) (c : Configuration)
    (h : readConfiguration rd files base fuel = .ok c) : (c.spacecraftNumber : ℤ) = n + 2 ^ 32 := by
  unfold readConfiguration at h
  dsimp only at h
  rcases e1 : readStrVector rd.paths (files base "SIMULATION_SETTINGS".toList) "spacecraft_file".toList fuel with v | _ | _ | _ <;> rw [e1] at h <;>
    simp only [Res.bind, reduceCtorEq] at h
  rcases e2 : readStrVector rd.paths (files base "SIMULATION_SETTINGS".toList) "ground_station_file".toList fuel with w | _ | _ | _ <;> rw [e2] at h <;>
    simp only [reduceCtorEq] at h
  obtain rfl := Res.ok.inj h
  show ((toUInt32 (rd.int (files base "SIMULATION_SETTINGS".toList) "number_of_simulated_spacecraft".toList) : ℕ) : ℤ) = _
  rw [hi.read]
  unfold toUInt32
  omega

/-! ### Two spacecraft and a station -/

def exFiles : Str → File := fun path sec key =>
  if path = "base.ini".toList then
    if key = "number_of_simulated_spacecraft".toList then some "2".toList
    else if key = "spacecraft_file(0)".toList then some "a.ini".toList
    else if key = "spacecraft_file(1)".toList then some "b.ini".toList
    else if key = "number_of_simulated_ground_station".toList then some "1".toList
    else if key = "ground_station_file(0)".toList then some "gs.ini".toList
    else if key = "inter_sat_comm_file".toList then some "isl.ini".toList
    else if key = "gnss_file".toList then some "gnss.ini".toList
    else none
  else if path = "gs.ini".toList ∧ sec = "GROUND_STATION_1".toList then
    if key = "latitude_deg".toList then some "26".toList
    else if key = "longitude_deg".toList then some "127".toList
    else if key = "height_m".toList then some "0".toList
    else if key = "elevation_limit_angle_deg".toList then some "5".toList
    else none
  else none

noncomputable def exReader : Reader where
  paths := ⟨[], [], []⟩
  getReal := fun t => if t = "26".toList then 26 else if t = "127".toList then 127 else if t = "5".toList then 5 else 0
  getInteger := fun t => if t = "2".toList then 2 else if t = "1".toList then 1 else if t = "-1".toList then -1 else 0
  rows := fun _ => []

def exCase : CaseSheet := ⟨2, ["a.ini".toList, "b.ini".toList], 1, ["gs.ini".toList], "isl.ini".toList, "gnss.ini".toList⟩

theorem exT (path sec key text v : Str) (h : exFiles path sec key = some text) (h2 : Ini.process ⟨[], [], []⟩ text = v) :
    Text exReader (exFiles path) sec key v := ⟨text, h, h2⟩

theorem exCase_in : exCase.In exReader (exFiles "base.ini".toList) := by
  refine ⟨⟨"2".toList, by decide +kernel, rfl⟩, by decide, ⟨by decide, ?_, by decide +kernel⟩, ⟨"1".toList, by decide +kernel, rfl⟩, by decide,
    ⟨by decide, ?_, by decide +kernel⟩, exT _ _ _ "isl.ini".toList _ (by decide +kernel) (by decide +kernel),
    exT _ _ _ "gnss.ini".toList _ (by decide +kernel) (by decide +kernel)⟩
  · intro i hi
    have hi2 : i < 2 := hi
    interval_cases i
    · exact ⟨exT _ _ _ "a.ini".toList _ (by decide +kernel) (by decide +kernel +revert), by decide +kernel +revert⟩
    · exact ⟨exT _ _ _ "b.ini".toList _ (by decide +kernel) (by decide +kernel +revert), by decide +kernel +revert⟩
  · intro i hi
    have hi2 : i < 1 := hi
    interval_cases i
    exact ⟨exT _ _ _ "gs.ini".toList _ (by decide +kernel) (by decide +kernel +revert), by decide +kernel +revert⟩

theorem exStation_in : (⟨26, 127, 0, 5⟩ : StationSheet).In exReader (exFiles "gs.ini".toList) (numbered "GROUND_STATION_" 1) := by
  have n : ∀ (key text : Str) (x : ℝ), exFiles "gs.ini".toList "GROUND_STATION_1".toList key = some text → exReader.getReal text = x →
      Number exReader (exFiles "gs.ini".toList) (numbered "GROUND_STATION_" 1) key x := by
    intro key text x h1 h2
    rw [show numbered "GROUND_STATION_" 1 = "GROUND_STATION_1".toList by decide +kernel]
    exact ⟨text, h1, h2⟩
  refine ⟨n _ "26".toList _ (by decide +kernel) ?_, n _ "127".toList _ (by decide +kernel) ?_, n _ "0".toList _ (by decide +kernel) ?_,
    n _ "5".toList _ (by decide +kernel) ?_⟩ <;> unfold exReader <;> dsimp only
  · rw [if_pos rfl]
  · rw [if_neg (by decide +kernel), if_pos rfl]
  · rw [if_neg (by decide +kernel), if_neg (by decide +kernel), if_neg (by decide +kernel)]
  · rw [if_neg (by decide +kernel), if_neg (by decide +kernel), if_pos rfl]

/-- The station with the number 1 and the spacecraft 0 and 1. -/
example : ∃ g, ((readConfiguration exReader exFiles "base.ini".toList 10).bind fun c => initStation exReader exFiles c 1) = .ok g ∧
    (g.run []).isVisible 1 = .ok false ∧ (g.run []).isVisible 2 = .throws := by
  obtain ⟨g, h1, -, h3⟩ := C196_visible exReader exFiles "base.ini".toList exCase exCase_in 10 (by decide) (by decide) "gs.ini".toList [] rfl 1 ⟨26, 127, 0, 5⟩
    exStation_in (by norm_num) (by norm_num)
  exact ⟨g, h1, (h3 [] 1 (by simp)).1 (by decide), (h3 [] 2 (by simp)).2 (by decide)⟩

/-- The same base file without a ground station file. -/
def exBare : Str → File := fun path sec key => if key = "ground_station_file(0)".toList then none else exFiles path sec key

theorem exBare_text (path sec key text v : Str) (h : exBare path sec key = some text) (h2 : Ini.process ⟨[], [], []⟩ text = v) :
    Text exReader (exBare path) sec key v := ⟨text, h, h2⟩

example : ((readConfiguration exReader exBare "base.ini".toList 10).bind fun c => initStation exReader exBare c 0) = .ub := by
  refine C196_no_file exReader exBare "base.ini".toList ⟨2, ["a.ini".toList, "b.ini".toList], 1, [], "isl.ini".toList, "gnss.ini".toList⟩ ?_ 10 (by decide) (by decide) rfl 0
  refine ⟨⟨"2".toList, by decide +kernel, rfl⟩, by decide, ⟨by decide, ?_, by decide +kernel⟩, ⟨"1".toList, by decide +kernel, rfl⟩, by decide,
    ⟨by decide, by intro i hi; simp at hi, by decide +kernel⟩, exBare_text _ _ _ "isl.ini".toList _ (by decide +kernel) (by decide +kernel),
    exBare_text _ _ _ "gnss.ini".toList _ (by decide +kernel) (by decide +kernel)⟩
  intro i hi
  have hi2 : i < 2 := hi
  interval_cases i
  · exact ⟨exBare_text _ _ _ "a.ini".toList _ (by decide +kernel) (by decide +kernel +revert), by decide +kernel +revert⟩
  · exact ⟨exBare_text _ _ _ "b.ini".toList _ (by decide +kernel) (by decide +kernel +revert), by decide +kernel +revert⟩

/-- A base file with -1 spacecraft. -/
def exNegative : Str → File := fun _ _ key => if key = "number_of_simulated_spacecraft".toList then some "-1".toList else none

example : ∃ c, readConfiguration exReader exNegative [] 1 = .ok c ∧ (c.spacecraftNumber : ℤ) = 4294967295 := by
  have e1 : readStrVector exReader.paths (exNegative [] "SIMULATION_SETTINGS".toList) "spacecraft_file".toList 1 = .ok [] :=
    list_read (list := []) ⟨by decide, by intro i hi; simp at hi, by decide +kernel⟩ (by decide)
  have e2 : readStrVector exReader.paths (exNegative [] "SIMULATION_SETTINGS".toList) "ground_station_file".toList 1 = .ok [] :=
    list_read (list := []) ⟨by decide, by intro i hi; simp at hi, by decide +kernel⟩ (by decide)
  have e : ∃ c, readConfiguration exReader exNegative [] 1 = .ok c := by
    unfold readConfiguration; dsimp only; rw [e1, e2]; exact ⟨_, rfl⟩
  obtain ⟨c, hc⟩ := e
  refine ⟨c, hc, ?_⟩
  have := C196_negative exReader exNegative [] (-1) (by norm_num) (by norm_num) ⟨"-1".toList, by decide +kernel, by
    unfold exReader; dsimp only; rw [if_neg (by decide +kernel), if_neg (by decide +kernel), if_pos rfl]⟩ 1 c hc
  rw [this]; norm_num

end S2E.InitCase
