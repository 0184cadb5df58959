import Verif.Spec.InitGlobal
import Verif.Model.InitGlobal
import Verif.Proofs.Settings
import Verif.Props.InitTime
import Verif.Props.InitThermal
import Verif.Props.InitWheel
import Verif.Props.Celestial
import Verif.Props.CelestialRotation
import Verif.Props.Hipparcos
import Verif.Props.Ini
/-!
# C192: the global environment from the base settings file
-/
namespace S2E.InitGlobal
open Log Ini InitOrbit Env Rotation Settings TwoBody InitThermal Calendar Julian Tle

theorem ofList_inj {a b : Str} : String.ofList a = String.ofList b ↔ a = b := by
  constructor
  · intro h; have := congrArg String.toList h; simpa using this
  · rintro rfl; rfl

theorem ofList_eq {a : Str} {b : String} : String.ofList a = b ↔ a = b.toList := by
  rw [← ofList_inj (a := a), String.ofList_toList]

section reading
variable {rd : Reader} {file : File} {s : CelestialSheet}

theorem kernels_read (h : s.In rd file) : kernelsOf rd (file "CSPICE_KERNELS".toList) = s.kernels := by
  obtain ⟨-, -, -, -, -, -, h1, h2, h3, h4, h5⟩ := h
  unfold kernelsOf CelestialSheet.kernels
  simp only [List.map_cons, List.map_nil, h1.read, h2.read, h3.read, h4.read, h5.read]

theorem bodyId_short {sp : Spice} {ini : Str → Option Str} {i : ℕ} {name : Str} (h : readString rd.paths ini (indexedKey "selected_body_name".toList i) = name)
    (hz : Char.ofNat 0 ∉ name) (hl : name.length < 30) :
    bodyId rd sp ini i = match sp.idOf (String.ofList name) with | none => .throws | some p => .ok p := by
  subst h
  obtain ⟨-, c2, c3⟩ := IniRead.C52_char_buffer rd.paths ini _ 30 hz
  unfold bodyId
  dsimp only
  rw [if_neg (not_not.2 (c2.2 hl)), c3 hl]
  cases sp.idOf (String.ofList (readString rd.paths ini (indexedKey "selected_body_name".toList i))) <;> rfl

theorem ids_read (sp : Spice) {ids : List ℤ} (h : s.In rd file) (hk : s.Known sp.idOf ids) :
    makeAll (bodyId rd sp (file "CELESTIAL_INFORMATION".toList)) (List.range s.bodies.length) = .ok ids := by
  refine makeAll_ok' _ ?_
  rw [List.forall₂_iff_get]
  obtain ⟨hl, hg⟩ := List.forall₂_iff_get.1 hk
  refine ⟨by rw [List.length_range, hl], fun i h1 h2 => ?_⟩
  have hi : i < s.bodies.length := by simpa using h1
  obtain ⟨k1, k2, k3⟩ := hg i hi h2
  have ht := (h.2.2.2.2.1 ⟨i, hi⟩).1
  have e : (List.range s.bodies.length).get ⟨i, h1⟩ = i := by simp
  rw [e, bodyId_short (name := s.bodies[i].1) ?_ k3 k2]
  · have : s.bodies.get ⟨i, hi⟩ = s.bodies[i] := rfl
    rw [this] at k1
    rw [k1]
  · have := ht.read
    simpa [indexedKey] using this

theorem modes_read (h : s.In rd file) : readVectorString rd.paths (file "CELESTIAL_INFORMATION".toList) "rotation_mode".toList s.bodies.length = s.bodies.map Prod.snd := by
  have hv := (IniRead.C52_vector (K := ℝ) rd.paths rd.getReal (file "CELESTIAL_INFORMATION".toList) "rotation_mode".toList s.bodies.length)
  have e : ∀ n : ℕ, readVectorString rd.paths (file "CELESTIAL_INFORMATION".toList) "rotation_mode".toList n =
      (List.range n).map fun i => readString rd.paths (file "CELESTIAL_INFORMATION".toList) (indexedKey "rotation_mode".toList i) := by
    intro n
    unfold readVectorString
    induction n with
    | zero => rfl
    | succ n ih => rw [List.range_succ, List.foldl_append, ih, List.map_append]; rfl
  rw [e]
  apply List.ext_getElem
  · simp
  · intro i h1 h2
    have hi : i < s.bodies.length := by simpa using h1
    have := ((h.2.2.2.2.1 ⟨i, hi⟩).2).read
    simpa [indexedKey] using this

end reading

/-- The rotation mode that is used is the one beside the body. -/
theorem mode_selected {sp : Spice} {s : CelestialSheet} {ids : List ℤ} {c : Celestial} (hc : c.ids = ids) {name : String} {p : ℤ} {mode : Str}
    (hs : sp.idOf name = some p) (hm : s.ModeOf ids p mode) : rotationMode sp c (s.bodies.map Prod.snd) name = .ok (String.ofList mode) := by
  obtain ⟨k, h1, h2, h3⟩ := hm
  have hid : c.calcBodyIdFromName sp.idOf name = .ok k := id_selected hs (by unfold SelectedAt; rw [hc]; exact ⟨h1, h2⟩)
  unfold rotationMode
  rw [hid]
  show (if k ≥ c.ids.length then _ else _) = _
  have hlt := (List.getElem?_eq_some_iff.mp h1).1
  rw [if_neg (by rw [hc]; omega)]
  have : getAt (s.bodies.map Prod.snd) k = .ok mode := by
    unfold getAt
    rw [List.getElem?_map, h3]
  rw [this]; rfl

/-- What the constructor makes. -/
noncomputable def made (s : CelestialSheet) (sp : Spice) (ids : List ℤ) (me mm : Str) : Bodies :=
  ⟨String.ofList s.frame, String.ofList s.aberration, s.bodies.map Prod.snd, Celestial.new ids (String.ofList s.center) sp.gm sp.radii,
    Rotation.Earth.new (convertEarthMode (String.ofList me)), convertMoonMode (String.ofList mm), makeIdentityMatrix 3, s.logged⟩

theorem init_ok {rd : Reader} {spice : List Str → Spice} {file : File} {s : CelestialSheet} (hs : s.In rd file) {ids : List ℤ} (hk : s.Known (spice s.kernels).idOf ids)
    {earth moon : ℤ} {me mm : Str} (he : (spice s.kernels).idOf "EARTH" = some earth) (hm : (spice s.kernels).idOf "MOON" = some moon)
    (hme : s.ModeOf ids earth me) (hmm : s.ModeOf ids moon mm) : initBodies rd spice file = .ok (made s (spice s.kernels) ids me mm) := by
  have hi := ids_read (spice s.kernels) hs hk
  have hmo := modes_read hs
  have hkr := kernels_read hs
  obtain ⟨h1, h2, h3, h4, -, h6, -⟩ := hs
  unfold initBodies
  dsimp only
  rw [h1.read, h2.read, h3.read, h4.read, InitWheel.Switch.read h6, hkr, if_neg (by omega), Int.toNat_natCast, hi, hmo]
  show newBodies _ _ _ _ _ _ _ = _
  unfold newBodies
  dsimp only
  rw [mode_selected (c := Celestial.new ids _ _ _) rfl he hme, mode_selected (c := Celestial.new ids _ _ _) rfl hm hmm]
  rfl

theorem earth_modes (m : Str) : (convertEarthMode (String.ofList m) = .full ↔ m = "FULL".toList) ∧ (convertEarthMode (String.ofList m) = .simple ↔ m = "SIMPLE".toList) := by
  unfold convertEarthMode
  simp only [ofList_eq]
  by_cases h1 : m = "IDLE".toList
  · subst h1; decide +kernel
  by_cases h2 : m = "SIMPLE".toList
  · subst h2; decide +kernel
  by_cases h3 : m = "FULL".toList
  · subst h3; decide +kernel
  rw [if_neg h1, if_neg h2, if_neg h3]
  exact ⟨⟨fun h => (by cases h), fun h => absurd h h3⟩, ⟨fun h => (by cases h), fun h => absurd h h2⟩⟩

theorem moon_modes (m : Str) : (convertMoonMode (String.ofList m) = .iauMoon ↔ m = "IAU_MOON".toList) ∧ (convertMoonMode (String.ofList m) = .simple ↔ m = "SIMPLE".toList) := by
  unfold convertMoonMode
  simp only [ofList_eq]
  by_cases h1 : m = "IDLE".toList
  · subst h1; decide +kernel
  by_cases h2 : m = "SIMPLE".toList
  · subst h2; decide +kernel
  by_cases h3 : m = "IAU_MOON".toList
  · subst h3; decide +kernel
  rw [if_neg h1, if_neg h2, if_neg h3]
  exact ⟨⟨fun h => (by cases h), fun h => absurd h h3⟩, ⟨fun h => (by cases h), fun h => absurd h h2⟩⟩

section main
variable (rd : Reader) (spice : List Str → Spice) (file : File) (s : CelestialSheet)

/-- **C192 (settings).** The celestial bodies are those of the file: the five kernels are furnished in the order leap seconds, three sets of constants, ephemeris; frame,
aberration correction, centre, bodies and the log switch are the ones written, gravity constants are those of SPICE in m³/s², and Earth and Moon, when selected, rotate
in the mode beside them. -/
theorem C192_settings (hs : s.In rd file) (ids : List ℤ) (hk : s.Known (spice s.kernels).idOf ids) (earth moon : ℤ) (me mm : Str)
    (he : (spice s.kernels).idOf "EARTH" = some earth) (hm : (spice s.kernels).idOf "MOON" = some moon) (hme : s.ModeOf ids earth me) (hmm : s.ModeOf ids moon mm) :
    ∃ b, initBodies rd spice file = .ok b ∧ b.frame.toList = s.frame ∧ b.aberration.toList = s.aberration ∧ b.cel.center.toList = s.center ∧ b.cel.ids = ids ∧
      b.logged = s.logged ∧ b.cel.gravity = ids.map (fun p => (spice s.kernels).gm p * 10 ^ 9) ∧
      (b.earth.mode = .full ↔ me = "FULL".toList) ∧ (b.earth.mode = .simple ↔ me = "SIMPLE".toList) ∧
      (b.moonMode = .iauMoon ↔ mm = "IAU_MOON".toList) ∧ (b.moonMode = .simple ↔ mm = "SIMPLE".toList) := by
  refine ⟨_, init_ok hs hk he hm hme hmm, String.toList_ofList, String.toList_ofList, String.toList_ofList, rfl, rfl, ?_, (earth_modes me).1, (earth_modes me).2,
    (moon_modes mm).1, (moon_modes mm).2⟩
  show ids.map _ = ids.map _
  congr 1
  funext p
  norm_num

end main

/-! ## Updates -/

section updates
variable {sp : Spice}

/-- The velocity of a selected body. -/
theorem velocity_selected (ids : List ℤ) (center : String) (spk : String → ℝ → Vec 3 × Vec 3) (et : ℝ) {name : String} {p : ℤ} (hs : sp.idOf name = some p)
    (hp : p ∈ ids) : velocityFromCenter sp ((Celestial.new ids center sp.gm sp.radii).update sp.nameOf spk et) name =
      .ok ((1000 : ℝ) • (spk (ephemerisName (sp.nameOf p)) et).2) := by
  obtain ⟨k, hk1, hk2⟩ : ∃ k : ℕ, ids[k]? = some p ∧ ∀ j < k, ids[j]? ≠ some p := by
    have hex : ∃ k : ℕ, ids[k]? = some p := List.mem_iff_getElem?.mp hp
    exact ⟨Nat.find hex, Nat.find_spec hex, fun j hj => Nat.find_min hex hj⟩
  have hid : ((Celestial.new ids center sp.gm sp.radii).update sp.nameOf spk et).calcBodyIdFromName sp.idOf name = .ok k := id_selected hs ⟨hk1, hk2⟩
  have hlt : k < ids.length := (List.getElem?_eq_some_iff.mp hk1).1
  unfold velocityFromCenter
  rw [hid]
  show (if k > ids.length then _ else _) = _
  rw [if_neg (by omega)]
  rw [show ((Celestial.new ids center sp.gm sp.radii).update sp.nameOf spk et).velocity =
    ids.map fun p => fun j => (spk (ephemerisName (sp.nameOf p)) et).2 j * 1000 from rfl, getAt_map _ hk1]
  congr 1
  funext j
  simp [mul_comm]

/-- The state of the ephemeris of a body in metres. -/
noncomputable def stateOf (sp : Spice) (s : CelestialSheet) (p : ℤ) (et : ℝ) : Vec 3 × Vec 3 :=
  let x := sp.spk (String.ofList s.frame) (String.ofList s.aberration) (String.ofList s.center) (ephemerisName (sp.nameOf p)) et
  ((1000 : ℝ) • x.1, (1000 : ℝ) • x.2)

/-- The matrix of the Moon. -/
noncomputable def moonAt (sp : Spice) (s : CelestialSheet) (earth moon : ℤ) (mode : MoonMode) (et : ℝ) : Mat 3 3 :=
  match mode with
  | .simple => moonUpdate .simple ((stateOf sp s moon et).1 - (stateOf sp s earth et).1) ((stateOf sp s moon et).2 - (stateOf sp s earth et).2) (sp.sxform "J2000" "IAU_MOON" et)
  | m => moonUpdate m 0 0 (sp.sxform "J2000" "IAU_MOON" et)

/-- The bodies after a history of dates that ends at the ephemeris time `et`. -/
noncomputable def seen (s : CelestialSheet) (sp : Spice) (ids : List ℤ) (me mm : Str) (earth moon : ℤ) (jds : List ℝ) (et : ℝ) : Bodies :=
  { made s sp ids me mm with
    cel := (Celestial.new ids (String.ofList s.center) sp.gm sp.radii).update sp.nameOf (sp.spk (String.ofList s.frame) (String.ofList s.aberration) (String.ofList s.center)) et
    earth := Earth.run (convertEarthMode (String.ofList me)) jds
    moon := moonAt sp s earth moon (convertMoonMode (String.ofList mm)) et }

theorem update_bodies {s : CelestialSheet} {ids : List ℤ} {me mm : Str} {earth moon : ℤ} (he : sp.idOf "EARTH" = some earth) (hm : sp.idOf "MOON" = some moon)
    (he' : earth ∈ ids) (hm' : moon ∈ ids) (b : Bodies) (jds : List ℝ) (h1 : b.frame = String.ofList s.frame) (h2 : b.aberration = String.ofList s.aberration)
    (h3 : b.modes = s.bodies.map Prod.snd) (h4 : b.moonMode = convertMoonMode (String.ofList mm)) (h5 : b.logged = s.logged)
    (h6 : b.earth = Earth.run (convertEarthMode (String.ofList me)) jds) (h7 : b.cel.center = String.ofList s.center)
    (h8 : ∀ spk et, b.cel.update sp.nameOf spk et = (Celestial.new ids (String.ofList s.center) sp.gm sp.radii).update sp.nameOf spk et) (jd et : ℝ) :
    b.update sp jd et = .ok (seen s sp ids me mm earth moon (jds ++ [jd]) et) := by
  obtain ⟨frame, ab, modes, cel, e, mo, mat, lg⟩ := b
  dsimp only at h1 h2 h3 h4 h5 h6 h7 h8
  subst h1 h2 h3 h4 h5 h6
  unfold Bodies.update
  dsimp only
  rw [h7, h8, ← run_last]
  have hu : ∀ (x : Mat 3 3), updateMoon sp ⟨String.ofList s.frame, String.ofList s.aberration, s.bodies.map Prod.snd,
      (Celestial.new ids (String.ofList s.center) sp.gm sp.radii).update sp.nameOf (sp.spk (String.ofList s.frame) (String.ofList s.aberration) (String.ofList s.center)) et,
      Earth.run (convertEarthMode (String.ofList me)) (jds ++ [jd]), convertMoonMode (String.ofList mm), x, s.logged⟩ et =
      .ok (moonAt sp s earth moon (convertMoonMode (String.ofList mm)) et) := by
    intro x
    unfold updateMoon moonAt
    dsimp only
    cases convertMoonMode (String.ofList mm) with
    | idle => rfl
    | iauMoon => rfl
    | simple =>
      dsimp only
      unfold Celestial.getPositionFromSelectedBody velocityFromBody
      rw [velocity_selected _ _ _ _ hm hm', velocity_selected _ _ _ _ he he',
        (C106_selected_body sp.idOf sp.nameOf _ sp.gm sp.radii ids (String.ofList s.center) et 0 0 0 ⟨0, 0, 0, 1⟩ "MOON" moon hm hm').1,
        (C106_selected_body sp.idOf sp.nameOf _ sp.gm sp.radii ids (String.ofList s.center) et 0 0 0 ⟨0, 0, 0, 1⟩ "EARTH" earth he he').1]
      rfl
  rw [hu]
  rfl

theorem earth_matrix (me : Str) (jds : List ℝ) (jd : ℝ) : (Earth.run (convertEarthMode (String.ofList me)) (jds ++ [jd])).j2000ToEcef = earthOf me jd := by
  unfold earthOf
  split
  · next h => rw [(earth_modes me).1.2 h]; exact C152_full jds jd
  · next h1 =>
    split
    · next h => rw [(earth_modes me).2.2 h]; exact (C152_simple jds jd).1
    · next h2 =>
      refine (C152_rotation _ _).2.2.1 ?_
      rcases h : convertEarthMode (String.ofList me) with _ | _ | _
      · rfl
      · exact absurd ((earth_modes me).2.1 h) h2
      · exact absurd ((earth_modes me).1.1 h) h1

theorem mem_of_mode {s : CelestialSheet} {ids : List ℤ} {p : ℤ} {m : Str} (h : s.ModeOf ids p m) : p ∈ ids := by
  obtain ⟨k, h, -⟩ := h
  exact List.mem_of_getElem? h

theorem update_seen {s : CelestialSheet} {ids : List ℤ} {me mm : Str} {earth moon : ℤ} (he : sp.idOf "EARTH" = some earth) (hm : sp.idOf "MOON" = some moon)
    (he' : earth ∈ ids) (hm' : moon ∈ ids) (jds : List ℝ) (et0 jd et : ℝ) :
    (seen s sp ids me mm earth moon jds et0).update sp jd et = .ok (seen s sp ids me mm earth moon (jds ++ [jd]) et) :=
  update_bodies he hm he' hm' _ jds rfl rfl rfl rfl rfl rfl rfl (fun _ _ => rfl) jd et

theorem update_made {s : CelestialSheet} {ids : List ℤ} {me mm : Str} {earth moon : ℤ} (he : sp.idOf "EARTH" = some earth) (hm : sp.idOf "MOON" = some moon)
    (he' : earth ∈ ids) (hm' : moon ∈ ids) (jd et : ℝ) :
    (made s sp ids me mm).update sp jd et = .ok (seen s sp ids me mm earth moon [jd] et) :=
  update_bodies he hm he' hm' _ [] rfl rfl rfl rfl rfl rfl rfl (fun _ _ => rfl) jd et

/-- The environment after `n` updates. -/
theorem updates_ok {s : CelestialSheet} {ids : List ℤ} {me mm : Str} {earth moon : ℤ} (he : sp.idOf "EARTH" = some earth) (hm : sp.idOf "MOON" = some moon)
    (he' : earth ∈ ids) (hm' : moon ∈ ids) (k : InitTime.Clock) (c : Catalogue) (hp : k.cfg.Plain) (clk : ℤ) (r : ℕ → ClockReads) (n : ℕ) :
    ∃ jds st, Global.updates sp r n ⟨k, TimeSt.init k.cfg clk,
        seen s sp ids me mm earth moon [(TimeSt.init k.cfg clk).jd] ((TimeSt.init k.cfg clk).ephemeris k.cfg), c⟩ =
      .ok ⟨k, st, seen s sp ids me mm earth moon (jds ++ [st.jd]) (st.ephemeris k.cfg), c⟩ ∧ (TimeSt.init k.cfg clk).steps Arith.exact k.cfg r n = .ok st := by
  obtain ⟨T, h0, hu, hst, -⟩ := TimeSt.history_plain (A := Arith.exact) hp clk r
  suffices h : ∃ jds, Global.updates sp r n ⟨k, TimeSt.init k.cfg clk,
        seen s sp ids me mm earth moon [(TimeSt.init k.cfg clk).jd] ((TimeSt.init k.cfg clk).ephemeris k.cfg), c⟩ =
      .ok ⟨k, T n, seen s sp ids me mm earth moon (jds ++ [(T n).jd]) ((T n).ephemeris k.cfg), c⟩ by
    obtain ⟨jds, h⟩ := h
    exact ⟨jds, T n, h, hst n⟩
  induction n with
  | zero => exact ⟨[], by rw [h0]; rfl⟩
  | succ n ih =>
    obtain ⟨jds, ih⟩ := ih
    refine ⟨jds ++ [(T n).jd], ?_⟩
    unfold Global.updates
    rw [ih]
    show Global.update sp (r n) _ = _
    unfold Global.update
    dsimp only
    rw [hu n]
    show (Bodies.update _ _ _ _).bind _ = _
    rw [update_seen he hm he' hm']
    rfl

end updates

section main
variable (rd : Reader) (spice : List Str → Spice) (file : File) (s : CelestialSheet)

/-- **C192 (global environment).** After the base settings file has been read and the environment updated `n` times, the clock shows `n` steps, every selected body is
where the ephemeris has it at that time — in metres, in the frame, with the aberration correction and from the centre of the file — the Earth has the orientation of its
mode at that date, and the Moon that of its mode: in the simple one a rotation that keeps the Earth at a fixed place of the lunar sky, in IAU_MOON the one of SPICE. -/
theorem C192_global (hs : s.In rd file) (ids : List ℤ) (hk : s.Known (spice s.kernels).idOf ids) (earth moon : ℤ) (me mm : Str)
    (he : (spice s.kernels).idOf "EARTH" = some earth) (hm : (spice s.kernels).idOf "MOON" = some moon) (hme : s.ModeOf ids earth me) (hmm : s.ModeOf ids moon mm)
    (t : TimeSheet) (ht : t.In rd file) (text : Str) (hst : Text rd file "TIME".toList "simulation_start_time_utc".toList text)
    (y m d h mi : ℕ) (sec : ℝ) (hstart : StartText text y m d h mi sec) (hv : Valid y m d) (hh : h < 24) (hmi : mi < 60) (hc : 1 / 2 ^ 31 < t.component)
    (hcons : t.Consistent) (hsp : t.speed ≤ 0) (hstep : 0 < t.step) (hdur : 0 ≤ t.duration) (hdisp : t.duration / t.step / 100 < 2 ^ 31)
    (parse : Str → Option Hip.Star) (disk : Str → Option Str) (cat : Catalogue) (hcat : initCatalogue rd parse disk file = .ok cat)
    (clk : ℤ) (r : ℕ → ClockReads) (n : ℕ) :
    let sp := spice s.kernels
    let et := sp.et (julianDate (instant y m d h mi sec)) + n * t.step
    let state := fun p => sp.spk (String.ofList s.frame) (String.ofList s.aberration) (String.ofList s.center) (ephemerisName (sp.nameOf p)) et
    let x := (1000 : ℝ) • ((state moon).1 - (state earth).1)
    let v := (1000 : ℝ) • ((state moon).2 - (state earth).2)
    ∃ g0 g, initGlobal rd spice parse disk clk file = .ok g0 ∧ g0.updates sp r n = .ok g ∧ g.catalogue = cat ∧ g.time.elapsed = n * t.step ∧
      (∀ name p, sp.idOf name = some p → p ∈ ids →
        g.bodies.cel.getPositionFromCenter sp.idOf name = .ok ((1000 : ℝ) • (state p).1) ∧ velocityFromCenter sp g.bodies.cel name = .ok ((1000 : ℝ) • (state p).2)) ∧
      g.bodies.earth.j2000ToEcef = earthOf me (julianDate (instant y m d h mi sec) + n * t.step / 86400) ∧
      (mm = "SIMPLE".toList → cross x v ≠ 0 → Rotation.IsRotation g.bodies.moon ∧ Matrix.mulVec g.bodies.moon (-x) =
        len x • ![Real.cos (arcsec 67.573) * Real.cos (arcsec 78.580), -(Real.sin (arcsec 67.573) * Real.cos (arcsec 78.580)), Real.sin (arcsec 78.580)]) ∧
      (mm = "IAU_MOON".toList → ∀ i j : Fin 3, g.bodies.moon i j = sp.sxform "J2000" "IAU_MOON" et ⟨i, by omega⟩ ⟨j, by omega⟩) ∧
      (mm ≠ "SIMPLE".toList → mm ≠ "IAU_MOON".toList → g.bodies.moon = 1) := by
  intro sp et state x v
  obtain ⟨k, e, c1, c2, -, -, -, -, -, c8, -, -, -, -, -, c14, c15, -⟩ := (InitTime.C187_settings rd sp.et file t ht text hst y m d h mi sec hstart hv hh hmi hc).1 hcons
  have hp : k.cfg.Plain := ⟨by rw [c8]; exact hsp, by rw [c2]; exact hstep, by rw [c1]; exact hdur, by unfold TimeCfg.displayPeriod; rw [c1, c2]; exact hdisp⟩
  have me' := mem_of_mode hme
  have mm' := mem_of_mode hmm
  obtain ⟨jds, st, u1, u2⟩ := updates_ok (sp := sp) (s := s) (me := me) (mm := mm) he hm me' mm' k cat hp clk r n
  obtain ⟨st', s1, s2, s3, s4⟩ := C29_uniform_clocks k.cfg hp clk r n
  obtain rfl : st = st' := Res.ok.inj (u2.symm.trans s1)
  refine ⟨_, _, ?_, u1, rfl, by show st.elapsed = _; rw [s2, c2], ?_, ?_, ?_, ?_, ?_⟩
  · unfold initGlobal
    dsimp only
    rw [kernels_read hs, init_ok hs hk he hm hme hmm]
    show (InitTime.initTime rd sp.et file).bind _ = _
    rw [e]
    show (initCatalogue rd parse disk file).bind _ = _
    rw [hcat]
    show (Bodies.update _ _ _ _).bind _ = _
    rw [update_made he hm me' mm']
    rfl
  all_goals rw [show st.ephemeris k.cfg = et by rw [s4, c15, c2]]
  · intro name p hn hp'
    exact ⟨(C106_selected_body sp.idOf sp.nameOf _ sp.gm sp.radii ids (String.ofList s.center) et 0 0 0 ⟨0, 0, 0, 1⟩ name p hn hp').1,
      velocity_selected ids _ _ et hn hp'⟩
  · show (Earth.run _ _).j2000ToEcef = _
    rw [earth_matrix, s3, c14, c2]
  · intro h1 h2
    show Rotation.IsRotation (moonAt sp s earth moon (convertMoonMode (String.ofList mm)) et) ∧ Matrix.mulVec (moonAt sp s earth moon (convertMoonMode (String.ofList mm)) et) _ = _
    rw [(moon_modes mm).2.2 h1]
    have hx : (stateOf sp s moon et).1 - (stateOf sp s earth et).1 = x := (smul_sub _ _ _).symm
    have hv' : (stateOf sp s moon et).2 - (stateOf sp s earth et).2 = v := (smul_sub _ _ _).symm
    unfold moonAt
    dsimp only
    rw [hx, hv']
    exact (C153_simple h2 _).2
  · intro h1 i j
    show moonAt sp s earth moon (convertMoonMode (String.ofList mm)) et i j = _
    rw [(moon_modes mm).1.2 h1]
    exact (C153_other 0 0 _).1 i j
  · intro h1 h2
    show moonAt sp s earth moon (convertMoonMode (String.ofList mm)) et = _
    rcases hq : convertMoonMode (String.ofList mm) with _ | _ | _
    · exact (C153_other 0 0 (sp.sxform "J2000" "IAU_MOON" et)).2.1
    · exact absurd ((moon_modes mm).2.1 hq) h1
    · exact absurd ((moon_modes mm).1.1 hq) h2

/-- **C192 (rotation of a body that is not selected).** When the Earth is not among the selected bodies, the mode written beside the *first* selected body — whichever it
is — is taken for the Earth; the same holds for the Moon. -/
theorem C192_unselected (hs : s.In rd file) (ids : List ℤ) (hk : s.Known (spice s.kernels).idOf ids) (earth moon : ℤ) (first : Str × Str) (rest : List (Str × Str))
    (hb : s.bodies = first :: rest) (he : (spice s.kernels).idOf "EARTH" = some earth) (hm : (spice s.kernels).idOf "MOON" = some moon) (hme : earth ∉ ids) (hmm : moon ∉ ids) :
    ∃ b, initBodies rd spice file = .ok b ∧ (b.earth.mode = .full ↔ first.2 = "FULL".toList) ∧ (b.earth.mode = .simple ↔ first.2 = "SIMPLE".toList) ∧
      (b.moonMode = .iauMoon ↔ first.2 = "IAU_MOON".toList) ∧ (b.moonMode = .simple ↔ first.2 = "SIMPLE".toList) := by
  have hi := ids_read (spice s.kernels) hs hk
  have hmo := modes_read hs
  have hkr := kernels_read hs
  have hlen := hk.length_eq
  obtain ⟨h1, h2, h3, h4, -, h6, -⟩ := hs
  have hmode : ∀ (name : String) (p : ℤ) (center : String), (spice s.kernels).idOf name = some p → p ∉ ids →
      rotationMode (spice s.kernels) (Celestial.new ids center (spice s.kernels).gm (spice s.kernels).radii) (s.bodies.map Prod.snd) name = .ok (String.ofList first.2) := by
    intro name p center hn hp
    unfold rotationMode
    rw [id_absent hn hp]
    show (if 0 ≥ ids.length then _ else _) = _
    rw [if_neg (by rw [← hlen, hb]; simp), hb]
    rfl
  refine ⟨made s (spice s.kernels) ids first.2 first.2, ?_, (earth_modes _).1, (earth_modes _).2, (moon_modes _).1, (moon_modes _).2⟩
  unfold initBodies
  dsimp only
  rw [h1.read, h2.read, h3.read, h4.read, InitWheel.Switch.read h6, hkr, if_neg (by omega), Int.toNat_natCast, hi, hmo]
  show newBodies _ _ _ _ _ _ _ = _
  unfold newBodies
  dsimp only
  rw [hmode _ _ _ he hme, hmode _ _ _ hm hmm]
  rfl

/-- **C192 (no body selected).** When the number of selected bodies is zero, the Earth and the Moon are idle. -/
theorem C192_no_bodies (hs : s.In rd file) (earth moon : ℤ) (hb : s.bodies = [])
    (he : (spice s.kernels).idOf "EARTH" = some earth) (hm : (spice s.kernels).idOf "MOON" = some moon) :
    ∃ b, initBodies rd spice file = .ok b ∧ b.cel.ids = [] ∧ b.earth.mode = .idle ∧ b.moonMode = .idle := by
  have hk : s.Known (spice s.kernels).idOf [] := by
    unfold CelestialSheet.Known
    rw [hb]; exact List.Forall₂.nil
  have hi := ids_read (spice s.kernels) hs hk
  have hmo := modes_read hs
  have hkr := kernels_read hs
  obtain ⟨h1, h2, h3, h4, -, h6, -⟩ := hs
  have hmode : ∀ (name : String) (p : ℤ) (center : String), (spice s.kernels).idOf name = some p →
      rotationMode (spice s.kernels) (Celestial.new [] center (spice s.kernels).gm (spice s.kernels).radii) (s.bodies.map Prod.snd) name = .ok "Idle" := by
    intro name p center hn
    unfold rotationMode
    rw [id_absent hn List.not_mem_nil]
    rfl
  refine ⟨made s (spice s.kernels) [] "Idle".toList "Idle".toList, ?_, rfl, ?_, ?_⟩
  · unfold initBodies
    dsimp only
    rw [h1.read, h2.read, h3.read, h4.read, InitWheel.Switch.read h6, hkr, if_neg (by omega), Int.toNat_natCast, hi, hmo]
    show newBodies _ _ _ _ _ _ _ = _
    unfold newBodies
    dsimp only
    rw [hmode _ _ _ he, hmode _ _ _ hm]
    rfl
  · show convertEarthMode (String.ofList "Idle".toList) = _
    decide +kernel
  · show convertMoonMode (String.ofList "Idle".toList) = _
    decide +kernel

/-- **C192 (names).** The program stops when SPICE does not know the name of a selected body — the bodies before it being known — or when the number of bodies is
negative; a name of 30 characters or more is read without its end, which is undefined. -/
theorem C192_names (hs : s.In rd file) (good : List (Str × Str)) (bad : Str × Str) (rest : List (Str × Str)) (hb : s.bodies = good ++ bad :: rest)
    (hg : ∀ b ∈ good, (∃ p, (spice s.kernels).idOf (String.ofList b.1) = some p) ∧ b.1.length < 30 ∧ Char.ofNat 0 ∉ b.1) (hz : Char.ofNat 0 ∉ bad.1) :
    (bad.1.length < 30 → (spice s.kernels).idOf (String.ofList bad.1) = none → initBodies rd spice file = .throws) ∧
    (30 ≤ bad.1.length → initBodies rd spice file = .ub) := by
  have hkr := kernels_read hs
  have hT := hs.2.2.2.2.1
  obtain ⟨-, -, -, h4, -⟩ := hs
  have hread : ∀ (i : ℕ) (hi : i < s.bodies.length), readString rd.paths (file "CELESTIAL_INFORMATION".toList) (indexedKey "selected_body_name".toList i) = s.bodies[i].1 := by
    intro i hi
    have := (hT ⟨i, hi⟩).1.read
    simpa [indexedKey] using this
  have hlen : s.bodies.length = good.length + (rest.length + 1) := by rw [hb]; simp
  have hbad : s.bodies[good.length]'(by omega) = bad := by simp [hb]
  have hgood : ∀ i (hi : i < good.length), s.bodies[i]'(by omega) = good[i] := by intro i hi; simp [hb, List.getElem_append_left hi]
  have hr : List.range s.bodies.length = List.range good.length ++ good.length :: (List.range rest.length).map (fun i => good.length + (i + 1)) := by
    rw [hlen, List.range_add, List.range_succ_eq_map, List.map_cons, List.map_map]
    rfl
  have hok : ∀ i ∈ List.range good.length, ∃ p, bodyId rd (spice s.kernels) (file "CELESTIAL_INFORMATION".toList) i = .ok p := by
    intro i hi
    have hi' : i < good.length := by simpa using hi
    obtain ⟨⟨p, h1⟩, h2, h3⟩ := hg good[i] (List.getElem_mem hi')
    refine ⟨p, ?_⟩
    rw [bodyId_short ((hread i (by omega)).trans (congrArg Prod.fst (hgood i hi'))) h3 h2, h1]
  have hrb := (hread good.length (by omega)).trans (congrArg Prod.fst hbad)
  obtain ⟨f, hmk⟩ : ∃ f, initBodies rd spice file =
      (makeAll (bodyId rd (spice s.kernels) (file "CELESTIAL_INFORMATION".toList)) (List.range s.bodies.length)).bind f := by
    unfold initBodies
    dsimp only
    rw [h4.read, hkr, if_neg (by omega), Int.toNat_natCast]
    exact ⟨_, rfl⟩
  constructor
  · intro h1 h2
    have hf : bodyId rd (spice s.kernels) (file "CELESTIAL_INFORMATION".toList) good.length = .throws := by
      rw [bodyId_short hrb hz h1, h2]
    rw [hmk, hr, (makeAll_stop hok _ rfl).1 hf]
    rfl
  · intro h1
    have hf : bodyId rd (spice s.kernels) (file "CELESTIAL_INFORMATION".toList) good.length = .ub := by
      unfold bodyId
      dsimp only
      have := (IniRead.C52_char_buffer rd.paths (file "CELESTIAL_INFORMATION".toList) (indexedKey "selected_body_name".toList good.length) 30 (by rw [hrb]; exact hz)).2.1
      rw [hrb] at this
      rw [if_pos (fun h => absurd (this.1 h) (by omega))]
    rw [hmk, hr, (makeAll_stop hok _ rfl).2 hf]
    rfl

theorem C192_negative (n : ℤ) (h : Integer rd file "CELESTIAL_INFORMATION".toList "number_of_selected_body".toList n) (hn : n < 0) :
    initBodies rd spice file = .throws := by
  unfold initBodies
  dsimp only
  rw [h.read, if_pos hn]

/-- **C192 (catalogue).** The stars are those of the catalogue file up to the limiting magnitude of the settings when the calculation is switched on; when it is off, or
the file cannot be opened, there are none and the run goes on. -/
theorem C192_catalogue (parse : Str → Option Hip.Star) (disk : Str → Option Str) (path : Str) (limit : ℝ) (on logged : Bool)
    (h1 : Text rd file "HIPPARCOS_CATALOGUE".toList "catalogue_file_path".toList path) (h2 : Number rd file "HIPPARCOS_CATALOGUE".toList "max_magnitude".toList limit)
    (h3 : Switch rd file "HIPPARCOS_CATALOGUE".toList "calculation".toList on) (h4 : Switch rd file "HIPPARCOS_CATALOGUE".toList "logging".toList logged) :
    (∀ (title : Str) (rows : List (Str × Str)) (stars : List Hip.Star), Hip.IsWord title → Hip.Rows parse rows stars → disk path = some (Hip.text title rows []) → on = true →
      initCatalogue rd parse disk file = .ok ⟨true, logged, stars.takeWhile fun s => decide (s.magnitude ≤ limit)⟩) ∧
    (on = false ∨ disk path = none → initCatalogue rd parse disk file = .ok ⟨on, logged, []⟩) := by
  have e : initCatalogue rd parse disk file = (Hip.readContents parse on limit (disk path)).bind fun r => .ok ⟨on, logged, r.2⟩ := by
    unfold initCatalogue
    dsimp only
    rw [h1.read, h2.read, InitWheel.Switch.read h3, InitWheel.Switch.read h4]
  constructor
  · intro title rows stars w1 w2 w3 w4
    rw [e, w3, w4, (Hip.C137_read parse limit title rows stars [] w1 w2 (fun _ h => absurd h (by simp))).1 (.inl rfl)]
    rfl
  · rintro (h | h)
    · rw [e, h, (Hip.C137_none parse limit (disk path)).1]; rfl
    · rw [e, h, (Hip.C137_none parse limit none).2.1]; rfl

end main

/-! ## A concrete environment -/

/-- The clock of `InitTime.exFile`; the Sun, the Moon and the Earth with their modes; no stars. -/
def exFile : File := fun sec key =>
  if sec = "TIME".toList then InitTime.exFile sec key
  else if sec = "CELESTIAL_INFORMATION".toList then
    if key = "number_of_selected_body".toList then some "3".toList
    else if key = "selected_body_name(0)".toList then some "SUN".toList
    else if key = "selected_body_name(1)".toList then some "MOON".toList
    else if key = "selected_body_name(2)".toList then some "EARTH".toList
    else if key = "rotation_mode(1)".toList then some "SIMPLE".toList
    else if key = "rotation_mode(2)".toList then some "FULL".toList
    else if key = "logging".toList then some "ENABLE".toList
    else some key
  else some key

noncomputable def exReader : Reader := { InitTime.exReader with getInteger := fun _ => 3 }

def exSheet : CelestialSheet :=
  ⟨"inertial_frame".toList, "aberration_correction".toList, "center_object".toList,
    [("SUN".toList, "rotation_mode(0)".toList), ("MOON".toList, "SIMPLE".toList), ("EARTH".toList, "FULL".toList)], true, "tls".toList, "tpc1".toList, "tpc2".toList,
    "tpc3".toList, "bsp".toList⟩

theorem exNumber {key : Str} {x : ℝ} (h : Number InitTime.exReader InitTime.exFile "TIME".toList key x) : Number exReader exFile "TIME".toList key x := by
  obtain ⟨t, h1, h2⟩ := h
  exact ⟨t, (if_pos rfl).trans h1, h2⟩

theorem exTime : InitTime.exSheet.In exReader exFile := by
  obtain ⟨h1, h2, h3, h4, h5, h6, h7, h8, h9, h10, h11⟩ := InitTime.exSheet_in
  exact ⟨exNumber h1, exNumber h2, exNumber h3, exNumber h4, exNumber h5, exNumber h6, exNumber h7, exNumber h8, exNumber h9, exNumber h10, exNumber h11⟩

theorem exText' : Text exReader exFile "TIME".toList "simulation_start_time_utc".toList "2020/01/01 11:05:7.5".toList := by
  obtain ⟨t, h1, h2⟩ := InitTime.exText
  exact ⟨t, (if_pos rfl).trans h1, h2⟩

theorem exT (sec key text v : Str) (h : exFile sec key = some text) (h2 : Ini.process ⟨[], [], []⟩ text = v) : Text exReader exFile sec key v := ⟨text, h, h2⟩

theorem exSheet_in : exSheet.In exReader exFile := by
  refine ⟨exT _ _ "inertial_frame".toList _ (by decide +kernel) (by decide +kernel), exT _ _ "aberration_correction".toList _ (by decide +kernel) (by decide +kernel),
    exT _ _ "center_object".toList _ (by decide +kernel) (by decide +kernel), ⟨"3".toList, by decide +kernel, rfl⟩, ?_,
    ⟨"ENABLE".toList, exT _ _ "ENABLE".toList _ (by decide +kernel) (by decide +kernel), by decide +kernel⟩,
    exT _ _ "tls".toList _ (by decide +kernel) (by decide +kernel), exT _ _ "tpc1".toList _ (by decide +kernel) (by decide +kernel),
    exT _ _ "tpc2".toList _ (by decide +kernel) (by decide +kernel), exT _ _ "tpc3".toList _ (by decide +kernel) (by decide +kernel),
    exT _ _ "bsp".toList _ (by decide +kernel) (by decide +kernel)⟩
  rintro ⟨i, hi⟩
  have hi3 : i < 3 := hi
  interval_cases i
  · exact ⟨exT _ _ "SUN".toList _ (by decide +kernel +revert) (by decide +kernel +revert), exT _ _ "rotation_mode(0)".toList _ (by decide +kernel +revert) (by decide +kernel +revert)⟩
  · exact ⟨exT _ _ "MOON".toList _ (by decide +kernel +revert) (by decide +kernel +revert), exT _ _ "SIMPLE".toList _ (by decide +kernel +revert) (by decide +kernel +revert)⟩
  · exact ⟨exT _ _ "EARTH".toList _ (by decide +kernel +revert) (by decide +kernel +revert), exT _ _ "FULL".toList _ (by decide +kernel +revert) (by decide +kernel +revert)⟩

/-- A SPICE whose Moon goes round the Earth at the origin. -/
noncomputable def exSpice : Spice :=
  ⟨exampleSpice, fun p => if p = 301 then "MOON" else if p = 399 then "EARTH" else "SUN", fun _ => 1, fun _ => ![1, 1, 1],
    fun _ _ _ n _ => if n = "MOON" then (![384400, 0, 0], ![0, 1, 0]) else if n = "EARTH" then (0, 0) else (![150000000, 0, 0], 0), fun _ _ _ _ _ => 0, fun jd => jd⟩

theorem exKnown : exSheet.Known exSpice.idOf [10, 301, 399] := by
  refine .cons ⟨?_, by decide, by decide⟩ (.cons ⟨?_, by decide, by decide⟩ (.cons ⟨?_, by decide, by decide⟩ .nil))
  all_goals
    rw [ofList_eq.2 rfl]
    simp [exSpice, exampleSpice]

theorem exEarth : exSheet.ModeOf [10, 301, 399] 399 "FULL".toList := ⟨2, rfl, by decide, by decide⟩
theorem exMoon : exSheet.ModeOf [10, 301, 399] 301 "SIMPLE".toList := ⟨1, rfl, by decide, by decide⟩

/-- After ten steps the Moon is 384400 km from the centre, and the matrix of the simple mode is a rotation. -/
example (r : ℕ → ClockReads) : ∃ cat g0 g, initCatalogue exReader (fun _ => none) (fun _ => none) exFile = .ok cat ∧
    initGlobal exReader (fun _ => exSpice) (fun _ => none) (fun _ => none) 0 exFile = .ok g0 ∧ g0.updates exSpice r 10 = .ok g ∧ g.time.elapsed = 10 ∧
    g.bodies.cel.getPositionFromCenter exSpice.idOf "MOON" = .ok ![384400000, 0, 0] ∧ Rotation.IsRotation g.bodies.moon := by
  have hcat := (C192_catalogue exReader exFile (fun _ => none) (fun _ => none) "catalogue_file_path".toList 1 false false
    (exT _ _ "catalogue_file_path".toList _ (by decide +kernel) (by decide +kernel))
    ⟨"max_magnitude".toList, by decide +kernel, by
      unfold exReader InitTime.exReader
      dsimp only
      rw [if_neg (by decide +kernel), if_neg (by decide +kernel), if_neg (by decide +kernel)]⟩
    ⟨"calculation".toList, exT _ _ "calculation".toList _ (by decide +kernel) (by decide +kernel), by decide +kernel⟩
    ⟨"logging".toList, exT _ _ "logging".toList _ (by decide +kernel) (by decide +kernel), by decide +kernel⟩).2 (.inl rfl)
  have hE : exSpice.idOf "EARTH" = some 399 := by simp [exSpice, exampleSpice]
  have hM : exSpice.idOf "MOON" = some 301 := by simp [exSpice, exampleSpice]
  obtain ⟨g0, g, h1, h2, -, h4, h5, -, h7, -⟩ := C192_global exReader (fun _ => exSpice) exFile exSheet exSheet_in [10, 301, 399] exKnown 399 301 _ _ hE hM exEarth exMoon
    InitTime.exSheet exTime _ exText' 2020 1 1 11 5 7.5 InitTime.exStart InitTime.exValid (by norm_num) (by norm_num) (by norm_num [InitTime.exSheet]) InitTime.exConsistent
    (by norm_num [InitTime.exSheet]) (by norm_num [InitTime.exSheet]) (by norm_num [InitTime.exSheet]) (by norm_num [InitTime.exSheet]) _ _ _ hcat 0 r 10
  have e1 : ephemerisName (exSpice.nameOf 301) = "MOON" := by simp [exSpice, ephemerisName]
  have e2 : ephemerisName (exSpice.nameOf 399) = "EARTH" := by simp [exSpice, ephemerisName]
  refine ⟨_, g0, g, hcat, h1, h2, by rw [h4]; norm_num [InitTime.exSheet], ?_, (h7 rfl ?_).1⟩
  · rw [(h5 "MOON" 301 hM (by simp)).1]
    dsimp only
    rw [e1]
    congr 1
    funext i
    fin_cases i <;> norm_num [exSpice]
  · dsimp only
    rw [e1, e2]
    intro h
    have := congrFun h 2
    simp [exSpice, cross] at this

/-- Only the Sun is selected, with the mode FULL beside it. -/
def exFile2 : File := fun _ key =>
  if key = "selected_body_name(0)".toList then some "SUN".toList else if key = "rotation_mode(0)".toList then some "FULL".toList else some key

def exSheet2 : CelestialSheet :=
  ⟨"inertial_frame".toList, "aberration_correction".toList, "center_object".toList, [("SUN".toList, "FULL".toList)], false, "tls".toList, "tpc1".toList, "tpc2".toList,
    "tpc3".toList, "bsp".toList⟩

theorem exT2 (sec key text v : Str) (h : exFile2 sec key = some text) (h2 : Ini.process ⟨[], [], []⟩ text = v) :
    Text ⟨⟨[], [], []⟩, fun _ => 0, fun _ => 1, fun _ => []⟩ exFile2 sec key v := ⟨text, h, h2⟩

theorem exSheet2_in : exSheet2.In ⟨⟨[], [], []⟩, fun _ => 0, fun _ => 1, fun _ => []⟩ exFile2 := by
  refine ⟨exT2 _ _ "inertial_frame".toList _ (by decide +kernel) (by decide +kernel), exT2 _ _ "aberration_correction".toList _ (by decide +kernel) (by decide +kernel),
    exT2 _ _ "center_object".toList _ (by decide +kernel) (by decide +kernel), ⟨"number_of_selected_body".toList, by decide +kernel, rfl⟩, ?_,
    ⟨"logging".toList, exT2 _ _ "logging".toList _ (by decide +kernel) (by decide +kernel), by decide +kernel⟩,
    exT2 _ _ "tls".toList _ (by decide +kernel) (by decide +kernel), exT2 _ _ "tpc1".toList _ (by decide +kernel) (by decide +kernel),
    exT2 _ _ "tpc2".toList _ (by decide +kernel) (by decide +kernel), exT2 _ _ "tpc3".toList _ (by decide +kernel) (by decide +kernel),
    exT2 _ _ "bsp".toList _ (by decide +kernel) (by decide +kernel)⟩
  rintro ⟨i, hi⟩
  have hi1 : i < 1 := hi
  interval_cases i
  exact ⟨exT2 _ _ "SUN".toList _ (by decide +kernel +revert) (by decide +kernel +revert), exT2 _ _ "FULL".toList _ (by decide +kernel +revert) (by decide +kernel +revert)⟩

/-- The Earth, which is not selected, rotates in the mode of the Sun. -/
example : ∃ b, initBodies ⟨⟨[], [], []⟩, fun _ => 0, fun _ => 1, fun _ => []⟩ (fun _ => exSpice) exFile2 = .ok b ∧ b.earth.mode = .full := by
  obtain ⟨b, h1, h2, -⟩ := C192_unselected _ (fun _ => exSpice) exFile2 exSheet2 exSheet2_in [10]
    (.cons ⟨by rw [ofList_eq.2 rfl]; simp [exSpice, exampleSpice], by decide, by decide⟩ .nil) 399 301 ("SUN".toList, "FULL".toList) [] rfl
    (by simp [exSpice, exampleSpice]) (by simp [exSpice, exampleSpice]) (by decide) (by decide)
  exact ⟨b, h1, h2.2 rfl⟩

theorem exSheet3_in : CelestialSheet.In { exSheet2 with bodies := [] } ⟨⟨[], [], []⟩, fun _ => 0, fun _ => 0, fun _ => []⟩ exFile2 := by
  have t : ∀ (sec key text v : Str), exFile2 sec key = some text → Ini.process ⟨[], [], []⟩ text = v →
      Text ⟨⟨[], [], []⟩, fun _ => 0, fun _ => 0, fun _ => []⟩ exFile2 sec key v := fun sec key text v h h2 => ⟨text, h, h2⟩
  refine ⟨t _ _ "inertial_frame".toList _ (by decide +kernel) (by decide +kernel), t _ _ "aberration_correction".toList _ (by decide +kernel) (by decide +kernel),
    t _ _ "center_object".toList _ (by decide +kernel) (by decide +kernel), ⟨"number_of_selected_body".toList, by decide +kernel, rfl⟩, fun i => i.elim0,
    ⟨"logging".toList, t _ _ "logging".toList _ (by decide +kernel) (by decide +kernel), by decide +kernel⟩,
    t _ _ "tls".toList _ (by decide +kernel) (by decide +kernel), t _ _ "tpc1".toList _ (by decide +kernel) (by decide +kernel),
    t _ _ "tpc2".toList _ (by decide +kernel) (by decide +kernel), t _ _ "tpc3".toList _ (by decide +kernel) (by decide +kernel),
    t _ _ "bsp".toList _ (by decide +kernel) (by decide +kernel)⟩

/-- No body is selected: the Earth does not rotate. -/
example : ∃ b, initBodies ⟨⟨[], [], []⟩, fun _ => 0, fun _ => 0, fun _ => []⟩ (fun _ => exSpice) exFile2 = .ok b ∧ b.earth.mode = .idle := by
  obtain ⟨b, h1, -, h2, -⟩ := C192_no_bodies _ (fun _ => exSpice) exFile2 _ exSheet3_in 399 301 rfl (by simp [exSpice, exampleSpice]) (by simp [exSpice, exampleSpice])
  exact ⟨b, h1, h2⟩

/-- A SPICE that knows no name stops the program. -/
example : initBodies ⟨⟨[], [], []⟩, fun _ => 0, fun _ => 1, fun _ => []⟩ (fun _ => { exSpice with idOf := fun _ => none }) exFile2 = .throws :=
  (C192_names _ (fun _ => { exSpice with idOf := fun _ => none }) exFile2 exSheet2 exSheet2_in [] ("SUN".toList, "FULL".toList) [] rfl (fun _ h => absurd h (by simp))
    (by decide)).1 (by decide) rfl

/-- A negative number of bodies. -/
example (spice : List Str → Spice) : initBodies ⟨⟨[], [], []⟩, fun _ => 0, fun _ => -1, fun _ => []⟩ spice exFile2 = .throws :=
  C192_negative _ spice exFile2 (-1) ⟨"number_of_selected_body".toList, by decide +kernel, rfl⟩ (by decide)

end S2E.InitGlobal
