import Verif.Spec.InitLocal
import Verif.Props.InitGlobal
import Verif.Props.EarthRadiation
import Verif.Props.AtmosphereState
import Verif.Props.Geomagnetic
/-!
# C194: the local environment made from its settings file
-/
namespace S2E.InitLocal
open Log Ini InitOrbit Env Geomag Atmosphere Geodetic Settings

section made
variable (rd : Reader) (file : File) (s : LocalSheet)

theorem shadows_read (h : s.In rd file) :
    readVectorString rd.paths (file "SOLAR_RADIATION_PRESSURE_ENVIRONMENT".toList) "third_shadow_source_name".toList s.shadows.length = s.shadows := by
  have e : ∀ n : ℕ, readVectorString rd.paths (file "SOLAR_RADIATION_PRESSURE_ENVIRONMENT".toList) "third_shadow_source_name".toList n =
      (List.range n).map fun i => readString rd.paths (file "SOLAR_RADIATION_PRESSURE_ENVIRONMENT".toList) (indexedKey "third_shadow_source_name".toList i) := by
    intro n
    unfold readVectorString
    induction n with
    | zero => rfl
    | succ n ih => rw [List.range_succ, List.foldl_append, ih, List.map_append]; rfl
  rw [e]
  apply List.ext_getElem
  · simp
  · intro i h1 h2
    have hi : i < s.shadows.length := by simpa using h1
    have := (h.2.1.2.2.2 ⟨i, hi⟩).read
    simpa [indexedKey] using this

variable {γ : Type} (tableRead : Str → Bool) (spice : String → Option Int) (c : Celestial) (w : World γ)

/-- **C194 (made).** From a file of the local environment in which the values `s` are written: the magnetic field has the coefficient file and the noise as written; albedo, infrared
and radiation pressure have their switches and parameters; the shadows are cast by the centre body and by the *first* of the third bodies only, however many are written; the
magnetic field and the atmosphere are switched off when the centre body is not the Earth; the fluxes written by hand are replaced by 150 when below 50; NRLMSISE-00 falls back to the
standard model when its parameters are not written by hand and the table cannot be read; and the albedo and the infrared are always logged. -/
theorem C194_made (hs : s.In rd file) (hl : s.coefficients.length < 256) (R : ℝ) (hR : c.getMeanRadius spice "SUN" = .ok R) :
    ∃ w' e, initLocal rd tableRead spice c w file = .ok (w', e) ∧ w'.igrf.path = s.coefficients ∧ w'.noise = w.noise ∧
      (e.magnetic.enabled = true ↔ s.magneticOn = true ∧ c.center = "EARTH") ∧ e.magnetic.walkStd = s.walkStd ∧ e.magnetic.walkLimit = s.walkLimit ∧
      e.magnetic.whiteStd = s.whiteStd ∧ e.magnetic.fieldI = 0 ∧ e.magnetic.fieldB = 0 ∧
      e.rad.srp.enabled = s.srpOn ∧ e.rad.srp.sunRadius = R ∧ e.rad.srp.sources = c.center :: s.shadows.map (fun _ => String.ofList (s.shadows.headD [])) ∧
      e.rad.albedoOn = s.albedoOn ∧ e.rad.factor = s.factor ∧ e.rad.infraredOn = s.infraredOn ∧ e.rad.hot = s.hot ∧ e.rad.cold = s.cold ∧
      (e.atmo.enabled = true ↔ s.airOn = true ∧ c.center = "EARTH") ∧ e.atmo.rate = s.airStd ∧ e.atmo.density = 0 ∧
      e.atmo.model = String.ofList (if s.model = "NRLMSISE00".toList ∧ s.manual = false ∧ tableRead s.weather = false then "STANDARD".toList else s.model) ∧
      e.manual = ⟨s.manual, flux s.daily, flux s.average, s.ap⟩ ∧
      e.magneticLogged = s.magneticLogged ∧ e.srpLogged = s.srpLogged ∧ e.atmoLogged = s.airLogged ∧ e.bodiesLogged = s.bodiesLogged ∧
      e.albedoLogged = true ∧ e.infraredLogged = true := by
  have hsh := shadows_read rd file s hs
  obtain ⟨⟨m1, m2, m3, m4, m5, m6⟩, ⟨s1, s2, s3, -⟩, ⟨a1, a2⟩, ⟨i1, i2, i3⟩, ⟨t1, t2, t3, t4, t5, t6, t7, t8, t9⟩, b1⟩ := hs
  have hm : initMagnetic rd w c.center file =
      .ok ({ w with igrf := { w.igrf with path := s.coefficients } }, GeoField.configure ⟨true, fun _ => 0, fun _ => 0, s.walkStd, s.walkLimit, s.whiteStd⟩ s.magneticOn c.center) := by
    unfold initMagnetic
    dsimp only
    rw [m3.read, m4.read, m5.read, m6.read, InitWheel.Switch.read m1]
    unfold create Igrf.Igrf.setFilePath
    rw [if_pos hl]
    rfl
  obtain ⟨srp, p1, p2, p3, p4, p5⟩ := C109_sources spice c s.srpOn (s.shadows.map String.ofList) R hR
  have hp : initSrp rd spice c file = .ok srp := by
    unfold initSrp
    dsimp only
    rw [s3.read, if_neg (by omega), Int.toNat_natCast, hsh, InitWheel.Switch.read s1]
    exact p1
  have ha : initAtmosphere rd tableRead c.center file =
      (Atmo.new (String.ofList s.model) s.manual (tableRead s.weather) s.airStd s.airOn c.center, ⟨s.manual, flux s.daily, flux s.average, s.ap⟩) := by
    unfold initAtmosphere
    dsimp only
    rw [t3.read, t4.read, t5.read, t7.read, t8.read, t9.read, InitWheel.Switch.read t6, InitWheel.Switch.read t1]
    rfl
  have hr : initRad rd srp file = EarthRad.new srp s.albedoOn s.factor s.infraredOn s.hot s.cold := by
    unfold initRad
    dsimp only
    rw [InitWheel.Switch.read a1, a2.read, InitWheel.Switch.read i1, i2.read, i3.read]
  have hi : initLocal rd tableRead spice c w file = .ok ({ w with igrf := { w.igrf with path := s.coefficients } },
      ⟨GeoField.configure ⟨true, fun _ => 0, fun _ => 0, s.walkStd, s.walkLimit, s.whiteStd⟩ s.magneticOn c.center,
        EarthRad.new srp s.albedoOn s.factor s.infraredOn s.hot s.cold,
        Atmo.new (String.ofList s.model) s.manual (tableRead s.weather) s.airStd s.airOn c.center, ⟨s.manual, flux s.daily, flux s.average, s.ap⟩,
        ⟨c.ids.map fun _ => (fun _ => 0 : Vec 3), c.ids.map fun _ => (fun _ => 0 : Vec 3), c.ids.map fun _ => (fun _ => 0 : Vec 3), c.ids.map fun _ => (fun _ => 0 : Vec 3)⟩,
        s.magneticLogged, s.srpLogged, true, true, s.airLogged, s.bodiesLogged⟩) := by
    unfold initLocal
    dsimp only
    rw [hm, hp, ha]
    simp only [Res.bind]
    rw [hr, InitWheel.Switch.read m2, InitWheel.Switch.read s2, InitWheel.Switch.read t2, InitWheel.Switch.read b1]
  have hon : ∀ on : Bool, ((if c.center ≠ "EARTH" then false else on) = true ↔ on = true ∧ c.center = "EARTH") := by
    intro on
    by_cases h : c.center = "EARTH" <;> simp [h]
  refine ⟨_, _, hi, rfl, rfl, hon _, rfl, rfl, rfl, rfl, rfl, p2, p3, ?_, rfl, rfl, rfl, rfl, rfl, hon _, rfl, rfl, ?_, rfl, rfl, rfl, rfl, rfl, rfl, rfl⟩
  · show srp.sources = _
    rw [p5]
    congr 1
    cases s.shadows with
    | nil => rfl
    | cons a l => rw [List.map_map]; rfl
  · show modelOf (String.ofList s.model) s.manual (tableRead s.weather) = _
    have hof : ∀ a b : Str, String.ofList a = String.ofList b ↔ a = b := fun a b => ⟨fun h => by simpa using congrArg String.toList h, fun h => by rw [h]⟩
    have e1 : "STANDARD" = String.ofList "STANDARD".toList := (String.ofList_toList).symm
    have e2 : "NRLMSISE00" = String.ofList "NRLMSISE00".toList := (String.ofList_toList).symm
    unfold modelOf
    by_cases h1 : s.model = "NRLMSISE00".toList
    · rw [h1, if_neg (by decide +kernel), if_pos (by decide +kernel)]
      cases hm1 : s.manual <;> cases ht1 : tableRead s.weather <;> simp
    · rw [if_neg (c := s.model = "NRLMSISE00".toList ∧ _) (fun h => h1 h.1), if_neg (c := String.ofList s.model = "NRLMSISE00") (fun h => h1 ((hof _ _).1 (h.trans e2)))]
      split <;> rfl

end made

section runs
variable {γ : Type} (draw : ℝ → γ → ℝ × γ) (fresh : (Fin 3 → γ) × γ) (files : List Char → Option Igrf.Table) (spice : String → Option Int)

/-- What the radiation environment is updated with. -/
def trace (before : Local) : List Moment → List (Bool × Celestial × Local)
  | [] => []
  | m :: ms => (m.orbit, m.bodies, m.sees before) :: trace (m.sees before) ms

theorem update_parts (w w' : Geomag.World γ) (e e' : LocalEnv) (m : Moment) (h : e.update draw fresh files spice w m = .ok (w', e')) :
    localUpdate draw fresh files m.junk m.attitude w e.magnetic m.args = .ok (w', e'.magnetic) ∧ e.rad.step spice (m.orbit, m.bodies, m.sees e.bodies) = .ok e'.rad ∧
      (∃ sun, sunFor spice e.atmo m = .ok sun ∧
        e.atmo.update m.orbit ⟨m.geodetic, sun, m.nrlmsise e.manual.used e.manual.daily e.manual.average e.manual.ap, m.noise⟩ = .ok e'.atmo) ∧
      e'.bodies = m.sees e.bodies ∧ e'.manual = e.manual := by
  unfold LocalEnv.update at h
  rcases h1 : localUpdate draw fresh files m.junk m.attitude w e.magnetic m.args with g | _ | _ | _ <;> rw [h1] at h <;> simp only [Res.bind, reduceCtorEq] at h
  rcases h2 : e.rad.step spice (m.orbit, m.bodies, m.sees e.bodies) with r | _ | _ | _ <;> rw [h2] at h <;> simp only [Res.bind, reduceCtorEq] at h
  rcases h3 : sunFor spice e.atmo m with sun | _ | _ | _ <;> rw [h3] at h <;> simp only [Res.bind, reduceCtorEq] at h
  rcases h4 : e.atmo.update m.orbit ⟨m.geodetic, sun, m.nrlmsise e.manual.used e.manual.daily e.manual.average e.manual.ap, m.noise⟩ with a | _ | _ | _ <;>
    rw [h4] at h <;> simp only [Res.bind, reduceCtorEq] at h
  obtain ⟨rfl, rfl⟩ := Prod.mk.inj (Res.ok.inj h)
  exact ⟨rfl, rfl, ⟨sun, rfl, h4⟩, rfl, rfl⟩

theorem run_append (l : List Moment) : ∀ (ms : List Moment) (w : Geomag.World γ) (e : LocalEnv),
    LocalEnv.run draw fresh files spice w e (l ++ ms) = (LocalEnv.run draw fresh files spice w e l).bind fun r => LocalEnv.run draw fresh files spice r.1 r.2 ms := by
  induction l with
  | nil => intro ms w e; rfl
  | cons m l ih =>
    intro ms w e
    rw [List.cons_append, LocalEnv.run, LocalEnv.run]
    rcases e.update draw fresh files spice w m with r | _ | _ | _ <;> simp only [Res.bind]
    exact ih ms r.1 r.2

theorem run_rad (ms : List Moment) : ∀ (w w' : Geomag.World γ) (e e' : LocalEnv), LocalEnv.run draw fresh files spice w e ms = .ok (w', e') →
    e.rad.run spice (trace e.bodies ms) = .ok e'.rad ∧ e'.bodies = lastSeen e.bodies ms ∧ e'.manual = e.manual := by
  induction ms with
  | nil =>
    intro w w' e e' h
    obtain ⟨rfl, rfl⟩ := Prod.mk.inj (Res.ok.inj h)
    exact ⟨rfl, rfl, rfl⟩
  | cons m ms ih =>
    intro w w' e e' h
    rw [LocalEnv.run] at h
    rcases h1 : e.update draw fresh files spice w m with r | _ | _ | _ <;> rw [h1] at h <;> simp only [Res.bind, reduceCtorEq] at h
    obtain ⟨w1, e1⟩ := r
    obtain ⟨-, p2, -, p4, p5⟩ := update_parts draw fresh files spice w w1 e e1 m h1
    obtain ⟨q1, q2, q3⟩ := ih w1 w' e1 e' h
    rw [p4] at q1 q2
    refine ⟨?_, q2, q3.trans p5⟩
    rw [trace, EarthRad.run, p2]
    exact q1

/-- What an update gives to the atmosphere. -/
def GivesAir (manual : Manual) (a : Atmo) (m : Moment) (x : Bool × Input) : Prop :=
  x.1 = m.orbit ∧ x.2.position = m.geodetic ∧ x.2.nrlmsise = m.nrlmsise manual.used manual.daily manual.average manual.ap ∧
    (m.orbit = true → a.enabled = true → a.model = "HARRIS_PRIESTER" → m.bodies.getPositionFromCenter spice "SUN" = .ok x.2.sun)

theorem run_air (ms : List Moment) : ∀ (w w' : Geomag.World γ) (e e' : LocalEnv), LocalEnv.run draw fresh files spice w e ms = .ok (w', e') →
    ∃ l, List.Forall₂ (GivesAir spice e.manual e.atmo) ms l ∧ e.atmo.run l = .ok e'.atmo := by
  induction ms with
  | nil =>
    intro w w' e e' h
    obtain ⟨rfl, rfl⟩ := Prod.mk.inj (Res.ok.inj h)
    exact ⟨[], .nil, rfl⟩
  | cons m ms ih =>
    intro w w' e e' h
    rw [LocalEnv.run] at h
    rcases h1 : e.update draw fresh files spice w m with r | _ | _ | _ <;> rw [h1] at h <;> simp only [Res.bind, reduceCtorEq] at h
    obtain ⟨w1, e1⟩ := r
    obtain ⟨-, -, ⟨sun, p1, p2⟩, -, p5⟩ := update_parts draw fresh files spice w w1 e e1 m h1
    obtain ⟨l, q1, q2⟩ := ih w1 w' e1 e' h
    obtain ⟨k1, k2, -⟩ := Atmosphere.update_keeps _ _ _ _ p2
    refine ⟨(m.orbit, ⟨m.geodetic, sun, m.nrlmsise e.manual.used e.manual.daily e.manual.average e.manual.ap, m.noise⟩) :: l, .cons ⟨rfl, rfl, rfl, ?_⟩ ?_, ?_⟩
    · intro o1 o2 o3
      rw [sunFor, if_pos ⟨o1, o2, o3⟩] at p1
      exact p1
    · refine q1.imp ?_
      rintro n x ⟨x1, x2, x3, x4⟩
      rw [p5] at x3
      rw [k1, k2] at x4
      exact ⟨x1, x2, x3, x4⟩
    · rw [Atmo.run, p2]
      exact q2

theorem run_magnetic (ms : List Moment) : ∀ (w w' : Geomag.World γ) (e e' : LocalEnv), LocalEnv.run draw fresh files spice w e ms = .ok (w', e') →
    e'.magnetic.enabled = e.magnetic.enabled ∧ (e.magnetic.enabled = false → w' = w ∧ e'.magnetic = e.magnetic) := by
  induction ms with
  | nil =>
    intro w w' e e' h
    obtain ⟨rfl, rfl⟩ := Prod.mk.inj (Res.ok.inj h)
    exact ⟨rfl, fun _ => ⟨rfl, rfl⟩⟩
  | cons m ms ih =>
    intro w w' e e' h
    rw [LocalEnv.run] at h
    rcases h1 : e.update draw fresh files spice w m with r | _ | _ | _ <;> rw [h1] at h <;> simp only [Res.bind, reduceCtorEq] at h
    obtain ⟨w1, e1⟩ := r
    obtain ⟨p1, -⟩ := update_parts draw fresh files spice w w1 e e1 m h1
    obtain ⟨q1, q2⟩ := ih w1 w' e1 e' h
    have key : e1.magnetic.enabled = e.magnetic.enabled ∧ (e.magnetic.enabled = false → w1 = w ∧ e1.magnetic = e.magnetic) := by
      unfold localUpdate at p1
      split_ifs at p1 with ha
      · unfold calcMagneticField at p1
        split_ifs at p1 with hb
        · rcases h2 : w.igrf.igrfCalc files m.junk m.args.year m.args.lat m.args.lon m.args.alt m.args.sidereal with r | _ | _ | _ <;> rw [h2] at p1 <;> simp only [Res.bind, reduceCtorEq] at p1
          obtain ⟨-, h3⟩ := Prod.mk.inj (Res.ok.inj p1)
          rw [← h3]
          exact ⟨rfl, fun h => by rw [h] at hb; cases hb⟩
        · obtain ⟨h2, h3⟩ := Prod.mk.inj (Res.ok.inj p1)
          exact ⟨by rw [h3], fun _ => ⟨h2.symm, h3.symm⟩⟩
      · obtain ⟨h2, h3⟩ := Prod.mk.inj (Res.ok.inj p1)
        exact ⟨by rw [h3], fun _ => ⟨h2.symm, h3.symm⟩⟩
    refine ⟨q1.trans key.1, fun h => ?_⟩
    obtain ⟨a1, a2⟩ := q2 (key.1.trans h)
    obtain ⟨b1, b2⟩ := key.2 h
    exact ⟨a1.trans b1, a2.trans b2⟩

theorem trace_append (l : List Moment) : ∀ (ms : List Moment) (b : Local), trace b (l ++ ms) = trace b l ++ trace (lastSeen b l) ms := by
  induction l with
  | nil => intro ms b; rfl
  | cons m l ih =>
    intro ms b
    rw [List.cons_append, trace, trace, ih, List.cons_append]
    rfl

theorem trace_idle (l : List Moment) : ∀ b : Local, (∀ m ∈ l, m.orbit = false) → ∀ x ∈ trace b l, x.1 = false := by
  induction l with
  | nil => intro b _ x hx; cases hx
  | cons m l ih =>
    intro b h x hx
    rcases List.mem_cons.mp hx with rfl | hx
    · exact h m (by simp)
    · exact ih _ (fun n hn => h n (by simp [hn])) x hx

theorem lastSeen_append (l : List Moment) : ∀ (ms : List Moment) (b : Local), lastSeen b (l ++ ms) = lastSeen (lastSeen b l) ms := by
  induction l with
  | nil => intro ms b; rfl
  | cons m l ih => intro ms b; exact ih ms _

end runs

section history
variable {γ : Type} (draw : ℝ → γ → ℝ × γ) (fresh : (Fin 3 → γ) × γ) (files : List Char → Option Igrf.Table) (spice : String → Option Int)
variable (rd : Reader) (file : File) (s : LocalSheet) (tableRead : Str → Bool) (c : Celestial) (w : Geomag.World γ)

/-- **C194 (another centre).** Around another body than the Earth the magnetic field and the air density are zero after every history, whatever the file switches on. -/
theorem C194_not_earth (hs : s.In rd file) (hl : s.coefficients.length < 256) (R : ℝ) (hR : c.getMeanRadius spice "SUN" = .ok R) (hc : c.center ≠ "EARTH") (w1 w2 : Geomag.World γ)
    (e e' : LocalEnv) (ms : List Moment) (hi : initLocal rd tableRead spice c w file = .ok (w1, e)) (hr : LocalEnv.run draw fresh files spice w1 e ms = .ok (w2, e')) :
    e'.magnetic.fieldI = 0 ∧ e'.magnetic.fieldB = 0 ∧ e'.atmo.density = 0 := by
  obtain ⟨w', e0, h1, -, -, h2, -, -, -, h3, h4, -, -, -, -, -, -, -, -, h5, -, h6, -⟩ := C194_made rd file s tableRead spice c w hs hl R hR
  rw [hi] at h1
  obtain ⟨rfl, rfl⟩ := Prod.mk.inj (Res.ok.inj h1)
  have hm : e.magnetic.enabled = false := Bool.eq_false_iff.mpr fun h => hc (h2.1 h).2
  have ha : e.atmo.enabled = false := Bool.eq_false_iff.mpr fun h => hc (h5.1 h).2
  obtain ⟨-, q2⟩ := run_magnetic draw fresh files spice ms w1 w2 e e' hr
  obtain ⟨-, q3⟩ := q2 hm
  obtain ⟨l, -, q4⟩ := run_air draw fresh files spice ms w1 w2 e e' hr
  have hstay : ∀ (l : List (Bool × Input)) (a : Atmo), a.enabled = false → a.run l = .ok a := by
    intro l
    induction l with
    | nil => intro a _; rfl
    | cons x l ih =>
      intro a h
      have : a.update x.1 x.2 = .ok a := by
        have hcalc : a.calc x.2 = .ok (0, a) := by
          unfold Atmo.calc
          rw [if_pos (by rw [h]; rfl)]
        unfold Atmo.update
        rw [hcalc]
        split_ifs <;> rfl
      rw [Atmo.run, this]
      exact ih a h
  rw [hstay l _ ha] at q4
  rw [q3, h3, h4, ← Res.ok.inj q4, h6]
  exact ⟨rfl, rfl, rfl⟩

open Classical in
/-- **C194 (radiation).** With radiation pressure, albedo and infrared switched on, and the last update with the orbit flag being `m`: the albedo and the infrared radiation are those
of the Sun and the shadows where the spacecraft saw them *at the last update with the attitude flag* up to `m`, with the factor and the temperatures of the file. An orbit update
without attitude update uses the previous directions. -/
theorem C194_radiation (hs : s.In rd file) (hl : s.coefficients.length < 256) (R : ℝ) (hR : c.getMeanRadius spice "SUN" = .ok R) (h1 : s.srpOn = true) (h2 : s.albedoOn = true)
    (h3 : s.infraredOn = true) (w1 w2 : Geomag.World γ) (e e' : LocalEnv) (before : List Moment) (m : Moment) (after : List Moment) (hm : m.orbit = true)
    (ha : ∀ n ∈ after, n.orbit = false) (hi : initLocal rd tableRead spice c w file = .ok (w1, e))
    (hr : LocalEnv.run draw fresh files spice w1 e (before ++ m :: after) = .ok (w2, e'))
    (sun : Fin 3 → ℝ) (pos : String → Fin 3 → ℝ) (rad : String → ℝ) (hv : Sees spice m.bodies (lastSeen e.bodies (before ++ [m])) e.rad.srp sun pos rad) (h0 : sun ≠ 0) :
    ∃ k, 0 ≤ k ∧ k ≤ 1 ∧ e'.rad.albedo = some (s.factor * (1366 * (149597870700 / TwoBody.len sun) ^ 2 * k)) ∧
      (s.shadows = [] → c.center ≠ "SUN" → k = lit sun (pos c.center) R (rad c.center)) ∧
      e'.rad.infrared = 5.670374419e-8 * (if ∃ n ∈ e.rad.srp.sources, n ≠ "SUN" ∧ Overlap sun (pos n) R (rad n) then s.cold else s.hot) ^ 4 := by
  obtain ⟨w', e0, g1, -, -, -, -, -, -, -, -, g2, g3, g4, g5, g6, g7, g8, g9, -⟩ := C194_made rd file s tableRead spice c w hs hl R hR
  rw [hi] at g1
  obtain ⟨rfl, rfl⟩ := Prod.mk.inj (Res.ok.inj g1)
  obtain ⟨q1, -⟩ := run_rad draw fresh files spice _ w1 w2 e e' hr
  rw [trace_append, trace, hm] at q1
  rw [lastSeen_append] at hv
  rcases hb : e.rad.run spice (trace e.bodies before) with e1 | _ | _ | _
  · obtain ⟨e2, k, k1, k2, k3, k4, k5, k6⟩ := C149_values spice e.rad e1 (g2.trans h1) (g5.trans h2) (g7.trans h3) _ hb m.bodies (m.sees (lastSeen e.bodies before)) sun pos rad hv h0
      (trace (m.sees (lastSeen e.bodies before)) after) (trace_idle after _ ha)
    rw [k1] at q1
    obtain rfl := Res.ok.inj q1
    rw [g6] at k4
    rw [g8, g9, g3] at k6
    refine ⟨k, k2, k3, k4, ?_, k6⟩
    intro hn hne
    rw [← g3]
    exact k5 c.center (by rw [g4, hn]; rfl) hne
  all_goals (rw [Env.rad_run_append, hb] at q1; simp [Res.bind] at q1)

/-- **C194 (air).** Around the Earth with the atmosphere switched on, the density after the last update `m` with the orbit flag is that of the model of the file at that position. -/
theorem C194_air (hs : s.In rd file) (hl : s.coefficients.length < 256) (R : ℝ) (hR : c.getMeanRadius spice "SUN" = .ok R) (h1 : s.airOn = true) (hc : c.center = "EARTH")
    (w1 w2 : Geomag.World γ) (e e' : LocalEnv) (before : List Moment) (m : Moment) (after : List Moment) (hm : m.orbit = true)
    (ha : ∀ n ∈ after, n.orbit = false) (hi : initLocal rd tableRead spice c w file = .ok (w1, e))
    (hr : LocalEnv.run draw fresh files spice w1 e (before ++ m :: after) = .ok (w2, e')) :
    (s.model = "STANDARD".toList → e'.atmo.density = simpleDensity m.geodetic.altitude) ∧
    (s.model = "NRLMSISE00".toList → e'.atmo.density =
      if s.manual = true ∨ tableRead s.weather = true then m.nrlmsise s.manual (flux s.daily) (flux s.average) s.ap else simpleDensity m.geodetic.altitude) ∧
    (s.model = "HARRIS_PRIESTER".toList → ∃ sun, m.bodies.getPositionFromCenter spice "SUN" = .ok sun ∧
      harrisPriester m.geodetic (calcNormalizedVector sun) 4 = .ok e'.atmo.density) ∧
    (s.model ∉ ["STANDARD".toList, "NRLMSISE00".toList, "HARRIS_PRIESTER".toList] → e'.atmo.density = 0) := by
  obtain ⟨w', e0, g1, -, -, -, -, -, -, -, -, -, -, -, -, -, -, -, -, g2, -, -, g4, g5, -⟩ := C194_made rd file s tableRead spice c w hs hl R hR
  rw [hi] at g1
  obtain ⟨rfl, rfl⟩ := Prod.mk.inj (Res.ok.inj g1)
  obtain ⟨l, q1, q2⟩ := run_air draw fresh files spice _ w1 w2 e e' hr
  have hsplit : ∀ (bs : List Moment) (l : List (Bool × Input)), List.Forall₂ (GivesAir spice e.manual e.atmo) (bs ++ m :: after) l →
      ∃ l1 x l2, l = l1 ++ x :: l2 ∧ GivesAir spice e.manual e.atmo m x ∧ List.Forall₂ (GivesAir spice e.manual e.atmo) after l2 := by
    intro bs
    induction bs with
    | nil =>
      intro l hl
      cases hl with
      | cons a b => exact ⟨[], _, _, rfl, a, b⟩
    | cons n bs ih =>
      intro l hl
      cases hl with
      | cons a b =>
        obtain ⟨l1, x, l2, rfl, u1, u2⟩ := ih _ b
        exact ⟨_ :: l1, x, l2, rfl, u1, u2⟩
  obtain ⟨l1, ⟨xo, x⟩, l2, rfl, ⟨x1, x2, x3, x4⟩, u2⟩ := hsplit before l q1
  dsimp only at x1 x2 x3 x4
  have hidle : ∀ (as : List Moment) (l : List (Bool × Input)), (∀ n ∈ as, n.orbit = false) → List.Forall₂ (GivesAir spice e.manual e.atmo) as l → ∀ y ∈ l, y.1 = false := by
    intro as
    induction as with
    | nil =>
      intro l _ hl y hy
      cases hl
      cases hy
    | cons n as ih =>
      intro l hn hl y hy
      cases hl with
      | cons a b =>
        rcases List.mem_cons.mp hy with rfl | hy
        · rw [a.1]; exact hn n (by simp)
        · exact ih _ (fun k hk => hn k (by simp [hk])) b y hy
  have hen : e.atmo.enabled = true := g2.2 ⟨h1, hc⟩
  rw [hm] at x1
  subst x1
  obtain ⟨r1, r2⟩ := C146_last e.atmo hen l1 x l2 (hidle after l2 ha u2) e'.atmo q2
  refine ⟨?_, ?_, ?_, ?_⟩
  · intro hM
    rw [if_neg (by rw [hM]; exact fun h => absurd h.1 (by decide +kernel)), hM] at g4
    have := r1 (.ok (simpleDensity x.position.altitude)) (by rw [modelDensity, if_pos (g4.trans String.ofList_toList)])
    rw [x2] at this
    exact (Res.ok.inj this).symm
  · intro hM
    by_cases hT : s.manual = true ∨ tableRead s.weather = true
    · rw [if_pos hT]
      rw [if_neg (by rintro ⟨-, k1, k2⟩; rw [k1, k2] at hT; exact absurd hT (by decide)), hM] at g4
      have := r1 (.ok x.nrlmsise) (by rw [modelDensity, g4, if_neg (by decide +kernel), if_pos String.ofList_toList])
      rw [x3, g5] at this
      exact (Res.ok.inj this).symm
    · rw [if_neg hT]
      rw [if_pos ⟨hM, Bool.eq_false_iff.mpr fun h => hT (Or.inl h), Bool.eq_false_iff.mpr fun h => hT (Or.inr h)⟩] at g4
      have := r1 (.ok (simpleDensity x.position.altitude)) (by rw [modelDensity, if_pos (g4.trans String.ofList_toList)])
      rw [x2] at this
      exact (Res.ok.inj this).symm
  · intro hM
    rw [if_neg (by rw [hM]; exact fun h => absurd h.1 (by decide +kernel)), hM] at g4
    have hP : e.atmo.model = "HARRIS_PRIESTER" := g4.trans String.ofList_toList
    refine ⟨x.sun, x4 hm hen hP, ?_⟩
    have := r1 (harrisPriester x.position (calcNormalizedVector x.sun) 4) (by rw [modelDensity, hP, if_neg (by decide), if_neg (by decide), if_pos rfl])
    rw [x2] at this
    exact this
  · intro hM
    simp only [List.mem_cons, List.not_mem_nil, or_false, not_or] at hM
    obtain ⟨k1, k2, k3⟩ := hM
    rw [if_neg (fun h => k2 h.1)] at g4
    have hne : ∀ t : String, s.model ≠ t.toList → e.atmo.model ≠ t := by
      intro t ht h
      rw [g4] at h
      exact ht (by rw [← h, String.toList_ofList])
    exact r2 (by rw [modelDensity, if_neg (hne _ k1), if_neg (hne _ k2), if_neg (hne _ k3)])

/-- What is known of the magnetic field after `n` evaluations. -/
structure Going (n : ℕ) (w : Geomag.World γ) (f : GeoField) : Prop where
  enabled : f.enabled = true
  walkStd : f.walkStd = s.walkStd
  walkLimit : f.walkLimit = s.walkLimit
  whiteStd : f.whiteStd = s.whiteStd
  ran : ∃ o, Ran draw fresh files o n w ∧ ∀ g ∈ o, GeoField.walkStd g = s.walkStd ∧ g.walkLimit = s.walkLimit ∧ g.whiteStd = s.whiteStd
  path : (n = 0 → Igrf.Before s.coefficients w.igrf) ∧ (n ≠ 0 → ∃ y, Igrf.After files s.coefficients y w.igrf)

variable {draw fresh files s}

theorem going_call {n : ℕ} {w w' : Geomag.World γ} {f f' : GeoField} (h : Going draw fresh files s n w f) (junk : ℝ × ℝ) (a : Args)
    (hc : localUpdate draw fresh files junk true w f a = .ok (w', f')) :
    Going draw fresh files s (n + 1) w' f' ∧ ∃ B, w.igrf.igrfCalc files junk a.year a.lat a.lon a.alt a.sidereal = .ok (w'.igrf, B) ∧
      (∀ i : Fin 3, f'.fieldI i = B i + (walk (draw s.walkStd) s.walkLimit (fresh.1 i) n).1 + white (draw s.whiteStd) fresh.2 (3 * n + i)) ∧ f'.fieldB = matVec a.i2b.toDcm f'.fieldI := by
  have hc' : calcMagneticField draw fresh files junk w f a = .ok (w', f') := hc
  obtain ⟨o, o1, o2⟩ := h.ran
  obtain ⟨B, b1, b2, b3, b4⟩ := C156_noise o1 h.enabled hc'
  have hg : (o.getD f).walkStd = s.walkStd ∧ (o.getD f).walkLimit = s.walkLimit ∧ (o.getD f).whiteStd = s.whiteStd := by
    cases o with
    | none => exact ⟨h.walkStd, h.walkLimit, h.whiteStd⟩
    | some g => exact o2 g rfl
  have hk : f'.enabled = f.enabled ∧ f'.walkStd = f.walkStd ∧ f'.walkLimit = f.walkLimit ∧ f'.whiteStd = f.whiteStd := by
    unfold calcMagneticField at hc'
    rw [if_pos h.enabled, b1] at hc'
    obtain ⟨-, h3⟩ := Prod.mk.inj (Res.ok.inj hc')
    rw [← h3]
    exact ⟨rfl, rfl, rfl, rfl⟩
  refine ⟨⟨hk.1.trans h.enabled, hk.2.1.trans h.walkStd, hk.2.2.1.trans h.walkLimit, hk.2.2.2.trans h.whiteStd, ⟨_, b4, ?_⟩, fun h0 => absurd h0 (by omega), fun _ => ?_⟩, B, b1, ?_, b3⟩
  · intro g hg2
    obtain rfl := Option.some.inj hg2
    exact hg
  · rcases Nat.eq_zero_or_pos n with h0 | h0
    · exact ⟨a.year, .first (h.path.1 h0) b1⟩
    · obtain ⟨y, hy⟩ := h.path.2 (by omega)
      exact ⟨y, .next hy b1⟩
  · intro i
    rw [b2 i, hg.1, hg.2.1, hg.2.2]

theorem going_run (spice : String → Option Int) (ms : List Moment) : ∀ (n : ℕ) (w w' : Geomag.World γ) (e e' : LocalEnv), Going draw fresh files s n w e.magnetic →
    LocalEnv.run draw fresh files spice w e ms = .ok (w', e') →
    Going draw fresh files s (n + ms.countP (fun k => k.attitude)) w' e'.magnetic ∧ ((∀ k ∈ ms, k.attitude = false) → w' = w ∧ e'.magnetic = e.magnetic) := by
  induction ms with
  | nil =>
    intro n w w' e e' h hr
    obtain ⟨rfl, rfl⟩ := Prod.mk.inj (Res.ok.inj hr)
    exact ⟨h, fun _ => ⟨rfl, rfl⟩⟩
  | cons m ms ih =>
    intro n w w' e e' h hr
    rw [LocalEnv.run] at hr
    rcases h1 : e.update draw fresh files spice w m with r | _ | _ | _ <;> rw [h1] at hr <;> simp only [Res.bind, reduceCtorEq] at hr
    obtain ⟨w1, e1⟩ := r
    obtain ⟨p1, -⟩ := update_parts draw fresh files spice w w1 e e1 m h1
    cases hm : m.attitude with
    | true =>
      rw [hm] at p1
      obtain ⟨g1, -⟩ := going_call h m.junk m.args p1
      obtain ⟨q1, -⟩ := ih (n + 1) w1 w' e1 e' g1 hr
      refine ⟨?_, fun hn => absurd (hn m (by simp)) (by rw [hm]; decide)⟩
      rw [List.countP_cons_of_pos (by exact hm)]
      convert q1 using 1
      omega
    | false =>
      rw [hm] at p1
      obtain ⟨h2, h3⟩ := Prod.mk.inj (Res.ok.inj p1)
      rw [← h2] at hr
      have h' : Going draw fresh files s n w e1.magnetic := by rw [← h3]; exact h
      obtain ⟨q1, q2⟩ := ih n w w' e1 e' h' hr
      refine ⟨?_, fun hn => ?_⟩
      · rw [List.countP_cons_of_neg (by rw [hm]; decide)]
        exact q1
      · obtain ⟨k1, k2⟩ := q2 fun k hk => hn k (by simp [hk])
        exact ⟨k1, k2.trans h3.symm⟩

variable (draw fresh files s)

/-- **C194 (magnetic field).** In a program whose first local environment is this one, around the Earth with the magnetic field switched on: after a history in which `m` is the last update
with the attitude flag and `n` such updates precede it, the field is the model value `B` for the coefficient file at the date, sidereal time and geodetic position of `m`, plus a random
walk after `n` steps, plus the white noise number `3n + i`, with the deviations and the limit of the file; and in the body frame the same vector turned by the attitude of `m`. -/
theorem C194_magnetic (hs : s.In rd file) (hl : s.coefficients.length < 256) (R : ℝ) (hR : c.getMeanRadius spice "SUN" = .ok R) (h1 : s.magneticOn = true) (hc : c.center = "EARTH")
    (w1 w2 : Geomag.World γ) (e e' : LocalEnv) (before : List Moment) (m : Moment) (after : List Moment) (hm : m.attitude = true)
    (ha : ∀ k ∈ after, k.attitude = false) (hi : initLocal rd tableRead spice c (Geomag.World.initial : Geomag.World γ) file = .ok (w1, e))
    (hr : LocalEnv.run draw fresh files spice w1 e (before ++ m :: after) = .ok (w2, e')) :
    let n := before.countP (fun k => k.attitude)
    ∃ g B, (n = 0 → Igrf.Before s.coefficients g) ∧ (n ≠ 0 → ∃ y, Igrf.After files s.coefficients y g) ∧
      g.igrfCalc files m.junk m.year m.geodetic.latitude m.geodetic.longitude m.geodetic.altitude m.sidereal = .ok (w2.igrf, B) ∧
      (∀ i : Fin 3, e'.magnetic.fieldI i = B i + (walk (draw s.walkStd) s.walkLimit (fresh.1 i) n).1 + white (draw s.whiteStd) fresh.2 (3 * n + i)) ∧
      e'.magnetic.fieldB = matVec m.i2b.toDcm e'.magnetic.fieldI := by
  intro n
  obtain ⟨w', e0, g1, -, -, g2, g3, g4, g5, -⟩ := C194_made rd file s tableRead spice c (Geomag.World.initial : Geomag.World γ) hs hl R hR
  rw [hi] at g1
  obtain ⟨rfl, rfl⟩ := Prod.mk.inj (Res.ok.inj g1)
  have hcre : ∃ f, create (Geomag.World.initial : Geomag.World γ) s.coefficients s.walkStd s.walkLimit s.whiteStd = .ok (w1, f) := by
    unfold initLocal initMagnetic at hi
    obtain ⟨⟨-, -, m3, m4, m5, m6⟩, -⟩ := hs
    dsimp only at hi
    rw [m3.read, m4.read, m5.read, m6.read] at hi
    rcases h3 : create (Geomag.World.initial : Geomag.World γ) s.coefficients s.walkStd s.walkLimit s.whiteStd with r | _ | _ | _ <;> rw [h3] at hi <;>
      simp only [Res.bind, reduceCtorEq] at hi
    rcases h4 : initSrp rd spice c file with r4 | _ | _ | _ <;> rw [h4] at hi <;> simp only [Res.bind, reduceCtorEq] at hi
    exact ⟨r.2, by rw [← (Prod.mk.inj (Res.ok.inj hi)).1]⟩
  obtain ⟨f0, hcre⟩ := hcre
  have hgo : Going draw fresh files s 0 w1 e.magnetic := by
    refine ⟨g2.2 ⟨h1, hc⟩, g3, g4, g5, ⟨none, .object .start hcre, fun g hg => by cases hg⟩, fun _ => ?_, fun h => absurd rfl h⟩
    unfold create at hcre
    rcases h5 : (Geomag.World.initial : Geomag.World γ).igrf.setFilePath s.coefficients with v | _ | _ | _ <;> rw [h5] at hcre <;> simp only [Res.bind, reduceCtorEq] at hcre
    rw [← (Prod.mk.inj (Res.ok.inj hcre)).1]
    exact .path .initial h5
  rw [run_append] at hr
  rcases h6 : LocalEnv.run draw fresh files spice w1 e before with r | _ | _ | _ <;> rw [h6] at hr <;> simp only [Res.bind, reduceCtorEq] at hr
  obtain ⟨w3, e3⟩ := r
  obtain ⟨k1, -⟩ := going_run spice before 0 w1 w3 e e3 hgo h6
  rw [Nat.zero_add] at k1
  rw [LocalEnv.run] at hr
  rcases h7 : e3.update draw fresh files spice w3 m with r | _ | _ | _ <;> rw [h7] at hr <;> simp only [Res.bind, reduceCtorEq] at hr
  obtain ⟨w4, e4⟩ := r
  obtain ⟨p1, -⟩ := update_parts draw fresh files spice w3 w4 e3 e4 m h7
  rw [hm] at p1
  obtain ⟨k2, B, b1, b2, b3⟩ := going_call k1 m.junk m.args p1
  obtain ⟨-, k4⟩ := going_run spice after _ w4 w2 e4 e' k2 hr
  obtain ⟨rfl, k5⟩ := k4 ha
  rw [k5]
  exact ⟨w3.igrf, B, k1.path.1, k1.path.2, b1, b2, b3⟩

/-- **C194 (rejected).** A negative number of third shadow sources ends in an exception; a path of 256 characters or more for the coefficients overruns a buffer. -/
theorem C194_rejected (coefficients : Str) (ht : Text rd file "MAGNETIC_FIELD_ENVIRONMENT".toList "coefficient_file".toList coefficients) :
    (256 ≤ coefficients.length → initLocal rd tableRead spice c w file = .ub) ∧
    (coefficients.length < 256 → ∀ n : ℤ, n < 0 → Integer rd file "SOLAR_RADIATION_PRESSURE_ENVIRONMENT".toList "number_of_third_shadow_source".toList n →
      ∀ R, c.getMeanRadius spice "SUN" = .ok R → initLocal rd tableRead spice c w file = .throws) := by
  constructor
  · intro h
    unfold initLocal initMagnetic
    dsimp only
    rw [ht.read]
    unfold create Igrf.Igrf.setFilePath
    rw [if_neg (by omega)]
    rfl
  · intro h n hn hi R hR
    have hm : ∃ r, initMagnetic rd w c.center file = .ok r := by
      unfold initMagnetic
      dsimp only
      rw [ht.read]
      unfold create Igrf.Igrf.setFilePath
      rw [if_pos h]
      exact ⟨_, rfl⟩
    obtain ⟨r, hm⟩ := hm
    have hsrp : initSrp rd spice c file = .throws := by
      unfold initSrp
      dsimp only
      rw [hi.read, if_pos hn, Srp.new, hR]
      rfl
    unfold initLocal
    rw [hm]
    dsimp only [Res.bind]
    rw [hsrp]

end history

/-! ## Examples -/

/-- Everything switched on, the Moon a third shadow source, the standard atmosphere, and no logging. -/
def exFile : File := fun _ key =>
  if key = "calculation".toList then some "ENABLE".toList else if key = "coefficient_file".toList then some "13".toList
  else if key = "third_shadow_source_name(0)".toList then some "MOON".toList else if key = "model".toList then some "STANDARD".toList else some key

noncomputable def exReader : Reader := ⟨⟨[], [], []⟩, fun _ => 2, fun _ => 1, fun _ => []⟩

noncomputable def exSheet : LocalSheet :=
  ⟨true, false, "13".toList, 2, 2, 2, true, false, ["MOON".toList], true, 2, true, 2, 2, true, false, "STANDARD".toList, "nrlmsise00_table_file".toList, 2, false, 2, 2, 2, false⟩

theorem exText (sec key text v : Str) (h : exFile sec key = some text) (h2 : Ini.process ⟨[], [], []⟩ text = v) : Text exReader exFile sec key v := ⟨text, h, h2⟩

theorem exSheet_in : exSheet.In exReader exFile := by
  have on : ∀ sec, Switch exReader exFile sec "calculation".toList true := fun sec =>
    ⟨"ENABLE".toList, exText sec _ "ENABLE".toList _ (by unfold exFile; rw [if_pos rfl]) (by decide +kernel), by decide +kernel⟩
  have off : ∀ sec, Switch exReader exFile sec "logging".toList false := fun sec =>
    ⟨"logging".toList, exText sec _ "logging".toList _ (by
      unfold exFile
      rw [if_neg (by decide +kernel), if_neg (by decide +kernel), if_neg (by decide +kernel), if_neg (by decide +kernel)]) (by decide +kernel), by decide +kernel⟩
  refine ⟨⟨on _, off _, exText _ _ "13".toList _ (by decide +kernel) (by decide +kernel), ⟨"magnetic_field_random_walk_standard_deviation_nT".toList, by decide +kernel, rfl⟩,
      ⟨"magnetic_field_random_walk_limit_nT".toList, by decide +kernel, rfl⟩, ⟨"magnetic_field_white_noise_standard_deviation_nT".toList, by decide +kernel, rfl⟩⟩,
    ⟨on _, off _, ⟨"number_of_third_shadow_source".toList, by decide +kernel, rfl⟩, ?_⟩,
    ⟨on _, ⟨"earth_albedo_factor".toList, by decide +kernel, rfl⟩⟩,
    ⟨on _, ⟨"earth_infrared_temperature_hot_side_K".toList, by decide +kernel, rfl⟩, ⟨"earth_infrared_temperature_cold_side_K".toList, by decide +kernel, rfl⟩⟩,
    ⟨on _, off _, exText _ _ "STANDARD".toList _ (by decide +kernel) (by decide +kernel), exText _ _ "nrlmsise00_table_file".toList _ (by decide +kernel) (by decide +kernel),
      ⟨"air_density_standard_deviation".toList, by decide +kernel, rfl⟩,
      ⟨"is_manual_parameter_used".toList, exText _ _ "is_manual_parameter_used".toList _ (by decide +kernel) (by decide +kernel), by decide +kernel⟩,
      ⟨"manual_daily_f107".toList, by decide +kernel, rfl⟩, ⟨"manual_average_f107".toList, by decide +kernel, rfl⟩, ⟨"manual_ap".toList, by decide +kernel, rfl⟩⟩, off _⟩
  rintro ⟨i, hi⟩
  have hi1 : i < 1 := hi
  interval_cases i
  exact exText _ _ "MOON".toList _ (by decide +kernel +revert) (by decide +kernel +revert)

theorem exRadius : exampleBodies.getMeanRadius exampleSpice "SUN" = .ok 1 := by
  have i2 : exampleBodies.calcBodyIdFromName exampleSpice "SUN" = .ok 1 :=
    id_selected (p := 10) (by simp [exampleSpice]) ⟨rfl, fun j hj => by
      obtain rfl : j = 0 := by omega
      simp [exampleBodies]⟩
  simp only [Celestial.getMeanRadius, i2, Res.bind]
  simp [getAt, exampleBodies]

/-- On the equator in the year 2000. -/
noncomputable def exMoment : Moment :=
  ⟨true, true, 2000, 0, exampleBodies, 0, 0, ⟨0, 0, 0, ⟨0, 0, 0, 1⟩⟩, ⟨0, 0, 0, 1⟩, 0, fun _ _ _ _ => 0, 1, (0, 0)⟩

/-- The hypotheses of all the history theorems are met together: an update of the environment of that file, then one without flags. -/
theorem ex_run : ∃ (w1 w2 : Geomag.World Unit) (e e' : LocalEnv), initLocal exReader (fun _ => true) exampleSpice exampleBodies (Geomag.World.initial : Geomag.World Unit) exFile = .ok (w1, e) ∧
    LocalEnv.run (fun d _ => (d, ())) (fun _ => (), ()) (fun _ => some Igrf.demo) exampleSpice w1 e [exMoment, { exMoment with attitude := false, orbit := false }] = .ok (w2, e') ∧
    Sees exampleSpice exampleBodies (lastSeen e.bodies [exMoment]) e.rad.srp ![10, 0, 0]
      (fun n => if n = "EARTH" then ![1, 0, 0] else ![2, 0, 0]) (fun n => if n = "EARTH" then 1 / 2 else 1 / 10) := by
  obtain ⟨w1, e, h1, -, -, h2, -, -, -, -, -, h3, h4, h5, -, -, -, -, -, h6, -, -, h7, -⟩ :=
    C194_made exReader exFile exSheet (fun _ => true) exampleSpice exampleBodies (Geomag.World.initial : Geomag.World Unit) exSheet_in (by decide +kernel) 1 exRadius
  have hsees : Sees exampleSpice exampleBodies exampleLocal e.rad.srp ![10, 0, 0]
      (fun n => if n = "EARTH" then ![1, 0, 0] else ![2, 0, 0]) (fun n => if n = "EARTH" then 1 / 2 else 1 / 10) := by
    refine ⟨example_sees.atSun, ?_⟩
    have hs : e.rad.srp.sources = ["EARTH", "MOON"] := by
      rw [h5]
      show ["EARTH", String.ofList "MOON".toList] = _
      rw [String.ofList_toList]
    rw [hs, h4]
    exact example_sees.source
  have hwi : w1.igrf = { Igrf.Igrf.initial with path := ['1', '3'] } := by
    unfold initLocal initMagnetic at h1
    obtain ⟨⟨-, -, m3, m4, m5, m6⟩, -⟩ := exSheet_in
    dsimp only at h1
    rw [m3.read, m4.read, m5.read, m6.read] at h1
    have h3 : create (Geomag.World.initial : Geomag.World Unit) exSheet.coefficients exSheet.walkStd exSheet.walkLimit exSheet.whiteStd =
        .ok (⟨{ Igrf.Igrf.initial with path := ['1', '3'] }, none⟩, ⟨true, fun _ => 0, fun _ => 0, 2, 2, 2⟩) := by
      unfold create
      show (Igrf.Igrf.initial.setFilePath ['1', '3']).bind _ = _
      rw [Igrf.Igrf.setFilePath, if_pos (by decide)]; rfl
    rw [h3] at h1
    simp only [Res.bind] at h1
    rcases h4 : initSrp exReader exampleSpice exampleBodies exFile with r4 | _ | _ | _ <;> rw [h4] at h1 <;> simp only [reduceCtorEq] at h1
    rw [← (Prod.mk.inj (Res.ok.inj h1)).1]
  have hb : Igrf.Before ['1', '3'] w1.igrf := by
    rw [hwi]
    exact .path .initial (by rw [Igrf.Igrf.setFilePath, if_pos (by decide)])
  obtain ⟨s1, B, e1, -⟩ := Igrf.C154_field (files := fun _ => some Igrf.demo) (List.infix_refl _) rfl Igrf.demo_complete Igrf.demo_2000 (Igrf.demo_ends 0) (Or.inl ⟨hb, rfl⟩) (0, 0) 0 Igrf.at_equator
  obtain ⟨srp', k, u1, -⟩ := C108_update exampleSpice exampleBodies exampleLocal e.rad.srp _ _ _ (h3.trans rfl) hsees
  have hen : e.magnetic.enabled = true := h2.2 ⟨rfl, rfl⟩
  have hup : ∃ r, e.update (fun d _ => (d, ())) (fun _ => (), ()) (fun _ => some Igrf.demo) exampleSpice w1 exMoment = .ok r := by
    have a1 : ∃ g, localUpdate (fun d _ => (d, ())) (fun _ => (), ()) (fun _ => some Igrf.demo) exMoment.junk exMoment.attitude w1 e.magnetic exMoment.args = .ok g := by
      show ∃ g, calcMagneticField (fun d _ => (d, ())) (fun _ => (), ()) (fun _ => some Igrf.demo) (0, 0) w1 e.magnetic ⟨2000, 0, 0, 0, 0, ⟨0, 0, 0, 1⟩⟩ = .ok g
      unfold calcMagneticField
      rw [if_pos hen]
      dsimp only
      rw [e1]
      exact ⟨_, rfl⟩
    obtain ⟨g, a1⟩ := a1
    have a2 : ∃ r, e.rad.step exampleSpice (exMoment.orbit, exMoment.bodies, exMoment.sees e.bodies) = .ok r := by
      show ∃ r, Res.bind (e.rad.srp.update exampleSpice exampleBodies exampleLocal) _ = .ok r
      rw [u1]
      exact ⟨_, rfl⟩
    obtain ⟨r, a2⟩ := a2
    have hmod : e.atmo.model = "STANDARD" := by
      rw [h7, if_neg (fun h => absurd h.1 (by show ¬("STANDARD".toList = "NRLMSISE00".toList); decide +kernel))]
      exact String.ofList_toList
    have a3 : sunFor exampleSpice e.atmo exMoment = .ok fun _ => 0 := by
      unfold sunFor
      rw [if_neg]
      rintro ⟨-, -, h⟩
      rw [hmod] at h
      exact absurd h (by decide)
    have a4 : ∀ i : Input, ∃ a, e.atmo.update exMoment.orbit i = .ok a := by
      intro i
      obtain ⟨b, b1, -⟩ := C146_returned e.atmo i (h6.2 ⟨rfl, rfl⟩) (simpleDensity i.position.altitude) (by rw [modelDensity, if_pos hmod])
      show ∃ a, (e.atmo.calc i).bind _ = .ok a
      rw [b1]
      exact ⟨_, rfl⟩
    unfold LocalEnv.update
    rw [a1]
    simp only [Res.bind]
    rw [a2]
    simp only [Res.bind]
    rw [a3]
    simp only [Res.bind]
    obtain ⟨a, ha⟩ := a4 ⟨exMoment.geodetic, fun _ => 0, exMoment.nrlmsise e.manual.used e.manual.daily e.manual.average e.manual.ap, exMoment.noise⟩
    rw [ha]
    exact ⟨_, rfl⟩
  obtain ⟨⟨w2, e2⟩, hup⟩ := hup
  refine ⟨w1, w2, e, e2, h1, ?_, hsees⟩
  rw [LocalEnv.run, hup]
  simp only [Res.bind]
  have hidle : e2.update (fun d _ => (d, ())) (fun _ => (), ()) (fun _ => some Igrf.demo) exampleSpice w2 { exMoment with attitude := false, orbit := false } = .ok (w2, e2) := by
    unfold LocalEnv.update localUpdate EarthRad.step sunFor Atmo.update
    rfl
  rw [LocalEnv.run, hidle]
  rfl

/-- The density is that of the standard atmosphere at sea level, the albedo is lit by some part of the Sun, and the magnetic field is noisy. -/
example : ∃ (e' : LocalEnv) (k : ℝ) (B : Vec 3), e'.atmo.density = simpleDensity 0 ∧ e'.rad.albedo = some (2 * (1366 * (149597870700 / TwoBody.len ![10, 0, 0]) ^ 2 * k)) ∧ 0 ≤ k ∧ k ≤ 1 ∧
    ∀ i : Fin 3, e'.magnetic.fieldI i = B i + 2 := by
  obtain ⟨w1, w2, e, e', h1, h2, h3⟩ := ex_run
  obtain ⟨d1, -⟩ := C194_air _ _ _ exampleSpice exReader exFile exSheet _ exampleBodies _ exSheet_in (by decide +kernel) 1 exRadius rfl rfl w1 w2 e e' [] exMoment
    [{ exMoment with attitude := false, orbit := false }] rfl (by simp) h1 h2
  obtain ⟨k, k1, k2, k3, -⟩ := C194_radiation _ _ _ exampleSpice exReader exFile exSheet _ exampleBodies _ exSheet_in (by decide +kernel) 1 exRadius rfl rfl rfl w1 w2 e e' [] exMoment
    [{ exMoment with attitude := false, orbit := false }] rfl (by simp) h1 h2 _ _ _ h3 (fun h => by simpa using congrFun h 0)
  obtain ⟨g, B, -, -, -, b, -⟩ := C194_magnetic _ _ _ exampleSpice exReader exFile exSheet _ exampleBodies exSheet_in (by decide +kernel) 1 exRadius rfl rfl w1 w2 e e' [] exMoment
    [{ exMoment with attitude := false, orbit := false }] rfl (by simp) h1 h2
  refine ⟨e', k, B, d1 rfl, k3, k1, k2, fun i => ?_⟩
  have := b i
  simp only [List.countP_nil, walk, white, add_zero] at this
  exact this

/-- Around Mars. -/
example : ∃ (w1 : Geomag.World Unit) (e : LocalEnv),
    initLocal exReader (fun _ => true) exampleSpice { exampleBodies with center := "MARS" } (Geomag.World.initial : Geomag.World Unit) exFile = .ok (w1, e) ∧
    LocalEnv.run (fun d _ => (d, ())) (fun _ => (), ()) (fun _ => none) exampleSpice w1 e [{ exMoment with orbit := false }] = .ok (w1, { e with bodies := exampleLocal }) := by
  obtain ⟨w1, e, h1, -, -, h2, -⟩ := C194_made exReader exFile exSheet (fun _ => true) exampleSpice { exampleBodies with center := "MARS" }
    (Geomag.World.initial : Geomag.World Unit) exSheet_in (by decide +kernel) 1 exRadius
  refine ⟨w1, e, h1, ?_⟩
  have hm : e.magnetic.enabled = false := Bool.eq_false_iff.mpr fun h => absurd (h2.1 h).2 (by decide)
  have hu : e.update (fun d _ => (d, ())) (fun _ => (), ()) (fun _ => none) exampleSpice w1 { exMoment with orbit := false } = .ok (w1, { e with bodies := exampleLocal }) := by
    unfold LocalEnv.update
    have a1 : localUpdate (fun d _ => (d, ())) (fun _ => (), ()) (fun _ => none) exMoment.junk true w1 e.magnetic exMoment.args = .ok (w1, e.magnetic) := by
      show calcMagneticField _ _ _ _ _ _ _ = _
      unfold calcMagneticField
      rw [if_neg (by rw [hm]; decide)]
    change (localUpdate (fun d _ => (d, ())) (fun _ => (), ()) (fun _ => none) exMoment.junk true w1 e.magnetic exMoment.args).bind _ = _
    rw [a1]
    rfl
  rw [LocalEnv.run, hu]
  rfl

/-- Minus one third shadow source. -/
example : initLocal { exReader with getInteger := fun _ => -1 } (fun _ => true) exampleSpice exampleBodies (Geomag.World.initial : Geomag.World Unit) exFile = .throws :=
  (C194_rejected exampleSpice { exReader with getInteger := fun _ => -1 } exFile (fun _ => true) exampleBodies _ "13".toList ⟨"13".toList, by decide +kernel, by decide +kernel⟩).2
    (by decide +kernel) (-1) (by decide) ⟨"number_of_third_shadow_source".toList, by decide +kernel, rfl⟩ 1 exRadius

end S2E.InitLocal
