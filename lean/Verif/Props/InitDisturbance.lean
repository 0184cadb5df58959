import Verif.Spec.InitDisturbance
import Verif.Proofs.Settings
import Verif.Props.InitWheel
import Verif.Props.Disturbance
import Verif.Props.ThirdBody
import Verif.Props.Geopotential
/-!
# C188: the disturbances of a spacecraft made from settings files
-/
namespace S2E.InitDisturbance
open Settings Log InitOrbit Dist GravityModel Gravity

/-- The acceleration of each disturbance in the inertial frame: the attraction of the third bodies minus what they do to the centre (`geo` is the geopotential). -/
noncomputable def acceleration (bodies : List String) (geo : Surroundings → Vec 3) : Kind → Surroundings → Vec 3
  | .thirdBodyGravity, e => ∑ n ∈ bodies.toFinset, (pull (e.mu n) (e.position + e.fromSc n) e.position - pull (e.mu n) (e.position + e.fromSc n) 0)
  | .geopotential, e => geo e
  | _, _ => 0

/-! ## The loop -/

section loop
variable (on : Kind → Bool) (F T A : Kind → Surroundings → Vec 3)

/-- What a disturbance holds after its latest recalculation. -/
def holds (k : Kind) (x : Option Surroundings) : Effect := if on k = true then x.elim Effect.zero fun e => ⟨F k e, T k e, 0, A k e⟩ else Effect.zero

/-- A disturbance that computes the given vectors in good surroundings. -/
structure Matches (good : Surroundings → Prop) (i : Item) (k : Kind) : Prop where
  enabled : i.enabled = on k
  dependent : i.dependent = k.attitudeDependent
  zero : i.effect = Effect.zero
  compute : on k = true → ∀ e x, good e → i.obj.compute e (holds on F T A k x) = .ok ⟨F k e, T k e, 0, A k e⟩

/-- The latest recalculation after one more step. -/
def next (c : Step) (x : Kind → Option Surroundings) : Kind → Option Surroundings := fun k => if Recalculated k c then some c.env else x k

variable {on F T A}

theorem scale_zero (v : Vec 3) : scale 0 v = fun _ => 0 := by funext i; simp [scale]

theorem recalculated_iff (k : Kind) (c : Step) : Recalculated k c ↔ c.orbit = true ∨ c.attitude = true ∧ k.attitudeDependent = true := by
  unfold Recalculated
  cases k <;> simp [Kind.attitudeDependent]

theorem visit_eq {good : Surroundings → Prop} {i : Item} {k : Kind} (m : Matches on F T A good i k) (x : Option Surroundings) (c : Step) (hg : Recalculated k c → good c.env) :
    ({ i with effect := holds on F T A k x } : Item).visit c = .ok { i with effect := holds on F T A k (if Recalculated k c then some c.env else x) } := by
  have hu : Recalculated k c → ({ i with effect := holds on F T A k x } : Item).updateIfEnabled c.env = .ok { i with effect := holds on F T A k (some c.env) } := by
    intro hr
    unfold Item.updateIfEnabled
    dsimp only
    rw [m.enabled]
    by_cases h : on k = true
    · rw [if_pos h, m.compute h c.env x (hg hr)]
      simp only [Res.bind]
      unfold holds
      rw [if_pos h]
      rfl
    · rw [if_neg h]
      have e : ∀ x, holds on F T A k x = Effect.zero := fun x => if_neg h
      rw [e, e]
      simp only [Effect.zero, scale_zero]
  have hdep := m.dependent
  unfold Item.visit
  dsimp only
  by_cases ho : c.orbit = true
  · have hr := (recalculated_iff k c).2 (.inl ho)
    rw [if_pos ho, hu hr, if_pos hr]
  · rw [if_neg ho]
    by_cases ha : c.attitude = true
    · rw [if_pos ha]
      by_cases hd : i.dependent = true
      · have hr := (recalculated_iff k c).2 (.inr ⟨ha, hdep ▸ hd⟩)
        rw [if_pos hd, hu hr, if_pos hr]
      · rw [if_neg hd, if_neg (by rw [recalculated_iff, ← hdep]; tauto)]
    · rw [if_neg ha, if_neg (by rw [recalculated_iff]; tauto)]

/-- The disturbances after some steps. -/
noncomputable def itemsAt (on : Kind → Bool) (F T A : Kind → Surroundings → Vec 3) (item : Kind → Item) (ks : List Kind) (x : Kind → Option Surroundings) : List Item :=
  ks.map fun k => { item k with effect := holds on F T A k (x k) }

theorem visitAll_eq {good : Surroundings → Prop} {item : Kind → Item} (c : Step) (x : Kind → Option Surroundings) : ∀ ks : List Kind,
    (∀ k ∈ ks, Matches on F T A good (item k) k) → (∀ k ∈ ks, Recalculated k c → good c.env) →
    visitAll c (itemsAt on F T A item ks x) = .ok (itemsAt on F T A item ks (next c x))
  | [], _, _ => rfl
  | k :: ks, hm, hg => by
    unfold itemsAt
    rw [List.map_cons, visitAll, visit_eq (hm k List.mem_cons_self) (x k) c (hg k List.mem_cons_self)]
    have ih := visitAll_eq (good := good) (item := item) c x ks (fun j hj => hm j (List.mem_cons_of_mem _ hj)) (fun j hj => hg j (List.mem_cons_of_mem _ hj))
    unfold itemsAt at ih
    simp only [Res.bind]
    rw [ih]
    rfl

/-- The disturbances and their totals after some steps. -/
structure Inv (on : Kind → Bool) (F T A : Kind → Surroundings → Vec 3) (item : Kind → Item) (ks : List Kind) (x : Kind → Option Surroundings) (s : Items) : Prop where
  list : s.list = itemsAt on F T A item ks x
  torque : s.torque = (ks.map fun k => (holds on F T A k (x k)).torque).sum
  force : s.force = (ks.map fun k => (holds on F T A k (x k)).force).sum
  acceleration : s.acceleration = (ks.map fun k => (holds on F T A k (x k)).accelerationI).sum

theorem total (f : Item → Vec 3) (l : List Item) : l.foldl (fun a i => vadd a (f i)) (fun _ => 0) = (l.map f).sum := by
  have z : (fun _ => 0 : Vec 3) = 0 := rfl
  rw [foldl_vadd, z, zero_add]

theorem update_inv {good : Surroundings → Prop} {item : Kind → Item} {ks : List Kind} {x : Kind → Option Surroundings} {s : Items} (c : Step)
    (hm : ∀ k ∈ ks, Matches on F T A good (item k) k) (hg : ∀ k ∈ ks, Recalculated k c → good c.env) (h : Inv on F T A item ks x s) :
    ∃ s', s.update c = .ok s' ∧ Inv on F T A item ks (next c x) s' := by
  have e : s.update c = .ok ⟨itemsAt on F T A item ks (next c x), (itemsAt on F T A item ks (next c x)).foldl (fun a i => vadd a i.effect.torque) (fun _ => 0),
      (itemsAt on F T A item ks (next c x)).foldl (fun a i => vadd a i.effect.force) (fun _ => 0),
      (itemsAt on F T A item ks (next c x)).foldl (fun a i => vadd a i.effect.accelerationI) (fun _ => 0)⟩ := by
    unfold Items.update
    rw [h.list, visitAll_eq c x ks hm hg]
    rfl
  refine ⟨_, e, rfl, ?_, ?_, ?_⟩
  all_goals
    dsimp only
    rw [total]
    unfold itemsAt
    rw [List.map_map]
    rfl

theorem run_inv {good : Surroundings → Prop} {item : Kind → Item} {ks : List Kind} (hm : ∀ k ∈ ks, Matches on F T A good (item k) k) : ∀ (h : List Step)
    (x : Kind → Option Surroundings) (s : Items), (∀ c ∈ h, ∀ k ∈ ks, Recalculated k c → good c.env) → Inv on F T A item ks x s →
    ∃ s', s.run h = .ok s' ∧ Inv on F T A item ks (h.foldl (fun x c => next c x) x) s'
  | [], x, s, _, hi => ⟨s, rfl, hi⟩
  | c :: h, x, s, hg, hi => by
    obtain ⟨s1, e1, i1⟩ := update_inv c hm (hg c List.mem_cons_self) hi
    obtain ⟨s2, e2, i2⟩ := run_inv hm h _ s1 (fun d hd => hg d (List.mem_cons_of_mem _ hd)) i1
    exact ⟨s2, by rw [Items.run, e1]; exact e2, i2⟩

theorem latest_eq (k : Kind) (h : List Step) : h.foldl (fun x c => next c x) (fun _ => none) k = latest k h := by
  induction h using List.reverseRecOn with
  | nil => rfl
  | append_singleton h c ih =>
    rw [List.foldl_append]
    simp only [List.foldl_cons, List.foldl_nil]
    unfold next
    unfold latest at ih ⊢
    rw [List.filter_append]
    by_cases hr : Recalculated k c
    · rw [if_pos hr]
      simp [hr]
    · rw [if_neg hr]
      simp only [hr, decide_false, List.filter_cons, List.filter_nil, Bool.false_eq_true, if_false, List.append_nil]
      exact ih

theorem shown_force (h : List Step) (k : Kind) : (holds on F T A k (latest k h)).force = shown on F h k := by
  unfold holds shown
  by_cases ho : on k = true
  · rw [if_pos ho, if_pos ho]; cases latest k h <;> rfl
  · rw [if_neg ho, if_neg ho]; rfl

theorem shown_torque (h : List Step) (k : Kind) : (holds on F T A k (latest k h)).torque = shown on T h k := by
  unfold holds shown
  by_cases ho : on k = true
  · rw [if_pos ho, if_pos ho]; cases latest k h <;> rfl
  · rw [if_neg ho, if_neg ho]; rfl

theorem shown_acceleration (h : List Step) (k : Kind) : (holds on F T A k (latest k h)).accelerationI = shown on A h k := by
  unfold holds shown
  by_cases ho : on k = true
  · rw [if_pos ho, if_pos ho]; cases latest k h <;> rfl
  · rw [if_neg ho, if_neg ho]; rfl

/-- Totals of any history of updates of freshly made disturbances. -/
theorem run_totals {good : Surroundings → Prop} {item : Kind → Item} {ks : List Kind} (hm : ∀ k ∈ ks, Matches on F T A good (item k) k) (h : List Step)
    (hg : ∀ c ∈ h, ∀ k ∈ ks, Recalculated k c → good c.env) :
    ∃ s', (⟨ks.map item, fun _ => 0, fun _ => 0, fun _ => 0⟩ : Items).run h = .ok s' ∧ s'.force = (ks.map (shown on F h)).sum ∧
      s'.torque = (ks.map (shown on T h)).sum ∧ s'.acceleration = (ks.map (shown on A h)).sum := by
  have hz : ∀ k, holds on F T A k none = Effect.zero := by
    intro k; unfold holds; split <;> rfl
  have hs : (ks.map fun _ => (fun _ => 0 : Vec 3)).sum = fun _ => 0 := by
    have z : (fun _ => 0 : Vec 3) = 0 := rfl
    rw [z]; simp
  obtain ⟨s', e, i⟩ := run_inv hm h (fun _ => none) ⟨ks.map item, fun _ => 0, fun _ => 0, fun _ => 0⟩ hg (by
    refine ⟨?_, ?_, ?_, ?_⟩
    · unfold itemsAt
      refine List.map_congr_left fun k hk => ?_
      rw [hz, ← (hm k hk).zero]
    all_goals
      simp only [hz]
      exact hs.symm)
  refine ⟨s', e, ?_, ?_, ?_⟩
  · rw [i.force]
    congr 1
    exact List.map_congr_left fun k _ => by rw [latest_eq, shown_force]
  · rw [i.torque]
    congr 1
    exact List.map_congr_left fun k _ => by rw [latest_eq, shown_torque]
  · rw [i.acceleration]
    congr 1
    exact List.map_congr_left fun k _ => by rw [latest_eq, shown_acceleration]

end loop

/-! ## The settings -/

variable (rd : Reader) (egm : Str → Option (List Line)) (grgm : Str → Option (ℝ × ℝ × List Line)) (file base : File)

theorem readNames_eq {sec : Str} {key : String} {names : List String}
    (h : ∀ i (hi : i < names.length), Text rd file sec (key.toList ++ "(".toList ++ dec i ++ ")".toList) names[i].toList) :
    readNames rd (file sec) key names.length = names := by
  unfold readNames
  apply List.ext_getElem
  · simp
  · intro i h1 h2
    simp only [List.getElem_map, List.getElem_range]
    have := (h i h2).read
    unfold Ini.indexedKey
    rw [this, String.ofList_toList]

/-- The item that the sheet describes. -/
noncomputable def itemOf (s : DisturbanceSheet) (mu : ℝ) (l : List String) (g : Potential) (k : Kind) : Item :=
  ⟨s.on k, s.logged k, k.attitudeDependent,
    match k with
    | .gravityGradient => .gravityGradient mu
    | .solarRadiationPressure => .solarRadiationPressure
    | .thirdBodyGravity => .thirdBodyGravity l
    | .lunarGravityField => .lunarGravityField g
    | .airDrag => .airDrag s.drag
    | .magnetic => .magnetic
    | .geopotential => .geopotential g, Effect.zero⟩

theorem make_eq {s : DisturbanceSheet} (hs : s.In rd file) (k : Kind) (sec : String) (hk : sectionOf k = sec.toList) (o : Obj) :
    make rd file sec k.attitudeDependent o = ⟨s.on k, s.logged k, k.attitudeDependent, o, Effect.zero⟩ := by
  unfold make
  have h := hs.1 k
  rw [hk] at h
  rw [InitWheel.Switch.read h.1, InitWheel.Switch.read h.2]

theorem initThirdBody_eq {s : DisturbanceSheet} (hs : s.In rd file) {center : String} {selected : List String} (hb : BodiesIn center selected rd base) :
    initThirdBody rd file base = (thirdBodyList (s.on .thirdBodyGravity) center selected s.bodies).bind fun l =>
      .ok ⟨s.on .thirdBodyGravity, s.logged .thirdBodyGravity, false, .thirdBodyGravity l, Effect.zero⟩ := by
  have hm : ∀ l, make rd file "THIRD_BODY_GRAVITY" false (.thirdBodyGravity l) =
      ⟨s.on .thirdBodyGravity, s.logged .thirdBodyGravity, false, .thirdBodyGravity l, Effect.zero⟩ :=
    fun l => make_eq rd file hs .thirdBodyGravity "THIRD_BODY_GRAVITY" rfl _
  have h := hs.1 .thirdBodyGravity
  obtain ⟨-, h1, h2, -⟩ := hs
  obtain ⟨b1, b2, b3⟩ := hb
  unfold initThirdBody
  dsimp only
  have hon : Ini.readEnable rd.paths (file "THIRD_BODY_GRAVITY".toList) "calculation".toList = s.on .thirdBodyGravity := InitWheel.Switch.read h.1
  rw [h1.read, b2.read, b1.read, hon, String.ofList_toList]
  rw [readNames_eq rd file (sec := "THIRD_BODY_GRAVITY".toList) (key := "third_body_name") (fun i hi => by
      have := h2 i hi
      rwa [show "third_body_name(".toList = "third_body_name".toList ++ "(".toList by decide] at this),
    readNames_eq rd base (sec := "CELESTIAL_INFORMATION".toList) (key := "selected_body_name") (fun i hi => by
      have := b3 i hi
      rwa [show "selected_body_name(".toList = "selected_body_name".toList ++ "(".toList by decide] at this)]
  simp only [hm]

theorem initGeopotential_eq {s : DisturbanceSheet} (hs : s.In rd file) :
    initGeopotential rd egm file = (geopotentialNew s.earthDegree (egm s.earthFile)).bind fun g =>
      .ok ⟨s.on .geopotential, s.logged .geopotential, false, .geopotential g, Effect.zero⟩ := by
  have hm : ∀ g, make rd file "GEOPOTENTIAL" false (.geopotential g) = ⟨s.on .geopotential, s.logged .geopotential, false, .geopotential g, Effect.zero⟩ :=
    fun l => make_eq rd file hs .geopotential "GEOPOTENTIAL" rfl _
  obtain ⟨-, -, -, -, -, -, h1, h2, -⟩ := hs
  unfold initGeopotential
  dsimp only
  rw [h1.read, h2.read]
  simp only [hm]

theorem initLunar_eq {s : DisturbanceSheet} (hs : s.In rd file) :
    initLunar rd grgm file = (lunarNew s.moonDegree (grgm s.moonFile)).bind fun g =>
      .ok ⟨s.on .lunarGravityField, s.logged .lunarGravityField, false, .lunarGravityField g, Effect.zero⟩ := by
  have hm : ∀ g, make rd file "LUNAR_GRAVITY_FIELD" false (.lunarGravityField g) =
      ⟨s.on .lunarGravityField, s.logged .lunarGravityField, false, .lunarGravityField g, Effect.zero⟩ :=
    fun l => make_eq rd file hs .lunarGravityField "LUNAR_GRAVITY_FIELD" rfl _
  obtain ⟨-, -, -, -, -, -, -, -, h1, h2⟩ := hs
  unfold initLunar
  dsimp only
  rw [h1.read, h2.read]
  simp only [hm]

theorem initAirDrag_eq {s : DisturbanceSheet} (hs : s.In rd file) :
    initAirDrag rd file = ⟨s.on .airDrag, s.logged .airDrag, true, .airDrag s.drag, Effect.zero⟩ := by
  have hm : ∀ a, make rd file "AIR_DRAG" true (.airDrag a) = ⟨s.on .airDrag, s.logged .airDrag, true, .airDrag a, Effect.zero⟩ :=
    fun l => make_eq rd file hs .airDrag "AIR_DRAG" rfl _
  obtain ⟨-, -, -, h1, h2, h3, -⟩ := hs
  unfold initAirDrag
  dsimp only
  rw [h1.read, h2.read, h3.read, hm]
  rfl

theorem initDisturbances_eq {s : DisturbanceSheet} (hs : s.In rd file) {center : String} {selected : List String} (hb : BodiesIn center selected rd base) (mu : ℝ)
    {l : List String} (hl : thirdBodyList (s.on .thirdBodyGravity) center selected s.bodies = .ok l) (hc : center ≠ "MOON") {g : Potential}
    (hg : center = "EARTH" → geopotentialNew s.earthDegree (egm s.earthFile) = .ok g) :
    initDisturbances rd egm grgm file base center mu = .ok ⟨(initializeInstances center).map (itemOf s mu l g), fun _ => 0, fun _ => 0, fun _ => 0⟩ := by
  unfold initDisturbances
  rw [initThirdBody_eq rd file base hs hb, hl]
  have h1 : initGravityGradient rd file mu = itemOf s mu l g .gravityGradient := make_eq rd file hs .gravityGradient "GRAVITY_GRADIENT" rfl _
  have h2 : initSrp rd file = itemOf s mu l g .solarRadiationPressure := make_eq rd file hs .solarRadiationPressure "SOLAR_RADIATION_PRESSURE_DISTURBANCE" rfl _
  have h5 : initMagnetic rd file = itemOf s mu l g .magnetic := make_eq rd file hs .magnetic "MAGNETIC_DISTURBANCE" rfl _
  have h4 : initAirDrag rd file = itemOf s mu l g .airDrag := initAirDrag_eq rd file hs
  simp only [Res.bind]
  unfold aroundMoon aroundEarth initializeInstances
  rw [if_neg hc, h1, h2, h4, h5]
  dsimp only
  by_cases he : center = "EARTH"
  · rw [if_neg (not_not.2 he), initGeopotential_eq rd egm file hs, hg he, if_neg hc, if_neg (not_not.2 he)]
    rfl
  · rw [if_pos he, if_neg hc, if_pos he]
    rfl

/-- **C188 (totals).** Around any centre but the Moon, after any history of updates, the total force, torque and acceleration are the sums over the disturbances that
belong to the centre (C100) of what each shows: nothing if the file does not switch it on, otherwise its formula with the written data in the surroundings of its
latest recalculation. -/
theorem C188_totals (s : DisturbanceSheet) (hs : s.In rd file) (center : String) (selected : List String) (hb : BodiesIn center selected rd base) (mu : ℝ)
    (hacc : s.on .thirdBodyGravity = true → ∀ n ∈ s.bodies, Acceptable center selected n) (hc : center ≠ "MOON") (g : Potential)
    (hg : center = "EARTH" → geopotentialNew s.earthDegree (egm s.earthFile) = .ok g) (h : List Step) (geo : Surroundings → Vec 3)
    (hgeo : center = "EARTH" → s.on .geopotential = true → ∀ c ∈ h, ∃ a, geopotentialUpdate g c.env.dcm c.env.positionEcef = .ok (a, geo c.env)) :
    ∃ s0 s1, initDisturbances rd egm grgm file base center mu = .ok s0 ∧
      s0.list.map (fun i => (i.enabled, i.logged)) = (initializeInstances center).map (fun k => (s.on k, s.logged k)) ∧ s0.run h = .ok s1 ∧
      s1.force = ((initializeInstances center).map (shown s.on s.force h)).sum ∧
      s1.torque = ((initializeInstances center).map (shown s.on (s.torque mu) h)).sum ∧
      s1.acceleration = ((initializeInstances center).map (shown s.on (acceleration s.bodies geo) h)).sum := by
  obtain ⟨l, hl, hl2⟩ : ∃ l, thirdBodyList (s.on .thirdBodyGravity) center selected s.bodies = .ok l ∧
      (s.on .thirdBodyGravity = true → thirdBodyList true center selected s.bodies = .ok l) := by
    by_cases ho : s.on .thirdBodyGravity = true
    · obtain ⟨l, hl⟩ := (C102_list center selected s.bodies).2.1.2 (hacc ho)
      exact ⟨l, by rw [ho]; exact hl, fun _ => hl⟩
    · have : s.on .thirdBodyGravity = false := by simpa using ho
      exact ⟨[], by rw [this]; exact (C102_list center selected s.bodies).2.2.2, fun h => absurd h ho⟩
  have hinst := (C100_instances center).2.1
  obtain ⟨s1, e, f, t, a⟩ := run_totals (on := s.on) (F := s.force) (T := s.torque mu) (A := acceleration s.bodies geo)
    (good := fun e => center = "EARTH" → s.on .geopotential = true → ∃ a, geopotentialUpdate g e.dcm e.positionEcef = .ok (a, geo e))
    (item := itemOf s mu l g) (ks := initializeInstances center) (by
      intro k hk
      refine ⟨rfl, rfl, rfl, fun ho e x hgood => ?_⟩
      have hk' := (hinst k).1 hk
      have hx : ∀ (P : Effect → Prop), P Effect.zero → (∀ e, P ⟨s.force k e, s.torque mu k e, 0, acceleration s.bodies geo k e⟩) →
          P (holds s.on s.force (s.torque mu) (acceleration s.bodies geo) k x) := by
        intro P h1 h2
        unfold holds
        rw [if_pos ho]
        cases x
        exacts [h1, h2 _]
      revert hx
      generalize holds s.on s.force (s.torque mu) (acceleration s.bodies geo) k x = old
      intro hx
      obtain ⟨of, ot, ob, oi⟩ := old
      cases k
      · have h1 := hx (fun y => y.force = 0 ∧ y.accelerationB = 0 ∧ y.accelerationI = 0) ⟨rfl, rfl, rfl⟩ (fun _ => ⟨rfl, rfl, rfl⟩)
        obtain ⟨rfl, rfl, rfl⟩ := h1
        rfl
      · have h1 := hx (fun y => y.accelerationB = 0 ∧ y.accelerationI = 0) ⟨rfl, rfl⟩ (fun _ => ⟨rfl, rfl⟩)
        obtain ⟨rfl, rfl⟩ := h1
        rfl
      · have h1 := hx (fun y => y.force = 0 ∧ y.torque = 0 ∧ y.accelerationB = 0) ⟨rfl, rfl, rfl⟩ (fun _ => ⟨rfl, rfl, rfl⟩)
        obtain ⟨rfl, rfl, rfl⟩ := h1
        have := C102_acceleration center selected s.bodies l (hl2 ho) (fun n => e.position + e.fromSc n) e.mu e.position
        simp only [add_sub_cancel_left] at this
        show Res.ok (Effect.mk 0 0 0 (thirdBodyUpdate l (fun n => e.fromSc n) e.mu e.position)) = _
        rw [this]
        rfl
      · rcases hk' with h | h | h | ⟨-, h⟩ | ⟨h | h | h, -⟩
        · cases h
        · cases h
        · cases h
        · exact absurd h hc
        all_goals cases h
      · have h1 := hx (fun y => y.accelerationB = 0 ∧ y.accelerationI = 0) ⟨rfl, rfl⟩ (fun _ => ⟨rfl, rfl⟩)
        obtain ⟨rfl, rfl⟩ := h1
        rfl
      · have h1 := hx (fun y => y.force = 0 ∧ y.accelerationB = 0 ∧ y.accelerationI = 0) ⟨rfl, rfl, rfl⟩ (fun _ => ⟨rfl, rfl, rfl⟩)
        obtain ⟨rfl, rfl, rfl⟩ := h1
        rfl
      · have h1 := hx (fun y => y.force = 0 ∧ y.torque = 0 ∧ y.accelerationB = 0) ⟨rfl, rfl, rfl⟩ (fun _ => ⟨rfl, rfl, rfl⟩)
        obtain ⟨rfl, rfl, rfl⟩ := h1
        have hearth : center = "EARTH" := by
          rcases hk' with h | h | h | ⟨h, -⟩ | ⟨-, h⟩
          · cases h
          · cases h
          · cases h
          · cases h
          · exact h
        obtain ⟨b, hb⟩ := hgood hearth ho
        show (geopotentialUpdate g e.dcm e.positionEcef).bind _ = _
        rw [hb]
        rfl) h (fun c hc _ _ _ h1 h2 => hgeo h1 h2 c hc)
  refine ⟨_, s1, initDisturbances_eq rd egm grgm file base hs hb mu hl hc hg, ?_, e, f, t, a⟩
  rw [List.map_map]
  rfl

/-- **C188 (Earth).** Around the Earth, with a coefficient file of enough lines for the written degree `N` (2 to 360), the accelerations add the gradient of the
potential of the stated coefficients at the inertial position of the latest orbit step to the third bodies. -/
theorem C188_earth (s : DisturbanceSheet) (hs : s.In rd file) (selected : List String) (hb : BodiesIn "EARTH" selected rd base) (mu : ℝ)
    (hacc : s.on .thirdBodyGravity = true → ∀ n ∈ s.bodies, Acceptable "EARTH" selected n) (N : ℕ) (hN : 2 ≤ N ∧ N ≤ 360) (hdeg : s.earthDegree = N)
    (lines : List Gravity.Entry) (rest : List Line) (hfile : egm s.earthFile = some (lines.map some ++ rest)) (hlen : lines.length = lineCount N 3)
    (hr : ∀ e ∈ lines, (0 ≤ e.1 ∧ e.1 ≤ N) ∧ (0 ≤ e.2.1 ∧ e.2.1 ≤ N)) (h : List Step)
    (hpos : ∀ c ∈ h, c.env.positionEcef = matVec c.env.dcm c.env.position ∧ c.env.positionEcef ≠ 0) :
    ∃ s0 s1, ∃ geo : Surroundings → Vec 3, initDisturbances rd egm grgm file base "EARTH" mu = .ok s0 ∧ s0.run h = .ok s1 ∧
      (∀ c ∈ h, IsGradient (fun q => potential 3.986004415e14 6378136.6 N (fun n m => (stated lines n m).1) (fun n m => (stated lines n m).2)
        (matVec c.env.dcm q)) c.env.position (geo c.env)) ∧
      s1.acceleration = shown s.on (acceleration s.bodies geo) h .thirdBodyGravity + shown s.on (acceleration s.bodies geo) h .geopotential ∧
      s1.force = shown s.on s.force h .solarRadiationPressure + shown s.on s.force h .airDrag ∧
      s1.torque = shown s.on (s.torque mu) h .gravityGradient + shown s.on (s.torque mu) h .solarRadiationPressure + shown s.on (s.torque mu) h .airDrag +
        shown s.on (s.torque mu) h .magnetic := by
  classical
  obtain ⟨g, hg, hgu⟩ := C131_geopotential N hN lines rest hlen hr
  have hex : ∀ c ∈ h, ∃ a ai, geopotentialUpdate g c.env.dcm c.env.positionEcef = .ok (a, ai) ∧
      IsGradient (fun q => potential 3.986004415e14 6378136.6 N (fun n m => (stated lines n m).1) (fun n m => (stated lines n m).2)
        (matVec c.env.dcm q)) c.env.position ai := by
    intro c hc
    obtain ⟨p1, p2⟩ := hpos c hc
    obtain ⟨a, ai, h1, -, h3⟩ := hgu c.env.dcm c.env.position (p1 ▸ p2)
    exact ⟨a, ai, by rw [p1]; exact h1, h3⟩
  let geo : Surroundings → Vec 3 := fun e =>
    match geopotentialUpdate g e.dcm e.positionEcef with
    | .ok r => r.2
    | _ => 0
  have hgeo : ∀ c ∈ h, (∃ a, geopotentialUpdate g c.env.dcm c.env.positionEcef = .ok (a, geo c.env)) ∧
      IsGradient (fun q => potential 3.986004415e14 6378136.6 N (fun n m => (stated lines n m).1) (fun n m => (stated lines n m).2)
        (matVec c.env.dcm q)) c.env.position (geo c.env) := by
    intro c hc
    obtain ⟨a, ai, h1, h2⟩ := hex c hc
    have : geo c.env = ai := by
      show (match geopotentialUpdate g c.env.dcm c.env.positionEcef with | .ok r => r.2 | _ => 0) = ai
      rw [h1]
    rw [this]
    exact ⟨⟨a, h1⟩, h2⟩
  obtain ⟨s0, s1, e0, -, e1, f, t, a⟩ := C188_totals rd egm grgm file base s hs "EARTH" selected hb mu hacc (by decide) g
    (fun _ => by rw [hdeg, hfile]; exact hg) h geo (fun _ _ c hc => (hgeo c hc).1)
  have hi : initializeInstances "EARTH" = [.gravityGradient, .solarRadiationPressure, .thirdBodyGravity, .airDrag, .magnetic, .geopotential] := by decide
  have z : ∀ (f : Kind → Surroundings → Vec 3) (k : Kind), (∀ e, f k e = 0) → shown s.on f h k = 0 := by
    intro f k hz
    unfold shown
    split
    · cases latest k h
      · rfl
      · exact hz _
    · rfl
  refine ⟨s0, s1, geo, e0, e1, fun c hc => (hgeo c hc).2, ?_, ?_, ?_⟩
  · rw [a, hi]
    simp only [List.map_cons, List.map_nil, List.sum_cons, List.sum_nil]
    rw [z _ .gravityGradient fun _ => rfl, z _ .solarRadiationPressure fun _ => rfl, z _ .airDrag fun _ => rfl, z _ .magnetic fun _ => rfl]
    abel
  · rw [f, hi]
    simp only [List.map_cons, List.map_nil, List.sum_cons, List.sum_nil]
    rw [z s.force .gravityGradient fun _ => rfl, z s.force .thirdBodyGravity fun _ => rfl, z s.force .magnetic fun _ => rfl, z s.force .geopotential fun _ => rfl]
    abel
  · rw [t, hi]
    simp only [List.map_cons, List.map_nil, List.sum_cons, List.sum_nil]
    rw [z (s.torque mu) .thirdBodyGravity fun _ => rfl, z (s.torque mu) .geopotential fun _ => rfl]
    abel

/-- **C188 (refusals).** A third body that is the centre or not among the selected bodies stops the program, around any centre, if third bodies are switched on. -/
theorem C188_refused (s : DisturbanceSheet) (hs : s.In rd file) (center : String) (selected : List String) (hb : BodiesIn center selected rd base) (mu : ℝ)
    (hon : s.on .thirdBodyGravity = true) (hbad : ∃ n ∈ s.bodies, ¬Acceptable center selected n) (center' : String) :
    initDisturbances rd egm grgm file base center' mu = .throws := by
  unfold initDisturbances
  rw [initThirdBody_eq rd file base hs hb, hon, (C102_list center selected s.bodies).2.2.1 (by push Not; exact hbad)]
  rfl

/-- **C188 (Moon, uninitialised).** Around the Moon a written degree below 2 or an unreadable coefficient file is undefined at start-up, also if the lunar field is
switched off. -/
theorem C188_moon_uninitialised (s : DisturbanceSheet) (hs : s.In rd file) (selected : List String) (hb : BodiesIn "MOON" selected rd base) (mu : ℝ)
    (hacc : s.on .thirdBodyGravity = true → ∀ n ∈ s.bodies, Acceptable "MOON" selected n) (N : ℕ) (hN : N < 2 ^ 31) (hdeg : s.moonDegree = N)
    (hbad : N ≤ 1 ∨ grgm s.moonFile = none) : initDisturbances rd egm grgm file base "MOON" mu = .ub := by
  unfold initDisturbances aroundMoon
  rw [if_pos rfl, initLunar_eq rd grgm file hs, hdeg, C132_uninitialised N hN _ hbad, initThirdBody_eq rd file base hs hb]
  by_cases ho : s.on .thirdBodyGravity = true
  · obtain ⟨l, hl⟩ := (C102_list "MOON" selected s.bodies).2.1.2 (hacc ho)
    rw [ho, hl]; rfl
  · have : s.on .thirdBodyGravity = false := by simpa using ho
    rw [this, (C102_list "MOON" selected s.bodies).2.2.2]; rfl

theorem moon_visit {a b t l : Item} (ha : ∃ mu, a.obj = .gravityGradient mu) (hb : b.obj = .solarRadiationPressure) (ht : ∃ n, t.obj = .thirdBodyGravity n)
    (hl : ∃ g, l.obj = .lunarGravityField g) (hdt : t.dependent = false) (hdl : l.dependent = false) (hon : l.enabled = true) (c : Step) :
    (c.orbit = true → visitAll c [a, b, t, l] = .ub) ∧
    (c.orbit = false → ∃ a' b', visitAll c [a, b, t, l] = .ok [a', b', t, l] ∧ a'.obj = a.obj ∧ b'.obj = b.obj) := by
  obtain ⟨mu, ha⟩ := ha
  obtain ⟨n, ht⟩ := ht
  obtain ⟨g, hl⟩ := hl
  have ua : ∃ a', a.updateIfEnabled c.env = .ok a' ∧ a'.obj = a.obj := by
    unfold Item.updateIfEnabled
    split
    · rw [ha]; exact ⟨_, rfl, rfl⟩
    · exact ⟨_, rfl, rfl⟩
  have ub : ∃ b', b.updateIfEnabled c.env = .ok b' ∧ b'.obj = b.obj := by
    unfold Item.updateIfEnabled
    split
    · rw [hb]; exact ⟨_, rfl, rfl⟩
    · exact ⟨_, rfl, rfl⟩
  have ut : ∃ t', t.updateIfEnabled c.env = .ok t' := by
    unfold Item.updateIfEnabled
    split
    · rw [ht]; exact ⟨_, rfl⟩
    · exact ⟨_, rfl⟩
  have ul : l.updateIfEnabled c.env = .ub := by
    unfold Item.updateIfEnabled
    rw [if_pos hon, hl]
    rfl
  obtain ⟨a', a1, a2⟩ := ua
  obtain ⟨b', b1, b2⟩ := ub
  obtain ⟨t', t1⟩ := ut
  refine ⟨fun ho => ?_, fun ho => ?_⟩
  · simp only [visitAll, Item.visit, ho, if_true, a1, b1, t1, ul, Res.bind]
  · by_cases hat : c.attitude = true
    · refine ⟨if a.dependent = true then a' else a, if b.dependent = true then b' else b, ?_, ?_, ?_⟩
      · by_cases h1 : a.dependent = true <;> by_cases h2 : b.dependent = true <;>
          simp only [visitAll, Item.visit, ho, hat, if_true, Bool.false_eq_true, if_false, hdt, hdl, a1, b1, Res.bind, h1, h2]
      · split
        exacts [a2, rfl]
      · split
        exacts [b2, rfl]
    · refine ⟨a, b, ?_, rfl, rfl⟩
      simp only [visitAll, Item.visit, ho, hat, Bool.false_eq_true, if_false, Res.bind]

theorem moon_run : ∀ (h : List Step) (s : Items) {a b t l : Item}, s.list = [a, b, t, l] → (∃ mu, a.obj = .gravityGradient mu) → b.obj = .solarRadiationPressure →
    (∃ n, t.obj = .thirdBodyGravity n) → (∃ g, l.obj = .lunarGravityField g) → t.dependent = false → l.dependent = false → l.enabled = true →
    (∃ c ∈ h, c.orbit = true) → s.run h = .ub
  | [], _, _, _, _, _, _, _, _, _, _, _, _, _, ⟨_, hc, _⟩ => by cases hc
  | c :: h, s, a, b, t, l, hs, ha, hb, ht, hl, hdt, hdl, hon, hex => by
    have hv := moon_visit ha hb ht hl hdt hdl hon c
    by_cases ho : c.orbit = true
    · rw [Items.run, Items.update, hs, hv.1 ho]; rfl
    · have ho' : c.orbit = false := by simpa using ho
      obtain ⟨a', b', e, ea, eb⟩ := hv.2 ho'
      rw [Items.run, Items.update, hs, e]
      simp only [Res.bind]
      refine moon_run h _ rfl (by rw [ea]; exact ha) (by rw [eb]; exact hb) ht hl hdt hdl hon ?_
      obtain ⟨d, hd, hdo⟩ := hex
      rcases List.mem_cons.1 hd with rfl | hd
      · exact absurd hdo ho
      · exact ⟨d, hd, hdo⟩

/-- **C188 (Moon, update).** Around the Moon with the lunar field switched on every history with an orbit step is undefined (C132), whatever the coefficient file. -/
theorem C188_moon_update (s : DisturbanceSheet) (hs : s.In rd file) (selected : List String) (hb : BodiesIn "MOON" selected rd base) (mu : ℝ)
    (hacc : s.on .thirdBodyGravity = true → ∀ n ∈ s.bodies, Acceptable "MOON" selected n) (hon : s.on .lunarGravityField = true) (g : Potential)
    (hg : lunarNew s.moonDegree (grgm s.moonFile) = .ok g) :
    ∃ s0, initDisturbances rd egm grgm file base "MOON" mu = .ok s0 ∧ ∀ h : List Step, (∃ c ∈ h, c.orbit = true) → s0.run h = .ub := by
  obtain ⟨l, hl⟩ : ∃ l, thirdBodyList (s.on .thirdBodyGravity) "MOON" selected s.bodies = .ok l := by
    by_cases ho : s.on .thirdBodyGravity = true
    · rw [ho]; exact (C102_list "MOON" selected s.bodies).2.1.2 (hacc ho)
    · have : s.on .thirdBodyGravity = false := by simpa using ho
      rw [this]; exact ⟨_, (C102_list "MOON" selected s.bodies).2.2.2⟩
  refine ⟨⟨[initGravityGradient rd file mu, initSrp rd file, ⟨s.on .thirdBodyGravity, s.logged .thirdBodyGravity, false, .thirdBodyGravity l, Effect.zero⟩,
    ⟨s.on .lunarGravityField, s.logged .lunarGravityField, false, .lunarGravityField g, Effect.zero⟩], fun _ => 0, fun _ => 0, fun _ => 0⟩, ?_, ?_⟩
  · unfold initDisturbances aroundMoon aroundEarth
    rw [if_pos rfl, initLunar_eq rd grgm file hs, hg, initThirdBody_eq rd file base hs hb, hl, if_pos (by decide)]
    rfl
  · intro h hex
    exact moon_run h _ rfl ⟨mu, rfl⟩ rfl ⟨l, rfl⟩ ⟨g, rfl⟩ rfl rfl hon hex

/-! ## Concrete files -/

/-- Everything is switched on, the Sun is the third body, the degree is 2. -/
def exFile : File := fun _ key =>
  if key = "calculation".toList ∨ key = "logging".toList then some "ENABLE".toList else
  if key = "third_body_name(0)".toList ∨ key = "selected_body_name(0)".toList then some "SUN".toList else some key
/-- A base file with this centre. -/
def exBase (center : String) : File := fun _ key =>
  if key = "center_object".toList then some center.toList else if key = "selected_body_name(0)".toList then some "SUN".toList else some key
noncomputable def exReader : Reader := ⟨⟨[], [], []⟩, fun _ => 1, fun s => if s = "degree".toList then 2 else 1, fun _ => []⟩
noncomputable def exSheet : DisturbanceSheet := ⟨fun _ => true, fun _ => true, ["SUN"], 1, 1, 1, 2, "coefficients_file_path".toList, 2, "coefficients_file_path".toList⟩

theorem exProcess (t : Str) (h : Ini.process ⟨[], [], []⟩ t = t) (sec key : Str) (f : File) (hf : f sec key = some t) : Text exReader f sec key t := ⟨t, hf, h⟩

theorem exSheet_in : exSheet.In exReader exFile := by
  have hsw : ∀ sec key : Str, key = "calculation".toList ∨ key = "logging".toList → Switch exReader exFile sec key true := fun sec key h =>
    ⟨"ENABLE".toList, exProcess _ (by decide +kernel) _ _ _ (if_pos h), by simp⟩
  have hnum : ∀ sec key : Str, ¬(key = "calculation".toList ∨ key = "logging".toList) → ¬(key = "third_body_name(0)".toList ∨ key = "selected_body_name(0)".toList) →
      Number exReader exFile sec key 1 := fun sec key h1 h2 => ⟨key, (if_neg h1).trans (if_neg h2), rfl⟩
  have hdeg : ∀ sec : Str, Integer exReader exFile sec "degree".toList 2 := fun sec =>
    ⟨"degree".toList, (if_neg (by decide +kernel)).trans (if_neg (by decide +kernel)), by simp only [exReader, if_true]⟩
  have hpath : ∀ sec : Str, Text exReader exFile sec "coefficients_file_path".toList "coefficients_file_path".toList := fun sec =>
    exProcess _ (by decide +kernel) _ _ _ ((if_neg (by decide +kernel)).trans (if_neg (by decide +kernel)))
  refine ⟨fun k => ⟨hsw _ _ (.inl rfl), hsw _ _ (.inr rfl)⟩, ?_, ?_, hnum _ _ (by decide +kernel) (by decide +kernel), hnum _ _ (by decide +kernel) (by decide +kernel),
    hnum _ _ (by decide +kernel) (by decide +kernel), hdeg _, hpath _, hdeg _, hpath _⟩
  · exact ⟨"number_of_third_body".toList, (if_neg (by decide +kernel)).trans (if_neg (by decide +kernel)), by simp only [exReader]; rw [if_neg (by decide +kernel)]; rfl⟩
  · intro i hi
    have h0 : i = 0 := by
      have : i < 1 := hi
      omega
    subst h0
    have hp : Ini.process ⟨[], [], []⟩ "SUN".toList = "SUN".toList := by decide +kernel
    have hk : "third_body_name".toList ++ "(".toList ++ Log.dec 0 ++ ")".toList = "third_body_name(0)".toList := by decide +kernel
    exact exProcess "SUN".toList hp _ _ _ ((if_neg (by decide +kernel)).trans (if_pos (.inl hk)))

theorem exBodies (center : String) (hp : Ini.process ⟨[], [], []⟩ center.toList = center.toList) : BodiesIn center ["SUN"] exReader (exBase center) := by
  refine ⟨exProcess _ hp _ _ _ (if_pos rfl), ⟨"number_of_selected_body".toList, (if_neg (by decide +kernel)).trans (if_neg (by decide +kernel)), by
    simp only [exReader]; rw [if_neg (by decide +kernel)]; rfl⟩, ?_⟩
  intro i hi
  have h0 : i = 0 := by
    have : i < 1 := hi
    omega
  subst h0
  have hp : Ini.process ⟨[], [], []⟩ "SUN".toList = "SUN".toList := by decide +kernel
  exact exProcess "SUN".toList hp _ _ _ ((if_neg (by decide +kernel)).trans (if_pos (by decide +kernel)))

/-- Surroundings of a spacecraft off the centre. -/
noncomputable def exEnv : Surroundings where
  center := fun _ => 1
  inertia := Matrix.of fun _ _ => 1
  sun := fun _ => 1
  pressure := 1
  surfaces := []
  cog := fun _ => 0
  dcm := Matrix.of fun _ _ => 1
  velocityEcef := fun _ => 1
  quaternion := ⟨0, 0, 0, 1⟩
  density := 1
  moment := fun _ => 1
  field := fun _ => 1
  positionEcef := matVec (Matrix.of fun _ _ => 1 : Mat 3 3) fun _ => 1
  position := fun _ => 1
  fromSc := fun _ _ => 1
  mu := fun _ => 1

/-- An orbit step and an attitude step around the Earth, with the coefficients of degree 2. -/
example : ∃ s0 s1, initDisturbances exReader (fun _ => some (exampleLines.map some)) (fun _ => none) exFile (exBase "EARTH") "EARTH" 1 = .ok s0 ∧
    s0.run [⟨exEnv, true, true⟩, ⟨exEnv, false, true⟩] = .ok s1 := by
  obtain ⟨s0, s1, geo, h0, h1, -⟩ := C188_earth exReader (fun _ => some (exampleLines.map some)) (fun _ => none) exFile (exBase "EARTH") exSheet exSheet_in ["SUN"]
    (exBodies "EARTH" (by decide +kernel)) 1 (fun _ n hn => by
      have : n = "SUN" := by simpa [exSheet] using hn
      subst this
      exact ⟨by decide, by decide⟩) 2 (by norm_num) rfl exampleLines [] (by simp) rfl (by
      intro e he
      simp only [exampleLines, List.mem_cons, List.not_mem_nil, or_false] at he
      rcases he with rfl | rfl | rfl <;> norm_num) [⟨exEnv, true, true⟩, ⟨exEnv, false, true⟩] (by
      intro c hc
      have : c.env = exEnv := by
        simp only [List.mem_cons, List.not_mem_nil, or_false] at hc
        rcases hc with rfl | rfl <;> rfl
      rw [this]
      refine ⟨rfl, fun h => ?_⟩
      have := congrFun h 0
      norm_num [exEnv, matVec, Fin.sum_univ_three] at this)
  exact ⟨s0, s1, h0, h1⟩

/-- The second step of that history leaves the geopotential alone: the latest orbit step is the first. -/
example (e e' : Surroundings) : latest .geopotential [⟨e, true, true⟩, ⟨e', false, true⟩] = some e ∧ latest .airDrag [⟨e, true, true⟩, ⟨e', false, true⟩] = some e' := by
  constructor <;> rfl

/-- The Sun as centre and third body. -/
example (egm : Str → Option (List Line)) (grgm : Str → Option (ℝ × ℝ × List Line)) : initDisturbances exReader egm grgm exFile (exBase "SUN") "SUN" 1 = .throws :=
  C188_refused exReader egm grgm exFile (exBase "SUN") exSheet exSheet_in "SUN" ["SUN"] (exBodies "SUN" (by decide +kernel)) 1 rfl
    ⟨"SUN", by simp [exSheet], fun h => h.1 rfl⟩ "SUN"

/-- Around the Moon without a coefficient file. -/
example (egm : Str → Option (List Line)) : initDisturbances exReader egm (fun _ => none) exFile (exBase "MOON") "MOON" 1 = .ub :=
  C188_moon_uninitialised exReader egm (fun _ => none) exFile (exBase "MOON") exSheet exSheet_in ["SUN"] (exBodies "MOON" (by decide +kernel)) 1 (fun _ n hn => by
    have : n = "SUN" := by simpa [exSheet] using hn
    subst this
    exact ⟨by decide, by decide⟩) 2 (by norm_num) rfl (.inr rfl)

/-- Around the Moon with one. -/
example (egm : Str → Option (List Line)) : ∃ s0, initDisturbances exReader egm (fun _ => some (1738, 4902.8, exampleLunar.map some)) exFile (exBase "MOON") "MOON" 1 = .ok s0 ∧
    s0.run [⟨exEnv, false, true⟩, ⟨exEnv, true, true⟩] = .ub := by
  obtain ⟨g, hg, -⟩ := C132_lunar 2 (by norm_num) 1738 4902.8 (by norm_num) exampleLunar [] rfl (by
    intro e he
    simp only [exampleLunar, List.mem_cons, List.not_mem_nil, or_false] at he
    rcases he with rfl | rfl | rfl | rfl | rfl <;> norm_num)
  obtain ⟨s0, h0, h1⟩ := C188_moon_update exReader egm (fun _ => some (1738, 4902.8, exampleLunar.map some)) exFile (exBase "MOON") exSheet exSheet_in ["SUN"]
    (exBodies "MOON" (by decide +kernel)) 1 (fun _ n hn => by
      have : n = "SUN" := by simpa [exSheet] using hn
      subst this
      exact ⟨by decide, by decide⟩) rfl g (by rw [List.append_nil] at hg; exact hg)
  exact ⟨s0, h0, h1 _ ⟨⟨exEnv, true, true⟩, by simp, rfl⟩⟩

end S2E.InitDisturbance
