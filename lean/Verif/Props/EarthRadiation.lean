import Verif.Model.EarthRadiation
import Verif.Props.Shadow
/-!
# C149: Earth albedo and infrared radiation
-/
namespace S2E.Env
open TwoBody S2E.Shadow

theorem calcShadow_keeps (spice : String → Option Int) (c : Celestial) (l : Local) (s s' : Srp) (n : String) (h : s.calcShadow spice c l n = .ok s') :
    s'.sources = s.sources ∧ s'.sunRadius = s.sunRadius ∧ s'.enabled = s.enabled := by
  simp only [Srp.calcShadow] at h
  split_ifs at h with hn
  · obtain rfl := Res.ok.inj h; exact ⟨rfl, rfl, rfl⟩
  · simp only [Res.bind] at h
    split at h <;> try simp at h
    split at h <;> try simp at h
    split at h <;> try simp at h
    split at h <;> try simp at h
    obtain rfl := h; exact ⟨rfl, rfl, rfl⟩

theorem update_keeps (spice : String → Option Int) (c : Celestial) (l : Local) (s s' : Srp) (h : s.update spice c l = .ok s') :
    s'.sources = s.sources ∧ s'.sunRadius = s.sunRadius ∧ s'.enabled = s.enabled := by
  have key : ∀ (L : List String) (t t' : Srp), L.foldlM (fun s name => s.calcShadow spice c l name) t = .ok t' →
      t'.sources = t.sources ∧ t'.sunRadius = t.sunRadius ∧ t'.enabled = t.enabled := by
    intro L
    induction L with
    | nil => intro t t' ht; obtain rfl := Res.ok.inj ht; exact ⟨rfl, rfl, rfl⟩
    | cons n L ih =>
      intro t t' ht
      rw [List.foldlM_cons] at ht
      rcases h1 : t.calcShadow spice c l n with u | _ | _ | _ <;> simp only [h1, Res.bind_ok, Res.bind_ub, Res.bind_throws, Res.bind_stuck, reduceCtorEq] at ht
      obtain ⟨a1, a2, a3⟩ := ih u t' ht
      obtain ⟨b1, b2, b3⟩ := calcShadow_keeps spice c l t u n h1
      exact ⟨a1.trans b1, a2.trans b2, a3.trans b3⟩
  rw [Srp.update] at h
  split_ifs at h with he
  · obtain rfl := Res.ok.inj h; exact ⟨rfl, rfl, rfl⟩
  · rw [Srp.updatePressure] at h
    rcases h1 : c.getPositionFromSpacecraftI spice l "SUN" with v | _ | _ | _ <;> rw [h1] at h <;> simp only [Res.bind, reduceCtorEq] at h
    obtain ⟨a1, a2, a3⟩ := key _ _ _ h
    exact ⟨a1, a2, a3⟩

theorem albedo_keeps (e : EarthRad) : e.updateAlbedo.srp = e.srp ∧ e.updateAlbedo.albedoOn = e.albedoOn ∧ e.updateAlbedo.factor = e.factor ∧
    e.updateAlbedo.infraredOn = e.infraredOn ∧ e.updateAlbedo.hot = e.hot ∧ e.updateAlbedo.cold = e.cold ∧ e.updateAlbedo.infrared = e.infrared := by
  unfold EarthRad.updateAlbedo
  split_ifs <;> exact ⟨rfl, rfl, rfl, rfl, rfl, rfl, rfl⟩

theorem infrared_keeps (e : EarthRad) : e.updateInfrared.srp = e.srp ∧ e.updateInfrared.albedoOn = e.albedoOn ∧ e.updateInfrared.factor = e.factor ∧
    e.updateInfrared.infraredOn = e.infraredOn ∧ e.updateInfrared.hot = e.hot ∧ e.updateInfrared.cold = e.cold ∧ e.updateInfrared.albedo = e.albedo := by
  unfold EarthRad.updateInfrared
  split_ifs <;> exact ⟨rfl, rfl, rfl, rfl, rfl, rfl, rfl⟩

open Classical in
theorem infrared_value (e : EarthRad) (h : e.infraredOn = true) : e.updateInfrared.infrared = stefanBoltzmann * (if e.srp.isEclipsed then e.cold else e.hot) ^ 4 := by
  unfold EarthRad.updateInfrared
  rw [if_neg (by simp [h])]
  split_ifs <;> rfl

theorem infrared_off (e : EarthRad) (h : e.infraredOn = false) : e.updateInfrared = e := by
  unfold EarthRad.updateInfrared
  rw [if_pos h]

theorem radUpdate_srp (e : EarthRad) : e.updateAlbedo.updateInfrared.srp = e.srp := by
  rw [(infrared_keeps _).1, (albedo_keeps _).1]

/-- The settings, which no update changes. -/
def EarthRad.SameSettings (a b : EarthRad) : Prop :=
  a.srp.sources = b.srp.sources ∧ a.srp.sunRadius = b.srp.sunRadius ∧ a.srp.enabled = b.srp.enabled ∧ a.albedoOn = b.albedoOn ∧ a.factor = b.factor ∧
    a.infraredOn = b.infraredOn ∧ a.hot = b.hot ∧ a.cold = b.cold

theorem radUpdate_settings (e : EarthRad) : e.updateAlbedo.updateInfrared.albedoOn = e.albedoOn ∧ e.updateAlbedo.updateInfrared.factor = e.factor ∧
    e.updateAlbedo.updateInfrared.infraredOn = e.infraredOn ∧ e.updateAlbedo.updateInfrared.hot = e.hot ∧ e.updateAlbedo.updateInfrared.cold = e.cold := by
  obtain ⟨-, a1, a2, a3, a4, a5, -⟩ := infrared_keeps e.updateAlbedo
  obtain ⟨-, b1, b2, b3, b4, b5, -⟩ := albedo_keeps e
  exact ⟨a1.trans b1, a2.trans b2, a3.trans b3, a4.trans b4, a5.trans b5⟩

theorem step_settings (spice : String → Option Int) (e e' : EarthRad) (x : Bool × Celestial × Local) (h : e.step spice x = .ok e') : e'.SameSettings e := by
  rw [EarthRad.step] at h
  split_ifs at h with hx
  · rcases h1 : e.srp.update spice x.2.1 x.2.2 with s | _ | _ | _ <;> rw [h1] at h <;> simp only [Res.bind, reduceCtorEq] at h
    obtain rfl := Res.ok.inj h
    obtain ⟨a1, a2, a3⟩ := update_keeps spice _ _ _ _ h1
    have := radUpdate_settings { e with srp := s }
    exact ⟨by rw [radUpdate_srp]; exact a1, by rw [radUpdate_srp]; exact a2, by rw [radUpdate_srp]; exact a3, this⟩
  · obtain rfl := Res.ok.inj h
    exact ⟨rfl, rfl, rfl, rfl, rfl, rfl, rfl, rfl⟩

theorem EarthRad.SameSettings.trans {a b c : EarthRad} (h : a.SameSettings b) (g : b.SameSettings c) : a.SameSettings c := by
  obtain ⟨h1, h2, h3, h4, h5, h6, h7, h8⟩ := h
  obtain ⟨g1, g2, g3, g4, g5, g6, g7, g8⟩ := g
  exact ⟨h1.trans g1, h2.trans g2, h3.trans g3, h4.trans g4, h5.trans g5, h6.trans g6, h7.trans g7, h8.trans g8⟩

theorem rad_run_append (spice : String → Option Int) (l m : List (Bool × Celestial × Local)) : ∀ e : EarthRad,
    e.run spice (l ++ m) = (e.run spice l).bind fun e => e.run spice m := by
  induction l with
  | nil => intro e; rfl
  | cons x l ih =>
    intro e
    rw [List.cons_append, EarthRad.run, EarthRad.run]
    rcases e.step spice x with v | _ | _ | _ <;> simp only [Res.bind]
    exact ih v

theorem run_settings (spice : String → Option Int) (l : List (Bool × Celestial × Local)) : ∀ (e e' : EarthRad), e.run spice l = .ok e' → e'.SameSettings e := by
  induction l with
  | nil => intro e e' h; obtain rfl := Res.ok.inj h; exact ⟨rfl, rfl, rfl, rfl, rfl, rfl, rfl, rfl⟩
  | cons x l ih =>
    intro e e' h
    rw [EarthRad.run] at h
    rcases h1 : e.step spice x with v | _ | _ | _ <;> rw [h1] at h <;> simp only [Res.bind, reduceCtorEq] at h
    exact (ih v e' h).trans (step_settings spice e v x h1)

theorem run_idle (spice : String → Option Int) (l : List (Bool × Celestial × Local)) (hl : ∀ x ∈ l, x.1 = false) : ∀ e : EarthRad, e.run spice l = .ok e := by
  induction l with
  | nil => intro e; rfl
  | cons x l ih =>
    intro e
    rw [EarthRad.run, EarthRad.step, if_neg (by simp [hl x (by simp)])]
    exact ih (fun y hy => hl y (by simp [hy])) e

open Classical in
/-- **C149 (values).** After any history whose last update with orbit propagation saw the Sun at `sun` and the shadow sources at `pos`: the albedo is the factor times the solar power
density there, 1366 W/m² at one astronomical unit with the inverse square law times the shadow coefficient `k` (for a single source: the visible fraction of the solar disc), and the
infrared radiation is that of the cold side as soon as any source hides any part of the Sun, else that of the hot side. The distance to the Earth enters neither. -/
theorem C149_values (spice : String → Option Int) (e e1 : EarthRad) (hs : e.srp.enabled = true) (ha : e.albedoOn = true) (hi : e.infraredOn = true)
    (before : List (Bool × Celestial × Local)) (hb : e.run spice before = .ok e1) (c : Celestial) (l : Local) (sun : Fin 3 → ℝ) (pos : String → Fin 3 → ℝ) (rad : String → ℝ)
    (h : Sees spice c l e.srp sun pos rad) (h0 : sun ≠ 0) (after : List (Bool × Celestial × Local)) (hf : ∀ x ∈ after, x.1 = false) :
    ∃ e' k, e.run spice (before ++ (true, c, l) :: after) = .ok e' ∧ 0 ≤ k ∧ k ≤ 1 ∧ e'.albedo = some (e.factor * (1366 * (149597870700 / len sun) ^ 2 * k)) ∧
      (∀ n, e.srp.sources = [n] → n ≠ "SUN" → k = lit sun (pos n) e.srp.sunRadius (rad n)) ∧
      e'.infrared = 5.670374419e-8 * (if ∃ n ∈ e.srp.sources, n ≠ "SUN" ∧ Overlap sun (pos n) e.srp.sunRadius (rad n) then e.cold else e.hot) ^ 4 := by
  obtain ⟨b1, b2, b3, b4, b5, b6, b7, b8⟩ := run_settings spice before e e1 hb
  have h' : Sees spice c l e1.srp sun pos rad := ⟨h.atSun, by rw [b1, b2]; exact h.source⟩
  obtain ⟨s', k, u1, u2, u3, u4, u5, u6, u7⟩ := C108_update spice c l e1.srp sun pos rad (b3.trans hs) h'
  obtain ⟨p1, -, -⟩ := C109_pressure spice c l e1.srp s' sun k (b3.trans hs) h.atSun h0 u1 u2
  refine ⟨({ e1 with srp := s' } : EarthRad).updateAlbedo.updateInfrared, k, ?_, u3, u4, ?_, ?_, ?_⟩
  · rw [rad_run_append, hb, Res.bind, EarthRad.run, EarthRad.step, if_pos rfl]
    simp only [u1, Res.bind]
    exact run_idle spice after hf _
  · have : ∀ x : EarthRad, x.updateInfrared.albedo = x.albedo := by intro x; unfold EarthRad.updateInfrared; split_ifs <;> rfl
    rw [this, EarthRad.updateAlbedo, if_neg (by simp [b4, ha])]
    simp only [p1, Option.map_some, b5]
    rw [mul_comm]
  · intro n hn hne
    rcases Classical.em (Annular sun (pos n) e1.srp.sunRadius (rad n)) with han | han
    · have := u7 [] n [] (by rw [b1, hn]; rfl) hne han (by simp)
      simpa [b2] using this
    · have := u6 (by rw [b1, hn]; simpa using fun _ => han)
      rw [b1, hn] at this
      simpa [hne, b2] using this
  · obtain ⟨q1, -, -, q2, q3, q4, -⟩ := albedo_keeps { e1 with srp := s' }
    rw [b1, b2] at u5
    rw [infrared_value _ (by rw [q2]; exact b6.trans hi), q1, q3, q4, stefanBoltzmann]
    simp only [u5, b7, b8]

/-- **C149 (solar radiation disabled).** With the solar radiation environment switched off, albedo and infrared radiation are those at one astronomical unit in full sunlight after every
orbit update, wherever the spacecraft is and whichever bodies are between it and the Sun. -/
theorem C149_srp_disabled (spice : String → Option Int) (c0 : Celestial) (third : List String) (srp : Srp) (hsrp : Srp.init spice c0 false third = .ok srp) (factor hot cold : ℝ)
    (l : List (Bool × Celestial × Local)) (hl : ∃ x ∈ l, x.1 = true) :
    ∃ e', (EarthRad.new srp true factor true hot cold).run spice l = .ok e' ∧ e'.albedo = some (factor * 1366) ∧ e'.infrared = 5.670374419e-8 * hot ^ 4 := by
  have hR : ∃ R, c0.getMeanRadius spice "SUN" = .ok R := by
    rcases h1 : c0.getMeanRadius spice "SUN" with v | _ | _ | _
    · exact ⟨v, rfl⟩
    all_goals (rw [Srp.init, Srp.new, h1] at hsrp; simp [Res.bind] at hsrp)
  obtain ⟨R, hR⟩ := hR
  obtain ⟨s1, t1, t2, -, t4, -⟩ := C109_sources spice c0 false third R hR
  rw [hsrp] at t1
  obtain rfl := Res.ok.inj t1
  have hp : srp.getPowerDensity = some 1366 ∧ ¬srp.isEclipsed := by
    obtain ⟨-, s2, w1, -, w3, w4⟩ := C109_disabled spice c0 (Celestial.localUpdate c0 0 0 ⟨0, 0, 0, 1⟩ 0) third R hR
    rw [hsrp] at w1
    obtain rfl := Res.ok.inj w1
    refine ⟨?_, w4⟩
    rw [Srp.getPressure, t4] at w3
    simp only [Option.map_some, mul_one, Option.some.injEq] at w3
    rw [Srp.getPowerDensity, t4, w3]
    simp [speedOfLight]
  -- every state on the way
  have key : ∀ (l : List (Bool × Celestial × Local)) (e : EarthRad), e.srp = srp → e.albedoOn = true → e.infraredOn = true → e.factor = factor → e.hot = hot →
      ((e.albedo = some (factor * 1366) ∧ e.infrared = 5.670374419e-8 * hot ^ 4) ∨ ∃ x ∈ l, x.1 = true) →
      ∃ e', e.run spice l = .ok e' ∧ e'.albedo = some (factor * 1366) ∧ e'.infrared = 5.670374419e-8 * hot ^ 4 := by
    intro l
    induction l with
    | nil =>
      intro e _ _ _ _ _ h
      rcases h with h | ⟨x, hx, -⟩
      · exact ⟨e, rfl, h⟩
      · simp at hx
    | cons x l ih =>
      intro e h1 h2 h3 h4 h5 h
      rw [EarthRad.run]
      by_cases hx : x.1 = true
      · have hu : e.srp.update spice x.2.1 x.2.2 = .ok srp := by rw [h1, Srp.update, if_pos t2]
        have hs : e.step spice x = .ok { e with srp := srp, albedo := some (factor * 1366), infrared := 5.670374419e-8 * hot ^ 4 } := by
          rw [EarthRad.step, if_pos hx, hu, Res.bind]
          have v1 : ({ e with srp := srp } : EarthRad).updateAlbedo = { e with srp := srp, albedo := some (factor * 1366) } := by
            rw [EarthRad.updateAlbedo, if_neg (by simp [h2])]
            simp only [hp.1, h4, Option.map_some, mul_comm]
          rw [v1]
          unfold EarthRad.updateInfrared
          rw [if_neg (by simp [h3]), if_neg hp.2]
          simp only [h5, stefanBoltzmann]
        rw [hs, Res.bind]
        exact ih _ rfl h2 h3 h4 h5 (Or.inl ⟨rfl, rfl⟩)
      · have hs : e.step spice x = .ok e := by rw [EarthRad.step, if_neg hx]
        rw [hs, Res.bind]
        refine ih e h1 h2 h3 h4 h5 (h.imp id ?_)
        rintro ⟨y, hy, hy2⟩
        rcases List.mem_cons.mp hy with rfl | hy
        · exact absurd hy2 hx
        · exact ⟨y, hy, hy2⟩
  exact key l _ rfl rfl rfl rfl rfl (Or.inr hl)

/-- **C149 (switched off).** A disabled albedo or infrared radiation is 0 after every history. -/
theorem C149_off (spice : String → Option Int) (srp : Srp) (albedoOn infraredOn : Bool) (factor hot cold : ℝ) (l : List (Bool × Celestial × Local)) (e' : EarthRad)
    (h : (EarthRad.new srp albedoOn factor infraredOn hot cold).run spice l = .ok e') :
    (albedoOn = false → e'.albedo = some 0) ∧ (infraredOn = false → e'.infrared = 0) := by
  have key : ∀ (l : List (Bool × Celestial × Local)) (e e' : EarthRad), e.run spice l = .ok e' →
      (e.albedoOn = false → e'.albedo = e.albedo) ∧ (e.infraredOn = false → e'.infrared = e.infrared) := by
    intro l
    induction l with
    | nil => intro e e' h; obtain rfl := Res.ok.inj h; exact ⟨fun _ => rfl, fun _ => rfl⟩
    | cons x l ih =>
      intro e e' h
      rw [EarthRad.run] at h
      rcases h1 : e.step spice x with v | _ | _ | _ <;> rw [h1] at h <;> simp only [Res.bind, reduceCtorEq] at h
      obtain ⟨i1, i2⟩ := ih v e' h
      obtain ⟨-, -, -, b4, -, b6, -, -⟩ := step_settings spice e v x h1
      have hv : (e.albedoOn = false → v.albedo = e.albedo) ∧ (e.infraredOn = false → v.infrared = e.infrared) := by
        rw [EarthRad.step] at h1
        split_ifs at h1 with hx
        · rcases h2 : e.srp.update spice x.2.1 x.2.2 with s | _ | _ | _ <;> rw [h2] at h1 <;> simp only [Res.bind, reduceCtorEq] at h1
          obtain rfl := Res.ok.inj h1
          constructor
          · intro ho
            rw [(infrared_keeps _).2.2.2.2.2.2, EarthRad.updateAlbedo, if_pos ho]
          · intro ho
            rw [infrared_off _ ((albedo_keeps { e with srp := s }).2.2.2.1.trans ho), (albedo_keeps _).2.2.2.2.2.2]
        · obtain rfl := Res.ok.inj h1
          exact ⟨fun _ => rfl, fun _ => rfl⟩
      exact ⟨fun ho => (i1 (b4.trans ho)).trans (hv.1 ho), fun ho => (i2 (b6.trans ho)).trans (hv.2 ho)⟩
  exact key l _ e' h

/-- The hypotheses of `C149_values` hold in the example configuration, from the initial state. -/
example : ∃ (e e1 : EarthRad) (c : Celestial) (l : Local) (sun : Fin 3 → ℝ) (pos : String → Fin 3 → ℝ) (rad : String → ℝ), e.srp.enabled = true ∧ e.albedoOn = true ∧
    e.infraredOn = true ∧ e.run exampleSpice [(true, c, l)] = .ok e1 ∧ Sees exampleSpice c l e.srp sun pos rad ∧ sun ≠ 0 := by
  obtain ⟨s', k, h1, -⟩ := C108_update exampleSpice exampleBodies exampleLocal exampleSrp _ _ _ rfl example_sees
  refine ⟨EarthRad.new exampleSrp true 0.3 true 288 250, ({ EarthRad.new exampleSrp true 0.3 true 288 250 with srp := s' } : EarthRad).updateAlbedo.updateInfrared, exampleBodies, exampleLocal, _, _, _, rfl, rfl, rfl, ?_, example_sees, ?_⟩
  · rw [EarthRad.run, EarthRad.step, if_pos rfl]
    show Res.bind (Res.bind (exampleSrp.update exampleSpice exampleBodies exampleLocal) _) _ = _
    rw [h1]
    rfl
  · intro h
    have := congrFun h 0
    simp at this

end S2E.Env
