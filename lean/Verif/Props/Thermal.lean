import Verif.Props.Heatload
import Verif.Props.Eps
/-!
# C78, C79: thermal network
-/
namespace S2E.Thermal
open S2E.Eps

variable {n : Nat}

/-! ## Specification -/

/-- Heat flowing into node `i` from the other nodes: conduction proportional to the temperature difference, radiation to the difference of fourth powers. -/
noncomputable def flux (s : Network n) (i : Fin n) : ℝ :=
  ∑ j, s.conductance i j * ((s.nodes j).temperature - (s.nodes i).temperature) +
  ∑ j, stefanBoltzmann * s.radiation i j * ((s.nodes j).temperature ^ 4 - (s.nodes i).temperature ^ 4)

/-- Power of the heater attached to node `i`, 0 if there is none. -/
noncomputable def heaterOf (s : Network n) (i : Fin n) : ℝ :=
  if (s.nodes i).heaterId > 0 then ((s.heaters[(s.nodes i).heaterId - 1]?).map Heater.output).getD 0 else 0

/-- Solar, albedo, infrared and heater power into node `i` (with the solar calculation disabled, whatever solar and albedo load was set). -/
noncomputable def external (s : Network n) (e : Env) (i : Fin n) : ℝ :=
  (if s.solarEnabled then (s.nodes i).calcSolar (calcNormalizedVector e.sunPosition) e.solarFlux +
      (s.nodes i).calcAlbedo e.earthPosition (calcNormalizedVector e.sunPosition) e.albedo
    else (s.loads i).solar + (s.loads i).albedo) +
  (s.nodes i).calcInfrared e.earthPosition e.infrared + heaterOf s i

/-- A network as InitTemperature builds it from consistent files: usable heat load tables, heater numbers that exist, and no zero capacity (the code would divide by it). -/
structure WF (s : Network n) : Prop where
  capacity : ∀ i, (s.nodes i).kind = .diffusive → (s.nodes i).capacity ≠ 0
  loads : ∀ i, LoadOK (s.loads i)
  heaters : ∀ i, (s.nodes i).heaterId ≤ s.heaters.length
  controllers : s.controllers.length = s.heaters.length

/-! ## What one evaluation leaves alone -/

/-- Everything except heat load bookkeeping and the recorded radiation values is the same. -/
structure Rel (s s' : Network n) : Prop where
  conductance : s'.conductance = s.conductance
  radiation : s'.radiation = s.radiation
  heaters : s'.heaters = s.heaters
  controllers : s'.controllers = s.controllers
  step : s'.step = s.step
  time : s'.time = s.time
  enabled : s'.enabled = s.enabled
  solarEnabled : s'.solarEnabled = s.solarEnabled
  node : ∀ j, ∃ a b c, s'.nodes j = { s.nodes j with solar := a, albedo := b, infrared := c }

theorem Rel.refl (s : Network n) : Rel s s := ⟨rfl, rfl, rfl, rfl, rfl, rfl, rfl, rfl, fun _ => ⟨_, _, _, rfl⟩⟩

theorem Rel.trans {s t u : Network n} (h : Rel s t) (g : Rel t u) : Rel s u := by
  refine ⟨g.conductance.trans h.conductance, g.radiation.trans h.radiation, g.heaters.trans h.heaters, g.controllers.trans h.controllers, g.step.trans h.step,
    g.time.trans h.time, g.enabled.trans h.enabled, g.solarEnabled.trans h.solarEnabled, fun j => ?_⟩
  obtain ⟨a, b, c, e⟩ := g.node j
  obtain ⟨a', b', c', e'⟩ := h.node j
  exact ⟨a, b, c, by rw [e, e']⟩

theorem Rel.temperature {s s' : Network n} (h : Rel s s') (j : Fin n) : (s'.nodes j).temperature = (s.nodes j).temperature := by
  obtain ⟨a, b, c, e⟩ := h.node j; rw [e]
theorem Rel.capacity {s s' : Network n} (h : Rel s s') (j : Fin n) : (s'.nodes j).capacity = (s.nodes j).capacity := by
  obtain ⟨a, b, c, e⟩ := h.node j; rw [e]
theorem Rel.kind {s s' : Network n} (h : Rel s s') (j : Fin n) : (s'.nodes j).kind = (s.nodes j).kind := by
  obtain ⟨a, b, c, e⟩ := h.node j; rw [e]
theorem Rel.heaterId {s s' : Network n} (h : Rel s s') (j : Fin n) : (s'.nodes j).heaterId = (s.nodes j).heaterId := by
  obtain ⟨a, b, c, e⟩ := h.node j; rw [e]

theorem Rel.flux {s s' : Network n} (h : Rel s s') (i : Fin n) : flux s' i = flux s i := by
  unfold Thermal.flux
  simp only [h.conductance, h.radiation, h.temperature]

theorem Rel.heaterOf {s s' : Network n} (h : Rel s s') (i : Fin n) : heaterOf s' i = heaterOf s i := by
  unfold Thermal.heaterOf; rw [h.heaters, h.heaterId]

theorem Rel.external {s s' : Network n} (h : Rel s s') (e : Env) (i : Fin n)
    (hl : s.solarEnabled = false → (s'.loads i).solar = (s.loads i).solar ∧ (s'.loads i).albedo = (s.loads i).albedo) : external s' e i = external s e i := by
  unfold Thermal.external
  rw [h.heaterOf, h.solarEnabled]
  obtain ⟨a, b, c, hn⟩ := h.node i
  rw [hn]
  cases hs : s.solarEnabled with
  | true => rfl
  | false =>
    obtain ⟨h1, h2⟩ := hl hs
    simp only [Bool.false_eq_true, if_false, h1, h2]
    rfl

/-- The heat load `h'` is the load `h` evaluated at the time of `a`: they agree on table and position. -/
structure Core (a h' : Heatload ℝ) : Prop where
  times : h'.times = a.times
  table : h'.table = a.table
  period : h'.period = a.period
  idx : h'.idx = a.idx

/-- Effect of one CalcTemperatureDifferentials iteration on node `i`. -/
structure NodePost (s s' : Network n) (fuel : Nat) (t : ℝ) (e : Env) (i : Fin n) (d : ℝ) : Prop where
  ok : LoadOK (s'.loads i)
  tables : (s'.loads i).times = (s.loads i).times ∧ (s'.loads i).table = (s.loads i).table
  keep : s.solarEnabled = false → (s'.loads i).solar = (s.loads i).solar ∧ (s'.loads i).albedo = (s.loads i).albedo
  fixed : (s.nodes i).kind ≠ .diffusive → d = 0
  diffusive : (s.nodes i).kind = .diffusive → ∃ a, (s.loads i).at fuel t = .ok a ∧ Core a (s'.loads i) ∧
    d = (flux s i + (external s e i + a.internal)) / (s.nodes i).capacity

theorem nodeDifferential_spec (s : Network n) (hw : WF s) (fuel : Nat) (t : ℝ) (ht : 0 ≤ t) (e : Env) (i : Fin n) (hf : (s.loads i).times.length ≤ fuel) :
    ∃ s' d, s.nodeDifferential fuel t e i = .ok (s', d) ∧ Rel s s' ∧ NodePost s s' fuel t e i d ∧
      ∀ j, j ≠ i → s'.loads j = s.loads j := by
  obtain ⟨k, h1, h2, h3, h4, _, _⟩ := at_spec (s.loads i) (hw.loads i) t ht fuel hf
  have hlk := hw.loads i
  unfold Network.nodeDifferential
  simp only [h2, Res.bind_ok]
  rcases hkind : (s.nodes i).kind with _ | _ | _
  · -- diffusive
    have hp : s.heaterPower i = .ok (heaterOf s i) := by
      unfold Network.heaterPower heaterOf
      by_cases hid : (s.nodes i).heaterId > 0
      · have hlt : (s.nodes i).heaterId - 1 < s.heaters.length := by have := hw.heaters i; omega
        rw [if_pos hid, if_pos hid, List.getElem?_eq_getElem hlt]; rfl
      · rw [if_neg hid, if_neg hid]
    have hsame := hlk.table.same
    have e1 : (s.loads i).times[k]? = some ((s.loads i).times.getD k 0) := by rw [List.getD_eq_getElem?_getD, List.getElem?_eq_getElem (by omega)]; rfl
    have e2 : (s.loads i).times[k + 1]? = some ((s.loads i).times.getD (k + 1) 0) := by rw [List.getD_eq_getElem?_getD, List.getElem?_eq_getElem (by omega)]; rfl
    have e3 : (s.loads i).table[k]? = some ((s.loads i).table.getD k 0) := by rw [List.getD_eq_getElem?_getD, List.getElem?_eq_getElem (by omega)]; rfl
    have e4 : (s.loads i).table[k + 1]? = some ((s.loads i).table.getD (k + 1) 0) := by rw [List.getD_eq_getElem?_getD, List.getElem?_eq_getElem (by omega)]; rfl
    have others : ∀ (L : Heatload ℝ) (j : Fin n), j ≠ i → Function.update s.loads i L j = s.loads j := fun L j hj => Function.update_of_ne hj _ _
    have relnode : ∀ (a b c : ℝ) (j : Fin n), ∃ a' b' c', Function.update s.nodes i { s.nodes i with solar := a, albedo := b, infrared := c } j =
        { s.nodes j with solar := a', albedo := b', infrared := c' } := by
      intro a b c j
      by_cases hj : j = i
      · subst hj; exact ⟨a, b, c, by rw [Function.update_self]⟩
      · exact ⟨_, _, _, by rw [Function.update_of_ne hj]⟩
    cases hs : s.solarEnabled with
    | true =>
      simp only [hs, if_true, hp, Res.bind_ok, Heatload.calcInternal, e1, e2, e3, e4]
      refine ⟨_, _, rfl, ⟨rfl, rfl, rfl, rfl, rfl, rfl, rfl, rfl.trans hs.symm |>.trans rfl, ?_⟩, ?_, ?_⟩
      · intro j; simpa only [hkind] using relnode _ _ _ j
      · refine ⟨?_, ?_, ?_, ?_, ?_⟩
        · simp only [Function.update_self]; exact ⟨hlk.table, h3⟩
        · simp only [Function.update_self]; exact ⟨rfl, rfl⟩
        · intro h; rw [hs] at h; cases h
        · intro h; exact absurd hkind h
        · intro _
          refine ⟨_, h4, ?_, ?_⟩
          · simp only [Function.update_self]; exact ⟨rfl, rfl, rfl, rfl⟩
          · simp only [Heatload.updateTotal, flux, external, hs, if_true, line]
            congr 1
            simp only [Node.calcInfrared]
            ring
      · intro j hj; exact others _ j hj
    | false =>
      simp only [hs, Bool.false_eq_true, if_false, hp, Res.bind_ok, Heatload.calcInternal, e1, e2, e3, e4]
      refine ⟨_, _, rfl, ⟨rfl, rfl, rfl, rfl, rfl, rfl, rfl, rfl.trans hs.symm |>.trans rfl, ?_⟩, ?_, ?_⟩
      · intro j; simpa only [hkind] using relnode _ _ _ j
      · refine ⟨?_, ?_, ?_, ?_, ?_⟩
        · simp only [Function.update_self]; exact ⟨hlk.table, h3⟩
        · simp only [Function.update_self]; exact ⟨rfl, rfl⟩
        · intro _; simp only [Function.update_self]; exact ⟨rfl, rfl⟩
        · intro h; exact absurd hkind h
        · intro _
          refine ⟨_, h4, ?_, ?_⟩
          · simp only [Function.update_self]; exact ⟨rfl, rfl, rfl, rfl⟩
          · simp only [Heatload.updateTotal, flux, external, hs, Bool.false_eq_true, if_false, line]
            congr 1
            simp only [Node.calcInfrared]
            ring
      · intro j hj; exact others _ j hj
  all_goals
    refine ⟨_, _, rfl, ⟨rfl, rfl, rfl, rfl, rfl, rfl, rfl, rfl, fun j => ⟨_, _, _, rfl⟩⟩, ?_, fun j hj => Function.update_of_ne hj _ _⟩
    refine ⟨?_, ?_, ?_, fun _ => rfl, fun h => by rw [hkind] at h; cases h⟩
    · simp only [Function.update_self]; exact ⟨hlk.table, h3⟩
    · simp only [Function.update_self]; exact ⟨trivial, trivial⟩
    · intro _; simp only [Function.update_self]; exact ⟨trivial, trivial⟩

theorem WF.of_rel {s s' : Network n} (hw : WF s) (hr : Rel s s') (hl : ∀ i, LoadOK (s'.loads i)) : WF s' :=
  ⟨fun i hk => by rw [hr.capacity]; exact hw.capacity i (by rw [← hr.kind]; exact hk), hl, fun i => by rw [hr.heaterId, hr.heaters]; exact hw.heaters i, by rw [hr.controllers, hr.heaters]; exact hw.controllers⟩

theorem diffLoop_spec (fuel : Nat) (t : ℝ) (ht : 0 ≤ t) (e : Env) (is : List (Fin n)) (hnd : is.Nodup) (s : Network n) (hw : WF s) (hf : ∀ i, (s.loads i).times.length ≤ fuel)
    (d : Fin n → ℝ) :
    ∃ s' d', Network.diffLoop fuel t e is s d = .ok (s', d') ∧ Rel s s' ∧ (∀ i ∈ is, NodePost s s' fuel t e i (d' i)) ∧
      (∀ i, i ∉ is → s'.loads i = s.loads i ∧ d' i = d i) ∧ WF s' := by
  induction is generalizing s d with
  | nil => exact ⟨s, d, rfl, Rel.refl s, by simp, fun i _ => ⟨rfl, rfl⟩, hw⟩
  | cons i is ih =>
    obtain ⟨hni, hnd'⟩ := List.nodup_cons.1 hnd
    obtain ⟨s1, x, h1, h2, h3, h4⟩ := nodeDifferential_spec s hw fuel t ht e i (hf i)
    have hw1 : WF s1 := hw.of_rel h2 (fun j => by
      by_cases hj : j = i
      · subst hj; exact h3.ok
      · rw [h4 j hj]; exact hw.loads j)
    have hf1 : ∀ j, (s1.loads j).times.length ≤ fuel := by
      intro j
      by_cases hj : j = i
      · subst hj; rw [h3.tables.1]; exact hf j
      · rw [h4 j hj]; exact hf j
    obtain ⟨s2, d2, g1, g2, g3, g4, g5⟩ := ih hnd' s1 hw1 hf1 (Function.update d i x)
    refine ⟨s2, d2, by rw [Network.diffLoop, h1, Res.bind_ok]; exact g1, h2.trans g2, ?_, ?_, g5⟩
    · intro j hj
      rcases List.mem_cons.1 hj with rfl | hj
      · obtain ⟨k1, k2⟩ := g4 j hni
        rw [k2, Function.update_self]
        exact ⟨by rw [k1]; exact h3.ok, by rw [k1]; exact h3.tables, by rw [k1]; exact h3.keep, h3.fixed, by rw [k1]; exact h3.diffusive⟩
      · have hne : j ≠ i := fun h => hni (h ▸ hj)
        obtain ⟨p1, p2, p3, p4, p5⟩ := g3 j hj
        have hl : s1.loads j = s.loads j := h4 j hne
        refine ⟨p1, by rw [← hl]; exact p2, fun hs => by rw [← hl]; exact p3 (by rw [h2.solarEnabled]; exact hs), fun hk => p4 (by rw [h2.kind]; exact hk), fun hk => ?_⟩
        obtain ⟨a, q1, q2, q3⟩ := p5 (by rw [h2.kind]; exact hk)
        refine ⟨a, by rw [← hl]; exact q1, q2, ?_⟩
        rw [q3, h2.flux, h2.external e j (fun _ => by rw [hl]; exact ⟨rfl, rfl⟩), h2.capacity]
    · intro j hj
      have hj' : j ≠ i ∧ j ∉ is := by simpa [List.mem_cons, not_or] using hj
      obtain ⟨k1, k2⟩ := g4 j hj'.2
      exact ⟨by rw [k1, h4 j hj'.1], by rw [k2, Function.update_of_ne hj'.1]⟩

theorem differentials_spec (fuel : Nat) (t : ℝ) (ht : 0 ≤ t) (e : Env) (s : Network n) (hw : WF s) (hf : ∀ i, (s.loads i).times.length ≤ fuel) :
    ∃ s' d, s.differentials fuel t e = .ok (s', d) ∧ Rel s s' ∧ (∀ i, NodePost s s' fuel t e i (d i)) ∧ WF s' := by
  obtain ⟨s', d, h1, h2, h3, _, h5⟩ := diffLoop_spec fuel t ht e (List.finRange n) (List.nodup_finRange n) s hw hf fun _ => 0
  exact ⟨s', d, h1, h2, fun i => h3 i (List.mem_finRange i), h5⟩

theorem Core.at {a g : Heatload ℝ} (hc : Core a g) (hk : LoadOK g) (fuel : Nat) (t : ℝ) (ht : 0 ≤ t) (hf : g.times.length ≤ fuel) :
    ∃ a' g', a.at fuel t = .ok a' ∧ g.at fuel t = .ok g' ∧ Core a' g' ∧ g'.internal = a'.internal := by
  have hka : LoadOK a := ⟨by rw [← hc.times, ← hc.table, ← hc.period]; exact hk.table, by rw [← hc.times, ← hc.idx]; exact hk.idx⟩
  obtain ⟨j, h1, h2, h3, h4, h5, h6⟩ := at_spec g hk t ht fuel hf
  obtain ⟨j', h1', h2', h3', h4', h5', h6'⟩ := at_spec a hka t ht fuel (by rw [← hc.times]; exact hf)
  have hj : j' = j := by
    have e : a.setElapsed fuel t = (advance a.times (fmodK t a.period) fuel a.idx >>= fun idx => .ok { a with residual := fmodK t a.period, idx := idx }) := rfl
    have e' : g.setElapsed fuel t = (advance g.times (fmodK t g.period) fuel g.idx >>= fun idx => .ok { g with residual := fmodK t g.period, idx := idx }) := rfl
    rw [hc.times, hc.period, hc.idx] at e'
    rcases hadv : advance a.times (fmodK t a.period) fuel a.idx with v | _ | _ | _
    · rw [hadv, Res.bind_ok] at e e'
      rw [h2'] at e; rw [h2] at e'
      have q1 := congrArg Heatload.idx (Res.ok.inj e)
      have q2 := congrArg Heatload.idx (Res.ok.inj e')
      exact q1.trans q2.symm
    all_goals rw [hadv] at e; rw [h2'] at e; cases e
  subst hj
  refine ⟨_, _, h4', h4, ⟨hc.times, hc.table, hc.period, rfl⟩, ?_⟩
  simp only [hc.times, hc.table, hc.period]

/-! ## One Runge-Kutta step -/

/-- Same network up to temperatures, simulated time, heat load bookkeeping and recorded radiation values. -/
structure Same (s s' : Network n) : Prop where
  conductance : s'.conductance = s.conductance
  radiation : s'.radiation = s.radiation
  heaters : s'.heaters = s.heaters
  controllers : s'.controllers = s.controllers
  step : s'.step = s.step
  enabled : s'.enabled = s.enabled
  solarEnabled : s'.solarEnabled = s.solarEnabled
  node : ∀ j, ∃ T a b c, s'.nodes j = { s.nodes j with temperature := T, solar := a, albedo := b, infrared := c }
  tables : ∀ j, (s'.loads j).times = (s.loads j).times ∧ (s'.loads j).table = (s.loads j).table
  keep : s.solarEnabled = false → ∀ j, (s'.loads j).solar = (s.loads j).solar ∧ (s'.loads j).albedo = (s.loads j).albedo

theorem Same.refl (s : Network n) : Same s s := ⟨rfl, rfl, rfl, rfl, rfl, rfl, rfl, fun _ => ⟨_, _, _, _, rfl⟩, fun _ => ⟨rfl, rfl⟩, fun _ _ => ⟨rfl, rfl⟩⟩

theorem Same.trans {s t u : Network n} (h : Same s t) (g : Same t u) : Same s u := by
  refine ⟨g.conductance.trans h.conductance, g.radiation.trans h.radiation, g.heaters.trans h.heaters, g.controllers.trans h.controllers, g.step.trans h.step,
    g.enabled.trans h.enabled, g.solarEnabled.trans h.solarEnabled, fun j => ?_, fun j => ?_, fun hs j => ?_⟩
  · obtain ⟨T, a, b, c, e⟩ := g.node j
    obtain ⟨T', a', b', c', e'⟩ := h.node j
    exact ⟨T, a, b, c, by rw [e, e']⟩
  · exact ⟨(g.tables j).1.trans (h.tables j).1, (g.tables j).2.trans (h.tables j).2⟩
  · have h1 := h.keep hs j
    have h2 := g.keep (h.solarEnabled.trans hs) j
    exact ⟨h2.1.trans h1.1, h2.2.trans h1.2⟩

theorem Same.capacity {s s' : Network n} (h : Same s s') (j : Fin n) : (s'.nodes j).capacity = (s.nodes j).capacity := by
  obtain ⟨T, a, b, c, e⟩ := h.node j; rw [e]
theorem Same.kind {s s' : Network n} (h : Same s s') (j : Fin n) : (s'.nodes j).kind = (s.nodes j).kind := by
  obtain ⟨T, a, b, c, e⟩ := h.node j; rw [e]
theorem Same.heaterId {s s' : Network n} (h : Same s s') (j : Fin n) : (s'.nodes j).heaterId = (s.nodes j).heaterId := by
  obtain ⟨T, a, b, c, e⟩ := h.node j; rw [e]

theorem Same.external {s s' : Network n} (h : Same s s') (e : Env) (i : Fin n) : external s' e i = external s e i := by
  unfold Thermal.external heaterOf
  rw [h.solarEnabled, h.heaters, h.heaterId]
  obtain ⟨T, a, b, c, hn⟩ := h.node i
  rw [hn]
  cases hs : s.solarEnabled with
  | true => rfl
  | false =>
    obtain ⟨h1, h2⟩ := h.keep hs i
    simp only [Bool.false_eq_true, if_false, h1, h2]
    rfl

theorem rel_post {s s' : Network n} {fuel : Nat} {t : ℝ} {e : Env} {d : Fin n → ℝ} (hr : Rel s s') (hp : ∀ i, NodePost s s' fuel t e i (d i)) : Same s s' :=
  ⟨hr.conductance, hr.radiation, hr.heaters, hr.controllers, hr.step, hr.enabled, hr.solarEnabled,
    fun j => by obtain ⟨a, b, c, e⟩ := hr.node j; exact ⟨_, a, b, c, e⟩, fun j => (hp j).tables, fun hs j => (hp j).keep hs⟩

theorem Same.length {s s' : Network n} (h : Same s s') {fuel : Nat} (hf : ∀ i, (s.loads i).times.length ≤ fuel) (i : Fin n) : (s'.loads i).times.length ≤ fuel := by
  rw [(h.tables i).1]; exact hf i

theorem rungeStep_spec (s : Network n) (hw : WF s) (fuel : Nat) (hf : ∀ i, (s.loads i).times.length ≤ fuel) (now h : ℝ) (hnow : 0 ≤ now) (hh : 0 ≤ h) (e : Env) :
    ∃ s', s.rungeStep fuel now h e = .ok s' ∧ Same s s' ∧ s'.time = s.time ∧ WF s' ∧
      (∀ i, (s.nodes i).kind ≠ .diffusive → (s'.nodes i).temperature = (s.nodes i).temperature) ∧
      (∀ i, (s.nodes i).kind = .diffusive → ∃ a1 a2 a3 a4, (s.loads i).run fuel [now] = .ok a1 ∧ (s.loads i).run fuel [now, now + h / 2] = .ok a2 ∧
        (s.loads i).run fuel [now, now + h / 2, now + h / 2] = .ok a3 ∧ (s.loads i).run fuel [now, now + h / 2, now + h / 2, now + h] = .ok a4 ∧
        (s'.nodes i).temperature = (s.nodes i).temperature + h * ((flux s i + external s e i +
          (a1.internal + 2 * a2.internal + 2 * a3.internal + a4.internal) / 6) / (s.nodes i).capacity)) := by
  obtain ⟨s1, d1, p1, r1, q1, w1⟩ := differentials_spec fuel now hnow e s hw hf
  have m1 := rel_post r1 q1
  obtain ⟨s2, d2, p2, r2, q2, w2⟩ := differentials_spec fuel (now + h / 2) (by linarith) e s1 w1 (m1.length hf)
  have m2 := m1.trans (rel_post r2 q2)
  obtain ⟨s3, d3, p3, r3, q3, w3⟩ := differentials_spec fuel (now + h / 2) (by linarith) e s2 w2 (m2.length hf)
  have m3 := m2.trans (rel_post r3 q3)
  obtain ⟨s4, d4, p4, r4, q4, w4⟩ := differentials_spec fuel (now + h) (by linarith) e s3 w3 (m3.length hf)
  have m4 := m3.trans (rel_post r4 q4)
  have rr2 := r1.trans r2
  have rr3 := rr2.trans r3
  have rr4 := rr3.trans r4
  refine ⟨{ s4 with nodes := fun i => { s4.nodes i with temperature := (s.nodes i).temperature + h / 6 * (d1 i + 2 * d2 i + 2 * d3 i + d4 i) } },
    by simp only [Network.rungeStep, p1, p2, p3, p4, Res.bind_ok], ?_, rr4.time, ?_, ?_, ?_⟩
  · exact ⟨m4.conductance, m4.radiation, m4.heaters, m4.controllers, m4.step, m4.enabled, m4.solarEnabled,
      fun j => by obtain ⟨T, a, b, c, e⟩ := m4.node j; exact ⟨(s.nodes j).temperature + h / 6 * (d1 j + 2 * d2 j + 2 * d3 j + d4 j), a, b, c, by simp only [e]⟩, m4.tables, m4.keep⟩
  · exact ⟨w4.capacity, w4.loads, w4.heaters, w4.controllers⟩
  · intro i hk
    simp only [(q1 i).fixed hk, (q2 i).fixed (by rw [r1.kind]; exact hk), (q3 i).fixed (by rw [rr2.kind]; exact hk), (q4 i).fixed (by rw [rr3.kind]; exact hk)]
    ring
  · intro i hk
    obtain ⟨a1, x1, c1, y1⟩ := (q1 i).diffusive hk
    obtain ⟨b2, x2, c2, y2⟩ := (q2 i).diffusive (by rw [r1.kind]; exact hk)
    obtain ⟨b3, x3, c3, y3⟩ := (q3 i).diffusive (by rw [rr2.kind]; exact hk)
    obtain ⟨b4, x4, c4, y4⟩ := (q4 i).diffusive (by rw [rr3.kind]; exact hk)
    obtain ⟨a2, g2, u2, v2, k2, l2⟩ := c1.at (w1.loads i) fuel (now + h / 2) (by linarith) (m1.length hf i)
    obtain rfl := Res.ok.inj (x2.symm.trans v2)
    have c2' : Core a2 (s2.loads i) := ⟨c2.times.trans k2.times, c2.table.trans k2.table, c2.period.trans k2.period, c2.idx.trans k2.idx⟩
    obtain ⟨a3, g3, u3, v3, k3, l3⟩ := c2'.at (w2.loads i) fuel (now + h / 2) (by linarith) (m2.length hf i)
    obtain rfl := Res.ok.inj (x3.symm.trans v3)
    have c3' : Core a3 (s3.loads i) := ⟨c3.times.trans k3.times, c3.table.trans k3.table, c3.period.trans k3.period, c3.idx.trans k3.idx⟩
    obtain ⟨a4, g4, u4, v4, k4, l4⟩ := c3'.at (w3.loads i) fuel (now + h) (by linarith) (m3.length hf i)
    obtain rfl := Res.ok.inj (x4.symm.trans v4)
    refine ⟨a1, a2, a3, a4, ?_, ?_, ?_, ?_, ?_⟩
    · simp only [Heatload.run, x1, Res.bind_ok]
    · simp only [Heatload.run, x1, u2, Res.bind_ok]
    · simp only [Heatload.run, x1, u2, u3, Res.bind_ok]
    · simp only [Heatload.run, x1, u2, u3, u4, Res.bind_ok]
    · have E1 := (rel_post r1 q1).external e i
      have E2 := m2.external e i
      have E3 := m3.external e i
      simp only [y1, y2, y3, y4, r1.flux, rr2.flux, rr3.flux, E1, E2, E3, r1.capacity, rr2.capacity, rr3.capacity, l2, l3, l4]
      ring

/-! ## C78 -/

/-- **C78.** One step of the thermal solver, for every network with usable tables and heater numbers: it succeeds, boundary and arithmetic nodes keep their temperature, and a diffusive node
gains `h / C` times (heat flow from the other nodes at the temperatures before the step + external power + the 1:2:2:1 mean of the internal heat load over the step).
Nothing else but heat load bookkeeping changes. -/
theorem C78_step (s : Network n) (hw : WF s) (fuel : Nat) (hf : ∀ i, (s.loads i).times.length ≤ fuel) (now h : ℝ) (hnow : 0 ≤ now) (hh : 0 ≤ h) (e : Env) :
    ∃ s', s.rungeStep fuel now h e = .ok s' ∧ Same s s' ∧ s'.time = s.time ∧ WF s' ∧
      (∀ i, (s.nodes i).kind ≠ .diffusive → (s'.nodes i).temperature = (s.nodes i).temperature) ∧
      (∀ i, (s.nodes i).kind = .diffusive → ∃ a1 a2 a3 a4, (s.loads i).run fuel [now] = .ok a1 ∧ (s.loads i).run fuel [now, now + h / 2] = .ok a2 ∧
        (s.loads i).run fuel [now, now + h / 2, now + h / 2] = .ok a3 ∧ (s.loads i).run fuel [now, now + h / 2, now + h / 2, now + h] = .ok a4 ∧
        (s'.nodes i).temperature = (s.nodes i).temperature + h * ((flux s i + external s e i +
          (a1.internal + 2 * a2.internal + 2 * a3.internal + a4.internal) / 6) / (s.nodes i).capacity)) :=
  rungeStep_spec s hw fuel hf now h hnow hh e

theorem line_const (times table : List ℝ) (w : ℝ) (hc : ∀ x ∈ table, x = w) (j : Nat) (hj : j + 1 < table.length) (r : ℝ) : line times table j r = w := by
  have h1 : table.getD j 0 = w := by
    rw [List.getD_eq_getElem?_getD, List.getElem?_eq_getElem (by omega)]; exact hc _ (List.getElem_mem _)
  have h2 : table.getD (j + 1) 0 = w := by
    rw [List.getD_eq_getElem?_getD, List.getElem?_eq_getElem hj]; exact hc _ (List.getElem_mem _)
  rw [line, h1, h2]; ring

theorem run_const (w : ℝ) (fuel : Nat) (ts : List ℝ) (g g' : Heatload ℝ) (hk : LoadOK g) (hc : ∀ x ∈ g.table, x = w) (hf : g.times.length ≤ fuel) (hpos : ∀ t ∈ ts, 0 ≤ t)
    (hrun : g.run fuel ts = .ok g') : (ts ≠ [] ∨ g.internal = w) → g'.internal = w := by
  induction ts generalizing g with
  | nil => intro h; rw [Heatload.run] at hrun; obtain rfl := Res.ok.inj hrun; exact h.resolve_left (fun h => h rfl)
  | cons t ts ih =>
    intro _
    obtain ⟨j, _, _, h3, h4, _, _⟩ := at_spec g hk t (hpos t (by simp)) fuel hf
    rw [Heatload.run, h4, Res.bind_ok] at hrun
    exact ih { g with residual := fmodK t g.period, idx := j, internal := line g.times g.table j (fmodK t g.period) } ⟨hk.table, h3⟩ hc hf
      (fun x hx => hpos x (by simp [hx])) hrun (.inr (line_const _ _ w hc j (by rw [hk.table.same]; exact h3) _))

/-- **C78.** With heat load tables that are constant in time the four Runge-Kutta stages coincide: the step is a forward Euler step. -/
theorem C78_constant_loads (s : Network n) (hw : WF s) (fuel : Nat) (hf : ∀ i, (s.loads i).times.length ≤ fuel) (now h : ℝ) (hnow : 0 ≤ now) (hh : 0 ≤ h) (e : Env)
    (w : Fin n → ℝ) (hc : ∀ i, ∀ x ∈ (s.loads i).table, x = w i) :
    ∃ s', s.rungeStep fuel now h e = .ok s' ∧ Same s s' ∧ s'.time = s.time ∧ WF s' ∧
      ∀ i, (s'.nodes i).temperature = if (s.nodes i).kind = .diffusive then
        (s.nodes i).temperature + h * ((flux s i + external s e i + w i) / (s.nodes i).capacity) else (s.nodes i).temperature := by
  obtain ⟨s', h1, h2, h3, h4, h5, h6⟩ := C78_step s hw fuel hf now h hnow hh e
  refine ⟨s', h1, h2, h3, h4, fun i => ?_⟩
  by_cases hk : (s.nodes i).kind = .diffusive
  · rw [if_pos hk]
    obtain ⟨a1, a2, a3, a4, r1, r2, r3, r4, r5⟩ := h6 i hk
    have p1 : 0 ≤ now + h / 2 := by linarith
    have p2 : 0 ≤ now + h := by linarith
    rw [r5, run_const (w i) fuel _ _ a1 (hw.loads i) (hc i) (hf i) (by simp [hnow]) r1 (.inl (by simp)),
      run_const (w i) fuel _ _ a2 (hw.loads i) (hc i) (hf i) (by simp [hnow, p1]) r2 (.inl (by simp)),
      run_const (w i) fuel _ _ a3 (hw.loads i) (hc i) (hf i) (by simp [hnow, p1]) r3 (.inl (by simp)),
      run_const (w i) fuel _ _ a4 (hw.loads i) (hc i) (hf i) (by simp [hnow, p1, p2]) r4 (.inl (by simp))]
    ring
  · rw [if_neg hk]; exact h5 i hk

/-- **C78.** Not a fourth-order method: one node coupled by a conductance `g` to a boundary node approaches it by the factor `1 - h g / C` in a step, where the fourth-order
Runge-Kutta formula would give `1 - z + z²/2 - z³/6 + z⁴/24` with `z = h g / C`. -/
theorem C78_one_node_euler (s : Network 2) (hw : WF s) (fuel : Nat) (hf : ∀ i, (s.loads i).times.length ≤ fuel) (now h : ℝ) (hnow : 0 ≤ now) (hh : 0 ≤ h) (e : Env)
    (hc : ∀ i, ∀ x ∈ (s.loads i).table, x = 0) (hext : external s e 0 = 0) (h0 : (s.nodes 0).kind = .diffusive) (h1 : (s.nodes 1).kind = .boundary)
    (hrad : ∀ i j, s.radiation i j = 0) :
    ∃ s', s.rungeStep fuel now h e = .ok s' ∧ (s'.nodes 1).temperature = (s.nodes 1).temperature ∧
      (s'.nodes 0).temperature - (s'.nodes 1).temperature =
        (1 - h * s.conductance 0 1 / (s.nodes 0).capacity) * ((s.nodes 0).temperature - (s.nodes 1).temperature) := by
  obtain ⟨s', e1, _, _, _, e5⟩ := C78_constant_loads s hw fuel hf now h hnow hh e (fun _ => 0) hc
  have q0 := e5 0
  have q1 := e5 1
  rw [if_pos h0] at q0
  rw [if_neg (by rw [h1]; decide)] at q1
  refine ⟨s', e1, q1, ?_⟩
  rw [q0, q1, hext]
  simp only [flux, hrad, Fin.sum_univ_two]
  ring

/-- Total heat content. -/
noncomputable def energy (s : Network n) : ℝ := ∑ i, (s.nodes i).capacity * (s.nodes i).temperature

theorem flux_sum (s : Network n) (hg : ∀ i j, s.conductance i j = s.conductance j i) (hr : ∀ i j, s.radiation i j = s.radiation j i) : ∑ i, flux s i = 0 := by
  have key : ∀ (m : Fin n → Fin n → ℝ) (t : Fin n → ℝ), (∀ i j, m i j = m j i) → ∑ i, ∑ j, m i j * (t j - t i) = 0 := by
    intro m t hm
    have h1 : ∑ i, ∑ j, m i j * (t j - t i) = ∑ i, ∑ j, m i j * (t i - t j) := by
      rw [Finset.sum_comm]
      exact Finset.sum_congr rfl fun i _ => Finset.sum_congr rfl fun j _ => by rw [hm j i]
    have h2 : ∑ i, ∑ j, m i j * (t j - t i) = -∑ i, ∑ j, m i j * (t i - t j) := by
      simp only [← Finset.sum_neg_distrib]
      exact Finset.sum_congr rfl fun i _ => Finset.sum_congr rfl fun j _ => by ring
    linarith
  unfold flux
  rw [Finset.sum_add_distrib, key _ _ hg, key (fun i j => stefanBoltzmann * s.radiation i j) (fun j => (s.nodes j).temperature ^ 4) (fun i j => by rw [hr i j]), add_zero]

/-- **C78.** Energy balance of a step: with symmetric conductances and radiation factors, no boundary node and constant heat load tables, the heat content changes by the step length times
the total external and internal power. Heat exchange between nodes creates or destroys nothing. -/
theorem C78_energy_step (s : Network n) (hw : WF s) (fuel : Nat) (hf : ∀ i, (s.loads i).times.length ≤ fuel) (now h : ℝ) (hnow : 0 ≤ now) (hh : 0 ≤ h) (e : Env)
    (w : Fin n → ℝ) (hc : ∀ i, ∀ x ∈ (s.loads i).table, x = w i) (hd : ∀ i, (s.nodes i).kind = .diffusive)
    (hg : ∀ i j, s.conductance i j = s.conductance j i) (hr : ∀ i j, s.radiation i j = s.radiation j i) :
    ∃ s', s.rungeStep fuel now h e = .ok s' ∧ Same s s' ∧ s'.time = s.time ∧ WF s' ∧ energy s' = energy s + h * ∑ i, (external s e i + w i) := by
  obtain ⟨s', h1, h2, h3, h4, h5⟩ := C78_constant_loads s hw fuel hf now h hnow hh e w hc
  refine ⟨s', h1, h2, h3, h4, ?_⟩
  have hi : ∀ i, (s'.nodes i).capacity * (s'.nodes i).temperature = (s.nodes i).capacity * (s.nodes i).temperature + h * flux s i + h * (external s e i + w i) := by
    intro i
    rw [h5 i, if_pos (hd i), h2.capacity]
    have := hw.capacity i (hd i)
    field_simp
    ring
  unfold energy
  simp only [hi, Finset.sum_add_distrib, ← Finset.mul_sum, flux_sum s hg hr]
  ring

/-- **C78.** Thermal equilibrium is stationary: with all temperatures equal and no power into the diffusive nodes nothing changes. -/
theorem C78_equilibrium (s : Network n) (hw : WF s) (fuel : Nat) (hf : ∀ i, (s.loads i).times.length ≤ fuel) (now h : ℝ) (hnow : 0 ≤ now) (hh : 0 ≤ h) (e : Env)
    (hc : ∀ i, ∀ x ∈ (s.loads i).table, x = 0) (hext : ∀ i, (s.nodes i).kind = .diffusive → external s e i = 0) (T : ℝ) (hT : ∀ i, (s.nodes i).temperature = T) :
    ∃ s', s.rungeStep fuel now h e = .ok s' ∧ ∀ i, (s'.nodes i).temperature = T := by
  obtain ⟨s', h1, _, _, _, h5⟩ := C78_constant_loads s hw fuel hf now h hnow hh e (fun _ => 0) hc
  refine ⟨s', h1, fun i => ?_⟩
  rw [h5 i]
  by_cases hk : (s.nodes i).kind = .diffusive
  · rw [if_pos hk, hext i hk, hT i]
    have : flux s i = 0 := by unfold flux; simp [hT]
    rw [this]; simp
  · rw [if_neg hk, hT i]

theorem stefanBoltzmann_pos : 0 < stefanBoltzmann := by unfold stefanBoltzmann; norm_num

/-- **C78.** Maximum principle: without loads, if the step satisfies the stability bound `h Σⱼ (Gᵢⱼ + 4 σ Rᵢⱼ hi³) ≤ Cᵢ`, temperatures stay between the lowest and the highest
temperature before the step. -/
theorem C78_maximum_principle (s : Network n) (hw : WF s) (fuel : Nat) (hf : ∀ i, (s.loads i).times.length ≤ fuel) (now h : ℝ) (hnow : 0 ≤ now) (hh : 0 ≤ h) (e : Env)
    (hc : ∀ i, ∀ x ∈ (s.loads i).table, x = 0) (hext : ∀ i, (s.nodes i).kind = .diffusive → external s e i = 0)
    (hg : ∀ i j, 0 ≤ s.conductance i j) (hr : ∀ i j, 0 ≤ s.radiation i j) (lo hi : ℝ) (hlo : 0 ≤ lo) (hT : ∀ i, lo ≤ (s.nodes i).temperature ∧ (s.nodes i).temperature ≤ hi)
    (hC : ∀ i, 0 < (s.nodes i).capacity) (hstab : ∀ i, h * ∑ j, (s.conductance i j + 4 * stefanBoltzmann * s.radiation i j * hi ^ 3) ≤ (s.nodes i).capacity) :
    ∃ s', s.rungeStep fuel now h e = .ok s' ∧ ∀ i, lo ≤ (s'.nodes i).temperature ∧ (s'.nodes i).temperature ≤ hi := by
  obtain ⟨s', h1, _, _, _, h5⟩ := C78_constant_loads s hw fuel hf now h hnow hh e (fun _ => 0) hc
  refine ⟨s', h1, fun i => ?_⟩
  rw [h5 i]
  by_cases hk : (s.nodes i).kind = .diffusive
  swap
  · rw [if_neg hk]; exact hT i
  rw [if_pos hk, hext i hk, add_zero, add_zero]
  have hCi := hC i
  -- effective conductances
  obtain ⟨c, hcf, hc0, hc1⟩ : ∃ c : Fin n → ℝ, flux s i = ∑ j, c j * ((s.nodes j).temperature - (s.nodes i).temperature) ∧ (∀ j, 0 ≤ c j) ∧
      (∀ j, c j ≤ s.conductance i j + 4 * stefanBoltzmann * s.radiation i j * hi ^ 3) := by
    refine ⟨fun j => s.conductance i j + stefanBoltzmann * s.radiation i j *
      (((s.nodes j).temperature + (s.nodes i).temperature) * ((s.nodes j).temperature ^ 2 + (s.nodes i).temperature ^ 2)), ?_, fun j => ?_, fun j => ?_⟩
    · unfold flux
      rw [← Finset.sum_add_distrib]
      exact Finset.sum_congr rfl fun j _ => by ring
    · have a1 := (hT j).1; have a2 := (hT i).1
      have := hg i j; have := hr i j; have := stefanBoltzmann_pos.le
      have : 0 ≤ (s.nodes j).temperature + (s.nodes i).temperature := by linarith
      positivity
    · have a1 := hT j; have a2 := hT i
      have hsr : 0 ≤ stefanBoltzmann * s.radiation i j := mul_nonneg stefanBoltzmann_pos.le (hr i j)
      have b1 : (s.nodes j).temperature + (s.nodes i).temperature ≤ 2 * hi := by linarith
      have b2 : (s.nodes j).temperature ^ 2 + (s.nodes i).temperature ^ 2 ≤ 2 * hi ^ 2 := by nlinarith
      have b3 := mul_le_mul b1 b2 (by positivity) (by linarith)
      have b4 := mul_le_mul_of_nonneg_left b3 hsr
      simp only
      nlinarith
  have hsum : h * ∑ j, c j ≤ (s.nodes i).capacity := by
    refine le_trans ?_ (hstab i)
    exact mul_le_mul_of_nonneg_left (Finset.sum_le_sum fun j _ => hc1 j) hh
  have hup : flux s i ≤ (∑ j, c j) * (hi - (s.nodes i).temperature) := by
    rw [hcf, Finset.sum_mul]
    exact Finset.sum_le_sum fun j _ => mul_le_mul_of_nonneg_left (by linarith [(hT j).2]) (hc0 j)
  have hdn : (∑ j, c j) * (lo - (s.nodes i).temperature) ≤ flux s i := by
    rw [hcf, Finset.sum_mul]
    exact Finset.sum_le_sum fun j _ => mul_le_mul_of_nonneg_left (by linarith [(hT j).1]) (hc0 j)
  obtain ⟨t1, t2⟩ := hT i
  have hfr : h * (flux s i / (s.nodes i).capacity) = h * flux s i / (s.nodes i).capacity := by ring
  rw [hfr]
  constructor
  · have : lo - (s.nodes i).temperature ≤ h * flux s i / (s.nodes i).capacity := by
      rw [le_div_iff₀ hCi]
      nlinarith [mul_le_mul_of_nonneg_left hdn hh]
    linarith
  · have : h * flux s i / (s.nodes i).capacity ≤ hi - (s.nodes i).temperature := by
      rw [div_le_iff₀ hCi]
      nlinarith [mul_le_mul_of_nonneg_left hup hh]
    linarith

/-! ## Propagate -/

theorem loop_spec (I : Network n → Prop) (lfuel : Nat) (e : Env) (timeEnd : ℝ)
    (hI : ∀ s h s', I s → WF s → (∀ i, (s.loads i).times.length ≤ lfuel) → 0 ≤ s.time → 0 ≤ h → s.rungeStep lfuel s.time h e = .ok s' → I { s' with time := s.time + h })
    (m : Nat) (s : Network n) (hs : I s) (hw : WF s) (hf : ∀ i, (s.loads i).times.length ≤ lfuel) (h0 : 0 ≤ s.time) (h1 : s.time ≤ timeEnd) (hstep : 0 < s.step)
    (hm : timeEnd - s.time ≤ m * s.step) (fuel : Nat) (hfuel : m + 1 ≤ fuel) :
    ∃ s', Network.propagateLoop lfuel timeEnd e fuel s = .ok s' ∧ I s' ∧ WF s' ∧ (∀ i, (s'.loads i).times.length ≤ lfuel) ∧ s.time ≤ s'.time ∧ s'.time ≤ timeEnd ∧
      timeEnd - s'.time ≤ s.step + 1e-6 ∧ Same s s' := by
  induction m generalizing s fuel with
  | zero =>
    obtain ⟨fuel, rfl⟩ : ∃ f, fuel = f + 1 := ⟨fuel - 1, by omega⟩
    have hle : timeEnd - s.time - s.step ≤ 1e-6 := by
      have : (0 : ℝ) ≤ 1e-6 := by norm_num
      simp only [Nat.cast_zero, zero_mul] at hm; linarith
    rw [Network.propagateLoop, if_neg (not_lt.2 hle)]
    exact ⟨s, rfl, hs, hw, hf, le_rfl, h1, by linarith, Same.refl s⟩
  | succ m ih =>
    obtain ⟨fuel, rfl⟩ : ∃ f, fuel = f + 1 := ⟨fuel - 1, by omega⟩
    by_cases hgt : timeEnd - s.time - s.step > 1e-6
    · rw [Network.propagateLoop, if_pos hgt]
      obtain ⟨s1, e1, e2, e3, e4, _, _⟩ := C78_step s hw lfuel hf s.time s.step h0 hstep.le e
      rw [e1, Res.bind_ok]
      have hs1 := hI s s.step s1 hs hw hf h0 hstep.le e1
      have hw1 : WF { s1 with time := s.time + s.step } := ⟨e4.capacity, e4.loads, e4.heaters, e4.controllers⟩
      have hsame : Same s { s1 with time := s.time + s.step } :=
        ⟨e2.conductance, e2.radiation, e2.heaters, e2.controllers, e2.step, e2.enabled, e2.solarEnabled, e2.node, e2.tables, e2.keep⟩
      have hpos : (0 : ℝ) < 1e-6 := by norm_num
      obtain ⟨s', g1, g2, g3, g4, g5, g6, g7, g8⟩ := ih { s1 with time := s.time + s.step } hs1 hw1 (hsame.length hf) (by simp only; linarith) (by simp only; linarith)
        (by rw [hsame.step]; exact hstep) (by rw [hsame.step]; simp only; push_cast at hm; linarith) fuel (by omega)
      refine ⟨s', g1, g2, g3, g4, by simp only at g5; linarith, g6, by rw [hsame.step] at g7; exact g7, hsame.trans g8⟩
    · rw [Network.propagateLoop, if_neg hgt]
      exact ⟨s, rfl, hs, hw, hf, le_rfl, h1, by linarith [not_lt.1 hgt], Same.refl s⟩

theorem updateHeaters_ok (controllers : List (Controller ℝ)) (nds : List Node) (hs : List (Heater ℝ)) (hn : ∀ nd ∈ nds, nd.heaterId ≤ hs.length)
    (hlen : controllers.length = hs.length) : ∃ hs', updateHeaters controllers nds hs = .ok hs' ∧ hs'.length = hs.length := by
  induction nds generalizing hs with
  | nil => exact ⟨hs, rfl, rfl⟩
  | cons nd nds ih =>
    rw [updateHeaters]
    by_cases h : nd.heaterId > 0
    · have h1 := hn nd (by simp)
      rw [if_pos h, List.getElem?_eq_getElem (show nd.heaterId - 1 < hs.length by omega), List.getElem?_eq_getElem (show nd.heaterId - 1 < controllers.length by omega)]
      obtain ⟨hs', e1, e2⟩ := ih (hs.set (nd.heaterId - 1) ((controllers[nd.heaterId - 1]'(by omega)).control (hs[nd.heaterId - 1]'(by omega)) (k2degC nd.temperature)))
        (fun x hx => by rw [List.length_set]; exact hn x (by simp [hx])) (by rw [List.length_set]; exact hlen)
      exact ⟨hs', e1, by rw [e2, List.length_set]⟩
    · rw [if_neg h]; exact ih hs (fun x hx => hn x (by simp [hx])) hlen

/-- Invariant reasoning about a whole Propagate call: what every step of non-negative length preserves holds at the end, apart from the heaters. -/
theorem propagate_spec (I : Network n → Prop) (lfuel : Nat) (e : Env) (timeEnd : ℝ)
    (hI : ∀ s h s', I s → WF s → (∀ i, (s.loads i).times.length ≤ lfuel) → 0 ≤ s.time → 0 ≤ h → s.rungeStep lfuel s.time h e = .ok s' → I { s' with time := s.time + h })
    (s : Network n) (hs : I s) (hw : WF s) (hf : ∀ i, (s.loads i).times.length ≤ lfuel) (h0 : 0 ≤ s.time) (h1 : s.time ≤ timeEnd) (hstep : 0 < s.step) (hen : s.enabled = true) :
    ∃ N, ∀ fuel ≥ N, ∃ s' s'', s.propagate fuel lfuel e timeEnd = .ok s' ∧ I s'' ∧ Same s s'' ∧ s' = { s'' with heaters := s'.heaters } ∧ s'.time = timeEnd ∧
      updateHeaters s.controllers ((List.finRange n).map s'.nodes) s.heaters = .ok s'.heaters ∧ WF s' := by
  obtain ⟨m, hm⟩ := exists_nat_ge ((timeEnd - s.time) / s.step)
  have hm' : timeEnd - s.time ≤ m * s.step := by rwa [div_le_iff₀ hstep] at hm
  refine ⟨m + 1, fun fuel hfuel => ?_⟩
  obtain ⟨s1, a1, a2, a3, a4, a5, a6, a7, a8⟩ := loop_spec I lfuel e timeEnd hI m s hs hw hf h0 h1 hstep hm' fuel hfuel
  have t0 : 0 ≤ s1.time := h0.trans a5
  have t1 : 0 ≤ timeEnd - s1.time := by linarith
  obtain ⟨s2, b1, b2, b3, b4, _, _⟩ := C78_step s1 a3 lfuel a4 s1.time (timeEnd - s1.time) t0 t1 e
  have c1 := hI s1 (timeEnd - s1.time) s2 a2 a3 a4 t0 t1 b1
  obtain ⟨hs', d1, d2⟩ := updateHeaters_ok s2.controllers ((List.finRange n).map s2.nodes) s2.heaters
    (by intro nd hnd; obtain ⟨i, _, rfl⟩ := List.mem_map.1 hnd; exact b4.heaters i) b4.controllers
  have hsame := a8.trans b2
  refine ⟨{ s2 with time := timeEnd, heaters := hs' }, { s2 with time := s1.time + (timeEnd - s1.time) }, ?_, c1, ?_, ?_, rfl, ?_, ?_⟩
  · rw [Network.propagate, if_pos hen, a1, Res.bind_ok, b1, Res.bind_ok, d1, Res.bind_ok]
  · exact ⟨hsame.conductance, hsame.radiation, hsame.heaters, hsame.controllers, hsame.step, hsame.enabled, hsame.solarEnabled, hsame.node, hsame.tables, hsame.keep⟩
  · simp only [add_sub_cancel]
  · rw [← hsame.controllers, ← hsame.heaters]; exact d1
  · exact ⟨b4.capacity, b4.loads, fun i => by rw [d2]; exact b4.heaters i, by rw [d2]; exact b4.controllers⟩

/-- **C78.** With calculation disabled Propagate does nothing. -/
theorem C78_disabled (s : Network n) (fuel lfuel : Nat) (e : Env) (timeEnd : ℝ) (h : s.enabled = false) : s.propagate fuel lfuel e timeEnd = .ok s := by
  rw [Network.propagate, if_neg (by simp [h])]

/-- **C78.** Propagate terminates for every positive step and every end time not before the present one, ends exactly at the end time with boundary and arithmetic temperatures unchanged,
and leaves parameters, matrices and tables alone; the heaters are then controlled with the final temperatures. -/
theorem C78_propagate (s : Network n) (lfuel : Nat) (e : Env) (timeEnd : ℝ) (hw : WF s) (hf : ∀ i, (s.loads i).times.length ≤ lfuel) (h0 : 0 ≤ s.time)
    (h1 : s.time ≤ timeEnd) (hstep : 0 < s.step) (hen : s.enabled = true) :
    ∃ N, ∀ fuel ≥ N, ∃ s', s.propagate fuel lfuel e timeEnd = .ok s' ∧ s'.time = timeEnd ∧ WF s' ∧
      updateHeaters s.controllers ((List.finRange n).map s'.nodes) s.heaters = .ok s'.heaters ∧ Same s { s' with heaters := s.heaters } ∧
      ∀ i, (s.nodes i).kind ≠ .diffusive → (s'.nodes i).temperature = (s.nodes i).temperature := by
  obtain ⟨N, hN⟩ := propagate_spec (fun s' => ∀ i, (s'.nodes i).kind = (s.nodes i).kind ∧ ((s.nodes i).kind ≠ .diffusive → (s'.nodes i).temperature = (s.nodes i).temperature))
    lfuel e timeEnd (by
      intro u h u' hu huw huf hu0 hh hstep i
      obtain ⟨u1, g1, g2, _, _, g5, _⟩ := C78_step u huw lfuel huf u.time h hu0 hh e
      obtain rfl := Res.ok.inj (g1.symm.trans hstep)
      refine ⟨(g2.kind i).trans (hu i).1, fun hk => ?_⟩
      exact (g5 i (by rw [(hu i).1]; exact hk)).trans ((hu i).2 hk)) s (fun i => ⟨rfl, fun _ => rfl⟩) hw hf h0 h1 hstep hen
  refine ⟨N, fun fuel hfuel => ?_⟩
  obtain ⟨s', s'', b1, b2, b3, b4, b5, b6, b7⟩ := hN fuel hfuel
  have hn : s'.nodes = s''.nodes := by rw [b4]
  refine ⟨s', b1, b5, b7, b6, ?_, fun i hk => by rw [hn]; exact (b2 i).2 hk⟩
  rw [b4, ← b3.heaters]
  exact b3

/-- **C78.** Energy balance of a whole Propagate call: whatever the internal step, the heat content changes by exactly elapsed time × total power, for constant heat load tables, symmetric
matrices and no boundary node. -/
theorem C78_energy (s : Network n) (lfuel : Nat) (e : Env) (timeEnd : ℝ) (hw : WF s) (hf : ∀ i, (s.loads i).times.length ≤ lfuel) (h0 : 0 ≤ s.time)
    (h1 : s.time ≤ timeEnd) (hstep : 0 < s.step) (hen : s.enabled = true) (w : Fin n → ℝ) (hc : ∀ i, ∀ x ∈ (s.loads i).table, x = w i)
    (hd : ∀ i, (s.nodes i).kind = .diffusive)
    (hg : ∀ i j, s.conductance i j = s.conductance j i) (hr : ∀ i j, s.radiation i j = s.radiation j i) :
    ∃ N, ∀ fuel ≥ N, ∃ s', s.propagate fuel lfuel e timeEnd = .ok s' ∧ energy s' = energy s + (timeEnd - s.time) * ∑ i, (external s e i + w i) := by
  obtain ⟨N, hN⟩ := propagate_spec (fun s' => Same s s' ∧ energy s' = energy s + (s'.time - s.time) * ∑ i, (external s e i + w i))
    lfuel e timeEnd (by
      rintro u h u' ⟨hu, hue⟩ huw huf hu0 hh hst
      obtain ⟨u1, g1, g2, g3, _, g5⟩ := C78_energy_step u huw lfuel huf u.time h hu0 hh e w (fun i => by rw [(hu.tables i).2]; exact hc i)
        (fun i => by rw [hu.kind]; exact hd i) (by rw [hu.conductance]; exact hg) (by rw [hu.radiation]; exact hr)
      obtain rfl := Res.ok.inj (g1.symm.trans hst)
      have hsame := hu.trans g2
      refine ⟨⟨hsame.conductance, hsame.radiation, hsame.heaters, hsame.controllers, hsame.step, hsame.enabled, hsame.solarEnabled, hsame.node, hsame.tables, hsame.keep⟩, ?_⟩
      have he : energy { u1 with time := u.time + h } = energy u1 := rfl
      simp only [hu.external e] at g5
      rw [he, g5, hue]
      ring) s ⟨Same.refl s, by ring⟩ hw hf h0 h1 hstep hen
  refine ⟨N, fun fuel hfuel => ?_⟩
  obtain ⟨s', s'', b1, b2, b3, b4, b5, _, _⟩ := hN fuel hfuel
  refine ⟨s', b1, ?_⟩
  have he : energy s' = energy s'' := by rw [b4]; rfl
  have ht : s''.time = timeEnd := by rw [← b5, b4]
  rw [he, b2.2, ht]

/-- **C78.** A propagation step of zero (or less) makes Propagate loop for ever as soon as there is more than 1 µs to simulate. -/
theorem C78_zero_step_never_returns (s : Network n) (lfuel : Nat) (e : Env) (timeEnd : ℝ) (hw : WF s) (hf : ∀ i, (s.loads i).times.length ≤ lfuel) (h0 : 0 ≤ s.time)
    (hstep : s.step = 0) (h1 : timeEnd - s.time > 1e-6) (hen : s.enabled = true) (fuel : Nat) : s.propagate fuel lfuel e timeEnd = .stuck := by
  have key : ∀ (fuel : Nat) (u : Network n), WF u → (∀ i, (u.loads i).times.length ≤ lfuel) → u.time = s.time → u.step = 0 →
      Network.propagateLoop lfuel timeEnd e fuel u = .stuck := by
    intro fuel
    induction fuel with
    | zero => intro u _ _ _ _; rfl
    | succ fuel ih =>
      intro u huw huf hut hus
      obtain ⟨u1, g1, g2, g3, g4, _, _⟩ := C78_step u huw lfuel huf u.time u.step (by rw [hut]; exact h0) (by rw [hus]) e
      rw [Network.propagateLoop, if_pos (by rw [hut, hus]; linarith), g1, Res.bind_ok]
      exact ih _ ⟨g4.capacity, g4.loads, g4.heaters, g4.controllers⟩ (g2.length huf) (by simp only [hus, hut, add_zero]) (g2.step.trans hus)
  rw [Network.propagate, if_pos hen, key fuel s hw hf rfl hstep]
  rfl

/-! ## C79: node parameters, solar power, heater switching -/

/-- **C79.** Whatever the file says, a node has non-negative temperature, capacity and area and optical properties between 0 and 1; values already in range are kept, values out of range
become 0. -/
theorem C79_parameters (kind : NodeType) (heaterId : Nat) (T C α ε A : ℝ) (v : Vec 3) :
    let nd := Node.make kind heaterId T C α ε A v
    nd.temperature = max T 0 ∧ nd.capacity = max C 0 ∧ nd.area = max A 0 ∧ (0 ≤ nd.alpha ∧ nd.alpha ≤ 1) ∧ (0 ≤ nd.epsilon ∧ nd.epsilon ≤ 1) ∧
    (0 ≤ α → α ≤ 1 → nd.alpha = α) ∧ (0 ≤ ε → ε ≤ 1 → nd.epsilon = ε) ∧ (α < 0 ∨ 1 < α → nd.alpha = 0) ∧ (ε < 0 ∨ 1 < ε → nd.epsilon = 0) ∧
    nd.kind = kind ∧ nd.heaterId = heaterId ∧ nd.normal = v := by
  have clamp : ∀ x : ℝ, (if x < 0 then 0 else x) = max x 0 := by
    intro x; by_cases h : x < 0
    · rw [if_pos h, max_eq_right h.le]
    · rw [if_neg h, max_eq_left (not_lt.1 h)]
  have unit : ∀ x : ℝ, (0 ≤ (if x < 0 ∨ x > 1 then 0 else x) ∧ (if x < 0 ∨ x > 1 then 0 else x) ≤ 1) ∧ (0 ≤ x → x ≤ 1 → (if x < 0 ∨ x > 1 then 0 else x) = x) ∧
      (x < 0 ∨ 1 < x → (if x < 0 ∨ x > 1 then 0 else x) = 0) := by
    intro x; by_cases h : x < 0 ∨ x > 1
    · rw [if_pos h]; exact ⟨⟨le_rfl, zero_le_one⟩, fun a b => by rcases h with h | h <;> linarith, fun _ => rfl⟩
    · rw [if_neg h]; push Not at h; exact ⟨h, fun _ _ => rfl, fun g => by rcases g with g | g <;> linarith⟩
  exact ⟨clamp T, clamp C, clamp A, (unit α).1, (unit ε).1, (unit α).2.1, (unit ε).2.1, (unit α).2.2, (unit ε).2.2, rfl, rfl, rfl⟩

/-- **C79.** Absorbed sunlight: between zero and flux × area × absorptivity, equal to the cosine law when the node faces the sun and zero when it faces away. -/
theorem C79_solar (nd : Node) (sun : Vec 3) (hsun : calcNorm sun = 1) (hn : calcNorm nd.normal = 1) (fluxW : ℝ) (hf : 0 ≤ fluxW) (hA : 0 ≤ nd.area) (hα : 0 ≤ nd.alpha) :
    nd.calcSolar sun fluxW = fluxW * nd.area * nd.alpha * max 0 (innerProduct sun nd.normal) ∧
    0 ≤ nd.calcSolar sun fluxW ∧ nd.calcSolar sun fluxW ≤ fluxW * nd.area * nd.alpha := by
  have hc : innerProduct sun nd.normal ≤ 1 := by
    have := innerProduct_sq_le sun nd.normal
    rw [hsun, hn] at this
    nlinarith
  have hk : 0 ≤ fluxW * nd.area * nd.alpha := mul_nonneg (mul_nonneg hf hA) hα
  have e : nd.calcSolar sun fluxW = fluxW * nd.area * nd.alpha * max 0 (innerProduct sun nd.normal) := by
    unfold Node.calcSolar
    by_cases h : innerProduct sun nd.normal > 0
    · simp only [if_pos h, max_eq_right h.le]
    · simp only [if_neg h, max_eq_left (not_lt.1 h), mul_zero]
  have h1 : max 0 (innerProduct sun nd.normal) ≤ 1 := max_le zero_le_one hc
  refine ⟨e, by rw [e]; exact mul_nonneg hk (le_max_left _ _), by rw [e]; nlinarith⟩

/-- **C79.** Heater switching at the end of a Propagate: each heater is switched once per node that names it, in node order, by its own controller and by that node's temperature in
degrees Celsius; heaters no node names are untouched. -/
theorem C79_heaters (controllers : List (Controller ℝ)) (nds : List Node) (hs hs' : List (Heater ℝ)) (h : updateHeaters controllers nds hs = .ok hs') :
    hs'.length = hs.length ∧ ∀ (k : Nat) (ht : Heater ℝ) (c : Controller ℝ), hs[k]? = some ht → controllers[k]? = some c →
      hs'[k]? = some (c.run ht ((nds.filter fun nd => nd.heaterId = k + 1).map fun nd => nd.temperature - 273.15)) := by
  induction nds generalizing hs with
  | nil =>
    rw [updateHeaters] at h; obtain rfl := Res.ok.inj h
    exact ⟨rfl, fun k ht c h1 _ => by simpa [Controller.run] using h1⟩
  | cons nd nds ih =>
    rw [updateHeaters] at h
    by_cases hid : nd.heaterId > 0
    · rw [if_pos hid] at h
      rcases g1 : hs[nd.heaterId - 1]? with _ | x <;> rcases g2 : controllers[nd.heaterId - 1]? with _ | y <;> simp only [g1, g2, reduceCtorEq] at h
      obtain ⟨e1, e2⟩ := ih _ h
      refine ⟨by rw [e1, List.length_set], fun k ht c h1 h2 => ?_⟩
      by_cases hk : nd.heaterId = k + 1
      · have hk' : nd.heaterId - 1 = k := by omega
        rw [hk'] at g1 g2 e2
        obtain rfl := Option.some.inj (g1.symm.trans h1)
        obtain rfl := Option.some.inj (g2.symm.trans h2)
        obtain ⟨hb, _⟩ := List.getElem?_eq_some_iff.1 h1
        have := e2 k (y.control x (k2degC nd.temperature)) y (by rw [List.getElem?_set_self hb]) h2
        rw [this, List.filter_cons_of_pos (by simp [hk])]
        simp only [Controller.run, List.map_cons, List.foldl_cons, k2degC, sub_eq_add_neg]
      · have := e2 k ht c (by rw [List.getElem?_set_ne (by omega)]; exact h1) h2
        rw [this, List.filter_cons_of_neg (by simp [hk])]
    · rw [if_neg hid] at h
      obtain ⟨e1, e2⟩ := ih _ h
      refine ⟨e1, fun k ht c h1 h2 => ?_⟩
      rw [e2 k ht c h1 h2, List.filter_cons_of_neg (by simp; omega)]

/-- **C79.** A node naming a heater that does not exist is read out of range. -/
theorem C79_missing_heater (controllers : List (Controller ℝ)) (nd : Node) (nds : List Node) (hs : List (Heater ℝ)) (h : hs.length < nd.heaterId) :
    updateHeaters controllers (nd :: nds) hs = .ub := by
  rw [updateHeaters, if_pos (by omega), List.getElem?_eq_none (by omega)]

/-! ## Non-vacuity -/

/-- A battery box (node 0, 100 J/K, heater 1) coupled to a radiator (node 1, 50 J/K) by 2 W/K and a radiative link, 3 W dissipated in the box. -/
noncomputable def demo (k1 : NodeType) : Network 2 where
  conductance := fun i j => if i = j then 0 else 2
  radiation := fun i j => if i = j then 0 else 1 / 10
  nodes := fun i => if i = 0 then ⟨.diffusive, 1, 300, 100, 1 / 2, 1 / 2, 0, ![1, 0, 0], 0, 0, 0⟩ else ⟨k1, 0, 250, 50, 1 / 2, 1 / 2, 0, ![1, 0, 0], 0, 0, 0⟩
  loads := fun i => if i = 0 then ⟨[0, 100], [3, 3], 0, 0, 0, 0, 0, 0, 0, 100, 0⟩ else ⟨[0, 100], [0, 0], 0, 0, 0, 0, 0, 0, 0, 100, 0⟩
  heaters := [⟨1, 10, false, 0⟩]
  controllers := [⟨0, 20⟩]
  step := 1
  time := 0
  enabled := true
  solarEnabled := false

theorem demo_wf (k1 : NodeType) : WF (demo k1) := by
  refine ⟨fun i _ => ?_, fun i => ?_, fun i => ?_, rfl⟩
  · fin_cases i <;> simp [demo]
  · fin_cases i <;> exact ⟨⟨by simp [demo], by simp [demo], by simp [demo], by simp [demo], by simp [demo]⟩, by simp [demo]⟩
  · fin_cases i <;> simp [demo]

theorem demo_external (k1 : NodeType) (e : Env) (i : Fin 2) : external (demo k1) e i = 0 := by
  fin_cases i <;> simp [external, demo, Node.calcInfrared, heaterOf]

example (e : Env) : ∃ N, ∀ fuel ≥ N, ∃ s', (demo .diffusive).propagate fuel 2 e 10 = .ok s' ∧ energy s' = 42500 + 30 := by
  obtain ⟨N, hN⟩ := C78_energy (demo .diffusive) 2 e 10 (demo_wf _) (by intro i; fin_cases i <;> simp [demo]) (by simp [demo]) (by simp [demo]) (by simp [demo]) rfl
    (fun i => if i = 0 then 3 else 0) (by intro i; fin_cases i <;> simp [demo]) (by intro i; fin_cases i <;> simp [demo])
    (by intro i j; simp only [demo, eq_comm]) (by intro i j; simp only [demo, eq_comm])
  refine ⟨N, fun fuel hf => ?_⟩
  obtain ⟨s', h1, h2⟩ := hN fuel hf
  refine ⟨s', h1, ?_⟩
  rw [h2]
  simp only [energy, demo_external, Fin.sum_univ_two]
  simp [demo]
  norm_num
example (e : Env) : ∃ s', (demo .boundary).rungeStep 2 0 1 e = .ok s' ∧ (s'.nodes 1).temperature = 250 := by
  obtain ⟨s', h1, _, _, _, h5, _⟩ := C78_step (demo .boundary) (demo_wf _) 2 (by intro i; fin_cases i <;> simp [demo]) 0 1 le_rfl zero_le_one e
  exact ⟨s', h1, by rw [h5 1 (by simp [demo])]; simp [demo]⟩
example (e : Env) : ({ demo .boundary with step := 0 } : Network 2).propagate 1000 2 e 10 = .stuck :=
  C78_zero_step_never_returns { demo .boundary with step := 0 } 2 e 10
    ⟨(demo_wf .boundary).capacity, (demo_wf .boundary).loads, (demo_wf .boundary).heaters, rfl⟩ (by intro i; fin_cases i <;> simp [demo]) (by simp [demo]) rfl
    (by simp [demo]; norm_num) rfl 1000
/-- A node without loads, for the theorems with zero power. -/
noncomputable def quiet : Network 2 := { demo .boundary with radiation := fun _ _ => 0, loads := fun _ => ⟨[0, 100], [0, 0], 0, 0, 0, 0, 0, 0, 0, 100, 0⟩ }
theorem quiet_wf : WF quiet := ⟨(demo_wf .boundary).capacity, fun _ => (demo_wf .boundary).loads 1, (demo_wf .boundary).heaters, rfl⟩
theorem quiet_external (e : Env) (i : Fin 2) : external quiet e i = 0 := by
  fin_cases i <;> simp [external, quiet, demo, Node.calcInfrared, heaterOf]
example (e : Env) : ∃ s', quiet.rungeStep 2 0 10 e = .ok s' ∧ (s'.nodes 0).temperature = 290 := by
  obtain ⟨s', h1, h2, h3⟩ := C78_one_node_euler quiet quiet_wf 2 (by intro i; simp [quiet]) 0 10 le_rfl (by norm_num) e (by intro i; simp [quiet]) (quiet_external e 0)
    (by simp [quiet, demo]) (by simp [quiet, demo]) (by intro i j; rfl)
  refine ⟨s', h1, ?_⟩
  rw [h2] at h3
  simp [quiet, demo] at h3
  linarith
example (e : Env) : ∃ s', quiet.rungeStep 2 0 10 e = .ok s' ∧ ∀ i, 250 ≤ (s'.nodes i).temperature ∧ (s'.nodes i).temperature ≤ 300 :=
  C78_maximum_principle quiet quiet_wf 2 (by intro i; simp [quiet]) 0 10 le_rfl (by norm_num) e (by intro i; simp [quiet]) (fun i _ => quiet_external e i)
    (by intro i j; simp only [quiet, demo]; split <;> norm_num) (by intro i j; exact le_rfl) 250 300 (by norm_num)
    (by intro i; fin_cases i <;> simp [quiet, demo] <;> norm_num) (by intro i; fin_cases i <;> simp [quiet, demo])
    (by intro i; fin_cases i <;> simp [quiet, demo, Fin.sum_univ_two] <;> norm_num)
example : updateHeaters [⟨0, 20⟩] [⟨.diffusive, 1, 260, 100, 0, 0, 0, ![1, 0, 0], 0, 0, 0⟩] [⟨1, 10, false, 0⟩] = .ok [⟨1, 10, true, 10⟩] := by
  simp [updateHeaters, Controller.control, k2degC, Heater.setStatus]; norm_num

end S2E.Thermal
