import Verif.Props.HarrisPriester
/-!
# C146: the air density the simulation uses
-/
namespace S2E.Atmosphere
open S2E.Geodetic

/-- The same circumstances, whatever the noise. -/
def SameBut (x y : Bool × Input) : Prop := x.1 = y.1 ∧ x.2.position = y.2.position ∧ x.2.sun = y.2.sun ∧ x.2.nrlmsise = y.2.nrlmsise

/-- The density asked of the object after a history. -/
noncomputable def densityAfter (a : Atmo) (l : List (Bool × Input)) : Res ℝ := (a.run l).bind fun a => .ok a.density

theorem modelDensity_congr {m : String} {x y : Input} (h1 : x.position = y.position) (h2 : x.sun = y.sun) (h3 : x.nrlmsise = y.nrlmsise) : modelDensity m x = modelDensity m y := by
  rw [modelDensity, modelDensity, h1, h2, h3]

/-- **C146 (noise).** The air density used by the drag and written to the log never contains the configured noise: it is the same for all noise rates and all random values. -/
theorem C146_noise (a b : Atmo) (h1 : a.enabled = b.enabled) (h2 : a.model = b.model) (h3 : a.density = b.density) (l m : List (Bool × Input)) (h : List.Forall₂ SameBut l m) :
    densityAfter a l = densityAfter b m := by
  unfold densityAfter
  induction h generalizing a b with
  | nil => simp only [Atmo.run, Res.bind, h3]
  | @cons x y l m hxy _ ih =>
    obtain ⟨e1, e2, e3, e4⟩ := hxy
    rw [Atmo.run, Atmo.run, Atmo.update, Atmo.update, e1]
    by_cases hf : y.1 = true
    · rw [if_pos hf, if_pos hf, Atmo.calc, Atmo.calc, ← h1, ← h2, modelDensity_congr e2 e3 e4]
      by_cases he : a.enabled = true
      · rcases hm : modelDensity a.model y.2 with _ | (v | _ | _ | _)
        · simp only [he, Bool.not_true, Bool.false_eq_true, if_false, Res.bind]
          exact ih ⟨true, a.model, 0, a.rate⟩ ⟨true, a.model, 0, b.rate⟩ rfl rfl rfl
        · simp only [he, Bool.not_true, Bool.false_eq_true, if_false, Res.bind]
          exact ih ⟨true, a.model, v, a.rate⟩ ⟨true, a.model, v, b.rate⟩ rfl rfl rfl
        · simp only [he, Bool.not_true, Bool.false_eq_true, if_false, Res.bind]
        · simp only [he, Bool.not_true, Bool.false_eq_true, if_false, Res.bind]
        · simp only [he, Bool.not_true, Bool.false_eq_true, if_false, Res.bind]
      · simp only [Bool.not_eq_true] at he
        simp only [he, Bool.not_false, if_true, Res.bind]
        exact ih a b h1 h2 h3
    · rw [if_neg hf, if_neg hf]
      simp only [Res.bind]
      exact ih a b h1 h2 h3

/-- **C146 (value returned).** The value returned by the calculation, which the simulation does not use, is the density plus a normal value with standard deviation rate times density. -/
theorem C146_returned (a : Atmo) (i : Input) (ha : a.enabled = true) (rho : ℝ) (h : modelDensity a.model i = some (.ok rho)) :
    ∃ b, a.calc i = .ok (rho + a.rate * rho * i.noise, b) ∧ b.density = rho ∧ b.enabled = true ∧ b.model = a.model := by
  refine ⟨{ a with density := rho }, ?_, rfl, ha, rfl⟩
  rw [Atmo.calc, ha, h]
  simp only [Bool.not_true, Bool.false_eq_true, if_false, Res.bind]
  congr 2
  ring

/-- The configuration is kept. -/
theorem update_keeps (a : Atmo) (f : Bool) (i : Input) (b : Atmo) (h : a.update f i = .ok b) : b.enabled = a.enabled ∧ b.model = a.model ∧ b.rate = a.rate := by
  rw [Atmo.update] at h
  split_ifs at h
  · rw [Atmo.calc] at h
    split_ifs at h
    · obtain rfl := Res.ok.inj h; exact ⟨rfl, rfl, rfl⟩
    · rcases hm : modelDensity a.model i with _ | (v | _ | _ | _) <;> rw [hm] at h <;> simp only [Res.bind, reduceCtorEq] at h
      · obtain rfl := Res.ok.inj h; exact ⟨rfl, rfl, rfl⟩
      · obtain rfl := Res.ok.inj h; exact ⟨rfl, rfl, rfl⟩
  · obtain rfl := Res.ok.inj h; exact ⟨rfl, rfl, rfl⟩

theorem run_keeps (l : List (Bool × Input)) (a b : Atmo) (h : a.run l = .ok b) : b.enabled = a.enabled ∧ b.model = a.model ∧ b.rate = a.rate := by
  induction l generalizing a with
  | nil => rw [Atmo.run] at h; obtain rfl := Res.ok.inj h; exact ⟨rfl, rfl, rfl⟩
  | cons x l ih =>
    rw [Atmo.run] at h
    rcases hu : a.update x.1 x.2 with c | _ | _ | _ <;> rw [hu] at h <;> simp only [Res.bind, reduceCtorEq] at h
    obtain ⟨h1, h2, h3⟩ := ih c h
    obtain ⟨k1, k2, k3⟩ := update_keeps a _ _ c hu
    exact ⟨h1.trans k1, h2.trans k2, h3.trans k3⟩

theorem run_append (l m : List (Bool × Input)) (a : Atmo) : a.run (l ++ m) = (a.run l).bind fun a => a.run m := by
  induction l generalizing a with
  | nil => rfl
  | cons x l ih =>
    rw [List.cons_append, Atmo.run, Atmo.run]
    rcases a.update x.1 x.2 with c | _ | _ | _ <;> simp only [Res.bind]
    exact ih c

/-- Updates without propagation of the orbit change nothing. -/
theorem run_idle (l : List (Bool × Input)) (hl : ∀ x ∈ l, x.1 = false) (a : Atmo) : a.run l = .ok a := by
  induction l with
  | nil => rfl
  | cons x l ih =>
    rw [Atmo.run, Atmo.update, hl x (by simp)]
    simp only [Bool.false_eq_true, if_false, Res.bind]
    exact ih fun y hy => hl y (by simp [hy])

/-- **C146 (history).** After any history of an enabled calculation with a known model, the density is that of the model at the last update with propagation of the orbit. -/
theorem C146_last (a : Atmo) (ha : a.enabled = true) (before : List (Bool × Input)) (i : Input) (after : List (Bool × Input)) (hf : ∀ x ∈ after, x.1 = false)
    (b : Atmo) (h : a.run (before ++ (true, i) :: after) = .ok b) :
    (∀ r, modelDensity a.model i = some r → r = .ok b.density) ∧ (modelDensity a.model i = none → b.density = 0) := by
  rw [run_append] at h
  rcases hr : a.run before with c | _ | _ | _ <;> rw [hr] at h <;> simp only [Res.bind, reduceCtorEq] at h
  obtain ⟨k1, k2, -⟩ := run_keeps before a c hr
  rw [Atmo.run] at h
  rcases hu : c.update true i with d | _ | _ | _ <;> rw [hu] at h <;> simp only [Res.bind, reduceCtorEq] at h
  rw [run_idle after hf] at h
  obtain rfl := Res.ok.inj h
  rw [Atmo.update, if_pos rfl, Atmo.calc, k1, ha, k2] at hu
  simp only [Bool.not_true, Bool.false_eq_true, if_false] at hu
  rcases hm : modelDensity a.model i with _ | (v | _ | _ | _) <;> rw [hm] at hu <;> simp only [Res.bind, reduceCtorEq] at hu
  · obtain rfl := Res.ok.inj hu
    exact ⟨fun r hr => (by cases hr), fun _ => rfl⟩
  · obtain rfl := Res.ok.inj hu
    exact ⟨fun r hr => (Option.some.inj hr).symm, fun hr => (by cases hr)⟩

/-- **C146 (switched off).** Switched off by the settings or by a centre body other than the Earth, the density stays 0 and every update succeeds. -/
theorem C146_off (name : String) (manual read : Bool) (rate : ℝ) (calculation : Bool) (center : String) (h : calculation = false ∨ center ≠ "EARTH") (l : List (Bool × Input)) :
    densityAfter (Atmo.new name manual read rate calculation center) l = .ok 0 := by
  have he : (Atmo.new name manual read rate calculation center).enabled = false := by
    rw [Atmo.new]; dsimp only
    rcases h with rfl | h
    · simp
    · rw [if_pos h]
  have h0 : (Atmo.new name manual read rate calculation center).density = 0 := rfl
  generalize Atmo.new name manual read rate calculation center = a at *
  have : a.run l = .ok a := by
    induction l with
    | nil => rfl
    | cons x l ih =>
      rw [Atmo.run, Atmo.update, Atmo.calc, he]
      cases x.1 <;> simp only [Bool.not_false, if_true, Bool.false_eq_true, if_false, Res.bind] <;> exact ih
  rw [densityAfter, this, Res.bind, h0]

/-- **C146 (models).** Which model is used: the one named, but the standard model for NRLMSISE-00 without manual parameters when the table cannot be read; a name that is none of the three
gives 0. -/
theorem C146_models (name : String) (manual read : Bool) (rate : ℝ) (i : Input) :
    let a := Atmo.new name manual read rate true "EARTH"
    (name = "STANDARD" → modelDensity a.model i = some (.ok (simpleDensity i.position.altitude))) ∧
    (name = "NRLMSISE00" → modelDensity a.model i = if manual = true ∨ read = true then some (.ok i.nrlmsise) else some (.ok (simpleDensity i.position.altitude))) ∧
    (name = "HARRIS_PRIESTER" → modelDensity a.model i = some (harrisPriester i.position (calcNormalizedVector i.sun) 4)) ∧
    (name ∉ ["STANDARD", "NRLMSISE00", "HARRIS_PRIESTER"] → modelDensity a.model i = none) := by
  dsimp only [Atmo.new, modelOf]
  refine ⟨?_, ?_, ?_, ?_⟩
  · rintro rfl; rfl
  · rintro rfl
    cases manual <;> cases read <;> rfl
  · rintro rfl; rfl
  · intro h
    simp only [List.mem_cons, List.not_mem_nil, or_false, not_or] at h
    rw [if_neg h.1, if_neg h.2.1, modelDensity, if_neg h.1, if_neg h.2.1, if_neg h.2.2]

/-- **C146 (1000 km).** With the Harris-Priester model the first orbit update at 1000 km or higher is undefined behaviour, whatever came before. -/
theorem C146_harris_priester_high (a : Atmo) (ha : a.enabled = true) (hm : a.model = "HARRIS_PRIESTER") (before : List (Bool × Input)) (b : Atmo) (hb : a.run before = .ok b)
    (lat lon alt : ℝ) (hlon : |lon| < 2 ^ 31 * (2 * Real.pi)) (halt : 1000000 ≤ alt) (i : Input) (hi : i.position = GeodeticPosition.new lat lon alt) (after : List (Bool × Input)) :
    a.run (before ++ (true, i) :: after) = .ub := by
  obtain ⟨k1, k2, -⟩ := run_keeps before a b hb
  rw [run_append, hb]
  simp only [Res.bind]
  rw [Atmo.run, Atmo.update, if_pos rfl, Atmo.calc, k1, ha, k2, hm]
  have : modelDensity "HARRIS_PRIESTER" i = some .ub := by
    rw [modelDensity, if_neg (by decide), if_neg (by decide), if_pos rfl, hi, (C145_outside lat lon alt hlon _ 4).2 halt]
  rw [this]
  rfl

/-- **C146 (F10.7).** Manual solar activity values below 50 are replaced by 150, others are taken. -/
theorem C146_f107 (x : ℝ) : (x < 50 → manualF107 x = 150) ∧ (50 ≤ x → manualF107 x = x) :=
  ⟨fun h => by rw [manualF107, if_pos h], fun h => by rw [manualF107, if_neg (not_lt.mpr h)]⟩

/-! ## Examples -/

example : ∃ (a : Atmo) (i : Input) (b : Atmo), a.enabled = true ∧ a.run ([(false, i)] ++ (true, i) :: [(false, i)]) = .ok b ∧ i.noise ≠ 0 ∧ b.density = 1.225 := by
  refine ⟨Atmo.new "STANDARD" true true 1 true "EARTH", ⟨GeodeticPosition.new 0 0 0, 0, 0, 1⟩, ⟨true, "STANDARD", simpleDensity 0, 1⟩, rfl, rfl, one_ne_zero, ?_⟩
  have := (C144_table 0).1 ⟨0, 25, 1.225, 7.249⟩ (by simp [vallado]) (by norm_num) (by norm_num)
  show simpleDensity 0 = 1.225
  rw [this.1 (by norm_num)]
  simp [Layer.density]

example : List.Forall₂ SameBut [(true, ⟨GeodeticPosition.new 0 0 0, 0, 0, 1⟩)] [(true, ⟨GeodeticPosition.new 0 0 0, 0, 0, 2⟩)] := by
  simp [SameBut]

end S2E.Atmosphere
