import Verif.Model.Eps
import Verif.Props.LinAlg
/-!
# C58–C62
-/
namespace S2E.Eps

variable {K : Type} [Field K] [LinearOrder K] [IsStrictOrderedRing K]

/-! ## C58: heater hysteresis -/

/-- Some temperature of the history was below the lower threshold and none after it was above the upper one. -/
def DemandsHeat (lower upper : K) (temps : List K) : Prop :=
  ∃ before t after, temps = before ++ t :: after ∧ t < lower ∧ ∀ x ∈ after, x ≤ upper

theorem control_fields (c : Controller K) (h : Heater K) (t : K) : (c.control h t).id = h.id ∧ (c.control h t).rating = h.rating := by
  unfold Controller.control Heater.setStatus; split <;> split <;> exact ⟨rfl, rfl⟩

/-- **C58.** One control step: on exactly when it was on and the temperature is not above the upper threshold, or it was off and the temperature is below the
lower one. -/
theorem C58_step (c : Controller K) (h : Heater K) (t : K) :
    ((c.control h t).on = true ↔ (h.on = true ∧ t ≤ c.upper) ∨ (h.on = false ∧ t < c.lower)) ∧
    ((c.control h t).on = h.on → c.control h t = h) := by
  rcases hh : h.on with _ | _ <;> simp only [Controller.control, hh, Heater.setStatus, Bool.false_eq_true, if_false, if_true]
  · by_cases ht : t < c.lower
    · simp [ht]
    · simp [ht, hh]
  · by_cases ht : t > c.upper
    · simp [ht]
    · simp [ht, hh, not_lt.1 ht]

theorem demands_snoc (lower upper : K) (hlu : lower ≤ upper) (temps : List K) (t : K) :
    DemandsHeat lower upper (temps ++ [t]) ↔ (DemandsHeat lower upper temps ∧ t ≤ upper) ∨ (¬ DemandsHeat lower upper temps ∧ t < lower) := by
  constructor
  · rintro ⟨a, x, b, hab, hx, hb⟩
    rcases List.eq_nil_or_concat b with rfl | ⟨b', y, rfl⟩
    · obtain ⟨rfl, h2⟩ := List.append_inj' hab rfl
      obtain rfl : t = x := by simpa using h2
      by_cases h : DemandsHeat lower upper temps
      · exact Or.inl ⟨h, hx.le.trans hlu⟩
      · exact Or.inr ⟨h, hx⟩
    · have e : a ++ x :: (b' ++ [y]) = (a ++ x :: b') ++ [y] := by simp
      rw [List.concat_eq_append, e] at hab
      obtain ⟨rfl, h2⟩ := List.append_inj' hab rfl
      obtain rfl : t = y := by simpa using h2
      rw [List.concat_eq_append] at hb
      exact Or.inl ⟨⟨a, x, b', rfl, hx, fun z hz => hb z (by simp [hz])⟩, hb t (by simp)⟩
  · rintro (⟨⟨a, x, b, rfl, hx, hb⟩, ht⟩ | ⟨_, ht⟩)
    · refine ⟨a, x, b ++ [t], by simp, hx, fun z hz => ?_⟩
      rcases List.mem_append.1 hz with h | h
      · exact hb z h
      · obtain rfl : z = t := by simpa using h
        exact ht
    · exact ⟨temps, t, [], rfl, ht, by simp⟩

/-- **C58.** After any temperature history, for a heater and controller as constructed from any configured values: the heater is on exactly when some temperature
was below the lower threshold and none since above the upper one; its output is the rating when on and 0 when off; the rating is the configured one, but never
negative; its id is at least 1; the thresholds are ordered and only an inverted pair is altered. -/
theorem C58_history (id : Nat) (rating lower upper : K) (temps : List K) :
    let c := Controller.make lower upper
    let h := c.run (Heater.make id rating) temps
    (h.on = true ↔ DemandsHeat c.lower c.upper temps) ∧
    h.output = (if h.on then h.rating else 0) ∧ h.rating = max rating 0 ∧ 1 ≤ h.id ∧ (1 ≤ id → h.id = id) ∧
    c.lower = lower ∧ c.lower ≤ c.upper ∧ (lower ≤ upper → c.upper = upper) := by
  have hlu : (Controller.make lower upper).lower ≤ (Controller.make lower upper).upper := by
    unfold Controller.make; split
    · exact le_add_of_nonneg_right (by norm_num)
    · next h => exact not_lt.1 h
  generalize hc : Controller.make lower upper = c at hlu
  intro c' h
  have hrun : ((c.run (Heater.make id rating) temps).on = true ↔ DemandsHeat c.lower c.upper temps) ∧
      (c.run (Heater.make id rating) temps).output = (if (c.run (Heater.make id rating) temps).on then (c.run (Heater.make id rating) temps).rating else 0) ∧
      (c.run (Heater.make id rating) temps).rating = (Heater.make id rating).rating ∧ (c.run (Heater.make id rating) temps).id = (Heater.make id rating).id := by
    induction temps using List.reverseRecOn with
    | nil =>
      refine ⟨⟨fun h => by simp [Controller.run, Heater.make] at h, ?_⟩, by simp [Controller.run, Heater.make], rfl, rfl⟩
      rintro ⟨a, x, b, hab, _⟩
      simp at hab
    | append_singleton ts t ih =>
      have e : c.run (Heater.make id rating) (ts ++ [t]) = c.control (c.run (Heater.make id rating) ts) t := by
        simp [Controller.run, List.foldl_append]
      rw [e]
      generalize c.run (Heater.make id rating) ts = g at ih
      obtain ⟨i1, i2, i3, i4⟩ := ih
      obtain ⟨f1, f2⟩ := control_fields c g t
      obtain ⟨s1, s2⟩ := C58_step c g t
      refine ⟨?_, ?_, by rw [f2, i3], by rw [f1, i4]⟩
      · rw [demands_snoc _ _ hlu, s1, ← i1, Bool.not_eq_true]
      · by_cases hs : (c.control g t).on = g.on
        · rw [s2 hs]; exact i2
        · clear s1 s2 i1 i2
          revert hs
          unfold Controller.control Heater.setStatus
          rcases hg : g.on with _ | _ <;> simp only [Bool.false_eq_true, if_false, if_true] <;> split <;> simp [hg]
  obtain ⟨r1, r2, r3, r4⟩ := hrun
  have hh : h = c.run (Heater.make id rating) temps := rfl
  refine ⟨r1, r2, ?_, ?_, ?_, ?_, hlu, ?_⟩
  · rw [hh, r3]; unfold Heater.make; simp only
    split
    · next h => rw [max_eq_right h.le]
    · next h => rw [max_eq_left (not_lt.1 h)]
  · rw [hh, r4]; unfold Heater.make; simp only; split <;> omega
  · intro hid; rw [hh, r4]; unfold Heater.make; simp only; rw [if_neg (by omega)]
  · show c.lower = lower
    rw [← hc]; rfl
  · intro h; show c.upper = upper
    rw [← hc]; simp [Controller.make, not_lt.2 h]

/-- **C58.** The setters do not re-check the order: after crossing the thresholds, a constant temperature between them makes the heater toggle for ever. -/
theorem C58_setters_unchecked (c : Controller K) (h : Heater K) (t : K) :
    let c' := (c.setLower (t + 1)).setUpper (t - 1)
    c'.upper < c'.lower ∧ (c'.control h t).on = !h.on ∧ (c'.control (c'.control h t) t).on = h.on := by
  have h1 : t - 1 < t := by linarith
  have h2 : t < t + 1 := by linarith
  refine ⟨by simp only [Controller.setLower, Controller.setUpper]; linarith, ?_, ?_⟩ <;>
    cases hh : h.on <;> simp [Controller.control, Controller.setLower, Controller.setUpper, Heater.setStatus, hh, h1, h2]

example : DemandsHeat (10 : ℚ) 20 [25, 5, 15, 19] ∧ ¬ DemandsHeat (10 : ℚ) 20 [25, 5, 15, 21, 15] := by
  have h := (C58_history (K := ℚ) 1 3 10 20 [25, 5, 15, 19]).1
  have h' := (C58_history (K := ℚ) 1 3 10 20 [25, 5, 15, 21, 15]).1
  have l : (Controller.make (10 : ℚ) 20).lower = 10 := rfl
  have u : (Controller.make (10 : ℚ) 20).upper = 20 := by decide +kernel
  rw [l, u] at h h'
  exact ⟨h.1 (by decide +kernel), fun c => absurd (h'.2 c) (by decide +kernel)⟩

/-! ## C59: battery -/

theorem voltageLoop_eq (x : K) (cs : List K) (i : Nat) (t : K) :
    voltageLoop x cs i t = t + ∑ k : Fin cs.length, cs[k] * x ^ (i + k.val) := by
  induction cs generalizing i t with
  | nil => simp [voltageLoop]
  | cons c cs ih =>
    rw [voltageLoop, ih]
    show _ = t + ∑ k : Fin (cs.length + 1), (c :: cs)[k.val] * x ^ (i + k.val)
    rw [Fin.sum_univ_succ]
    have : ∀ k : Fin cs.length, i + 1 + k.val = i + (k.succ).val := by intro k; simp; omega
    simp only [this]
    simp [add_assoc]

/-- The parameters of a battery do not change. -/
def SameParams (a b : Battery K) : Prop :=
  a.prescaler = b.prescaler ∧ a.series = b.series ∧ a.parallel = b.parallel ∧ a.capacity = b.capacity ∧ a.coeffs = b.coeffs ∧ a.ccCurrent = b.ccCurrent ∧
  a.cvVoltage = b.cvVoltage ∧ a.resistance = b.resistance ∧ a.stepTime = b.stepTime

/-- Specified cell-stack voltage: series count times the discharge-curve polynomial at the discharged cell capacity. -/
def stackVoltage (b : Battery K) : K := (∑ k : Fin b.coeffs.length, b.coeffs[k] * (b.dod / 100 * b.capacity) ^ k.val) * b.series

theorem updateVoltage_voltage (b : Battery K) : b.updateVoltage.voltage = some (stackVoltage b.updateVoltage) := by
  show some (voltageLoop _ _ 0 0 * _) = some (stackVoltage b.updateVoltage)
  rw [voltageLoop_eq]
  simp only [zero_add]
  rfl

/-- **C59.** After any sequence of charge currents, one per main-routine run: the depth of discharge is the initial value minus the charge that flowed, in percent
of the capacity; the voltage is the discharge curve at that depth of discharge; the parameters are unchanged. -/
theorem C59_history (b : Battery K) (currents : List K) :
    ∃ b', b.run currents = .ok b' ∧ SameParams b' b ∧
      b'.dod = b.dod - currents.sum * (b.stepTime * b.prescaler) / 3600 / (b.capacity * b.parallel) * 100 ∧
      (currents ≠ [] → b'.voltage = some (stackVoltage b') ∧ b'.current = currents.getLast?) := by
  induction currents generalizing b with
  | nil => exact ⟨b, rfl, ⟨rfl, rfl, rfl, rfl, rfl, rfl, rfl, rfl, rfl⟩, by simp, fun h => absurd rfl h⟩
  | cons i is ih =>
    let c : Battery K := ({ b with dod := b.dod - i * (b.stepTime * b.prescaler) / 3600 / (b.capacity * b.parallel) * 100, current := some i } : Battery K).updateVoltage
    have hc : (b.setCurrent i).main = .ok c := rfl
    obtain ⟨b', h1, h2, h3, h4⟩ := ih c
    refine ⟨b', by rw [Battery.run, hc]; exact h1, h2, ?_, fun _ => ?_⟩
    · rw [h3]
      show (b.dod - i * (b.stepTime * b.prescaler) / 3600 / (b.capacity * b.parallel) * 100) - is.sum * (b.stepTime * b.prescaler) / 3600 / (b.capacity * b.parallel) * 100 = _
      rw [List.sum_cons]; ring
    · cases is with
      | nil =>
        obtain rfl := Res.ok.inj h1
        refine ⟨?_, rfl⟩
        exact updateVoltage_voltage _
      | cons j js => 
        obtain ⟨h5, h6⟩ := h4 (by simp)
        exact ⟨h5, by rw [h6]; simp⟩

/-- **C59.** Charging and then discharging by the same amounts (in any order) restores the depth of discharge. -/
theorem C59_restores (b : Battery K) (currents : List K) (h : currents.sum = 0) : ∃ b', b.run currents = .ok b' ∧ b'.dod = b.dod := by
  obtain ⟨b', h1, _, h3, _⟩ := C59_history b currents
  exact ⟨b', h1, by rw [h3, h]; simp⟩

/-- **C59.** Capacity taken out of a fresh pack: drawing the full capacity (cell capacity times parallel count) in ampere hours moves the depth of discharge by
exactly 100 percent. -/
theorem C59_full_discharge (b : Battery K) (currents : List K) (hcap : b.capacity * b.parallel ≠ 0)
    (h : currents.sum * (b.stepTime * b.prescaler) = -(3600 * (b.capacity * b.parallel))) : ∃ b', b.run currents = .ok b' ∧ b'.dod = b.dod + 100 := by
  obtain ⟨b', h1, _, h3, _⟩ := C59_history b currents
  refine ⟨b', h1, ?_⟩
  rw [h3, h]
  generalize b.capacity * (b.parallel : K) = w at hcap
  field_simp
  ring

example : let b := Battery.make (K := ℚ) 1 2 3 2 [4, -1] 20 1 8 (1/10) 36
    b.capacity * b.parallel ≠ 0 ∧ ([-300, -300] : List ℚ).sum * (b.stepTime * b.prescaler) = -(3600 * (b.capacity * b.parallel)) := by
  decide +kernel

/-- **C59.** A battery that is constructed in place has neither current nor voltage: running it before a current is set reads an uninitialised member. A copied
battery has current 0 and the voltage of its depth of discharge. -/
theorem C59_initialisation (pre s p : Int) (cap : K) (cs : List K) (dod cc cv r dt : K) :
    let b := Battery.make pre s p cap cs dod cc cv r dt
    b.main = .ub ∧ b.voltage = none ∧ b.copy.current = some 0 ∧ b.copy.voltage = some (stackVoltage b.copy) ∧ b.copy.dod = dod ∧
    (∃ b', b.copy.main = .ok b' ∧ b'.dod = dod) ∧ b.ccCurrent = cc * (cap * p) := by
  refine ⟨rfl, rfl, rfl, ?_, rfl, ?_, by simp [Battery.make]; ring⟩
  · exact updateVoltage_voltage _
  · exact ⟨_, rfl, by simp [Battery.copy, Battery.updateVoltage, Battery.make]⟩

example : ∃ b', (Battery.make (K := ℚ) 1 2 3 2 [4, -1] 20 1 8 (1/10) 36).run [5, -1] = .ok b' ∧ b'.dod = 20 - 4 * 36 / 3600 / 6 * 100 := by
  obtain ⟨b', h1, _, h3, _⟩ := C59_history (Battery.make (K := ℚ) 1 2 3 2 [4, -1] 20 1 8 (1/10) 36) [5, -1]
  exact ⟨b', h1, by rw [h3]; decide +kernel⟩

/-! ## C60: charge control -/

/-- **C60.** With positive resistance and a deliverable load, the charge current is the smallest of three: the current that balances the bus power, the constant-current
limit, and the current that brings the bus to the constant-voltage limit. The bus voltage is the battery voltage plus the resistive rise. -/
theorem C60_exact (cc cv r v : ℝ) (gen : List ℝ) (cons : ℝ) (hr : 0 < r) (hd : 0 ≤ v * v + 4 * r * (gen.sum - cons)) :
    ∃ i balance : ℝ, pcuUpdate cc cv r v gen cons = ⟨some i, some (v + r * i)⟩ ∧
      i = min balance (min cc ((cv - v) / r)) ∧ balance * (v + r * balance) = gen.sum - cons ∧ -v ≤ 2 * r * balance := by
  have hsum : gen.foldl (· + ·) 0 = gen.sum := (List.sum_eq_foldl).symm
  refine ⟨_, (-v + Real.sqrt (v * v + 4 * r * (gen.sum - cons))) / (2 * r), ?_, rfl, ?_, ?_⟩
  · have hb : sqrtD (v * v + 4 * r * (gen.foldl (· + ·) 0 - cons)) = some (Real.sqrt (v * v + 4 * r * (gen.sum - cons))) := by
      rw [hsum, sqrtD, if_neg (not_lt.2 hd)]
    rw [pcuUpdate, hb]
    simp only [Option.map_some]
    generalize (-v + Real.sqrt (v * v + 4 * r * (gen.sum - cons))) / (2 * r) = b
    have hcv : v + r * ((cv - v) / r) = v + r * (cv - v) / r := by ring
    have iff1 : ∀ x : ℝ, v + x * r < cv ↔ x < (cv - v) / r := by
      intro x; rw [lt_div_iff₀ hr]; constructor <;> intro h <;> linarith
    simp only [geD, ltD, decide_eq_true_eq, iff1]
    by_cases h1 : b ≥ cc
    · rw [if_pos h1]
      by_cases h2 : cc < (cv - v) / r
      · rw [if_pos h2, min_eq_left h2.le, min_eq_right h1]
      · rw [if_neg h2, min_eq_right (not_lt.1 h2), min_eq_right ((not_lt.1 h2).trans h1), hcv]
    · rw [if_neg h1]
      have h1' := lt_of_not_ge h1
      by_cases h2 : b < (cv - v) / r
      · rw [if_pos h2, min_eq_left (le_min h1'.le h2.le)]
      · have h2' := not_lt.1 h2
        rw [if_neg h2, min_eq_right (h2'.trans h1'.le), min_eq_right h2', hcv]
  · have hs := Real.mul_self_sqrt hd
    generalize Real.sqrt (v * v + 4 * r * (gen.sum - cons)) = s at hs
    have : r ≠ 0 := hr.ne'
    field_simp
    linear_combination hs
  · have : 2 * r * ((-v + Real.sqrt (v * v + 4 * r * (gen.sum - cons))) / (2 * r)) = -v + Real.sqrt (v * v + 4 * r * (gen.sum - cons)) := by
      field_simp
    rw [this]
    linarith [Real.sqrt_nonneg (v * v + 4 * r * (gen.sum - cons))]

/-- **C60.** Neither limit is ever exceeded and, when neither is active, the bus power balances. The limits only ever reduce the charging power (with a non-negative
current limit and a voltage limit of at least half the battery voltage). -/
theorem C60_limits (cc cv r v : ℝ) (gen : List ℝ) (cons : ℝ) (hr : 0 < r) (hd : 0 ≤ v * v + 4 * r * (gen.sum - cons)) :
    ∃ i : ℝ, pcuUpdate cc cv r v gen cons = ⟨some i, some (v + r * i)⟩ ∧ i ≤ cc ∧ v + r * i ≤ cv ∧
      (i < cc → v + r * i < cv → i * (v + r * i) = gen.sum - cons) ∧
      (0 ≤ v → 0 ≤ cc → v / 2 ≤ cv → i * (v + r * i) ≤ gen.sum - cons) := by
  obtain ⟨i, b, h1, h2, h3, h4⟩ := C60_exact cc cv r v gen cons hr hd
  have hb : i ≤ b := h2 ▸ min_le_left _ _
  have hcc : i ≤ cc := h2 ▸ (min_le_right _ _).trans (min_le_left _ _)
  have hcv : i ≤ (cv - v) / r := h2 ▸ (min_le_right _ _).trans (min_le_right _ _)
  have hcv' : v + r * i ≤ cv := by rw [le_div_iff₀ hr] at hcv; linarith
  refine ⟨i, h1, hcc, hcv', fun g1 g2 => ?_, fun g0 g1 g2 => ?_⟩
  · have g3 : i < (cv - v) / r := by rw [lt_div_iff₀ hr]; linarith
    have : i = b := by
      rcases min_choice b (min cc ((cv - v) / r)) with h | h
      · rw [h2, h]
      · rw [← h2] at h
        rcases min_choice cc ((cv - v) / r) with h' | h' <;> rw [h'] at h <;> exact absurd h (by linarith)
    rw [this, h3]
  · have hge : -v ≤ 2 * r * i := by
      rw [h2]
      rcases min_choice b (min cc ((cv - v) / r)) with h | h <;> rw [h]
      · exact h4
      · rcases min_choice cc ((cv - v) / r) with h' | h' <;> rw [h']
        · nlinarith [mul_nonneg hr.le g1]
        · have : 2 * r * ((cv - v) / r) = 2 * (cv - v) := by field_simp
          rw [this]; linarith
    rw [← h3]
    nlinarith [mul_nonneg (sub_nonneg.2 hb) (show (0:ℝ) ≤ v + r * i + r * b by nlinarith [mul_nonneg hr.le (sub_nonneg.2 hb)])]

/-- **C60.** In an overload beyond what the battery can deliver the square root is NaN, both comparisons fail, and the battery is charged with the
constant-voltage current although consumption exceeds generation. -/
theorem C60_overload (cc cv r v : ℝ) (gen : List ℝ) (cons : ℝ) (hd : v * v + 4 * r * (gen.sum - cons) < 0) :
    pcuUpdate cc cv r v gen cons = ⟨some ((cv - v) / r), some (v + r * (cv - v) / r)⟩ := by
  have hsum : gen.foldl (· + ·) 0 = gen.sum := (List.sum_eq_foldl).symm
  have hb : sqrtD (v * v + 4 * r * (gen.foldl (· + ·) 0 - cons)) = none := by rw [hsum, sqrtD, if_pos hd]
  rw [pcuUpdate, hb]
  simp [geD, ltD]

/-- **C60.** So the current limit can be exceeded and a drained battery charged: 8 V battery, 0.5 ohm, nothing generated, 100 W drawn, 1 A limit: it is charged with 2 A. -/
theorem C60_overload_witness : pcuUpdate 1 9 (1/2) 8 [] 100 = ⟨some 2, some 9⟩ := by
  rw [C60_overload _ _ _ _ _ _ (by norm_num)]
  norm_num

example : ∃ i, pcuUpdate 1 9 (1/2) 8 [3, 4] 5 = ⟨some i, some (8 + 1/2 * i)⟩ ∧ i ≤ 1 := by
  obtain ⟨i, h, h1, _⟩ := C60_limits 1 9 (1/2) 8 [3, 4] 5 (by norm_num) (by norm_num)
  exact ⟨i, h, h1⟩

/-! ## C61: solar array panel -/

theorem innerProduct_sq_le {n : Nat} (a b : Vec n) : innerProduct a b ^ 2 ≤ (calcNorm a * calcNorm b) ^ 2 := by
  rw [mul_pow, calcNorm_sq, calcNorm_sq]
  have h := Finset.sum_mul_sq_le_sq_mul_sq Finset.univ a b
  simpa [innerProduct, sq] using h

theorem unit_inner_le {n : Nat} (a b : Vec n) : innerProduct (calcNormalizedVector a) (calcNormalizedVector b) ≤ 1 := by
  have hn : ∀ v : Vec n, calcNorm (calcNormalizedVector v) ≤ 1 := by
    intro v
    by_cases hv : v = 0
    · rw [(C71_normalized_vector v).2.1 hv, (calcNorm_eq_zero _).2 rfl]; norm_num
    · rw [((C71_normalized_vector v).1 hv).1]
  have h1 := innerProduct_sq_le (calcNormalizedVector a) (calcNormalizedVector b)
  have h2 := hn a
  have h3 := hn b
  have h4 := calcNorm_nonneg (calcNormalizedVector a)
  have h5 := calcNorm_nonneg (calcNormalizedVector b)
  have h6 : calcNorm (calcNormalizedVector a) * calcNorm (calcNormalizedVector b) ≤ 1 := mul_le_one₀ h2 h5 h3
  have h7 := mul_nonneg h4 h5
  nlinarith

theorem innerProduct_normalized {n : Nat} (a b : Vec n) (ha : a ≠ 0) (hb : b ≠ 0) :
    innerProduct a b = calcNorm a * calcNorm b * innerProduct (calcNormalizedVector a) (calcNormalizedVector b) := by
  conv_lhs => rw [← ((C71_normalized_vector a).1 ha).2.2, ← ((C71_normalized_vector b).1 hb).2.2]
  rw [innerProduct_scale]

/-- **C61.** Without a scenario, a panel built with local celestial information: for every sun position the generated power is at least 0; it is 0 when the sun is at or behind
the panel plane; with the sun in front it is efficiency times transmission times power density times total cell area times the cosine of the angle between panel normal
and sun; for non-negative parameters it is at most the incident power on all cells. -/
theorem C61_power (series parallel : Int) (area : ℝ) (normal : Vec 3) (eff trans dt : ℝ) (e : PanelEnv) (k : Int) (hs : e.scenario = none)
    (hn : normal ≠ 0) (hsun : e.sunPosition ≠ 0) (heff : 0 ≤ eff) (htr : 0 ≤ trans) (hpd : 0 ≤ e.powerDensity) (harea : 0 ≤ area) (hse : 0 ≤ series) (hpa : 0 ≤ parallel) :
    ∃ p', (Panel.make series parallel area normal eff trans true dt).main e k = .ok p' ∧ 0 ≤ p'.power ∧
      (innerProduct normal e.sunPosition ≤ 0 → p'.power = 0) ∧
      (0 ≤ innerProduct normal e.sunPosition →
        p'.power * (calcNorm normal * calcNorm e.sunPosition) = eff * trans * e.powerDensity * (area * (series * parallel)) * innerProduct normal e.sunPosition) ∧
      p'.power ≤ eff * trans * e.powerDensity * (area * (series * parallel)) := by
  have hse' : (0:ℝ) ≤ series := by exact_mod_cast hse
  have hpa' : (0:ℝ) ≤ parallel := by exact_mod_cast hpa
  have hN := ((C71_normalized_vector normal).1 hn).2.1
  have hS := ((C71_normalized_vector e.sunPosition).1 hsun).2.1
  have hle := unit_inner_le normal e.sunPosition
  have hin := innerProduct_normalized normal e.sunPosition hn hsun
  have hA : 0 ≤ eff * trans * e.powerDensity * (area * (series * parallel)) := by positivity
  have hNS := mul_pos hN hS
  refine ⟨_, by rw [Panel.main, hs]; rfl, ?_⟩
  simp only [Panel.make]
  generalize innerProduct (calcNormalizedVector normal) (calcNormalizedVector e.sunPosition) = x at hle hin
  have hform : eff * trans * e.powerDensity * area * parallel * series * x = eff * trans * e.powerDensity * (area * (series * parallel)) * x := by ring
  rw [hform, hin]
  generalize eff * trans * e.powerDensity * (area * (series * parallel)) = A at hA
  generalize calcNorm normal * calcNorm e.sunPosition = n at hNS
  unfold clipPower
  refine ⟨?_, ?_, ?_, ?_⟩
  · split
    · exact le_rfl
    · next h => exact not_lt.1 h
  · intro h
    have hx : x ≤ 0 := by by_contra hc; nlinarith [mul_pos hNS (not_le.1 hc)]
    split
    · rfl
    · next h => exact le_antisymm (mul_nonpos_of_nonneg_of_nonpos hA hx) (not_lt.1 h)
  · intro h
    have hx : 0 ≤ x := by by_contra hc; nlinarith [mul_neg_of_pos_of_neg hNS (not_le.1 hc)]
    rw [if_neg (not_lt.2 (mul_nonneg hA hx))]; ring
  · split
    · exact hA
    · nlinarith

/-- **C61.** With a CSV scenario whose rows cover the query time: the power is never negative, zero when the sun flag is 0, and at most the incident power computed with the
solar constant. -/
theorem C61_scenario (series parallel : Int) (area : ℝ) (normal : Vec 3) (eff trans dt : ℝ) (hasLocal : Bool) (e : PanelEnv) (k : Int) (bufs : Nat → Option (List (ℝ × ℝ)))
    (hs : e.scenario = some bufs) (x y z flag : ℝ) (h1 : getValue (bufs 1) (dt * k) = .ok x) (h2 : getValue (bufs 2) (dt * k) = .ok y) (h3 : getValue (bufs 3) (dt * k) = .ok z)
    (h4 : getValue (bufs 4) (dt * k) = .ok flag) (heff : 0 ≤ eff) (htr : 0 ≤ trans) (hsc : 0 ≤ e.solarConstant) (harea : 0 ≤ area) (hse : 0 ≤ series) (hpa : 0 ≤ parallel) :
    ∃ p', (Panel.make series parallel area normal eff trans hasLocal dt).main e k = .ok p' ∧ 0 ≤ p'.power ∧ (flag = 0 → p'.power = 0) ∧
      (flag ≠ 0 → innerProduct (calcNormalizedVector normal) (calcNormalizedVector ![x, y, z]) ≤ 0 → p'.power = 0) ∧
      (flag ≠ 0 → 0 ≤ innerProduct (calcNormalizedVector normal) (calcNormalizedVector ![x, y, z]) →
        p'.power = eff * trans * e.solarConstant * (area * (series * parallel)) * innerProduct (calcNormalizedVector normal) (calcNormalizedVector ![x, y, z])) ∧
      p'.power ≤ eff * trans * e.solarConstant * (area * (series * parallel)) := by
  have hse' : (0:ℝ) ≤ series := by exact_mod_cast hse
  have hpa' : (0:ℝ) ≤ parallel := by exact_mod_cast hpa
  have hle := unit_inner_le normal ![x, y, z]
  have hA : 0 ≤ eff * trans * e.solarConstant * (area * (series * parallel)) := by positivity
  refine ⟨_, by simp only [Panel.main, hs, Panel.make, h1, h2, h3, h4, Res.bind_ok]; rfl, ?_⟩
  simp only
  generalize innerProduct (calcNormalizedVector normal) (calcNormalizedVector ![x, y, z]) = u at hle
  have hform : ∀ f : ℝ, eff * trans * e.solarConstant * f * area * parallel * series * u = eff * trans * e.solarConstant * (area * (series * parallel)) * (f * u) := by intro f; ring
  rw [hform]
  generalize eff * trans * e.solarConstant * (area * (series * parallel)) = A at hA
  unfold clipPower
  have hu : ∀ f : ℝ, f = 0 ∨ f = 1 → f * u ≤ 1 := by rintro f (rfl | rfl) <;> linarith
  have hflag := hu (if flag ≠ 0 then 1 else 0) (by split <;> simp)
  have hnn : ∀ w : ℝ, 0 ≤ (if A * w < 0 then 0 else A * w) := by
    intro w; split
    · exact le_rfl
    · next h => exact not_lt.1 h
  have hub : ∀ w : ℝ, w ≤ 1 → (if A * w < 0 then 0 else A * w) ≤ A := by
    intro w hw; split
    · exact hA
    · nlinarith
  refine ⟨hnn _, ?_, ?_, ?_, hub _ hflag⟩
  · rintro rfl; simp
  · intro h0 hx
    rw [if_pos h0, one_mul]
    split
    · rfl
    · next h => exact le_antisymm (mul_nonpos_of_nonneg_of_nonpos hA hx) (not_lt.1 h)
  · intro h0 hx
    rw [if_pos h0, one_mul, if_neg (not_lt.2 (mul_nonneg hA hx))]

/-- **C61.** A panel built without local celestial information may only be used with the scenario enabled. -/
theorem C61_no_local (series parallel : Int) (area : ℝ) (normal : Vec 3) (eff trans dt : ℝ) (e : PanelEnv) (k : Int) (hs : e.scenario = none) :
    (Panel.make series parallel area normal eff trans false dt).main e k = .ub := by
  rw [Panel.main, hs]; rfl

example : ∃ p', (Panel.make 2 3 (1/2) ![0, 0, 2] (1/4) 1 true 1).main ⟨1000, 1366, ![0, 0, 5], none⟩ 0 = .ok p' ∧ p'.power ≤ 1/4 * 1 * 1000 * (1/2 * (2 * 3)) := by
  obtain ⟨p', h, _, _, _, h5⟩ := C61_power 2 3 (1/2) ![0, 0, 2] (1/4) 1 1 ⟨1000, 1366, ![0, 0, 5], none⟩ 0 rfl
    (fun h => by have := congrFun h 2; simp at this) (fun h => by have := congrFun h 2; simp at this) (by norm_num) (by norm_num) (by norm_num) (by norm_num) (by norm_num) (by norm_num)
  exact ⟨p', h, by simpa using h5⟩

/-! ## C62: scenario table -/

/-- Keys strictly increasing. -/
def Sorted (m : List (K × K)) : Prop := m.Pairwise fun a b => a.1 < b.1

omit [Field K] [IsStrictOrderedRing K] in
theorem mapInsert_mem (k v : K) (m : List (K × K)) (hm : Sorted m) (e : K × K) :
    e ∈ mapInsert k v m ↔ e = (k, v) ∨ (e.1 ≠ k ∧ e ∈ m) := by
  induction m with
  | nil => simp [mapInsert]
  | cons a m ih =>
    obtain ⟨ka, va⟩ := a
    obtain ⟨h1, h2⟩ := List.pairwise_cons.1 hm
    have h1' : ∀ e ∈ m, ka < e.1 := h1
    have ih := ih h2
    unfold mapInsert
    split
    · next h =>
      simp only [List.mem_cons]
      constructor
      · rintro (h' | h' | h')
        · exact Or.inl h'
        · exact Or.inr ⟨by rw [h']; exact h.ne', Or.inl h'⟩
        · exact Or.inr ⟨(h.trans (h1' e h')).ne', Or.inr h'⟩
      · rintro (h' | ⟨_, h' | h'⟩)
        · exact Or.inl h'
        · exact Or.inr (Or.inl h')
        · exact Or.inr (Or.inr h')
    · split
      · next h' =>
        simp only [List.mem_cons, ih]
        constructor
        · rintro (g | g | ⟨g1, g2⟩)
          · exact Or.inr ⟨by rw [g]; exact h'.ne, Or.inl g⟩
          · exact Or.inl g
          · exact Or.inr ⟨g1, Or.inr g2⟩
        · rintro (g | ⟨g1, g | g⟩)
          · exact Or.inr (Or.inl g)
          · exact Or.inl g
          · exact Or.inr (Or.inr ⟨g1, g⟩)
      · next g1 g2 =>
        obtain rfl : k = ka := le_antisymm (not_lt.1 g2) (not_lt.1 g1)
        simp only [List.mem_cons]
        constructor
        · rintro (g | g)
          · exact Or.inl g
          · exact Or.inr ⟨(h1' e g).ne', Or.inr g⟩
        · rintro (g | ⟨g3, g | g⟩)
          · exact Or.inl g
          · exact absurd (by rw [g]) g3
          · exact Or.inr g

omit [Field K] [IsStrictOrderedRing K] in
theorem mapInsert_sorted (k v : K) (m : List (K × K)) (hm : Sorted m) : Sorted (mapInsert k v m) := by
  induction m with
  | nil => simp [mapInsert, Sorted]
  | cons a m ih =>
    obtain ⟨ka, va⟩ := a
    obtain ⟨h1, h2⟩ := List.pairwise_cons.1 hm
    have h1' : ∀ e ∈ m, ka < e.1 := h1
    unfold mapInsert
    split
    · next h =>
      refine List.pairwise_cons.2 ⟨?_, hm⟩
      intro e he
      rcases List.mem_cons.1 he with rfl | he
      · exact h
      · exact h.trans (h1' e he)
    · split
      · next h =>
        refine List.pairwise_cons.2 ⟨?_, ih h2⟩
        intro e he
        rcases (mapInsert_mem k v m h2 e).1 he with rfl | ⟨_, he⟩
        · exact h
        · exact h1' e he
      · exact List.pairwise_cons.2 ⟨h1', h2⟩

omit [Field K] [IsStrictOrderedRing K] in
theorem beforeUpperBound_spec (t : K) (m : List (K × K)) (hm : Sorted m) (prev : Option (K × K)) (hp : ∀ p, prev = some p → p.1 ≤ t ∧ ∀ e ∈ m, p.1 < e.1) :
    (beforeUpperBound t prev m = none → prev = none ∧ ∀ e ∈ m, t < e.1) ∧
    (∀ e, beforeUpperBound t prev m = some e → (prev = some e ∨ e ∈ m) ∧ e.1 ≤ t ∧ ∀ e' ∈ m, e'.1 ≤ t → e'.1 ≤ e.1) := by
  induction m generalizing prev with
  | nil =>
    refine ⟨fun h => ⟨h, by simp⟩, fun e h => ⟨Or.inl h, (hp e h).1, by simp⟩⟩
  | cons a m ih =>
    obtain ⟨h1, h2⟩ := List.pairwise_cons.1 hm
    unfold beforeUpperBound
    split
    · next h =>
      have hall : ∀ e ∈ a :: m, t < e.1 := by
        intro e he
        rcases List.mem_cons.1 he with rfl | he
        · exact h
        · exact h.trans (h1 e he)
      exact ⟨fun hh => ⟨hh, hall⟩, fun e he => ⟨Or.inl he, (hp e he).1, fun e' he' hle => absurd (hall e' he') (not_lt.2 hle)⟩⟩
    · next h =>
      obtain ⟨i1, i2⟩ := ih h2 (some a) (by rintro p hpa; obtain rfl := Option.some.inj hpa; exact ⟨not_lt.1 h, h1⟩)
      refine ⟨fun hh => absurd (i1 hh).1 (by simp), fun e he => ?_⟩
      obtain ⟨j1, j2, j3⟩ := i2 e he
      refine ⟨Or.inr ?_, j2, fun e' he' hle => ?_⟩
      · rcases j1 with j1 | j1
        · rw [Option.some.inj j1]; exact List.mem_cons_self
        · exact List.mem_cons_of_mem _ j1
      · rcases List.mem_cons.1 he' with rfl | he'
        · rcases j1 with j1 | j1
          · rw [Option.some.inj j1]
          · exact (h1 e j1).le
        · exact j3 e' he' hle

/-- Row `k` of the table (time, value) is the one in force at time `t`: its time is not after `t`, and every other row not after `t` is earlier, or has the same time and
stands earlier in the file. -/
def InForce (rows : List (K × K)) (t : K) (k : Nat) (value : K) : Prop :=
  ∃ time, rows[k]? = some (time, value) ∧ time ≤ t ∧
    ∀ (j : Nat) (r : K × K), rows[j]? = some r → r.1 ≤ t → r.1 < time ∨ (r.1 = time ∧ j ≤ k)

/-- The time and value columns of a table. -/
def columns (data : List (List K)) (col : Nat) : List (K × K) := data.filterMap fun line =>
  match line[0]?, line[col]? with
  | some t, some v => some (t, v)
  | _, _ => none

omit [Field K] [IsStrictOrderedRing K] in
/-- Contents of the map: an entry for exactly the times occurring in the table, with the value of the last row of that time. -/
theorem store_spec (col : Nat) (data : List (List K)) (hlen : ∀ line ∈ data, line ≠ [] ∧ col < line.length) (buf : Option (List (K × K))) (hbuf : Sorted (buf.getD [])) :
    ∃ m, storeBuffer col buf data = .ok m ∧ (data ≠ [] → m ≠ none) ∧ Sorted (m.getD []) ∧ (columns data col).length = data.length ∧
      ∀ e : K × K, e ∈ m.getD [] ↔ (∃ k : Nat, (columns data col)[k]? = some e ∧ ∀ (j : Nat) (r : K × K), (columns data col)[j]? = some r → r.1 = e.1 → j ≤ k) ∨
        (e ∈ buf.getD [] ∧ ∀ r ∈ columns data col, r.1 ≠ e.1) := by
  induction data generalizing buf with
  | nil => exact ⟨buf, rfl, fun h => absurd rfl h, hbuf, rfl, fun e => by simp [columns]⟩
  | cons line data ih =>
    obtain ⟨hne, hl⟩ := hlen line (List.mem_cons_self)
    have h0 : 0 < line.length := List.length_pos_of_ne_nil hne
    have e0 : line[0]? = some line[0] := List.getElem?_eq_getElem h0
    have e1 : line[col]? = some line[col] := List.getElem?_eq_getElem hl
    generalize line[0] = t at e0
    generalize line[col] = v at e1
    have hcol : columns (line :: data) col = (t, v) :: columns data col := by
      simp only [columns, List.filterMap_cons, e0, e1]
    obtain ⟨m, h1, h2, h3, h4, h5⟩ := ih (fun l hl' => hlen l (List.mem_cons_of_mem _ hl')) (some (mapInsert t v (buf.getD []))) (mapInsert_sorted t v _ hbuf)
    refine ⟨m, by simp only [storeBuffer, e0, e1]; exact h1, fun _ => ?_, h3, by rw [hcol]; simp [h4], fun e => ?_⟩
    · cases data with
      | nil => obtain rfl := Res.ok.inj h1; simp
      | cons a b => exact h2 (by simp)
    · rw [h5 e, hcol]
      simp only [Option.getD_some, mapInsert_mem t v _ hbuf e]
      constructor
      · rintro (⟨k, hk, hmax⟩ | ⟨he, hno⟩)
        · refine Or.inl ⟨k + 1, by simpa using hk, fun j r hj hr => ?_⟩
          cases j with
          | zero => omega
          | succ j => have := hmax j r (by simpa using hj) hr; omega
        · rcases he with rfl | ⟨hk, he⟩
          · refine Or.inl ⟨0, by simp, fun j r hj hr => ?_⟩
            cases j with
            | zero => omega
            | succ j => exact absurd hr (hno r (List.mem_of_getElem? (by simpa using hj)))
          · refine Or.inr ⟨he, fun r hr => ?_⟩
            rcases List.mem_cons.1 hr with rfl | hr
            · exact fun h => hk h.symm
            · exact hno r hr
      · rintro (⟨k, hk, hmax⟩ | ⟨he, hno⟩)
        · cases k with
          | zero =>
            obtain rfl : (t, v) = e := by simpa using hk
            refine Or.inr ⟨Or.inl rfl, fun r hr hrt => ?_⟩
            obtain ⟨j, hj⟩ := List.getElem?_of_mem hr
            have := hmax (j + 1) r (by simpa using hj) hrt
            omega
          | succ k =>
            refine Or.inl ⟨k, by simpa using hk, fun j r hj hr => ?_⟩
            have := hmax (j + 1) r (by simpa using hj) hr
            omega
        · refine Or.inr ⟨Or.inr ⟨fun h => hno (t, v) (List.mem_cons_self) h.symm, he⟩, fun r hr => hno r (List.mem_cons_of_mem _ hr)⟩

omit [Field K] [IsStrictOrderedRing K] in
/-- **C62.** A table stored into an empty buffer and queried at any time: the value is that of the latest row whose time is not after the query, the last such row in the file
when several have the same time; a query before every row has no valid row (undefined behaviour in the code); an empty table makes the query throw. -/
theorem C62_lookup (col : Nat) (data : List (List K)) (hlen : ∀ line ∈ data, line ≠ [] ∧ col < line.length) (t : K) :
    ∃ m, storeBuffer col none data = .ok m ∧
      (∀ k value, InForce (columns data col) t k value → getValue m t = .ok value) ∧
      (∀ value, getValue m t = .ok value → ∃ k, InForce (columns data col) t k value) ∧
      (data ≠ [] → (getValue m t = .ub ↔ ∀ r ∈ columns data col, t < r.1)) ∧
      (data = [] → getValue m t = .throws) := by
  obtain ⟨m, h1, h2, h3, h4, h5⟩ := store_spec col data hlen none (by simp [Sorted])
  have h5' : ∀ e : K × K, e ∈ m.getD [] ↔ ∃ k : Nat, (columns data col)[k]? = some e ∧ ∀ (j : Nat) (r : K × K), (columns data col)[j]? = some r → r.1 = e.1 → j ≤ k := by
    intro e; rw [h5 e]; simp
  refine ⟨m, h1, ?_⟩
  -- every time of the table is a key of the map
  have key : ∀ r ∈ columns data col, ∃ v, (r.1, v) ∈ m.getD [] := by
    intro r hr
    let P : Nat → Prop := fun k => ∃ v, (columns data col)[k]? = some (r.1, v)
    obtain ⟨k, hk⟩ := List.getElem?_of_mem hr
    have hbound : ∀ n, P n → n ≤ (columns data col).length := by
      rintro n ⟨v, hv⟩
      exact (List.getElem?_eq_some_iff.1 hv).1.le
    classical
    obtain ⟨v, hv⟩ := Nat.findGreatest_spec (P := P) (hbound k ⟨r.2, hk⟩) ⟨r.2, hk⟩
    refine ⟨v, (h5' _).2 ⟨_, hv, fun j r' hj hr' => ?_⟩⟩
    have hPj : P j := ⟨r'.2, by rw [hj, ← hr']⟩
    exact Nat.le_findGreatest (hbound j hPj) hPj
  have spec := beforeUpperBound_spec t (m.getD []) h3 none (by simp)
  have hget : data ≠ [] → getValue m t = match beforeUpperBound t none (m.getD []) with | none => .ub | some e => .ok e.2 := by
    intro hd
    obtain ⟨m', rfl⟩ := Option.ne_none_iff_exists'.1 (h2 hd)
    rfl
  have nonempty : ∀ (k : Nat) (e : K × K), (columns data col)[k]? = some e → data ≠ [] := by
    rintro k e he rfl
    simp [columns] at he
  refine ⟨?_, ?_, ?_, ?_⟩
  · rintro k value ⟨time, hk, hle, hmax⟩
    rw [hget (nonempty _ _ hk)]
    have hmem : (time, value) ∈ m.getD [] := (h5' _).2 ⟨k, hk, fun j r hj hr => by
      rcases hmax j r hj (by rw [hr]; exact hle) with h | h
      · exact absurd hr h.ne
      · exact h.2⟩
    rcases hb : beforeUpperBound t none (m.getD []) with _ | e
    · exact absurd ((spec.1 hb).2 _ hmem) (not_lt.2 hle)
    · obtain ⟨g1, g2, g3⟩ := spec.2 e hb
      have g1' : e ∈ m.getD [] := by simpa using g1
      have hge := g3 _ hmem hle
      obtain ⟨j, hj, hjmax⟩ := (h5' e).1 g1'
      have heq : e.1 = time := by
        rcases hmax j e hj g2 with h | h
        · exact absurd hge (not_le.2 h)
        · exact h.1
      have hjk : j ≤ k := by
        rcases hmax j e hj g2 with h | h
        · exact absurd hge (not_le.2 h)
        · exact h.2
      have hkj : k ≤ j := hjmax k _ hk heq.symm
      obtain rfl : j = k := le_antisymm hjk hkj
      rw [hk] at hj
      rw [← Option.some.inj hj]
  · intro value hv
    by_cases hd : data = []
    · subst hd
      obtain rfl := Res.ok.inj h1
      simp [getValue] at hv
    rw [hget hd] at hv
    rcases hb : beforeUpperBound t none (m.getD []) with _ | e
    · rw [hb] at hv; simp at hv
    · rw [hb] at hv
      obtain rfl := Res.ok.inj hv
      obtain ⟨g1, g2, g3⟩ := spec.2 e hb
      have g1' : e ∈ m.getD [] := by simpa using g1
      obtain ⟨j, hj, hjmax⟩ := (h5' e).1 g1'
      refine ⟨j, e.1, hj, g2, fun i r hi hr => ?_⟩
      obtain ⟨v, hv⟩ := key r (List.mem_of_getElem? hi)
      rcases (g3 _ hv hr).lt_or_eq with h | h
      · exact Or.inl h
      · exact Or.inr ⟨h, hjmax i r hi h⟩
  · intro hd
    rw [hget hd]
    constructor
    · intro h r hr
      rcases hb : beforeUpperBound t none (m.getD []) with _ | e
      · obtain ⟨v, hv⟩ := key r hr
        exact (spec.1 hb).2 (r.1, v) hv
      · rw [hb] at h; simp at h
    · intro h
      rcases hb : beforeUpperBound t none (m.getD []) with _ | e
      · rfl
      · obtain ⟨g1, g2, g3⟩ := spec.2 e hb
        have g1' : e ∈ m.getD [] := by simpa using g1
        obtain ⟨j, hj, _⟩ := (h5' e).1 g1'
        exact absurd g2 (not_le.2 (h e (List.mem_of_getElem? hj)))
  · rintro rfl
    obtain rfl := Res.ok.inj h1
    rfl

/-- The whole `Initialize`: for a table whose rows have at least six columns, each of the five scenario signals (columns 1 to 5) looked up at
time `t` gives exactly the value in force in its own column. -/
theorem C62_initialize (data : List (List K)) (hlen : ∀ line ∈ data, 6 ≤ line.length) (t : K) :
    ∃ bufs, initBuffers data (fun _ => none) = .ok bufs ∧
      ∀ col, 1 ≤ col ∧ col ≤ 5 →
        (∀ k value, InForce (columns data col) t k value → getValue (bufs col) t = .ok value) ∧
        (∀ value, getValue (bufs col) t = .ok value → ∃ k, InForce (columns data col) t k value) ∧
        (data ≠ [] → (getValue (bufs col) t = .ub ↔ ∀ r ∈ columns data col, t < r.1)) ∧
        (data = [] → getValue (bufs col) t = .throws) := by
  have hl : ∀ col ≤ 5, ∀ line ∈ data, line ≠ [] ∧ col < line.length := fun col hc line hline => by
    have := hlen line hline
    refine ⟨fun h => ?_, by omega⟩
    rw [h] at this; simp at this
  obtain ⟨m1, e1, p1⟩ := C62_lookup 1 data (hl 1 (by omega)) t
  obtain ⟨m2, e2, p2⟩ := C62_lookup 2 data (hl 2 (by omega)) t
  obtain ⟨m3, e3, p3⟩ := C62_lookup 3 data (hl 3 (by omega)) t
  obtain ⟨m4, e4, p4⟩ := C62_lookup 4 data (hl 4 (by omega)) t
  obtain ⟨m5, e5, p5⟩ := C62_lookup 5 data (hl 5 (by omega)) t
  refine ⟨_, by simp only [initBuffers, e1, e2, e3, e4, e5, Res.bind_ok]; rfl, fun col hc => ?_⟩
  have : col = 1 ∨ col = 2 ∨ col = 3 ∨ col = 4 ∨ col = 5 := by omega
  rcases this with rfl | rfl | rfl | rfl | rfl
  · exact p1
  · exact p2
  · exact p3
  · exact p4
  · exact p5

omit [Field K] [IsStrictOrderedRing K] in
/-- **C62.** A row with fewer than the expected columns is read out of range. -/
theorem C62_short_row (col : Nat) (buf : Option (List (K × K))) (pre post : List (List K)) (line : List K) (h : line = [] ∨ line.length ≤ col) :
    storeBuffer col buf (pre ++ line :: post) = .ub := by
  induction pre generalizing buf with
  | nil =>
    rcases h with rfl | h
    · rfl
    · have : line[col]? = none := List.getElem?_eq_none h
      simp only [List.nil_append, storeBuffer, this]
      generalize line[0]? = a
      cases a <;> rfl
  | cons l pre ih =>
    simp only [List.cons_append, storeBuffer]
    generalize l[0]? = a
    generalize l[col]? = b
    cases a <;> cases b <;> simp only [ih]

example : storeBuffer (K := ℚ) 1 none [[0, 5], [10, 6], [10, 7], [20, 8]] = .ok (some [(0, 5), (10, 7), (20, 8)]) := by decide +kernel
example : getValue (K := ℚ) (some [(0, 5), (10, 7), (20, 8)]) 15 = .ok 7 ∧ getValue (K := ℚ) (some [(0, 5), (10, 7), (20, 8)]) (-1) = .ub := by decide +kernel
example : InForce (columns (K := ℚ) [[0, 5], [10, 6], [10, 7], [20, 8]] 1) 15 2 7 := by
  refine ⟨10, by decide +kernel, by norm_num, fun j r hj hr => ?_⟩
  have hc : columns (K := ℚ) [[0, 5], [10, 6], [10, 7], [20, 8]] 1 = [(0, 5), (10, 6), (10, 7), (20, 8)] := by decide +kernel
  rw [hc] at hj
  match j, hj with
  | 0, hj => obtain rfl : (0, 5) = r := by simpa using hj
             left; norm_num
  | 1, hj => obtain rfl : (10, 6) = r := by simpa using hj
             right; norm_num
  | 2, hj => obtain rfl : (10, 7) = r := by simpa using hj
             right; norm_num
  | 3, hj => obtain rfl : (20, 8) = r := by simpa using hj
             norm_num at hr
  | k + 4, hj => simp at hj

end S2E.Eps
