import Verif.Model.Thermal
import Mathlib.Data.Rat.Floor
import Mathlib.Tactic.FieldSimp
/-!
# C77: heat load table
-/
namespace S2E.Thermal

variable {K : Type} [Field K] [LinearOrder K] [IsStrictOrderedRing K] [FloorRing K]

/-- A usable table: at least two strictly increasing times, the last (the period) positive, one power per time. -/
structure ValidTable (times table : List K) (period : K) : Prop where
  two : 2 ≤ times.length
  same : table.length = times.length
  increasing : times.Pairwise (· < ·)
  last : times.getLast? = some period
  pos : 0 < period

/-- Straight line through the table points `j` and `j+1`, at `r`. -/
def line (times table : List K) (j : Nat) (r : K) : K :=
  table.getD j 0 + (r - times.getD j 0) / (times.getD (j + 1) 0 - times.getD j 0) * (table.getD (j + 1) 0 - table.getD j 0)

theorem fmodK_spec (t p : K) (ht : 0 ≤ t) (hp : 0 < p) : 0 ≤ fmodK t p ∧ fmodK t p < p ∧ (t < p → fmodK t p = t) ∧ ∃ k : ℤ, t = p * k + fmodK t p := by
  have hq : 0 ≤ t / p := div_nonneg ht hp.le
  have e : truncZ (t / p) = ⌊t / p⌋ := by rw [truncZ, if_pos hq]
  have ht' : p * (t / p) = t := by field_simp
  refine ⟨?_, ?_, fun h => ?_, ⌊t / p⌋, by rw [fmodK, e]; ring⟩
  · rw [fmodK, e]
    have := mul_le_mul_of_nonneg_left (Int.floor_le (t / p)) hp.le
    linarith
  · rw [fmodK, e]
    have := mul_lt_mul_of_pos_left (Int.lt_floor_add_one (t / p)) hp
    rw [mul_add, mul_one] at this
    linarith
  · have : ⌊t / p⌋ = 0 := Int.floor_eq_zero_iff.2 ⟨hq, by rw [div_lt_one hp]; exact h⟩
    rw [fmodK, e, this]; simp

omit [Field K] [IsStrictOrderedRing K] [FloorRing K] in
theorem advance_spec (times : List K) (p r : K) (hinc : times.Pairwise (· < ·)) (hlast : times.getLast? = some p) (hr : r < p) (fuel idx : Nat)
    (hidx : idx + 1 < times.length) (hfuel : times.length ≤ fuel + idx) :
    ∃ j, advance times r fuel idx = .ok j ∧ idx ≤ j ∧ j + 1 < times.length ∧ (∀ u, times[j + 1]? = some u → r ≤ u) ∧
      (idx < j → ∀ u, times[j]? = some u → u < r) := by
  induction fuel generalizing idx with
  | zero => omega
  | succ fuel ih =>
    have e : times[idx + 1]? = some times[idx + 1] := List.getElem?_eq_getElem hidx
    rw [advance, e]
    simp only
    by_cases hgt : r > times[idx + 1]
    · rw [if_pos hgt]
      have hne : idx + 2 < times.length := by
        by_contra hc
        have hl : times.length = idx + 2 := by omega
        rw [List.getLast?_eq_getElem?, hl] at hlast
        rw [show idx + 2 - 1 = idx + 1 by omega, e] at hlast
        exact absurd (Option.some.inj hlast) (ne_of_lt (hgt.trans hr))
      rw [if_neg (by omega)]
      obtain ⟨j, h1, h2, h3, h4, h5⟩ := ih (idx + 1) hne (by omega)
      refine ⟨j, h1, by omega, h3, h4, fun _ u hu => ?_⟩
      by_cases hj : idx + 1 < j
      · exact h5 hj u hu
      · obtain rfl : j = idx + 1 := by omega
        rw [e] at hu; rw [← Option.some.inj hu]; exact hgt
    · rw [if_neg hgt]
      refine ⟨idx, rfl, le_rfl, hidx, fun u hu => ?_, fun h => absurd h (lt_irrefl _)⟩
      rw [e] at hu; rw [← Option.some.inj hu]; exact not_lt.1 hgt

/-- Reachable heat load states. -/
structure LoadOK (h : Heatload K) : Prop where
  table : ValidTable h.times h.table h.period
  idx : h.idx + 1 < h.times.length

theorem at_spec (h : Heatload K) (hk : LoadOK h) (t : K) (ht : 0 ≤ t) (fuel : Nat) (hf : h.times.length ≤ fuel) :
    ∃ j, h.idx ≤ j ∧ h.setElapsed fuel t = .ok { h with residual := fmodK t h.period, idx := j } ∧ j + 1 < h.times.length ∧
      h.at fuel t = .ok { h with residual := fmodK t h.period, idx := j, internal := line h.times h.table j (fmodK t h.period) } ∧
      (∀ u, h.times[j + 1]? = some u → fmodK t h.period ≤ u) ∧ (h.idx < j → ∀ u, h.times[j]? = some u → u < fmodK t h.period) := by
  obtain ⟨hr0, hr1, _, _⟩ := fmodK_spec t h.period ht hk.table.pos
  obtain ⟨j, h1, h2, h3, h4, h5⟩ := advance_spec h.times h.period _ hk.table.increasing hk.table.last hr1 fuel h.idx hk.idx (by omega)
  have hs : h.setElapsed fuel t = .ok { h with residual := fmodK t h.period, idx := j } := by
    simp only [Heatload.setElapsed, h1, Res.bind_ok]
  refine ⟨j, h2, hs, h3, ?_, h4, h5⟩
  have hsame := hk.table.same
  have e1 : h.times[j]? = some (h.times.getD j 0) := by rw [List.getD_eq_getElem?_getD, List.getElem?_eq_getElem (by omega)]; rfl
  have e2 : h.times[j + 1]? = some (h.times.getD (j + 1) 0) := by rw [List.getD_eq_getElem?_getD, List.getElem?_eq_getElem (by omega)]; rfl
  have e3 : h.table[j]? = some (h.table.getD j 0) := by rw [List.getD_eq_getElem?_getD, List.getElem?_eq_getElem (by omega)]; rfl
  have e4 : h.table[j + 1]? = some (h.table.getD (j + 1) 0) := by rw [List.getD_eq_getElem?_getD, List.getElem?_eq_getElem (by omega)]; rfl
  rw [Heatload.at, hs, Res.bind_ok, Heatload.calcInternal]
  simp only [e1, e2, e3, e4]
  rfl

theorem run_snoc (h : Heatload K) (fuel : Nat) (ts : List K) (t : K) : h.run fuel (ts ++ [t]) = (h.run fuel ts >>= fun g => g.at fuel t) := by
  induction ts generalizing h with
  | nil =>
    simp only [List.nil_append, Heatload.run, Res.bind_ok]
    rcases h.at fuel t with v | _ | _ | _ <;> rfl
  | cons x ts ih =>
    simp only [List.cons_append, Heatload.run]
    rcases h.at fuel x with v | _ | _ | _
    · simp only [Res.bind_ok, ih]
    · rfl
    · rfl
    · rfl

/-- **C77.** For every valid table and every history of non-negative times: evaluation terminates without leaving the table, and the value is that of the straight line through one
table interval at the time modulo the period. That interval is the furthest one any time of the history has reached so far: all residual times lie at or before its end,
and it is the first one or some residual lies beyond its start. -/
theorem C77_any_history (times table : List K) (period : K) (hT : ValidTable times table period) (ts : List K) (t : K) (hpos : ∀ x ∈ ts ++ [t], 0 ≤ x) :
    ∃ h h' j, Heatload.make times table = .ok h ∧ h.run times.length (ts ++ [t]) = .ok h' ∧ h'.idx = j ∧ j + 1 < times.length ∧
      h'.internal = line times table j (fmodK t period) ∧
      (∀ u, times[j + 1]? = some u → ∀ x ∈ ts ++ [t], fmodK x period ≤ u) ∧
      (0 < j → ∃ x ∈ ts ++ [t], ∀ u, times[j]? = some u → u < fmodK x period) := by
  have hmake : Heatload.make times table = .ok ⟨times, table, 0, 0, 0, 0, 0, 0, 0, period, fmodK 0 period⟩ := by
    unfold Heatload.make; rw [hT.last]
  -- invariant after any prefix
  have inv : ∀ ts : List K, (∀ x ∈ ts, 0 ≤ x) → ∃ g, (⟨times, table, 0, 0, 0, 0, 0, 0, 0, period, fmodK 0 period⟩ : Heatload K).run times.length ts = .ok g ∧
      g.times = times ∧ g.table = table ∧ g.period = period ∧ g.idx + 1 < times.length ∧
      (∀ u, times[g.idx + 1]? = some u → ∀ x ∈ ts, fmodK x period ≤ u) ∧
      (0 < g.idx → ∃ x ∈ ts, ∀ u, times[g.idx]? = some u → u < fmodK x period) ∧
      (∀ pre t, ts = pre ++ [t] → g.internal = line times table g.idx (fmodK t period)) := by
    intro ts
    induction ts using List.reverseRecOn with
    | nil =>
      intro _
      refine ⟨_, rfl, rfl, rfl, rfl, ?_, by simp, fun h => absurd h (lt_irrefl 0), fun pre t h => by simp at h⟩
      have := hT.two; simp only; omega
    | append_singleton ts x ih =>
      intro hp
      obtain ⟨g, h1, h2, h3, h4, h5, h6, h7, _⟩ := ih (fun y hy => hp y (by simp [hy]))
      have gok : LoadOK g := ⟨by rw [h2, h3, h4]; exact hT, by rw [h2]; exact h5⟩
      obtain ⟨j, a1, _, a3, a4, a5, a6⟩ := at_spec g gok x (hp x (by simp)) times.length (by rw [h2])
      rw [h2] at a3 a4 a5 a6
      rw [h3, h4] at a4
      rw [h4] at a5 a6
      have hle : ∀ u, times[j + 1]? = some u → ∀ v, times[g.idx + 1]? = some v → v ≤ u := by
        intro u hu v hv
        rcases Nat.eq_or_lt_of_le a1 with e | e
        · rw [e, hu] at hv; rw [Option.some.inj hv]
        · obtain ⟨b1, rfl⟩ := List.getElem?_eq_some_iff.1 hu
          obtain ⟨b2, rfl⟩ := List.getElem?_eq_some_iff.1 hv
          exact ((List.pairwise_iff_getElem.1 hT.increasing) _ _ b2 b1 (by omega)).le
      refine ⟨_, by rw [run_snoc, h1, Res.bind_ok, a4], rfl, rfl, rfl, a3, ?_, ?_, ?_⟩
      · intro u hu y hy
        rcases List.mem_append.1 hy with hy | hy
        · have hv : times[g.idx + 1]? = some times[g.idx + 1] := List.getElem?_eq_getElem h5
          exact (h6 _ hv y hy).trans (hle u hu _ hv)
        · obtain rfl : y = x := by simpa using hy
          exact a5 u hu
      · intro hj
        rcases Nat.eq_or_lt_of_le a1 with e | e
        · obtain ⟨y, hy, hyu⟩ := h7 (by rw [e]; exact hj)
          exact ⟨y, by simp [hy], fun u hu => hyu u (by rw [e]; exact hu)⟩
        · exact ⟨x, by simp, fun u hu => a6 e u hu⟩
      · intro pre t hpt
        obtain ⟨_, hx⟩ := List.append_inj' hpt rfl
        obtain rfl : x = t := by simpa using hx
        rfl
  obtain ⟨g, h1, _, _, _, h5, h6, h7, h8⟩ := inv (ts ++ [t]) hpos
  exact ⟨_, g, g.idx, hmake, h1, rfl, h5, h8 ts t rfl, h6, h7⟩

/-- **C77.** During the first period, for times that do not run backwards and do not precede the table, the heat load is the linear interpolation of the table: on whichever
table interval the time lies. -/
theorem C77_first_period (times table : List K) (period : K) (hT : ValidTable times table period) (ts : List K) (t : K) (hsorted : (ts ++ [t]).Pairwise (· ≤ ·))
    (hpos : ∀ x ∈ ts ++ [t], 0 ≤ x) (hlt : t < period) (j : Nat) (lo hi : K) (hlo : times[j]? = some lo) (hhi : times[j + 1]? = some hi) (h1 : lo ≤ t) (h2 : t ≤ hi) :
    ∃ h h', Heatload.make times table = .ok h ∧ h.run times.length (ts ++ [t]) = .ok h' ∧
      h'.internal = table.getD j 0 + (t - lo) / (hi - lo) * (table.getD (j + 1) 0 - table.getD j 0) := by
  obtain ⟨h, h', k, e1, e2, _, e4, e5, e6, e7⟩ := C77_any_history times table period hT ts t hpos
  refine ⟨h, h', e1, e2, ?_⟩
  have hle : ∀ x ∈ ts ++ [t], x ≤ t := by
    intro x hx
    rcases List.mem_append.1 hx with hx | hx
    · exact (List.pairwise_append.1 hsorted).2.2 x hx t (by simp)
    · obtain rfl : x = t := by simpa using hx
      exact le_rfl
  have hres : ∀ x ∈ ts ++ [t], fmodK x period = x := fun x hx => (fmodK_spec x period (hpos x hx) hT.pos).2.2.1 (lt_of_le_of_lt (hle x hx) hlt)
  rw [hres t (by simp)] at e5
  have hk1 : times[k + 1]? = some times[k + 1] := List.getElem?_eq_getElem e4
  have hk0 : times[k]? = some times[k] := List.getElem?_eq_getElem (by omega)
  have hub : t ≤ times[k + 1] := by have := e6 _ hk1 t (by simp); rwa [hres t (by simp)] at this
  have hlb : 0 < k → times[k] < t := by
    intro hk
    obtain ⟨x, hx, hxu⟩ := e7 hk
    have := hxu _ hk0
    rw [hres x hx] at this
    exact lt_of_lt_of_le this (hle x hx)
  obtain ⟨bj, rfl⟩ := List.getElem?_eq_some_iff.1 hlo
  obtain ⟨bj1, rfl⟩ := List.getElem?_eq_some_iff.1 hhi
  have mono : ∀ a b (ha : a < times.length) (hb : b < times.length), a < b → times[a] < times[b] := fun a b ha hb hab =>
    (List.pairwise_iff_getElem.1 hT.increasing) a b ha hb hab
  have gd : ∀ a (ha : a < times.length), times.getD a 0 = times[a] := by
    intro a ha; rw [List.getD_eq_getElem?_getD, List.getElem?_eq_getElem ha]; rfl
  rw [e5, line, gd k (by omega), gd (k + 1) e4]
  rcases Nat.lt_trichotomy j k with hjk | rfl | hjk
  · -- t at the upper end of interval j would lie at or below times[k] < t
    have hk := hlb (by omega)
    rcases Nat.eq_or_lt_of_le (show j + 1 ≤ k by omega) with e | e
    · subst e; exact absurd h2 (not_le.2 hk)
    · exact absurd (h2.trans (mono _ _ bj1 (by omega) e).le) (not_le.2 hk)
  · rfl
  · -- k < j: t is at most times[k+1] ≤ times[j] ≤ t, so all are equal
    rcases Nat.eq_or_lt_of_le (show k + 1 ≤ j by omega) with e | e
    · subst e
      have ht : t = times[k + 1] := le_antisymm hub h1
      have hne : times[k + 1] - times[k] ≠ 0 := sub_ne_zero.2 (mono k (k + 1) (by omega) e4 (by omega)).ne'
      rw [ht]
      simp [div_self hne]
    · exact absurd (h1.trans hub) (not_le.2 (mono _ _ e4 bj e))

/-- **C77.** The interval index is never reset when the period ends: with the table of the file-format comment in heatload.cpp, after 450 s the load at 510 s (10 s into the second
period, where the table says 10 W) is computed as -4.5 W. -/
theorem C77_second_period_wrong :
    ∃ h h' : Heatload ℚ, Heatload.make [0, 99, 100, 300, 500] [10, 10, 20, 10, 20] = .ok h ∧ h.run 5 [450, 510] = .ok h' ∧ h'.internal = -9 / 2 ∧
      (h.run 5 [10]).bind (fun g => .ok g.internal) = .ok 10 := by
  refine ⟨⟨[0, 99, 100, 300, 500], [10, 10, 20, 10, 20], 0, 0, 0, 0, 0, 0, 0, 500, 0⟩,
    ⟨[0, 99, 100, 300, 500], [10, 10, 20, 10, 20], 3, 0, 0, 0, -9 / 2, 0, 0, 500, 10⟩, ?_, ?_, rfl, ?_⟩ <;> decide +kernel

/-- **C77.** A table with a single time is read out of range at the first use. -/
theorem C77_single_entry (p w : K) (fuel : Nat) (t : K) :
    ∃ h, Heatload.make [p] [w] = .ok h ∧ h.at (fuel + 1) t = .ub := by
  refine ⟨_, rfl, ?_⟩
  simp [Heatload.at, Heatload.setElapsed, advance]

example : ValidTable ([0, 99, 100, 300, 500] : List ℚ) [10, 10, 20, 10, 20] 500 := ⟨by decide, by decide, by decide +kernel, by decide, by norm_num⟩
example : ∃ h h' : Heatload ℚ, Heatload.make [0, 99, 100, 300, 500] [10, 10, 20, 10, 20] = .ok h ∧ h.run 5 ([50] ++ [200]) = .ok h' ∧ h'.internal = 15 := by
  obtain ⟨h, h', e1, e2, e3⟩ := C77_first_period (K := ℚ) [0, 99, 100, 300, 500] [10, 10, 20, 10, 20] 500
    ⟨by decide, by decide, by decide +kernel, by decide, by norm_num⟩ [50] 200 (by decide +kernel) (by decide +kernel) (by norm_num) 2 100 300 rfl rfl (by norm_num) (by norm_num)
  refine ⟨h, h', e1, e2, ?_⟩
  rw [e3]; decide +kernel

end S2E.Thermal
