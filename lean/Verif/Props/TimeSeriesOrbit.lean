import Verif.Model.TimeSeriesOrbit
import Verif.Props.InterpolationWindow
/-!
# C99: orbit from a time series file

Specification: `T c j` is the time of row `j`; the window at `k` is the `n` rows from row `k` on. `Fits` describes the curve through a
window: polynomials of degree below `n`, or, for method 1, trigonometric polynomials of degree at most `(n - 1) / 2` and the given period.
-/
namespace S2E.TimeSeries
open Interp Polynomial

/-- The time of row `j`. -/
noncomputable def T (c : Config) (j : ℕ) : ℝ := (c.rows.map Row.time).getD j 0

/-- The `n` rows from row `k` on. -/
def window (c : Config) (k : ℕ) : List Row := (c.rows.drop k).take c.number

/-- `g` is the curve of the configured kind through the column triple `f` of the window at `k`. -/
def Fits (c : Config) (k : ℕ) (f : Row → Fin 3 → ℝ) (g : ℝ → Fin 3 → ℝ) : Prop :=
  (∀ i, if c.method = 1 then TrigPoly ((c.number - 1) / 2) (2 * Real.pi / c.period) (fun t => g t i)
    else ∃ P : ℝ[X], P.degree < c.number ∧ ∀ t, g t i = P.eval t) ∧
  ∀ r ∈ window c k, ∀ i, g r.time i = f r i

/-- The rows are in order, strictly increasing in time. -/
def Increasing (c : Config) : Prop := (c.rows.map Row.time).Pairwise (· < ·)

theorem T_eq {c : Config} {j : ℕ} (h : j < c.rows.length) : T c j = c.rows[j].time := by
  simp [T, List.getD_eq_getElem?_getD, h]

theorem Increasing.lt {c : Config} (h : Increasing c) {i j : ℕ} (hij : i < j) (hj : j < c.rows.length) : T c i < T c j := by
  have := List.pairwise_iff_getElem.1 h i j (by simp; omega) (by simp; omega) hij
  rw [T_eq hj, T_eq (by omega)]
  simpa using this

theorem Increasing.le {c : Config} (h : Increasing c) {i j : ℕ} (hij : i ≤ j) (hj : j < c.rows.length) : T c i ≤ T c j := by
  rcases Nat.lt_or_eq_of_le hij with h' | rfl
  · exact (h.lt h' hj).le
  · exact le_rfl

/-- An interpolation object holds the rows `L`. -/
structure Holds (n : ℕ) (L : List Row) (f : Row → Fin 3 → ℝ) (ref : ℝ) (o : Orbit ℝ) : Prop where
  inv : OrbitInv n o
  times : timeList o = L.map fun r => r.time - ref
  values : ∀ i, (o.axis i).ys = L.map fun r => f r i

theorem Holds.length {n : ℕ} {L : List Row} {f : Row → Fin 3 → ℝ} {ref : ℝ} {o : Orbit ℝ} (h : Holds n L f ref o) : L.length = n := by
  have := (h.inv.wf 0).1.trans (h.inv.deg 0)
  rw [h.inv.times, h.times] at this
  simpa using this

theorem push_holds {n : ℕ} (hn : 0 < n) {L : List Row} {f : Row → Fin 3 → ℝ} {ref : ℝ} {o : Orbit ℝ} (h : Holds n L f ref o) {q r : Row}
    (hq : L.getLast? = some q) (hlt : q.time < r.time) :
    ∃ o', pushAndPopOrbit o (r.time - ref) (f r) = .ok (true, o') ∧ Holds n (L.tail ++ [r]) f ref o' := by
  obtain ⟨last, hlast, -, h2⟩ := C88_orbit_push n hn o h.inv (r.time - ref) (f r)
  have hl : q.time - ref = last := by
    rw [h.times, List.getLast?_map, hq] at hlast
    simpa using hlast
  obtain ⟨o', e, hi, ht, hy⟩ := h2 (by linarith)
  have hne : L ≠ [] := by rintro rfl; simp at hq
  have hdrop : ∀ {α : Type} (g : Row → α), (L.map g ++ [g r]).drop 1 = (L.tail ++ [r]).map g := by
    intro α g
    cases L with
    | nil => exact absurd rfl hne
    | cons a l => simp
  refine ⟨o', e, hi, ?_, fun i => ?_⟩
  · rw [ht, h.times]; exact hdrop fun r => r.time - ref
  · rw [hy, h.values]; exact hdrop fun r => f r i

theorem row_ok {c : Config} {j : ℕ} (h : j < c.rows.length) : row c j = .ok c.rows[j] := by
  simp [row, h]

theorem time_ok {c : Config} {j : ℕ} (h : j < c.rows.length) : ephemerisTimeData c j = .ok (T c j) := by
  rw [ephemerisTimeData, if_neg (by omega), List.getElem?_eq_getElem h, T_eq h]

theorem time_ub (c : Config) : ephemerisTimeData c c.rows.length = .ub := by
  simp [ephemerisTimeData]

theorem update_ub {c : Config} {s : State} (h : s.id = c.rows.length) : updateInformation c s = .ub := by
  rw [updateInformation, h, time_ub]; rfl

theorem update_step {c : Config} (hn : 0 < c.number) {s : State} {L : List Row} (h : s.id < c.rows.length)
    (hp : Holds c.number L Row.position s.ref s.positions) (hv : Holds c.number L Row.velocity s.ref s.velocities) {q : Row}
    (hq : L.getLast? = some q) (hlt : q.time < T c s.id) :
    ∃ s', updateInformation c s = .ok s' ∧ s'.id = s.id + 1 ∧ s'.ref = s.ref ∧ s'.enabled = s.enabled ∧
      Holds c.number (L.tail ++ [c.rows[s.id]]) Row.position s.ref s'.positions ∧
      Holds c.number (L.tail ++ [c.rows[s.id]]) Row.velocity s.ref s'.velocities := by
  rw [T_eq h] at hlt
  obtain ⟨p, ep, hp'⟩ := push_holds hn hp hq hlt
  obtain ⟨v, ev, hv'⟩ := push_holds hn hv hq hlt
  refine ⟨{ s with
        position := fun i => some (c.rows[s.id].position i)
        velocity := fun i => some (c.rows[s.id].velocity i)
        positions := p
        velocities := v
        id := s.id + 1 }, by
    simp only [updateInformation, time_ok h, T_eq h, Res.bind_ok, if_neg (not_le.2 h), row_ok h, ep, ev], rfl, rfl, rfl, hp', hv'⟩

theorem shift_window {α : Type} (l : List α) (i n : ℕ) (hn : 0 < n) (h : i + n < l.length) :
    (l.drop (i + 1)).take n = ((l.drop i).take n).tail ++ [l[i + n]] := by
  apply List.ext_getElem
  · simp; omega
  · intro j h1 h2
    simp only [List.length_take, List.length_drop] at h1
    rw [List.getElem_append]
    split
    · simp; congr 1; omega
    · rename_i h3
      simp only [List.length_tail, List.length_take, List.length_drop] at h3
      simp
      congr 1; omega

theorem last_window {α : Type} (l : List α) (i n : ℕ) (hn : 0 < n) (h : i + n ≤ l.length) :
    ((l.drop i).take n).getLast? = some (l[i + n - 1]) := by
  rw [List.getLast?_eq_getElem?, List.getElem?_eq_getElem (by simp; omega)]
  simp only [List.length_take, List.length_drop, List.getElem_take, List.getElem_drop]
  congr 2
  omega

/-- The window stands at row `k`; `k₀` is the row whose time is the reference time. -/
structure At (c : Config) (k₀ k : ℕ) (s : State) : Prop where
  ref : s.ref = T c k₀
  le : k₀ ≤ k
  room : k + c.number ≤ c.rows.length
  id : s.id = k + c.number
  pos : Holds c.number (window c k) Row.position (T c k₀) s.positions
  vel : Holds c.number (window c k) Row.velocity (T c k₀) s.velocities

theorem At.of_eq {c : Config} {k₀ k : ℕ} {s s' : State} (h : At c k₀ k s) (h1 : s'.ref = s.ref) (h2 : s'.id = s.id)
    (h3 : s'.positions = s.positions) (h4 : s'.velocities = s.velocities) : At c k₀ k s' :=
  ⟨h1.trans h.ref, h.le, h.room, h2.trans h.id, h3 ▸ h.pos, h4 ▸ h.vel⟩

theorem At.next {c : Config} (hn : 0 < c.number) (hinc : Increasing c) {k₀ k : ℕ} {s : State} (h : At c k₀ k s)
    (hk : k + c.number < c.rows.length) : ∃ s', updateInformation c s = .ok s' ∧ At c k₀ (k + 1) s' ∧ s'.enabled = s.enabled := by
  have hid : s.id < c.rows.length := by rw [h.id]; exact hk
  obtain ⟨s', e, i, r, en, p, v⟩ := update_step hn hid (by rw [h.ref]; exact h.pos) (by rw [h.ref]; exact h.vel)
    (last_window c.rows k c.number hn (by omega)) (by
      rw [← T_eq]
      exact hinc.lt (by rw [h.id]; omega) hid)
  refine ⟨s', e, ⟨r.trans h.ref, by have := h.le; omega, by omega, by rw [i, h.id]; omega, ?_, ?_⟩, en⟩
  · rw [window, shift_window _ _ _ hn hk, ← h.ref]
    simp only [h.id] at p
    exact p
  · rw [window, shift_window _ _ _ hn hk, ← h.ref]
    simp only [h.id] at v
    exact v

/-! ## Evaluating the interpolation -/

theorem window_times {c : Config} (hinc : Increasing c) (k : ℕ) : ((window c k).map Row.time).Pairwise (· < ·) := by
  rw [window, List.map_take, List.map_drop]
  exact List.Pairwise.sublist ((List.take_sublist _ _).trans (List.drop_sublist _ _)) hinc

theorem holds_new {n : ℕ} {L : List Row} {f : Row → Fin 3 → ℝ} {ref : ℝ} {o : Orbit ℝ} (h : Holds n L f ref o) (i : Fin 3) (g : ℝ → ℝ)
    (hg : ∀ r ∈ L, g r.time = f r i) :
    o.axis i = new (L.map fun r => r.time - ref) ((L.map fun r => r.time - ref).map fun t => g (t + ref)) := by
  have hx : (o.axis i).xs = L.map fun r => r.time - ref := (h.inv.times i).trans h.times
  have hy : (o.axis i).ys = (L.map fun r => r.time - ref).map fun t => g (t + ref) := by
    rw [h.values, List.map_map]
    refine List.map_congr_left fun r hr => ?_
    simp [hg r hr]
  have hd := h.inv.deg i
  have hl : (L.map fun r => r.time - ref).length = n := by simp [h.length]
  cases hc : o.axis i with
  | mk a b d =>
    rw [hc] at hx hy hd
    simp only at hx hy hd
    rw [new, hx, hy, hd, hl]

theorem trigPoly_shift {m : ℕ} {w : ℝ} {g : ℝ → ℝ} (h : TrigPoly m w g) (ref : ℝ) : TrigPoly m w fun t => g (t + ref) := by
  obtain ⟨a, b, h⟩ := h
  refine ⟨fun k => a k * Real.cos (k * (w * ref)) + b k * Real.sin (k * (w * ref)),
    fun k => b k * Real.cos (k * (w * ref)) - a k * Real.sin (k * (w * ref)), fun x => ?_⟩
  simp only [h]
  refine Finset.sum_congr rfl fun k _ => ?_
  rw [show (k : ℝ) * (w * (x + ref)) = k * (w * x) + k * (w * ref) by ring, Real.cos_add, Real.sin_add]
  ring

/-- Whatever curve of the configured kind passes through the window is the one that is evaluated. -/
theorem interpolate_fits {c : Config} (hn : 0 < c.number) (hinc : Increasing c) (k : ℕ) (hk : k + c.number ≤ c.rows.length)
    (hper : c.method = 1 → T c (k + c.number - 1) - T c k < c.period) {f : Row → Fin 3 → ℝ}
    {ref : ℝ} {o : Orbit ℝ} (h : Holds c.number (window c k) f ref o) {g : ℝ → Fin 3 → ℝ} (hg : Fits c k f g) (t : ℝ) :
    interpolate c o (t - ref) = .ok fun i => some (g t i) := by
  have hlen := h.length
  have hpw := window_times hinc k
  have hnd : ((window c k).map fun r => r.time - ref).Nodup := by
    rw [show (fun r : Row => r.time - ref) = (fun x => x - ref) ∘ Row.time from rfl, ← List.map_map]
    exact ((List.pairwise_map.2 (hpw.imp fun {a b} (h : a < b) => sub_lt_sub_right h ref))).imp fun h => ne_of_lt h
  have hne : ((window c k).map fun r => r.time - ref) ≠ [] := by
    intro h0
    have := congrArg List.length h0
    rw [List.length_map, hlen] at this
    simp at this; omega
  have hl : ((window c k).map fun r => r.time - ref).length = c.number := by simp [hlen]
  have fin : ∀ (F : Fin 3 → Res (Option ℝ)), (∀ i, F i = .ok (some (g t i))) → three F = .ok fun i => some (g t i) := by
    intro F hF
    simp only [three, hF, Res.bind_ok, Res.ok.injEq]
    funext i
    fin_cases i <;> rfl
  have poly : c.method ≠ 1 → positionPolynomial o (t - ref) = .ok fun i => some (g t i) := by
    intro hm
    refine fin _ fun i => ?_
    have h1 := hg.1 i
    rw [if_neg hm] at h1
    obtain ⟨P, hP, hPe⟩ := h1
    rw [holds_new h i (fun t => g t i) fun r hr => hg.2 r hr i]
    have := C86_reproduces (P.comp (X + C ref)) _ hnd hne (by
      rw [hl]
      refine lt_of_le_of_lt ?_ hP
      by_cases h0 : P = 0
      · simp [h0]
      · rw [Polynomial.degree_eq_natDegree h0]
        refine Polynomial.degree_le_of_natDegree_le ?_
        rw [Polynomial.natDegree_comp, Polynomial.natDegree_X_add_C, mul_one]) (t - ref)
    simp only [Polynomial.eval_comp, Polynomial.eval_add, Polynomial.eval_X, Polynomial.eval_C, ← hPe, sub_add_cancel] at this
    exact this
  unfold interpolate
  split
  · rename_i h0
    exact poly (by rw [h0]; decide)
  · split
    · rename_i hm
      have hw : 0 < c.period := by
        have h1 := hper hm
        have h2 := hinc.le (i := k) (j := k + c.number - 1) (by omega) (by omega)
        linarith
      refine fin _ fun i => ?_
      have h1 := hg.1 i
      rw [if_pos hm] at h1
      rw [holds_new h i (fun t => g t i) fun r hr => hg.2 r hr i]
      have := C87_reproduces (2 * Real.pi / c.period) _ hne (fun t => g (t + ref) i) (by
        rw [hl]; exact trigPoly_shift h1 ref) (by
        refine separated_of_close (by have := Real.pi_pos; positivity) (injOn_of_nodup hnd) ?_
        intro a ha b hb
        rw [hl] at ha hb
        have ha := Finset.mem_range.1 ha
        have hb := Finset.mem_range.1 hb
        rw [div_div_cancel₀ (by have := Real.pi_pos; positivity)]
        have hget : ∀ m, m < c.number → ((window c k).map fun r => r.time - ref).getD m 0 = T c (k + m) - ref := by
          intro m hm
          rw [T_eq (by omega)]
          simp [window, List.getD_eq_getElem?_getD, hm, show k + m < c.rows.length by omega]
        simp only [hget a ha, hget b hb]
        have h1 := hinc.le (i := k + a) (j := k + c.number - 1) (by omega) (by omega)
        have h2 := hinc.le (i := k) (j := k + b) (by omega) (by omega)
        have h3 := hper hm
        linarith) (t - ref)
      simp only [sub_add_cancel] at this
      exact this
    · rename_i hm
      exact poly hm

/-- The evaluation itself is always defined. -/
theorem interpolate_ok {c : Config} (hn : 0 < c.number) {L : List Row} {f : Row → Fin 3 → ℝ} {ref : ℝ} {o : Orbit ℝ}
    (h : Holds c.number L f ref o) (x : ℝ) : ∃ p, interpolate c o x = .ok p := by
  have hx : ∀ i, (o.axis i).xs.length = (o.axis i).degree ∧ (o.axis i).ys.length = (o.axis i).degree ∧ (o.axis i).xs ≠ [] := fun i => by
    refine ⟨(h.inv.wf i).1, (h.inv.wf i).2, fun h0 => ?_⟩
    have := (h.inv.wf i).1
    rw [h0, h.inv.deg] at this
    simp at this; omega
  have poly : ∀ i, ∃ y, calcPolynomial (o.axis i) x = .ok y := fun i => by
    obtain ⟨h1, h2, h3⟩ := hx i
    unfold calcPolynomial
    rw [if_neg (by simp [h3]; omega)]
    exact ⟨_, rfl⟩
  have trig : ∀ i, ∃ y, calcTrigonometric (o.axis i) x (2 * Real.pi / c.period) = .ok y := fun i => by
    obtain ⟨h1, h2, h3⟩ := hx i
    have := (trigRange_card (o.axis i) (by rw [h.inv.deg]; exact hn) x).2
    unfold calcTrigonometric
    simp only
    rw [if_neg (by simp [h3]; omega)]
    exact ⟨_, rfl⟩
  have fin : ∀ F : Fin 3 → Res (Option ℝ), (∀ i, ∃ y, F i = .ok y) → ∃ p, three F = .ok p := by
    intro F hF
    obtain ⟨a, ha⟩ := hF 0
    obtain ⟨b, hb⟩ := hF 1
    obtain ⟨d, hd⟩ := hF 2
    exact ⟨![a, b, d], by simp only [three, ha, hb, hd, Res.bind_ok]⟩
  unfold interpolate
  split
  · exact fin _ poly
  · split
    · exact fin _ trig
    · exact fin _ poly

theorem window_get {c : Config} {k j : ℕ} (hj : j < c.number) (hk : k + c.number ≤ c.rows.length) :
    (window c k)[j]? = some (c.rows[k + j]) := by
  simp [window, hj, show k + j < c.rows.length by omega]

theorem At.medium {c : Config} {k₀ k : ℕ} {s : State} (h : At c k₀ k s) {j : ℕ} (hj : j < c.number) :
    (timeList s.positions)[j]? = some (T c (k + j) - T c k₀) := by
  have hr := h.room
  rw [h.pos.times, List.getElem?_map, window_get hj h.room, T_eq (j := k + j) (by omega)]; rfl

/-! ## The properties -/

/-- **C99 (where the window starts).** The search returns the first row later than the current time, and row 0 if there is none. -/
theorem C99_search (c : Config) (jd : ℝ) :
    ((∀ j < c.rows.length, T c j ≤ ephemerisTime jd) → searchNearest c jd = 0) ∧
    ∀ j < c.rows.length, ephemerisTime jd < T c j → (∀ i < j, T c i ≤ ephemerisTime jd) → searchNearest c jd = j := by
  have key : ∀ (l : List Row) (i : ℕ), ((∀ r ∈ l, r.time ≤ ephemerisTime jd) → searchLoop (ephemerisTime jd) l i = 0) ∧
      ∀ j (hj : j < l.length), ephemerisTime jd < l[j].time → (∀ k (hk : k < j), l[k].time ≤ ephemerisTime jd) →
        searchLoop (ephemerisTime jd) l i = i + j := by
    intro l
    induction l with
    | nil => intro i; exact ⟨fun _ => rfl, fun j hj => by simp at hj⟩
    | cons r l ih =>
      intro i
      refine ⟨fun h => ?_, fun j hj h1 h2 => ?_⟩
      · rw [searchLoop, if_neg (not_lt.2 (h r (by simp)))]
        exact (ih (i + 1)).1 fun r hr => h r (by simp [hr])
      · cases j with
        | zero => rw [searchLoop, if_pos (by simpa using h1)]; rfl
        | succ j =>
          have h0 := h2 0 (by omega)
          simp only [List.getElem_cons_zero] at h0
          rw [searchLoop, if_neg (not_lt.2 h0)]
          have := (ih (i + 1)).2 j (by simpa using hj) (by simpa using h1) fun k hk => by
            have := h2 (k + 1) (by omega)
            simpa using this
          omega
  obtain ⟨k1, k2⟩ := key c.rows 0
  refine ⟨fun h => k1 fun r hr => ?_, fun j hj h1 h2 => ?_⟩
  · obtain ⟨j, hj, rfl⟩ := List.mem_iff_getElem.1 hr
    rw [← T_eq hj]; exact h j hj
  · have := k2 j hj (by rw [← T_eq hj]; exact h1) fun i hi => by rw [← T_eq]; exact h2 i hi
    rw [searchNearest, this]; omega

/-- **C99 (too few points).** With fewer than two interpolation points construction reads outside the list of times. -/
theorem C99_too_few (c : Config) (jd : ℝ) (h : c.number < 2) (hinc : Increasing c) : construct c jd = .ub := by
  have hsearch : searchNearest c jd ≤ c.rows.length - 1 := by
    obtain ⟨h1, h2⟩ := C99_search c jd
    by_cases hall : ∀ j < c.rows.length, T c j ≤ ephemerisTime jd
    · rw [h1 hall]; omega
    · push Not at hall
      obtain ⟨j, hj, hjt⟩ := hall
      classical
      have hex : ∃ j, j < c.rows.length ∧ ephemerisTime jd < T c j := ⟨j, hj, hjt⟩
      obtain ⟨a, b⟩ := Nat.find_spec hex
      rw [h2 _ a b fun i hi => by
        have := Nat.find_min hex hi
        push Not at this
        exact this (by omega)]
      omega
  have hhalf : c.number / 2 = 0 := by omega
  simp only [construct, hhalf, ge_iff_le, Nat.zero_le, if_true, Nat.sub_zero]
  rcases Nat.eq_zero_or_pos c.rows.length with h0 | h0
  · have : ephemerisTimeData c (searchNearest c jd) = .ub := by
      have := time_ub c
      rwa [h0, show (0 : ℕ) = searchNearest c jd by omega] at this
    rw [this]; rfl
  · rw [time_ok (by omega)]
    simp only [Res.bind_ok]
    obtain hn | hn : c.number = 0 ∨ c.number = 1 := by omega
    all_goals rw [hn]
    · simp only [updateTimes, Res.bind_ok, propagate, hn]
      rw [if_neg (by decide)]
      simp only [timeList, newOrbit, new, List.replicate_zero, List.getElem?_nil, Res.bind_ub]
    · obtain ⟨s', e, -, -, en, hp, -⟩ := update_step (c := c) (by omega)
        (s := { id := searchNearest c jd, ref := T c (searchNearest c jd), positions := newOrbit 1, velocities := newOrbit 1,
                position := fun _ => some 0, velocity := fun _ => some 0, enabled := true })
        (L := [⟨T c (searchNearest c jd) - 1, 0, 0⟩]) (by simp only; omega)
        (by
          rw [hn]
          exact ⟨newOrbit_inv 1, by simp [timeList, newOrbit, new], fun i => by simp [newOrbit, new]⟩)
        (by
          rw [hn]
          exact ⟨newOrbit_inv 1, by simp [timeList, newOrbit, new], fun i => by simp [newOrbit, new]⟩) rfl (by simp)
      simp only [updateTimes, e, Res.bind_ok, propagate, hn]
      rw [if_neg (by rw [en]; simp)]
      have : (timeList s'.positions)[(1 + 1) / 2]? = none := by
        rw [hp.times]; simp
      rw [this]; rfl

/-- The object after its first `n` rows have been entered. -/
theorem updateTimes_at {c : Config} (hn : 0 < c.number) (hinc : Increasing c) (k₀ : ℕ) :
    (k₀ + c.number ≤ c.rows.length → ∃ s, updateTimes c c.number
      { id := k₀, ref := T c k₀, positions := newOrbit c.number, velocities := newOrbit c.number,
        position := fun _ => some 0, velocity := fun _ => some 0, enabled := true } = .ok s ∧ At c k₀ k₀ s ∧ s.enabled = true) ∧
    (k₀ < c.rows.length → c.rows.length < k₀ + c.number → updateTimes c c.number
      { id := k₀, ref := T c k₀, positions := newOrbit c.number, velocities := newOrbit c.number,
        position := fun _ => some 0, velocity := fun _ => some 0, enabled := true } = .ub) := by
  set s0 : State := { id := k₀, ref := T c k₀, positions := newOrbit c.number, velocities := newOrbit c.number,
                        position := fun _ => some 0, velocity := fun _ => some 0, enabled := true } with hs0
  set fake : Row := ⟨T c k₀ - 1, 0, 0⟩ with hfake
  set all := List.replicate c.number fake ++ c.rows.drop k₀ with hall
  have hlen : all.length = c.number + (c.rows.length - k₀) := by simp [hall]
  have hget : ∀ i (h : i < c.rows.length - k₀), all[i + c.number]'(by omega) = c.rows[k₀ + i] := fun i h => by
    simp only [hall]
    rw [List.getElem_append_right (by simp)]
    simp
  have main : ∀ (j i : ℕ) (s : State), s.id = k₀ + i → s.ref = T c k₀ → s.enabled = true →
      Holds c.number ((all.drop i).take c.number) Row.position (T c k₀) s.positions →
      Holds c.number ((all.drop i).take c.number) Row.velocity (T c k₀) s.velocities →
      k₀ + i ≤ c.rows.length →
      (k₀ + i + j ≤ c.rows.length → ∃ s', updateTimes c j s = .ok s' ∧ s'.id = k₀ + i + j ∧ s'.ref = T c k₀ ∧ s'.enabled = true ∧
        Holds c.number ((all.drop (i + j)).take c.number) Row.position (T c k₀) s'.positions ∧
        Holds c.number ((all.drop (i + j)).take c.number) Row.velocity (T c k₀) s'.velocities) ∧
      (c.rows.length < k₀ + i + j → updateTimes c j s = .ub) := by
    intro j
    induction j with
    | zero =>
      intro i s h1 h2 h3 h4 h5 h6
      exact ⟨fun _ => ⟨s, rfl, h1, h2, h3, h4, h5⟩, fun h => by omega⟩
    | succ j ih =>
      intro i s h1 h2 h3 h4 h5 h6
      rcases Nat.lt_or_ge (k₀ + i) c.rows.length with hlt | hge
      · have hq := last_window all i c.number hn (by omega)
        obtain ⟨s', e, a1, a2, a3, a4, a5⟩ := update_step hn (s := s) (by omega) (by rw [h2]; exact h4) (by rw [h2]; exact h5) hq (by
          rw [h1]
          rcases Nat.eq_zero_or_pos i with rfl | hi
          · have : all[0 + c.number - 1]'(by omega) = fake := by
              simp only [hall]
              rw [List.getElem_append_left (by simp; omega)]
              simp
            rw [this, hfake]; simp
          · have e1 : all[i + c.number - 1]'(by omega) = c.rows[k₀ + (i - 1)]'(by omega) := by
              rw [← hget (i - 1) (by omega)]
              congr 1; omega
            rw [e1, ← T_eq]
            exact hinc.lt (by omega) hlt)
        have e2 : (all.drop (i + 1)).take c.number = ((all.drop i).take c.number).tail ++ [c.rows[s.id]'(by omega)] := by
          rw [shift_window _ _ _ hn (by omega), hget i (by omega)]
          simp only [h1]
        rw [h2, ← e2] at a4 a5
        obtain ⟨b1, b2⟩ := ih (i + 1) s' (by omega) (a2.trans h2) (a3.trans h3) a4 a5 (by omega)
        simp only [updateTimes, e, Res.bind_ok]
        rw [show k₀ + i + (j + 1) = k₀ + (i + 1) + j by omega, show i + (j + 1) = i + 1 + j by omega]
        exact ⟨b1, b2⟩
      · refine ⟨fun h => by omega, fun h => ?_⟩
        simp only [updateTimes]
        rw [update_ub (by omega)]; rfl
  have hinit : ∀ f : Row → Fin 3 → ℝ, (∀ i, f fake i = 0) → Holds c.number ((all.drop 0).take c.number) f (T c k₀) (newOrbit c.number) := by
    intro f hf
    have : (all.drop 0).take c.number = List.replicate c.number fake := by simp [hall]
    rw [this]
    refine ⟨newOrbit_inv _, ?_, fun i => ?_⟩
    · simp [timeList, newOrbit, new, hfake]
    · simp [newOrbit, new, hf i]
  constructor
  · intro h
    obtain ⟨s', e, a1, a2, a3, a4, a5⟩ := (main c.number 0 s0 rfl rfl rfl (hinit Row.position fun i => rfl) (hinit Row.velocity fun i => rfl) (by omega)).1
      (by omega)
    have hw : (all.drop (0 + c.number)).take c.number = window c k₀ := by
      simp [hall, window]
    rw [hw] at a4 a5
    exact ⟨s', e, ⟨a2, le_rfl, h, by omega, a4, a5⟩, a3⟩
  · intro h0 h
    exact (main c.number 0 s0 rfl rfl rfl (hinit Row.position fun i => rfl) (hinit Row.velocity fun i => rfl) (by omega)).2 (by omega)

/-- **C99 (construction).** Let `k₀` be the row `n / 2` before the first row later than the start (row 0 if there are not so many rows).
If there are `n` rows from there on, the window stands there; otherwise (a start in the last `n - n / 2` rows, or a file shorter than `n`)
construction reads behind the file. -/
theorem C99_construct (c : Config) (hn : 2 ≤ c.number) (hinc : Increasing c) (jd : ℝ) :
    (searchNearest c jd - c.number / 2 + c.number ≤ c.rows.length →
      ∃ s, At c (searchNearest c jd - c.number / 2) (searchNearest c jd - c.number / 2) s ∧ s.enabled = true ∧
        construct c jd = (propagate c s jd).bind fun s => .ok { s with enabled := false }) ∧
    (c.rows.length < searchNearest c jd - c.number / 2 + c.number → construct c jd = .ub) := by
  have hid : (if searchNearest c jd ≥ c.number / 2 then searchNearest c jd - c.number / 2 else 0) = searchNearest c jd - c.number / 2 := by
    split <;> omega
  obtain ⟨h1, h2⟩ := updateTimes_at (c := c) (by omega) hinc (searchNearest c jd - c.number / 2)
  simp only [construct, hid]
  constructor
  · intro h
    obtain ⟨s, e, ha, he⟩ := h1 h
    refine ⟨s, ha, he, ?_⟩
    rw [time_ok (by omega)]
    simp only [Res.bind_ok, e]
    rfl
  · intro h
    rcases lt_trichotomy (searchNearest c jd - c.number / 2) c.rows.length with hlt | heq | hgt
    · rw [time_ok hlt]
      simp only [Res.bind_ok, h2 hlt h]
      rfl
    · rw [heq, time_ub]; rfl
    · exfalso
      obtain ⟨k1, k2⟩ := C99_search c jd
      by_cases hall : ∀ j < c.rows.length, T c j ≤ ephemerisTime jd
      · rw [k1 hall] at hgt; omega
      · push Not at hall
        classical
        have hex : ∃ j, j < c.rows.length ∧ ephemerisTime jd < T c j := hall
        obtain ⟨a, b⟩ := Nat.find_spec hex
        rw [k2 _ a b fun i hi => by
          have := Nat.find_min hex hi
          push Not at this
          exact this (by omega)] at hgt
        omega

/-- **C99 (one update).** With the window at row `k`: a disabled object does nothing. Otherwise the window moves on by one row exactly if
the time is later than the window's middle row (number `(n + 1) / 2`); if the file has no further row then the update reads behind it. Before
the reference row the first row of the file is reported; more than 10⁶ s after it, or as soon as the window includes the last row of the file, the
last row of the file; otherwise the curve through the rows of the window. -/
theorem C99_propagate (c : Config) (hn : 2 ≤ c.number) (hinc : Increasing c) (k₀ k : ℕ) (s : State) (h : At c k₀ k s) (jd : ℝ) :
    (s.enabled = false → propagate c s jd = .ok s) ∧
    (s.enabled = true → k + c.number = c.rows.length → T c (k + (c.number + 1) / 2) < ephemerisTime jd → propagate c s jd = .ub) ∧
    (s.enabled = true → ∀ k', k' = (if T c (k + (c.number + 1) / 2) < ephemerisTime jd then k + 1 else k) → k' + c.number ≤ c.rows.length →
      ∃ s', propagate c s jd = .ok s' ∧ At c k₀ k' s' ∧ s'.enabled = true ∧
        (ephemerisTime jd < T c k₀ → ∀ r, c.rows.head? = some r → ∀ i, s'.position i = some (r.position i) ∧ s'.velocity i = some (r.velocity i)) ∧
        (T c k₀ ≤ ephemerisTime jd → (T c k₀ + 1000000 < ephemerisTime jd ∨ k' + c.number = c.rows.length) →
          ∀ r, c.rows.getLast? = some r → ∀ i, s'.position i = some (r.position i) ∧ s'.velocity i = some (r.velocity i)) ∧
        (T c k₀ ≤ ephemerisTime jd → ephemerisTime jd ≤ T c k₀ + 1000000 → k' + c.number < c.rows.length →
          (c.method = 1 → T c (k' + c.number - 1) - T c k' < c.period) →
          (∀ g, Fits c k' Row.position g → ∀ i, s'.position i = some (g (ephemerisTime jd) i)) ∧
          ∀ g, Fits c k' Row.velocity g → ∀ i, s'.velocity i = some (g (ephemerisTime jd) i))) := by
  have hroom := h.room
  have hmed := h.medium (j := (c.number + 1) / 2) (by omega)
  refine ⟨fun he => by simp [propagate, he], fun he hk hlt => ?_, fun he k' hk' hr => ?_⟩
  · simp only [propagate, he, Bool.true_eq_false, if_false, hmed, h.ref]
    rw [if_pos (by simp only [gt_iff_lt, sub_lt_sub_iff_right]; exact hlt), update_ub (by rw [h.id, hk])]; rfl
  · have hstep : ∃ s1, propagate c s jd = report c (ephemerisTime jd - T c k₀) s1 ∧ At c k₀ k' s1 ∧ s1.enabled = true := by
      simp only [propagate, he, Bool.true_eq_false, if_false, hmed, h.ref]
      by_cases hlt : T c (k + (c.number + 1) / 2) < ephemerisTime jd
      · rw [if_pos hlt] at hk'
        subst hk'
        obtain ⟨s1, e, a, en⟩ := h.next (by omega) hinc (by omega)
        refine ⟨s1, ?_, a, en.trans he⟩
        rw [if_pos (by simp only [gt_iff_lt, sub_lt_sub_iff_right]; exact hlt), e]; rfl
      · rw [if_neg hlt] at hk'
        subst hk'
        exact ⟨s, by rw [if_neg (by simp only [gt_iff_lt, sub_lt_sub_iff_right]; exact hlt)], h, he⟩
    obtain ⟨s1, e1, a1, en1⟩ := hstep
    have r0 : row c 0 = .ok (c.rows[0]'(by omega)) := row_ok (by omega)
    have rl : row c (c.rows.length - 1) = .ok (c.rows[c.rows.length - 1]'(by omega)) := row_ok (by omega)
    rw [e1, report]
    by_cases c1 : ephemerisTime jd - T c k₀ < 0
    · simp only [if_pos c1, r0, Res.bind_ok]
      refine ⟨_, rfl, a1.of_eq rfl rfl rfl rfl, en1, fun _ r hr i => ?_, fun h0 => by linarith, fun h0 => by linarith⟩
      rw [List.head?_eq_getElem?, List.getElem?_eq_getElem (by omega)] at hr
      rw [Option.some.inj hr]; exact ⟨rfl, rfl⟩
    · rw [if_neg c1]
      by_cases c2 : ephemerisTime jd - T c k₀ > 1000000 ∨ s1.id ≥ c.rows.length
      · simp only [if_pos c2, rl, Res.bind_ok]
        refine ⟨_, rfl, a1.of_eq rfl rfl rfl rfl, en1, fun h0 => by linarith, fun _ _ r hr i => ?_, fun h0 h1 h2 => ?_⟩
        · rw [List.getLast?_eq_getElem?, List.getElem?_eq_getElem (by omega)] at hr
          rw [Option.some.inj hr]; exact ⟨rfl, rfl⟩
        rcases c2 with c2 | c2
        · linarith
        · rw [a1.id] at c2; omega
      · simp only [if_neg c2]
        obtain ⟨p, ep⟩ := interpolate_ok (c := c) (by omega) a1.pos (ephemerisTime jd - T c k₀)
        obtain ⟨v, ev⟩ := interpolate_ok (c := c) (by omega) a1.vel (ephemerisTime jd - T c k₀)
        simp only [ep, ev, Res.bind_ok]
        refine ⟨_, rfl, a1.of_eq rfl rfl rfl rfl, en1, fun h0 => by linarith, fun h0 h1 => ?_, fun h0 h1 h2 hper => ⟨fun g hg i => ?_, fun g hg i => ?_⟩⟩
        · exfalso; apply c2
          rcases h1 with h1 | h1
          · left; linarith
          · right; rw [a1.id, h1]
        · have := interpolate_fits (by omega) hinc k' hr hper a1.pos hg (ephemerisTime jd)
          have := Res.ok.inj (ep.symm.trans this)
          exact congrFun this i
        · have := interpolate_fits (by omega) hinc k' hr hper a1.vel hg (ephemerisTime jd)
          have := Res.ok.inj (ev.symm.trans this)
          exact congrFun this i

/-- **C99 (start inside the file).** If row `j ≥ 1` is the first one later than the start and there is at least one row behind the window,
construction puts the window at row `j - n / 2` and reports the curve through it at the start time. -/
theorem C99_start (c : Config) (hn : 2 ≤ c.number) (hinc : Increasing c) (jd : ℝ) (j : ℕ) (hj : 1 ≤ j) (hjm : j < c.rows.length)
    (h1 : ephemerisTime jd < T c j) (h2 : T c (j - 1) ≤ ephemerisTime jd) (hroom : j - c.number / 2 + c.number < c.rows.length)
    (hfar : ephemerisTime jd ≤ T c (j - c.number / 2) + 1000000)
    (hper : c.method = 1 → T c (j - c.number / 2 + c.number - 1) - T c (j - c.number / 2) < c.period) :
    ∃ s, construct c jd = .ok s ∧ At c (j - c.number / 2) (j - c.number / 2) s ∧ s.enabled = false ∧
      (∀ g, Fits c (j - c.number / 2) Row.position g → ∀ i, s.position i = some (g (ephemerisTime jd) i)) ∧
      ∀ g, Fits c (j - c.number / 2) Row.velocity g → ∀ i, s.velocity i = some (g (ephemerisTime jd) i) := by
  have hs := (C99_search c jd).2 j hjm h1 fun i hi => (hinc.le (i := i) (j := j - 1) (by omega) (by omega)).trans h2
  obtain ⟨s0, ha, he, ec⟩ := (C99_construct c hn hinc jd).1 (by rw [hs]; omega)
  rw [hs] at ha
  obtain ⟨-, -, h3⟩ := C99_propagate c hn hinc _ _ s0 ha jd
  have hmid : ephemerisTime jd ≤ T c (j - c.number / 2 + (c.number + 1) / 2) :=
    h1.le.trans (hinc.le (by omega) (by omega))
  obtain ⟨s', e', a', -, -, -, h6⟩ := h3 he (j - c.number / 2) (by rw [if_neg (not_lt.2 hmid)]) (by omega)
  have hk0 : T c (j - c.number / 2) ≤ ephemerisTime jd := (hinc.le (by omega) (by omega)).trans h2
  obtain ⟨g1, g2⟩ := h6 hk0 hfar hroom hper
  exact ⟨{ s' with enabled := false }, by rw [ec, e']; rfl, a'.of_eq rfl rfl rfl rfl, rfl, g1, g2⟩

/-- **C99 (start behind the file).** If the start is later than every row the window goes to the beginning of the file: the reported
position is the extrapolation of rows 1 to `n` (up to 10⁶ s after the first row), not the last row. -/
theorem C99_start_after_end (c : Config) (hn : 2 ≤ c.number) (hinc : Increasing c) (jd : ℝ) (hroom : 1 + c.number < c.rows.length)
    (hlate : T c (c.rows.length - 1) ≤ ephemerisTime jd) (hfar : ephemerisTime jd ≤ T c 0 + 1000000) (hm : c.method ≠ 1) :
    ∃ s, construct c jd = .ok s ∧ ∀ g, Fits c 1 Row.position g → ∀ i, s.position i = some (g (ephemerisTime jd) i) := by
  have hs := (C99_search c jd).1 fun j hj => (hinc.le (i := j) (j := c.rows.length - 1) (by omega) (by omega)).trans hlate
  obtain ⟨s0, ha, he, ec⟩ := (C99_construct c hn hinc jd).1 (by rw [hs]; omega)
  rw [hs, Nat.zero_sub] at ha
  obtain ⟨-, -, h3⟩ := C99_propagate c hn hinc _ _ s0 ha jd
  have hmid : T c (0 + (c.number + 1) / 2) < ephemerisTime jd := (hinc.lt (j := c.rows.length - 1) (by omega) (by omega)).trans_le hlate
  obtain ⟨s', e', a', -, -, -, h6⟩ := h3 he 1 (by rw [if_pos hmid]) (by omega)
  obtain ⟨g1, -⟩ := h6 ((hinc.le (by omega) (by omega)).trans hlate) hfar (by omega) (fun h => absurd h hm)
  exact ⟨{ s' with enabled := false }, by rw [ec, e']; rfl, g1⟩

/-- `Propagate` at a sequence of Julian dates. -/
noncomputable def propagates (c : Config) (s : State) : List ℝ → Res State
  | [] => .ok s
  | t :: l => do
    let s' ← propagate c s t
    propagates c s' l

/-- Ephemeris times that never advance by more than `gap`. -/
def Steps (gap : ℝ) : ℝ → List ℝ → Prop
  | _, [] => True
  | t, u :: l => ephemerisTime u ≤ ephemerisTime t + gap ∧ Steps gap u l

/-- **C99 (tracking).** As long as the updates are not further apart than the rows, within 10⁶ s of the reference row, and stay before the
row in the middle of the last but one window, every update reports the curve through a window around the current time: the current time is
not later than the window's middle row, and, once the window has moved, later than the row before it. -/
theorem C99_tracking (c : Config) (hn : 2 ≤ c.number) (hinc : Increasing c) (gap : ℝ)
    (hgap : ∀ j, j + 1 < c.rows.length → gap ≤ T c (j + 1) - T c j) (k₀ k : ℕ) (s : State) (h : At c k₀ k s) (he : s.enabled = true)
    (hk : k + c.number < c.rows.length) (first : ℝ) (later : List ℝ)
    (hfirst : ephemerisTime first ≤ T c (k + (c.number + 1) / 2 + 1)) (hmono : (first :: later).Pairwise (ephemerisTime · ≤ ephemerisTime ·))
    (hsteps : Steps gap first later)
    (hrange : ∀ t ∈ first :: later, T c k₀ ≤ ephemerisTime t ∧ ephemerisTime t ≤ T c k₀ + 1000000 ∧
      ephemerisTime t ≤ T c (c.rows.length - 1 - c.number + (c.number + 1) / 2))
    (hper : c.method = 1 → ∀ k, k + c.number ≤ c.rows.length → T c (k + c.number - 1) - T c k < c.period) :
    ∃ s' k', propagates c s (first :: later) = .ok s' ∧ At c k₀ k' s' ∧
      ephemerisTime ((first :: later).getLast (by simp)) ≤ T c (k' + (c.number + 1) / 2) ∧
      (k' = k ∨ (k < k' ∧ T c (k' + (c.number + 1) / 2 - 1) < ephemerisTime ((first :: later).getLast (by simp)))) ∧
      (∀ g, Fits c k' Row.position g → ∀ i, s'.position i = some (g (ephemerisTime ((first :: later).getLast (by simp))) i)) ∧
      ∀ g, Fits c k' Row.velocity g → ∀ i, s'.velocity i = some (g (ephemerisTime ((first :: later).getLast (by simp))) i) := by
  have hone : ∀ (s : State) (k : ℕ), At c k₀ k s → s.enabled = true → k + c.number < c.rows.length → ∀ t,
      ephemerisTime t ≤ T c (k + (c.number + 1) / 2 + 1) → T c k₀ ≤ ephemerisTime t → ephemerisTime t ≤ T c k₀ + 1000000 →
      ephemerisTime t ≤ T c (c.rows.length - 1 - c.number + (c.number + 1) / 2) →
      ∃ s' k', propagate c s t = .ok s' ∧ At c k₀ k' s' ∧ s'.enabled = true ∧ k' + c.number < c.rows.length ∧
        ephemerisTime t ≤ T c (k' + (c.number + 1) / 2) ∧ (k' = k ∨ (k' = k + 1 ∧ T c (k' + (c.number + 1) / 2 - 1) < ephemerisTime t)) ∧
        (∀ g, Fits c k' Row.position g → ∀ i, s'.position i = some (g (ephemerisTime t) i)) ∧
        ∀ g, Fits c k' Row.velocity g → ∀ i, s'.velocity i = some (g (ephemerisTime t) i) := by
    intro s k hs he hk t ht h1 h2 h3
    obtain ⟨-, -, u⟩ := C99_propagate c hn hinc k₀ k s hs t
    by_cases hlt : T c (k + (c.number + 1) / 2) < ephemerisTime t
    · have hk1 : k + 1 + c.number < c.rows.length := by
        by_contra hge
        have : c.rows.length - 1 - c.number = k := by omega
        rw [this] at h3
        exact absurd (hlt.trans_le h3) (lt_irrefl _)
      obtain ⟨s', e, a, en, -, -, h6⟩ := u he (k + 1) (by rw [if_pos hlt]) (by omega)
      obtain ⟨g1, g2⟩ := h6 h1 h2 hk1 fun hm => hper hm _ (by omega)
      exact ⟨s', k + 1, e, a, en, hk1, by rwa [show k + 1 + (c.number + 1) / 2 = k + (c.number + 1) / 2 + 1 by omega],
        .inr ⟨rfl, by rwa [show k + 1 + (c.number + 1) / 2 - 1 = k + (c.number + 1) / 2 by omega]⟩, g1, g2⟩
    · obtain ⟨s', e, a, en, -, -, h6⟩ := u he k (by rw [if_neg hlt]) (by omega)
      obtain ⟨g1, g2⟩ := h6 h1 h2 hk fun hm => hper hm _ (by omega)
      exact ⟨s', k, e, a, en, hk, not_lt.1 hlt, .inl rfl, g1, g2⟩
  induction later generalizing s k first with
  | nil =>
    obtain ⟨r1, r2, r3⟩ := hrange first (by simp)
    obtain ⟨s', k', e, a, -, -, h4, h5, g1, g2⟩ := hone s k h he hk first hfirst r1 r2 r3
    refine ⟨s', k', by simp [propagates, e], a, h4, ?_, g1, g2⟩
    rcases h5 with h5 | ⟨h5, h6⟩
    · exact .inl h5
    · exact .inr ⟨by omega, h6⟩
  | cons u later ih =>
    obtain ⟨r1, r2, r3⟩ := hrange first (by simp)
    obtain ⟨s1, k1, e, a, en, hk1, h4, h5, -, -⟩ := hone s k h he hk first hfirst r1 r2 r3
    obtain ⟨hu, hrest⟩ := hsteps
    have hg := hgap (k1 + (c.number + 1) / 2) (by omega)
    obtain ⟨s', k', e', a', h4', h5', g1, g2⟩ := ih k1 s1 a en hk1 u (by linarith)
      (List.pairwise_cons.1 hmono).2 hrest fun t ht => hrange t (List.mem_cons_of_mem _ ht)
    refine ⟨s', k', by rw [propagates, e, Res.bind_ok, e'], a', by simpa using h4', ?_, by simpa using g1, by simpa using g2⟩
    rcases h5' with rfl | ⟨h5', h6'⟩
    · rcases h5 with rfl | ⟨rfl, h6⟩
      · exact .inl rfl
      · refine .inr ⟨by omega, h6.trans_le ?_⟩
        exact (List.pairwise_cons.1 hmono).1 _ (List.getLast_mem _)
    · refine .inr ⟨?_, by simpa using h6'⟩
      rcases h5 with rfl | ⟨rfl, -⟩ <;> omega

/-- **C99 (the curve exists and goes through the rows).** For the polynomial methods there is exactly one fitting curve for every window
inside the file. -/
theorem C99_curve (c : Config) (hn : 1 ≤ c.number) (hinc : Increasing c) (hm : c.method ≠ 1) (k : ℕ) (hk : k + c.number ≤ c.rows.length)
    (f : Row → Fin 3 → ℝ) : ∃! g, Fits c k f g := by
  have hlen : (window c k).length = c.number := by simp [window]; omega
  have hnd : ((window c k).map Row.time).Nodup := (window_times hinc k).imp fun h => ne_of_lt h
  have hinj := injOn_of_nodup hnd
  rw [List.length_map, hlen] at hinj
  have hmem : ∀ r, r ∈ window c k ↔ ∃ j, j < c.number ∧ (window c k)[j]? = some r := fun r => by
    rw [List.mem_iff_getElem?]
    constructor
    · rintro ⟨j, hj⟩
      exact ⟨j, by have := (List.getElem?_eq_some_iff.1 hj).1; omega, hj⟩
    · rintro ⟨j, -, hj⟩; exact ⟨j, hj⟩
  have hT : ∀ j r, (window c k)[j]? = some r → ((window c k).map Row.time).getD j 0 = r.time := fun j r h => by
    simp [List.getD_eq_getElem?_getD, h]
  have hiff := fun (i : Fin 3) (p : ℝ[X]) => Lagrange.eq_interpolate_iff (f := p) (fun j => ((window c k).map fun r => f r i).getD j 0) hinj
  simp only [Finset.card_range, Finset.mem_range] at hiff
  refine ⟨fun t i => (Lagrange.interpolate (Finset.range c.number) (fun j => ((window c k).map Row.time).getD j 0)
    (fun j => ((window c k).map fun r => f r i).getD j 0)).eval t, ⟨fun i => ?_, fun r hr i => ?_⟩, fun g hg => ?_⟩
  · rw [if_neg hm]
    exact ⟨_, ((hiff i _).2 rfl).1, fun t => rfl⟩
  · obtain ⟨j, hj, hjr⟩ := (hmem r).1 hr
    have := ((hiff i _).2 rfl).2 j hj
    rw [hT j r hjr] at this
    refine this.trans ?_
    simp [List.getD_eq_getElem?_getD, hjr]
  · funext t i
    have h1 := hg.1 i
    rw [if_neg hm] at h1
    obtain ⟨P, hP, hPe⟩ := h1
    rw [hPe t, (hiff i P).1 ⟨hP, fun j hj => ?_⟩]
    have hj' : j < (window c k).length := by omega
    have hjr := List.getElem?_eq_getElem hj'
    rw [hT j _ hjr, ← hPe, hg.2 _ (List.getElem_mem hj')]
    simp [List.getD_eq_getElem?_getD, hj']

/-! ## A file of six rows, 60 s apart, with three interpolation points -/

/-- The rows of the example. -/
noncomputable def exConfig : Config :=
  { rows := (List.range 6).map fun (j : ℕ) => ⟨60 * j, ![7000000 + j, j, 0], ![0, 7500, j]⟩, number := 3, method := 0, period := 0 }

theorem ex_T (j : ℕ) (h : j < 6) : T exConfig j = 60 * j := by
  simp [T, exConfig, List.getD_eq_getElem?_getD, h]

theorem ex_increasing : Increasing exConfig := by
  rw [Increasing, List.pairwise_iff_getElem]
  intro i j hi hj hij
  simp only [exConfig, List.map_map, List.getElem_map, List.getElem_range, Function.comp_apply]
  have : (i : ℝ) < j := by exact_mod_cast hij
  linarith

/-- The construction hypotheses are met 90 s after the first row, by row 2. -/
example : ephemerisTime (2451545 + 90 / 86400) < T exConfig 2 ∧ T exConfig (2 - 1) ≤ ephemerisTime (2451545 + 90 / 86400) ∧
    2 - exConfig.number / 2 + exConfig.number < exConfig.rows.length ∧ 2 ≤ exConfig.number ∧
    ephemerisTime (2451545 + 90 / 86400) ≤ T exConfig (2 - exConfig.number / 2) + 1000000 ∧ exConfig.method ≠ 1 := by
  rw [ex_T 2 (by omega), ex_T (2 - 1) (by omega), show exConfig.number = 3 from rfl, ex_T (2 - 3 / 2) (by omega)]
  refine ⟨?_, ?_, by simp [exConfig], by omega, ?_, by simp [exConfig]⟩ <;> (unfold ephemerisTime; norm_num)

/-- **C99 (end of the file).** With the window on the last three rows of the example file (180 s, 240 s, 300 s) the last row is reported at 181 s
already, and at 301 s `Propagate` reads behind the file. -/
theorem C99_end_jump : ∃ s, At exConfig 0 3 s ∧ s.enabled = true ∧
    (∃ s', propagate exConfig s (2451545 + 181 / 86400) = .ok s' ∧ s'.position = fun i => some ((![7000005, 5, 0] : Fin 3 → ℝ) i)) ∧
    propagate exConfig s (2451545 + 301 / 86400) = .ub := by
  obtain ⟨s0, -, a0, e0⟩ := (updateTimes_at (c := exConfig) (by simp [exConfig]) ex_increasing 0).1 (by simp [exConfig])
  obtain ⟨s1, -, a1, e1⟩ := a0.next (by simp [exConfig]) ex_increasing (by simp [exConfig])
  obtain ⟨s2, -, a2, e2⟩ := a1.next (by simp [exConfig]) ex_increasing (by simp [exConfig])
  obtain ⟨s3, -, a3, e3⟩ := a2.next (by simp [exConfig]) ex_increasing (by simp [exConfig])
  have he : s3.enabled = true := by rw [e3, e2, e1, e0]
  have hn : exConfig.number = 3 := rfl
  have hl : exConfig.rows.length = 6 := by simp [exConfig]
  refine ⟨s3, a3, he, ?_, ?_⟩
  · obtain ⟨-, -, u⟩ := C99_propagate exConfig (by rw [hn]; omega) ex_increasing 0 3 s3 a3 (2451545 + 181 / 86400)
    obtain ⟨s', e', -, -, -, h5, -⟩ := u he 3 (by
      rw [hn, ex_T (3 + (3 + 1) / 2) (by omega), if_neg]; unfold ephemerisTime; norm_num) (by rw [hn, hl])
    refine ⟨s', e', ?_⟩
    funext i
    have := (h5 (by rw [ex_T 0 (by omega)]; unfold ephemerisTime; norm_num) (.inr (by rw [hn, hl]))
      ⟨60 * 5, ![7000000 + 5, 5, 0], ![0, 7500, 5]⟩ (by simp [exConfig, List.getLast?_eq_getElem?]) i).1
    rw [this]
    fin_cases i <;> simp; norm_num
  · refine (C99_propagate exConfig (by rw [hn]; omega) ex_increasing 0 3 s3 a3 (2451545 + 301 / 86400)).2.1 he (by rw [hn, hl]) ?_
    rw [hn, ex_T (3 + (3 + 1) / 2) (by omega)]
    unfold ephemerisTime
    norm_num

end S2E.TimeSeries
