import Verif.Model.Disturbance
import Verif.Spec.TwoBody
import Verif.Props.OrbitalElements
import Verif.Props.Disturbance
/-!
# C102: third body gravity; C103: magnetic disturbance
-/
namespace S2E.Dist
open S2E.TwoBody

/-- Specification: Newton's attraction at the point `x` by a body with gravity constant `mu` at the point `b`. -/
noncomputable def pull (mu : ℝ) (b x : Fin 3 → ℝ) : Fin 3 → ℝ := (mu / len (b - x) ^ 3) • (b - x)

theorem thirdBodyAcceleration_eq (mu : ℝ) (b x : Vec 3) : thirdBodyAcceleration b (b - x) mu = pull mu b x - pull mu b 0 := by
  simp only [thirdBodyAcceleration, pull, S2E.Kepler.calcNorm_len, sub_zero]
  funext i
  simp [scale, vsub]
  ring

/-- Names of third bodies the program accepts: not the centre, and among the selected bodies. -/
def Acceptable (center : String) (selected : List String) (n : String) : Prop := n ≠ center ∧ n ∈ selected

theorem insertName_spec (l : List String) (n : String) (h : l.Nodup) :
    (insertName l n).Nodup ∧ ∀ x, x ∈ insertName l n ↔ x ∈ l ∨ x = n := by
  unfold insertName
  by_cases hn : n ∈ l
  · rw [if_pos hn]
    exact ⟨h, fun x => ⟨Or.inl, fun hx => hx.elim id (fun e => e ▸ hn)⟩⟩
  · rw [if_neg hn]
    refine ⟨?_, fun x => by simp⟩
    rw [List.nodup_append]
    refine ⟨h, by simp, ?_⟩
    intro a ha b hb
    simp only [List.mem_singleton] at hb
    rintro rfl
    exact hn (hb ▸ ha)

theorem listLoop (center : String) (selected : List String) (names l : List String) (hl : l.Nodup) :
    (∀ l', names.foldlM (fun l n => if n = center ∨ n ∉ selected then Res.throws else Res.ok (insertName l n)) l = .ok l' →
      l'.Nodup ∧ (∀ x, x ∈ l' ↔ x ∈ l ∨ x ∈ names) ∧ ∀ n ∈ names, Acceptable center selected n) ∧
    ((∀ n ∈ names, Acceptable center selected n) →
      ∃ l', names.foldlM (fun l n => if n = center ∨ n ∉ selected then Res.throws else Res.ok (insertName l n)) l = .ok l') ∧
    (names.foldlM (fun l n => if n = center ∨ n ∉ selected then Res.throws else Res.ok (insertName l n)) l = .throws ∨
     ∃ l', names.foldlM (fun l n => if n = center ∨ n ∉ selected then Res.throws else Res.ok (insertName l n)) l = .ok l') := by
  induction names generalizing l with
  | nil =>
    refine ⟨fun l' h => ?_, fun _ => ⟨l, rfl⟩, Or.inr ⟨l, rfl⟩⟩
    obtain rfl := Res.ok.inj h
    simp [hl]
  | cons n names ih =>
    simp only [List.foldlM_cons]
    by_cases hbad : n = center ∨ n ∉ selected
    · rw [if_pos hbad]
      simp only [Res.bind_throws]
      refine ⟨fun l' h => by simp at h, fun h => ?_, Or.inl trivial⟩
      have := h n (by simp)
      exact absurd hbad (by rintro (h1 | h1); exacts [this.1 h1, h1 this.2])
    · rw [if_neg hbad]
      simp only [Res.bind_ok]
      obtain ⟨hn, hm⟩ := insertName_spec l n hl
      obtain ⟨i1, i2, i3⟩ := ih (insertName l n) hn
      refine ⟨fun l' h => ?_, fun h => i2 fun m hm' => h m (by simp [hm']), i3⟩
      obtain ⟨a, b, c⟩ := i1 l' h
      refine ⟨a, fun x => ?_, ?_⟩
      · rw [b, hm, List.mem_cons]; tauto
      · intro m hm'
        rcases List.mem_cons.mp hm' with rfl | h'
        · push Not at hbad; exact hbad
        · exact c m h'

/-- C102: start-up. With the disturbance enabled the program starts exactly when every listed third body is acceptable, and then considers
each listed name once, however often it is listed; disabled, it considers none and checks nothing. -/
theorem C102_list (center : String) (selected names : List String) :
    (∀ l, thirdBodyList true center selected names = .ok l → l.Nodup ∧ l.toFinset = names.toFinset) ∧
    ((∃ l, thirdBodyList true center selected names = .ok l) ↔ ∀ n ∈ names, Acceptable center selected n) ∧
    (¬ (∀ n ∈ names, Acceptable center selected n) → thirdBodyList true center selected names = .throws) ∧
    thirdBodyList false center selected names = .ok [] := by
  obtain ⟨h1, h2, h3⟩ := listLoop center selected names [] List.nodup_nil
  simp only [thirdBodyList, if_true, Bool.false_eq_true, if_false]
  refine ⟨fun l h => ⟨(h1 l h).1, ?_⟩, ⟨fun ⟨l, h⟩ => (h1 l h).2.2, h2⟩, fun hn => ?_, trivial⟩
  · ext x
    simp only [List.mem_toFinset]
    rw [(h1 l h).2.1]
    simp
  · rcases h3 with h | ⟨l, h⟩
    · exact h
    · exact absurd (h1 l h).2.2 hn

theorem sum_toFinset (l : List String) (h : l.Nodup) (f : String → Vec 3) : ∑ n ∈ l.toFinset, f n = (l.map f).sum :=
  List.sum_toFinset f h

/-- C102: the disturbing acceleration. For bodies at the positions `pos` (relative to the centre body) and the spacecraft at `x`, the result
is the sum, over the distinct listed bodies, of the attraction at the spacecraft minus the attraction at the centre. -/
theorem C102_acceleration (center : String) (selected names l : List String) (h : thirdBodyList true center selected names = .ok l)
    (pos : String → Vec 3) (mu : String → ℝ) (x : Vec 3) :
    thirdBodyUpdate l (fun n => pos n - x) mu x = ∑ n ∈ names.toFinset, (pull (mu n) (pos n) x - pull (mu n) (pos n) 0) := by
  obtain ⟨hn, hf⟩ := (C102_list center selected names).1 l h
  rw [← hf, sum_toFinset l hn, thirdBodyUpdate, foldl_vadd]
  have z : (fun _ => 0 : Vec 3) = 0 := rfl
  rw [z, zero_add]
  congr 1
  apply List.map_congr_left
  intro n _
  rw [← thirdBodyAcceleration_eq]
  congr 1
  funext i
  simp [vadd]

/-- C102: seen from an inertial frame. The centre body at `c` and the spacecraft at `p` both fall towards the third bodies at `q`; the
spacecraft also falls towards the centre. The difference of the two accelerations is the central attraction plus exactly the reported
disturbance for the positions relative to the centre. -/
theorem C102_relative (center : String) (selected names l : List String) (h : thirdBodyList true center selected names = .ok l)
    (q : String → Vec 3) (mu : String → ℝ) (muC : ℝ) (c p : Vec 3) :
    (pull muC c p + ∑ n ∈ names.toFinset, pull (mu n) (q n) p) - ∑ n ∈ names.toFinset, pull (mu n) (q n) c =
      pull muC 0 (p - c) + thirdBodyUpdate l (fun n => (q n - c) - (p - c)) mu (p - c) := by
  rw [C102_acceleration center selected names l h (fun n => q n - c) mu (p - c), Finset.sum_sub_distrib]
  have e1 : ∀ (m : ℝ) (b : Vec 3), pull m (b - c) (p - c) = pull m b p := by intro m b; simp [pull]
  have e2 : ∀ (m : ℝ) (b : Vec 3), pull m (b - c) 0 = pull m b c := by intro m b; simp [pull]
  have e3 : pull muC 0 (p - c) = pull muC c p := by simp [pull]
  simp only [e1, e2, e3]
  abel

/-- Non-vacuity: the list with the Sun twice and the Moon. -/
example : thirdBodyList true "EARTH" ["EARTH", "SUN", "MOON"] ["SUN", "MOON", "SUN"] = .ok ["SUN", "MOON"] := by decide +kernel
/-- And a rejected one. -/
example : thirdBodyList true "EARTH" ["EARTH", "SUN", "MOON"] ["SUN", "EARTH"] = .throws := by decide +kernel

/-! ## Magnetic disturbance -/

variable {γ : Type}

/-- A sequence of updates by any spacecraft of the program: parameters of the spacecraft, field in its body frame. Results: moment and
torque of each update, and the random sources at the end. -/
noncomputable def magneticRun (draw : ℝ → γ → ℝ × γ) (fresh : (Fin 3 → γ) × γ) :
    Option (Statics γ) → List (Rmm × Vec 3) → List (Vec 3 × Vec 3) × Option (Statics γ)
  | st, [] => ([], st)
  | st, (p, b) :: rest =>
    let r := magneticUpdate draw fresh p st b
    let t := magneticRun draw fresh (some r.2.2) rest
    ((r.1, r.2.1) :: t.1, t.2)

/-- C103: every reported torque is the moment times the field (nanotesla to tesla), hence at right angles to both. -/
theorem C103_torque (draw : ℝ → γ → ℝ × γ) (fresh : (Fin 3 → γ) × γ) (st : Option (Statics γ)) (h : List (Rmm × Vec 3)) :
    (magneticRun draw fresh st h).1.length = h.length ∧
    ∀ (k : ℕ) (r : Vec 3 × Vec 3) (c : Rmm × Vec 3), (magneticRun draw fresh st h).1[k]? = some r → h[k]? = some c →
      r.2 = (1 / 10 ^ 9 : ℝ) • cross r.1 c.2 ∧ dot r.2 c.2 = 0 ∧ dot r.2 r.1 = 0 := by
  induction h generalizing st with
  | nil => simp [magneticRun]
  | cons x rest ih =>
    obtain ⟨p, b⟩ := x
    simp only [magneticRun]
    refine ⟨by simp [(ih _).1], fun k r c hr hc => ?_⟩
    cases k with
    | zero =>
      simp only [List.getElem?_cons_zero, Option.some.injEq] at hr hc
      subst hr hc
      simp only [magneticUpdate]
      generalize (calcRmm draw fresh p st).1 = m
      refine ⟨?_, ?_, ?_⟩
      · funext i
        show 1e-9 * cross m b i = _
        simp only [Pi.smul_apply, smul_eq_mul]
        norm_num
      · simp [magneticTorque, scale, outerProduct, dot]; ring
      · simp [magneticTorque, scale, outerProduct, dot]; ring
    | succ k =>
      simp only [List.getElem?_cons_succ] at hr hc
      exact (ih _).2 k r c hr hc

/-- C103: without random walk and noise in the parameters of the first spacecraft to be updated, every spacecraft's moment is at all times
its own constant. (`draw 0` returns 0: theorem `C47_std_zero` for the generator in use.) -/
theorem C103_constant (draw : ℝ → γ → ℝ × γ) (hdraw : ∀ g, (draw 0 g).1 = 0) (fresh : (Fin 3 → γ) × γ) (p : Rmm) (b : Vec 3)
    (hw : p.walkStd = 0) (hn : p.noiseStd = 0) (h : List (Rmm × Vec 3)) :
    (magneticRun draw fresh none ((p, b) :: h)).1.map Prod.fst = ((p, b) :: h).map fun c => c.1.constant := by
  have hrate : ∀ s l : ℝ, Random.walkRate s l 0 = 0 := by intro s l; simp [Random.walkRate]
  -- invariant
  have hstep : ∀ (q : Rmm) (st : Option (Statics γ)), (st.getD (Statics.new q fresh.1 fresh.2)).walkStd = 0 →
      (st.getD (Statics.new q fresh.1 fresh.2)).noiseStd = 0 → (∀ i, (st.getD (Statics.new q fresh.1 fresh.2)).walk i = 0) →
      (calcRmm draw fresh q st).1 = q.constant ∧ (calcRmm draw fresh q st).2.walkStd = 0 ∧ (calcRmm draw fresh q st).2.noiseStd = 0 ∧
      ∀ i, (calcRmm draw fresh q st).2.walk i = 0 := by
    intro q st h1 h2 h3
    generalize hs : st.getD (Statics.new q fresh.1 fresh.2) = s at h1 h2 h3
    simp only [calcRmm, hs, h2, hdraw]
    refine ⟨?_, h1, trivial, fun i => ?_⟩
    · funext i; fin_cases i <;> simp [h3]
    · simp only [Random.rk4, Random.walkDerivative, h1, hdraw, hrate]
      simp [h3]
  have hrun : ∀ (h : List (Rmm × Vec 3)) (s : Statics γ), s.walkStd = 0 → s.noiseStd = 0 → (∀ i, s.walk i = 0) →
      (magneticRun draw fresh (some s) h).1.map Prod.fst = h.map fun c => c.1.constant := by
    intro h
    induction h with
    | nil => intro s _ _ _; rfl
    | cons x rest ih =>
      intro s h1 h2 h3
      obtain ⟨a, b1, c, d⟩ := hstep x.1 (some s) h1 h2 h3
      simp only [magneticRun, magneticUpdate, List.map_cons]
      rw [a, ih _ b1 c d]
  obtain ⟨a, b1, c, d⟩ := hstep p none hw hn (fun _ => rfl)
  simp only [magneticRun, magneticUpdate, List.map_cons]
  rw [a, hrun h _ b1 c d]

/-- C103 (what is wrong): the random parameters of every spacecraft but the first one updated are ignored. Replace all of them by anything;
moments, torques and random sources stay the same. -/
theorem C103_first_decides (draw : ℝ → γ → ℝ × γ) (fresh : (Fin 3 → γ) × γ) (first : Rmm × Vec 3) (h h' : List (Rmm × Vec 3))
    (hsame : h.map (fun c => (c.1.constant, c.2)) = h'.map (fun c => (c.1.constant, c.2))) :
    magneticRun draw fresh none (first :: h) = magneticRun draw fresh none (first :: h') := by
  have hrun : ∀ (h h' : List (Rmm × Vec 3)) (s : Statics γ), h.map (fun c => (c.1.constant, c.2)) = h'.map (fun c => (c.1.constant, c.2)) →
      magneticRun draw fresh (some s) h = magneticRun draw fresh (some s) h' := by
    intro h
    induction h with
    | nil =>
      intro h' s he
      have : h' = [] := by simpa using he.symm
      rw [this]
    | cons x rest ih =>
      intro h' s he
      obtain _ | ⟨x', rest'⟩ := h'
      · simp at he
      · simp only [List.map_cons, List.cons.injEq, Prod.mk.injEq] at he
        obtain ⟨⟨h1, h2⟩, h3⟩ := he
        have hu : magneticUpdate draw fresh x.1 (some s) x.2 = magneticUpdate draw fresh x'.1 (some s) x'.2 := by
          simp only [magneticUpdate, calcRmm, Option.getD_some, h1, h2]
        simp only [magneticRun]
        rw [hu, ih rest' _ h3]
  obtain ⟨p, b⟩ := first
  simp only [magneticRun]
  rw [hrun h h' _ hsame]

/-- C103: the walk and noise seen at each call, whoever makes it: the deviation of the moment from the constant of the caller is the same
function of the number of calls made so far in the whole program. In particular the walk advances once per call, not once per spacecraft
and step, by the fixed step 0.1 whatever the simulation step. -/
theorem C103_shared_walk (draw : ℝ → γ → ℝ × γ) (fresh : (Fin 3 → γ) × γ) (first : Rmm × Vec 3) (h h' : List (Rmm × Vec 3))
    (hlen : h.length = h'.length) :
    List.zipWith (fun r c => r.1 - c.1.constant) (magneticRun draw fresh none (first :: h)).1 (first :: h) =
      List.zipWith (fun r c => r.1 - c.1.constant) (magneticRun draw fresh none (first :: h')).1 (first :: h') ∧
    (magneticRun draw fresh none (first :: h)).2 = (magneticRun draw fresh none (first :: h')).2 ∧
    ((magneticRun draw fresh none (first :: h)).2.map fun s => s.time) = some ((1 / 10 : ℝ) * (h.length + 1)) := by
  have hrun : ∀ (h h' : List (Rmm × Vec 3)) (s : Statics γ), h.length = h'.length →
      List.zipWith (fun r c => r.1 - c.1.constant) (magneticRun draw fresh (some s) h).1 h =
        List.zipWith (fun r c => r.1 - c.1.constant) (magneticRun draw fresh (some s) h').1 h' ∧
      (magneticRun draw fresh (some s) h).2 = (magneticRun draw fresh (some s) h').2 ∧
      ((magneticRun draw fresh (some s) h).2.map fun s => s.time) = some (s.time + (1 / 10 : ℝ) * h.length) := by
    intro h
    induction h with
    | nil =>
      intro h' s he
      have : h' = [] := List.length_eq_zero_iff.mp he.symm
      rw [this]
      simp [magneticRun]
    | cons x rest ih =>
      intro h' s he
      obtain _ | ⟨x', rest'⟩ := h'
      · simp at he
      · simp only [List.length_cons, Nat.add_right_cancel_iff] at he
        have hs : (calcRmm draw fresh x.1 (some s)).2 = (calcRmm draw fresh x'.1 (some s)).2 := by
          simp only [calcRmm, Option.getD_some]
        have hd : (calcRmm draw fresh x.1 (some s)).1 - x.1.constant = (calcRmm draw fresh x'.1 (some s)).1 - x'.1.constant := by
          simp only [calcRmm, Option.getD_some]
          funext i; fin_cases i <;> simp
        have ht : (calcRmm draw fresh x.1 (some s)).2.time = s.time + 1 / 10 := by
          simp only [calcRmm, Option.getD_some, Random.rk4]; norm_num
        obtain ⟨i1, i2, i3⟩ := ih rest' (calcRmm draw fresh x.1 (some s)).2 he
        simp only [magneticRun, magneticUpdate, List.zipWith_cons_cons]
        refine ⟨?_, ?_, ?_⟩
        · rw [hd, i1, hs]
        · rw [i2, hs]
        · rw [i3, ht]; congr 1; simp only [List.length_cons]; push_cast; ring
  obtain ⟨p, b⟩ := first
  obtain ⟨i1, i2, i3⟩ := hrun h h' (calcRmm draw fresh p none).2 hlen
  have ht : (calcRmm draw fresh p none).2.time = 1 / 10 := by
    simp only [calcRmm, Option.getD_none, Statics.new, Random.rk4]; norm_num
  simp only [magneticRun, magneticUpdate, List.zipWith_cons_cons]
  refine ⟨by rw [i1], i2, ?_⟩
  rw [i3, ht]
  congr 1
  ring

/-- Non-vacuity: a counter as noise source (each draw returns the standard deviation). The second spacecraft asks for noise of 5 and
gets the 2 of the first; had it been updated first it would have had 5. -/
example : (magneticRun (γ := Unit) (fun s g => (s, g)) (fun _ => (), ()) none
      [(⟨![0, 0, 0], 0, 0, 2⟩, ![0, 0, 1]), (⟨![0, 0, 0], 0, 0, 5⟩, ![0, 0, 1])]).1.map (fun r => r.1 0) = [2, 2] ∧
    (magneticRun (γ := Unit) (fun s g => (s, g)) (fun _ => (), ()) none [(⟨![0, 0, 0], 0, 0, 5⟩, ![0, 0, 1])]).1.map (fun r => r.1 0) = [5] := by
  simp [magneticRun, magneticUpdate, calcRmm, Statics.new, Random.rk4, Random.walkDerivative, Random.walkRate]

end S2E.Dist
