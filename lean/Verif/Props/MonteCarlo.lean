import Verif.Model.MonteCarlo
import Verif.Props.Quaternion3
/-!
# C33–C36: Monte-Carlo simulation
-/
namespace S2E.MonteCarlo
open S2E.Quat

/-! ## C33 number of cases -/

/-- The number of cases the user asked for. -/
def requestedCases (e : Executor) : Nat := if e.enabled then e.total else 1

theorem will_iff (e : Executor) : e.willExecuteNextCase = true ↔ e.done < requestedCases e := by
  unfold Executor.willExecuteNextCase requestedCases
  cases e.enabled <;> simp

/-- **C33.** From any executor state the documented loop terminates after running exactly the remaining number of cases (the requested
number when nothing ran before), and afterwards no further case is announced, however often one asks. -/
theorem C33_runs_requested_cases (e : Executor) (fuel : Nat) (hf : requestedCases e - e.done ≤ fuel) :
    ∃ e', e.runCases fuel = .ok (requestedCases e - e.done, e') ∧ e'.willExecuteNextCase = false ∧
      e'.done = max e.done (requestedCases e) ∧ e'.enabled = e.enabled ∧ e'.total = e.total := by
  induction fuel generalizing e with
  | zero =>
    have h : ¬ e.willExecuteNextCase = true := by rw [will_iff]; omega
    refine ⟨e, ?_, by simpa using h, by omega, rfl, rfl⟩
    unfold Executor.runCases; rw [if_neg h, show requestedCases e - e.done = 0 by omega]
  | succ n ih =>
    by_cases h : e.willExecuteNextCase = true
    · have hlt := (will_iff e).1 h
      have hr : requestedCases e.atTheEndOfEachCase = requestedCases e := rfl
      have hd : e.atTheEndOfEachCase.done = e.done + 1 := rfl
      obtain ⟨e', h1, h2, h3, h4, h5⟩ := ih e.atTheEndOfEachCase (by rw [hr, hd]; omega)
      rw [hr, hd] at h1 h3
      refine ⟨e', ?_, h2, by omega, h4, h5⟩
      unfold Executor.runCases
      rw [if_pos h, h1]
      show Res.ok (requestedCases e - (e.done + 1) + 1, e') = _
      rw [show requestedCases e - (e.done + 1) + 1 = requestedCases e - e.done by omega]
    · have : ¬ e.done < requestedCases e := fun hc => h ((will_iff e).2 hc)
      refine ⟨e, ?_, by simpa using h, by omega, rfl, rfl⟩
      unfold Executor.runCases; rw [if_neg h, show requestedCases e - e.done = 0 by omega]

/-- **C33.** A freshly constructed executor runs `total` cases for `total ≥ 1` and one case for `total = 0`; explicitly enabling it with
`total = 0` runs none. -/
theorem C33_fresh (total : Nat) :
    requestedCases (Executor.new total) = max total 1 ∧ (Executor.new total).done = 0 ∧
    requestedCases ((Executor.new total).setEnable true) = total ∧ requestedCases ((Executor.new total).setEnable false) = 1 := by
  refine ⟨?_, rfl, rfl, rfl⟩
  unfold Executor.new requestedCases
  by_cases h : total > 1
  · simp [h]; omega
  · simp [h]; omega

/-- **C33.** A single run always saves its log history; in an enabled Monte-Carlo run the flag decides. -/
theorem C33_save_log (e : Executor) : e.getSaveLog = true ↔ (e.enabled = false ∨ e.saveLog = true) := by
  unfold Executor.getSaveLog; cases e.enabled <;> cases e.saveLog <;> simp

example : (Executor.new 1000).runCases 1000 = .ok (1000, ⟨1000, 1000, true, false⟩) := by
  obtain ⟨e', h1, _, h3, h4, h5⟩ := C33_runs_requested_cases (Executor.new 1000) 1000 (by decide)
  decide +kernel

/-! ## C34 fetching parameters -/

/-- **C34.** The destination is left exactly as it was when Monte-Carlo is disabled or the name is not registered (vectors of any length,
scalars, quaternions). -/
theorem C34_untouched {n : Nat} (enabled : Bool) (l : ParamList) (so name : String) (h : enabled = false ∨ l (key so name) = none)
    (v : Vec n) (x : ℝ) (q : Quat) :
    getVector enabled l so name v = .ok v ∧ getScalar enabled l so name x = .ok x ∧ getQuaternion enabled l so name q = .ok q := by
  rcases h with h | h
  · subst h; exact ⟨rfl, rfl, rfl⟩
  · unfold getVector getScalar getQuaternion
    rw [h]; cases enabled <;> exact ⟨rfl, rfl, rfl⟩

/-- **C34.** With NoRandomization vectors and scalars are left alone and a quaternion is replaced by its normalisation. -/
theorem C34_no_randomization {n : Nat} (l : ParamList) (so name : String) (p : Param) (hp : l (key so name) = some p)
    (hk : p.kind = .noRandomization) (v : Vec n) (x : ℝ) (q : Quat) :
    getVector true l so name v = .ok v ∧ getScalar true l so name x = .ok x ∧ getQuaternion true l so name q = .ok q.normalize := by
  unfold getVector getScalar getQuaternion Param.getVector Param.getScalar Param.getQuaternion
  simp [hp, hk]

/-- **C34.** Otherwise the destination becomes the values drawn by the last `Randomize` — whatever it held before — or an exception is
raised exactly when fewer values were drawn than the destination has elements. -/
theorem C34_last_draw {γ : Type} {n : Nat} (g : Gen γ) (s s' : γ) (l : ParamList) (so name : String) (p p' : Param)
    (hr : randomize g p s = .ok (p', s')) (hp : l (key so name) = some p') (hk : p.kind ≠ .noRandomization) (v : Vec n) (x : ℝ) (q : Quat) :
    ∃ vs s'', drawValue g p s = .ok (vs, s'') ∧
      (n ≤ vs.length → ∃ v', getVector true l so name v = .ok v' ∧ ∀ i : Fin n, vs[i.val]? = some (v' i)) ∧
      (vs.length < n → getVector true l so name v = .throws) ∧
      (∀ a rest, vs = a :: rest → getScalar true l so name x = .ok a) ∧ (vs = [] → getScalar true l so name x = .throws) ∧
      (∀ a b c d rest, vs = a :: b :: c :: d :: rest → getQuaternion true l so name q = .ok (Quat.normalize ⟨a, b, c, d⟩)) ∧
      (vs.length < 4 → getQuaternion true l so name q = .throws) := by
  unfold randomize at hr
  rcases h1 : drawValue g p s with ⟨vs, s1⟩ | _ | _ | _ <;> simp only [h1, Res.bind_ok, Res.bind_ub, Res.bind_throws, Res.bind_stuck, reduceCtorEq] at hr
  simp only [Res.ok.injEq, Prod.mk.injEq] at hr
  obtain ⟨rfl, rfl⟩ := hr
  refine ⟨vs, s1, rfl, ?_, ?_, ?_, ?_, ?_, ?_⟩ <;>
    simp only [getVector, getScalar, getQuaternion, Param.getVector, Param.getScalar, Param.getQuaternion, hp, Bool.not_true, Bool.false_eq_true,
      if_false, if_neg hk]
  · intro hn
    refine ⟨_, if_neg (by omega), fun i => ?_⟩
    have : i.val < vs.length := by have := i.2; omega
    simp [List.getD, List.getElem?_eq_getElem this]
  · intro hn; rw [if_pos (by omega)]
  · rintro a rest rfl; simp
  · rintro rfl; simp
  · rintro a b c d rest rfl; simp
  · intro h; rw [if_pos (by omega)]

/-! ## C35 unique names -/

/-- **C35.** Registering a parameter succeeds exactly if its key is free; then that key holds the new configuration and every other key is
unchanged; a second registration under the same key throws (leaving the list as it was, since the failed call returns no new list). -/
theorem C35_parameters (l : ParamList) (so name : String) (mean sigma : List ℝ) (kind : RandType) :
    (l (key so name) = none → ∃ l', l.add so name mean sigma kind = .ok l' ∧ l' (key so name) = some ⟨[], mean, sigma, kind⟩ ∧
      (∀ k, k ≠ key so name → l' k = l k) ∧
      ∀ mean' sigma' kind', l'.add so name mean' sigma' kind' = .throws) ∧
    (∀ p, l (key so name) = some p → l.add so name mean sigma kind = .throws) := by
  refine ⟨fun h => ⟨_, by unfold ParamList.add; rw [h], by simp [Param.configure], fun k hk => if_neg hk, ?_⟩, fun p h => ?_⟩
  · intro mean' sigma' kind'; unfold ParamList.add; simp
  · unfold ParamList.add; rw [h]

/-- **C35.** Different parameters have different keys provided the object names contain no dot. -/
theorem C35_key_injective (so1 n1 so2 n2 : String) (h1 : '.' ∉ so1.toList) (h2 : '.' ∉ so2.toList) (h : key so1 n1 = key so2 n2) :
    so1 = so2 ∧ n1 = n2 := by
  have e : so1.toList ++ '.' :: n1.toList = so2.toList ++ '.' :: n2.toList := by
    have := congrArg String.toList h
    unfold key at this
    simpa using this
  have main : ∀ a b c d : List Char, '.' ∉ a → '.' ∉ c → a ++ '.' :: b = c ++ '.' :: d → a = c ∧ b = d := by
    intro a
    induction a with
    | nil =>
      intro b c d _ hc he
      cases c with
      | nil => simpa using he
      | cons x c => simp only [List.nil_append, List.cons_append, List.cons.injEq] at he; exact absurd (by rw [← he.1]; exact List.mem_cons_self) hc
    | cons x a ih =>
      intro b c d ha hc he
      cases c with
      | nil => simp only [List.nil_append, List.cons_append, List.cons.injEq] at he; exact absurd (by rw [he.1]; exact List.mem_cons_self) ha
      | cons y c =>
        simp only [List.cons_append, List.cons.injEq] at he
        obtain ⟨e1, e2⟩ := ih b c d (fun h => ha (List.mem_cons_of_mem _ h)) (fun h => hc (List.mem_cons_of_mem _ h)) he.2
        exact ⟨by rw [he.1, e1], e2⟩
  obtain ⟨e1, e2⟩ := main _ _ _ _ h1 h2 e
  exact ⟨String.ext e1, String.ext e2⟩

/-- **C35 (limit).** With dots in the names two different parameters can share a key, and registering the second then throws. -/
theorem C35_key_collision : ∃ so1 n1 so2 n2, (so1, n1) ≠ (so2, n2) ∧ key so1 n1 = key so2 n2 :=
  ⟨"a.b", "c", "a", "b.c", by decide, by decide⟩

/-- A history of constructions and destructions; a throwing constructor leaves everything as it was (the program catches the exception).
`none` when the program destroys something that does not live or reuses the identity of a live object. -/
def Objects.run : Objects → List ObjOp → Option Objects
  | o, [] => some o
  | o, op :: ops =>
    match op with
    | .construct id name => if o.live id ≠ none then none else
        match o.step (.construct id name) with
        | .ok o' => o'.run ops
        | _ => o.run ops
    | .destroy id =>
        match o.step (.destroy id) with
        | .ok o' => o'.run ops
        | _ => none

/-- The state before any object exists. -/
def Objects.empty : Objects := ⟨fun _ => none, fun _ => none⟩

theorem objects_inv (ops : List ObjOp) : ∀ (o o' : Objects), (∀ n i, o.reg n = some i ↔ o.live i = some n) → o.run ops = some o' →
    ∀ n i, o'.reg n = some i ↔ o'.live i = some n := by
  induction ops with
  | nil => intro o o' h e; simp only [Objects.run, Option.some.injEq] at e; rw [← e]; exact h
  | cons op ops ih =>
    intro o o' h e
    cases op with
    | construct id name =>
      simp only [Objects.run] at e
      by_cases hl : o.live id = none
      · rw [if_neg (by simp [hl])] at e
        unfold Objects.step at e
        rcases hreg : o.reg name with _ | j
        · simp only [hreg] at e
          refine ih _ o' ?_ e
          intro n i
          simp only
          by_cases hn : n = name
          · subst hn
            by_cases hi : i = id
            · subst hi; simp
            · simp only [if_true, if_neg hi]
              constructor
              · intro h'; exact absurd (Option.some.inj h').symm hi
              · intro h'; rw [← h n i, hreg] at h'; cases h'
          · by_cases hi : i = id
            · subst hi
              simp only [if_neg hn, if_true]
              constructor
              · intro h'; rw [h n i, hl] at h'; cases h'
              · intro h'; exact absurd (Option.some.inj h').symm hn
            · simp only [if_neg hn, if_neg hi]; exact h n i
        · simp only [hreg] at e
          exact ih o o' h e
      · rw [if_pos (by simpa using hl)] at e; cases e
    | destroy id =>
      simp only [Objects.run] at e
      unfold Objects.step at e
      rcases hl : o.live id with _ | name
      · simp only [hl, reduceCtorEq] at e
      · simp only [hl] at e
        refine ih _ o' ?_ e
        intro n i
        simp only
        by_cases hn : n = name
        · subst hn
          by_cases hi : i = id
          · subst hi; simp
          · simp only [if_true, if_neg hi]
            constructor
            · intro h'; cases h'
            · intro h'
              have a := (h n i).2 h'
              have b := (h n id).2 hl
              rw [a] at b; exact absurd (Option.some.inj b) hi
        · by_cases hi : i = id
          · subst hi
            simp only [if_neg hn, if_true]
            constructor
            · intro h'; rw [h n i, hl] at h'; exact absurd (Option.some.inj h').symm hn
            · intro h'; cases h'
          · simp only [if_neg hn, if_neg hi]; exact h n i

/-- **C35.** After any history: no two live objects have the same name; constructing an object succeeds exactly if no live object has
its name (and throws otherwise, with the registered object kept); and destroying a live object makes its name available again. -/
theorem C35_objects (ops : List ObjOp) (o : Objects) (h : Objects.empty.run ops = some o) :
    (∀ i j n, o.live i = some n → o.live j = some n → i = j) ∧
    (∀ id name, o.live id = none → ((∃ o', o.step (.construct id name) = .ok o' ∧ o'.live id = some name ∧ o'.reg name = some id) ↔
        ∀ i, o.live i ≠ some name)) ∧
    (∀ id name, (∃ i, o.live i = some name) → o.step (.construct id name) = .throws) ∧
    (∀ id name, o.live id = some name → ∃ o', o.step (.destroy id) = .ok o' ∧ o'.live id = none ∧
        ∀ id', ∃ o'', o'.step (.construct id' name) = .ok o'') := by
  have inv := objects_inv ops _ o (by intro n i; simp [Objects.empty]) h
  have throws : ∀ id name, (∃ i, o.live i = some name) → o.step (.construct id name) = .throws := by
    rintro id name ⟨i, hi⟩
    unfold Objects.step; simp only [(inv name i).2 hi]
  refine ⟨?_, ?_, throws, ?_⟩
  · intro i j n hi hj
    have a := (inv n i).2 hi
    rw [(inv n j).2 hj] at a
    exact (Option.some.inj a).symm
  · intro id name hl
    constructor
    · rintro ⟨o', ho', _⟩ i hi
      rw [throws id name ⟨i, hi⟩] at ho'; cases ho'
    · intro hn
      have hreg : o.reg name = none := by
        rcases hr : o.reg name with _ | i
        · rfl
        · exact absurd ((inv name i).1 hr) (hn i)
      exact ⟨⟨fun n => if n = name then some id else o.reg n, fun i => if i = id then some name else o.live i⟩, by unfold Objects.step; simp only [hreg], by simp, by simp⟩
  · intro id name hl
    refine ⟨⟨fun n => if n = name then none else o.reg n, fun i => if i = id then none else o.live i⟩, by unfold Objects.step; simp only [hl], by simp, fun id' => ?_⟩
    simp only [Objects.step, if_true]
    exact ⟨_, rfl⟩

-- Non-vacuity: a duplicate construction in the middle of a history.
example : (Objects.empty.run [.construct 1 "att", .construct 2 "att", .destroy 1, .construct 3 "att"]).map (fun o => (o.reg "att", o.live 1, o.live 2, o.live 3)) =
    some (some 3, none, none, some "att") := by decide

/-! ## C36 draws -/

/-- The assumption on the generators: uniform draws lie in [0, 1). -/
def Gen.Uniform01 {γ : Type} (g : Gen γ) : Prop := ∀ s, 0 ≤ (g.unif s).1 ∧ (g.unif s).1 < 1

variable {γ : Type} (g : Gen γ)

theorem unif_range (hg : g.Uniform01) (lb ub : ℝ) (s : γ) (h : lb ≤ ub) :
    lb ≤ (generate1dUniform g lb ub s).1 ∧ (generate1dUniform g lb ub s).1 ≤ ub := by
  obtain ⟨h0, h1⟩ := hg s
  unfold generate1dUniform
  constructor
  · simp only; nlinarith
  · simp only; nlinarith

/-- **C36.** A Cartesian-uniform draw has exactly one value per configured element, each between its minimum and maximum. -/
theorem C36_cartesian_uniform (hg : g.Uniform01) (p : Param) (s : γ) (hk : p.kind = .cartesianUniform) (hlen : p.mean.length ≤ p.sigma.length)
    (hle : ∀ (i : Nat) (a b : ℝ), p.mean[i]? = some a → p.sigma[i]? = some b → a ≤ b) :
    ∃ vs s', drawValue g p s = .ok (vs, s') ∧ vs.length = p.mean.length ∧
      ∀ (i : Nat) (a b : ℝ), p.mean[i]? = some a → p.sigma[i]? = some b → ∃ x, vs[i]? = some x ∧ a ≤ x ∧ x ≤ b := by
  unfold drawValue
  rw [hk]
  simp only
  generalize p.mean = ms at *
  generalize p.sigma = xs at *
  clear hk p
  induction ms generalizing xs s with
  | nil => exact ⟨[], s, rfl, rfl, fun i a b h => by simp at h⟩
  | cons m ms ih =>
    cases xs with
    | nil => simp at hlen
    | cons x xs =>
      obtain ⟨vs, s', h1, h2, h3⟩ := ih (generate1dUniform g m x s).2 xs (by simpa using hlen) (fun i a b ha hb => hle (i + 1) a b (by simpa using ha) (by simpa using hb))
      have hr := unif_range g hg m x s (hle 0 m x (by simp) (by simp))
      refine ⟨(generate1dUniform g m x s).1 :: vs, s', ?_, by simp [h2], ?_⟩
      · simp only [cartesian, h1, Res.bind_ok]
      · intro i a b ha hb
        cases i with
        | zero =>
          simp only [List.getElem?_cons_zero, Option.some.injEq] at ha hb
          subst ha hb
          exact ⟨_, by simp, hr.1, hr.2⟩
        | succ i => simpa using h3 i a b (by simpa using ha) (by simpa using hb)

/-- **C36 (limit).** If fewer maxima than minima are configured, the draw reads beyond the end of the list. -/
theorem C36_cartesian_short (p : Param) (s : γ) (hk : p.kind = .cartesianUniform ∨ p.kind = .cartesianNormal) (hlen : p.sigma.length < p.mean.length) :
    drawValue g p s = .ub := by
  have main : ∀ (draw : ℝ → ℝ → γ → ℝ × γ) (ms xs : List ℝ) (s : γ), xs.length < ms.length → cartesian draw ms xs s = .ub := by
    intro draw ms
    induction ms with
    | nil => intro xs s h; simp at h
    | cons m ms ih =>
      intro xs s h
      cases xs with
      | nil => rfl
      | cons x xs => simp only [cartesian, ih xs (draw m x s).2 (by simpa using h), Res.bind_ub]
  unfold drawValue
  rcases hk with h | h <;> rw [h] <;> exact main _ _ _ _ hlen

/-- **C36.** Circular draws have Euclidean norm |r| for the drawn radius `r = mean + n·sigma`, and the uniform kind's angle is in range. -/
theorem C36_circular (hg : g.Uniform01) (p : Param) (s : γ) (m0 m1 x0 x1 : ℝ) (ms xs : List ℝ) (hm : p.mean = m0 :: m1 :: ms) (hx : p.sigma = x0 :: x1 :: xs)
    (hk : p.kind = .circularNormalUniform ∨ p.kind = .circularNormalNormal) :
    ∃ a b s', drawValue g p s = .ok ([a, b], s') ∧ Real.sqrt (a ^ 2 + b ^ 2) = |m0 + (g.norm s).1 * x0| ∧
      (p.kind = .circularNormalUniform → m1 ≤ x1 → ∃ t, m1 ≤ t ∧ t ≤ x1 ∧
        a = (m0 + (g.norm s).1 * x0) * Real.cos t ∧ b = (m0 + (g.norm s).1 * x0) * Real.sin t) := by
  have hn : ∀ r t : ℝ, Real.sqrt ((r * Real.cos t) ^ 2 + (r * Real.sin t) ^ 2) = |r| := by
    intro r t
    rw [show (r * Real.cos t) ^ 2 + (r * Real.sin t) ^ 2 = r ^ 2 by have := Real.sin_sq_add_cos_sq t; grind, Real.sqrt_sq_eq_abs]
  unfold drawValue
  rcases hk with h | h
  · rw [h, hm, hx]
    refine ⟨_, _, _, rfl, hn _ _, fun _ hle => ⟨_, (unif_range g hg _ _ _ hle).1, (unif_range g hg _ _ _ hle).2, rfl, rfl⟩⟩
  · rw [h, hm, hx]
    refine ⟨_, _, _, rfl, hn _ _, fun hc => by cases hc⟩

/-- **C36.** A spherical draw with uniform angles has Euclidean norm |r|; its polar angle is between the configured limits (for limits in
`0 ≤ θmin ≤ θmax ≤ π`) and its azimuth as well. -/
theorem C36_spherical_uniform (hg : g.Uniform01) (p : Param) (s : γ) (m0 m1 m2 x0 x1 x2 : ℝ) (ms xs : List ℝ)
    (hm : p.mean = m0 :: m1 :: m2 :: ms) (hx : p.sigma = x0 :: x1 :: x2 :: xs) (hk : p.kind = .sphericalNormalUniformUniform) :
    ∃ a b c s', drawValue g p s = .ok ([a, b, c], s') ∧ Real.sqrt (a ^ 2 + b ^ 2 + c ^ 2) = |m0 + (g.norm s).1 * x0| ∧
      (0 ≤ m1 → m1 ≤ x1 → x1 ≤ Real.pi → m2 ≤ x2 → ∃ t ph, m1 ≤ t ∧ t ≤ x1 ∧ m2 ≤ ph ∧ ph ≤ x2 ∧
        a = (m0 + (g.norm s).1 * x0) * Real.sin t * Real.cos ph ∧ b = (m0 + (g.norm s).1 * x0) * Real.sin t * Real.sin ph ∧
        c = (m0 + (g.norm s).1 * x0) * Real.cos t) := by
  unfold drawValue
  rw [hk, hm, hx]
  refine ⟨_, _, _, _, rfl, ?_, ?_⟩
  · have hn : ∀ r t u : ℝ, Real.sqrt ((r * Real.sin t * Real.cos u) ^ 2 + (r * Real.sin t * Real.sin u) ^ 2 + (r * Real.cos t) ^ 2) = |r| := by
      intro r t u
      have h1 := Real.sin_sq_add_cos_sq t
      have h2 := Real.sin_sq_add_cos_sq u
      rw [show (r * Real.sin t * Real.cos u) ^ 2 + (r * Real.sin t * Real.sin u) ^ 2 + (r * Real.cos t) ^ 2 = r ^ 2 by grind, Real.sqrt_sq_eq_abs]
    exact hn _ _ _
  · intro h0 h1 h2 h3
    refine ⟨_, _, ?_, ?_, (unif_range g hg _ _ _ h3).1, (unif_range g hg _ _ _ h3).2, rfl, rfl, rfl⟩
    · have hur : 0 ≤ (generate1dUniform g 0 1 (generate1dNormal g m0 x0 s).2).1 ∧ _ := unif_range g hg 0 1 (generate1dNormal g m0 x0 s).2 zero_le_one
      have hc : Real.cos x1 ≤ Real.cos m1 := Real.cos_le_cos_of_nonneg_of_le_pi h0 h2 h1
      conv_lhs => rw [← Real.arccos_cos h0 (h1.trans h2)]
      apply Real.arccos_le_arccos
      have := mul_nonneg (sub_nonneg.2 hc) hur.1
      simp only [generate1dUniform, generate1dNormal] at this ⊢
      linarith
    · have hur : 0 ≤ (generate1dUniform g 0 1 (generate1dNormal g m0 x0 s).2).1 ∧ _ := unif_range g hg 0 1 (generate1dNormal g m0 x0 s).2 zero_le_one
      have hc : Real.cos x1 ≤ Real.cos m1 := Real.cos_le_cos_of_nonneg_of_le_pi h0 h2 h1
      conv_rhs => rw [← Real.arccos_cos (h0.trans h1) h2]
      apply Real.arccos_le_arccos
      have := mul_le_mul_of_nonneg_left hur.2 (sub_nonneg.2 hc)
      simp only [generate1dUniform, generate1dNormal] at this ⊢
      linarith

theorem normalUnitVec_spec (m : Vec 3) (hm : dot3 m m = 1) : dot3 (normalUnitVec m) (normalUnitVec m) = 1 ∧ dot3 (normalUnitVec m) m = 0 := by
  have hip : ∀ u v : Vec 3, innerProduct u v = dot3 u v := by intro u v; unfold innerProduct dot3; rw [Fin.sum_univ_three]
  have key : ∀ u : Vec 3, u ≠ 0 → dot3 u m = 0 → dot3 (calcNormalizedVector u) (calcNormalizedVector u) = 1 ∧ dot3 (calcNormalizedVector u) m = 0 := by
    intro u hu hd
    obtain ⟨h1, h2, h3⟩ := (C71_normalized_vector u).1 hu
    refine ⟨by rw [← hip, ← calcNorm_sq, h1]; norm_num, ?_⟩
    rw [← h3] at hd
    have : calcNorm u * dot3 (calcNormalizedVector u) m = 0 := by
      rw [← hd]; unfold dot3
      conv_rhs => unfold scale
      ring
    rcases mul_eq_zero.1 this with h | h
    · exact absurd h (ne_of_gt h2)
    · exact h
  have nx : calcNorm (outerProduct m ![1, 0, 0]) ^ 2 = m 1 ^ 2 + m 2 ^ 2 := by
    rw [calcNorm_sq, hip]; simp [dot3, outerProduct]; ring
  have ny : calcNorm (outerProduct m ![0, 1, 0]) ^ 2 = m 0 ^ 2 + m 2 ^ 2 := by
    rw [calcNorm_sq, hip]; simp [dot3, outerProduct]; ring
  unfold normalUnitVec
  simp only
  split
  · rename_i h
    apply key
    · intro h0; rw [h0, (calcNorm_eq_zero _).2 rfl] at h; exact absurd h (not_lt.2 (calcNorm_nonneg _))
    · simp [dot3, outerProduct]; ring
  · rename_i h
    apply key
    · intro h0
      have hy0 := (calcNorm_eq_zero _).2 h0
      have hx0 : calcNorm (outerProduct m ![1, 0, 0]) = 0 := le_antisymm ((not_lt.1 h).trans (le_of_eq hy0)) (calcNorm_nonneg _)
      rw [hx0] at nx; rw [hy0] at ny
      unfold dot3 at hm
      nlinarith [sq_nonneg (m 0), sq_nonneg (m 1), sq_nonneg (m 2)]
    · simp [dot3, outerProduct]; ring

/-- **C36.** A spherical draw around a non-zero mean vector has Euclidean norm |r| for the drawn length, and makes exactly the drawn angle
with the mean direction: its inner product with the unit mean direction is `r cos(angle)`. -/
theorem C36_spherical_normal (p : Param) (s : γ) (m0 m1 m2 x0 x1 : ℝ) (ms xs : List ℝ)
    (hm : p.mean = m0 :: m1 :: m2 :: ms) (hx : p.sigma = x0 :: x1 :: xs) (hk : p.kind = .sphericalNormalNormal) (hne : (![m0, m1, m2] : Vec 3) ≠ 0) :
    ∃ a b c s', drawValue g p s = .ok ([a, b, c], s') ∧ ∃ n1 n2 : ℝ,
      Real.sqrt (a ^ 2 + b ^ 2 + c ^ 2) = |Real.sqrt (m0 ^ 2 + m1 ^ 2 + m2 ^ 2) + n2 * x0| ∧
      a * m0 + b * m1 + c * m2 = (Real.sqrt (m0 ^ 2 + m1 ^ 2 + m2 ^ 2) + n2 * x0) * Real.cos (n1 * x1) * Real.sqrt (m0 ^ 2 + m1 ^ 2 + m2 ^ 2) := by
  have hN : calcNorm (![m0, m1, m2] : Vec 3) = Real.sqrt (m0 ^ 2 + m1 ^ 2 + m2 ^ 2) := by
    unfold calcNorm; rw [Fin.sum_univ_three]; simp
  have hpos : 0 < calcNorm (![m0, m1, m2] : Vec 3) := lt_of_le_of_ne (calcNorm_nonneg _) (Ne.symm fun h => hne ((calcNorm_eq_zero _).1 h))
  have hip : ∀ u v : Vec 3, innerProduct u v = dot3 u v := by intro u v; unfold innerProduct dot3; rw [Fin.sum_univ_three]
  rw [← hN]
  obtain ⟨dir, hdir⟩ : ∃ dir, dir = scale (1 / calcNorm (![m0, m1, m2] : Vec 3)) ![m0, m1, m2] := ⟨_, rfl⟩
  have hd1 : dot3 dir dir = 1 := by
    rw [hdir, ← hip, innerProduct_scale, ← calcNorm_sq]; field_simp
  obtain ⟨u1, u2⟩ := normalUnitVec_spec dir hd1
  unfold drawValue
  rw [hk, hm, hx]
  simp only [calcSphericalNormalNormal, ← hdir]
  generalize hga : generate1dUniform g 0 tau s = ga
  obtain ⟨axis, hax⟩ : ∃ axis, axis = (Quat.ofAxisAngle dir (-ga.1)).frameConversion (normalUnitVec dir) := ⟨_, rfl⟩
  have hq := C69_axis_angle dir (normalUnitVec dir) (-ga.1) hd1
  have ha1 : dot3 axis axis = 1 := by rw [hax, (C64_isometry _ hq.1 _ _).1, u1]
  have ha2 : dot3 axis dir = 0 := by
    have := (C64_isometry _ hq.1 (normalUnitVec dir) dir).1
    rw [hq.2.1, u2] at this
    rw [hax]; exact this
  rw [← hax]
  simp only [generate1dNormal, zero_add]
  generalize (g.norm ga.2).1 = n1
  generalize (g.norm (g.norm ga.2).2) = gn
  have hrod := (C69_axis_angle axis dir (-(n1 * x1)) ha1)
  obtain ⟨ret, hret⟩ : ∃ ret, ret = (Quat.ofAxisAngle axis (-(n1 * x1))).frameConversion dir := ⟨_, rfl⟩
  have hr1 : dot3 ret ret = 1 := by rw [hret, (C64_isometry _ hrod.1 _ _).1, hd1]
  have hr2 : dot3 ret dir = Real.cos (n1 * x1) := by
    rw [hret, hrod.2.2.2, Real.cos_neg, ha2]
    unfold dot3 at *
    simp only [vadd, scale, outerProduct, Matrix.cons_val_zero, Matrix.cons_val_one, Matrix.cons_val]
    grind
  rw [← hret]
  refine ⟨_, _, _, _, rfl, n1, gn.1, ?_, ?_⟩
  · unfold dot3 at hr1
    simp only [scale]
    generalize calcNorm (![m0, m1, m2] : Vec 3) + gn.1 * x0 = r
    rw [show (r * ret 0) ^ 2 + (r * ret 1) ^ 2 + (r * ret 2) ^ 2 = r ^ 2 by grind, Real.sqrt_sq_eq_abs]
  · have e : ∀ i, (![m0, m1, m2] : Vec 3) i = calcNorm (![m0, m1, m2] : Vec 3) * dir i := by
      intro i; rw [hdir]; unfold scale; field_simp
    have e0 := e 0; have e1 := e 1; have e2 := e 2
    simp only [Matrix.cons_val_zero, Matrix.cons_val_one, Matrix.cons_val] at e0 e1 e2
    rw [← hr2]
    simp only [scale]
    generalize calcNorm (![m0, m1, m2] : Vec 3) = N at *
    unfold dot3
    rw [e0, e1, e2]
    ring

theorem drawDirection_unit (s : γ) : dot3 (drawDirection g s).1 (drawDirection g s).1 = 1 := by
  unfold drawDirection dot3
  simp only [Matrix.cons_val_zero, Matrix.cons_val_one, Matrix.cons_val]
  generalize Real.arccos _ = t
  generalize (generate1dUniform g 0 tau _).1 = u
  have h1 := Real.sin_sq_add_cos_sq t
  have h2 := Real.sin_sq_add_cos_sq u
  grind

theorem firstCnv_unit (d : Vec 3) (h : dot3 d d = 1) : (firstCnv d).IsUnit := by
  unfold firstCnv Quat.IsUnit innerProduct
  rw [Fin.sum_univ_three]
  unfold dot3 at h
  simp [outerProduct]
  linarith

/-- **C36.** Quaternion draws have unit norm. -/
theorem C36_quaternion_unit (p : Param) (s : γ) (x0 : ℝ) (xs : List ℝ) (hx : p.kind = .quaternionNormal → p.sigma = x0 :: xs)
    (hk : p.kind = .quaternionUniform ∨ p.kind = .quaternionNormal) :
    ∃ a b c d s', drawValue g p s = .ok ([a, b, c, d], s') ∧ a ^ 2 + b ^ 2 + c ^ 2 + d ^ 2 = 1 := by
  unfold drawValue
  rcases hk with h | h
  · rw [h]
    refine ⟨_, _, _, _, _, rfl, ?_⟩
    have h1 := firstCnv_unit _ (drawDirection_unit g s)
    have h2 := (C69_axis_angle ![1, 0, 0] 0 (generate1dUniform g 0 tau (drawDirection g s).2).1 (by simp [dot3])).1
    exact (C65_group _ _ ⟨0, 0, 0, 0⟩).2.2.2.2.2.1 h1 h2
  · rw [h, hx h]
    exact ⟨_, _, _, _, _, rfl, (C69_axis_angle _ 0 (generate1dNormal g 0 x0 (drawDirection g s).2).1 (drawDirection_unit g s)).1⟩

/-- **C36 (limit).** The "uniform" quaternion does not turn the X axis to the drawn direction, as the code intends, but twice as far: its
inverse conversion of the X axis has first element `2 d₀² - 1` where `d` is the drawn direction, so for the direction Y it gives `-X`. -/
theorem C36_uniform_doubles_angle (d : Vec 3) (h : dot3 d d = 1) (a : ℝ) :
    ((firstCnv d).mul (Quat.ofAxisAngle ![1, 0, 0] a)).inverseFrameConversion ![1, 0, 0] =
      ![2 * d 0 ^ 2 - 1, 2 * d 0 * d 1, 2 * d 0 * d 2] := by
  rw [(C65_composition _ _ _).2]
  have hfix : (Quat.ofAxisAngle ![1, 0, 0] a).inverseFrameConversion ![1, 0, 0] = ![1, 0, 0] := by
    have hu := C69_axis_angle ![1, 0, 0] ![1, 0, 0] a (by simp [dot3])
    have := (C64_inverse _ hu.1 ![1, 0, 0]).1
    rwa [hu.2.1] at this
  rw [hfix, inverse_explicit]
  unfold firstCnv innerProduct
  rw [Fin.sum_univ_three]
  unfold dot3 at h
  apply vec3_ext <;> simp [outerProduct] <;> grind

-- Non-vacuity: a registered three-element parameter whose draw succeeds and meets the hypotheses of C34_last_draw and C36_cartesian_uniform.
example : ∃ p' s', randomize (⟨fun s => (1 / 2, s), fun s => (-3, s)⟩ : Gen Nat) (Param.configure [0, 1, -1] [2, 3, 1] .cartesianUniform) 0 = .ok (p', s') ∧
    p'.value = [1, 2, 0] := by
  refine ⟨_, _, rfl, ?_⟩
  norm_num [generate1dUniform]

-- Non-vacuity: a generator meeting the assumption, a valid configuration, and a direction for the last theorem.
example : Gen.Uniform01 (⟨fun s => (1 / 2, s), fun s => (-3, s)⟩ : Gen Nat) := fun _ => by norm_num

example : (![0, 1, 0] : Vec 3) ≠ ![2 * 0 ^ 2 - 1, 2 * 0 * 1, 2 * 0 * 0] ∧ dot3 ![0, 1, 0] ![0, 1, 0] = 1 := by
  refine ⟨fun h => ?_, by simp [dot3]⟩
  have := congrFun h 1
  simp at this

end S2E.MonteCarlo
