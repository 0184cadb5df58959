import Verif.Spec.Sgp4History

/-! Lemmas for the SGP4 theorems. -/
namespace S2E.Sgp4

open S2E.InitOrbit (Wgs)

/-- `s'` is `s` with the members that `sgp4` writes changed. -/
structure Same (s s' : Elset) : Prop where
  eq : ∃ init t error atime xli xni aycof xlcof con41 x1mth2 x7thm1, s' = { s with init := init, t := t, error := error, atime := atime, xli := xli, xni := xni, aycof := aycof, xlcof := xlcof, con41 := con41, x1mth2 := x1mth2, x7thm1 := x7thm1 }
  near : s.method ≠ 'd' → s'.aycof = s.aycof ∧ s'.xlcof = s.xlcof ∧ s'.con41 = s.con41 ∧ s'.x1mth2 = s.x1mth2 ∧ s'.x7thm1 = s.x7thm1

theorem Same.refl (s : Elset) : Same s s :=
  ⟨⟨s.init, s.t, s.error, s.atime, s.xli, s.xni, s.aycof, s.xlcof, s.con41, s.x1mth2, s.x7thm1, rfl⟩, fun _ => ⟨rfl, rfl, rfl, rfl, rfl⟩⟩

theorem Same.method {s s' : Elset} (h : Same s s') : s'.method = s.method := by
  obtain ⟨_, t, e, a, b, c, d, f, g, i, j, rfl⟩ := h.eq; rfl

theorem Same.trans {a b c : Elset} (h : Same a b) (k : Same b c) : Same a c := by
  refine ⟨?_, fun hm => ?_⟩
  · obtain ⟨_, _, _, _, _, _, _, _, _, _, _, rfl⟩ := h.eq
    obtain ⟨_, _, _, _, _, _, _, _, _, _, _, rfl⟩ := k.eq
    exact ⟨_, _, _, _, _, _, _, _, _, _, _, rfl⟩
  · obtain ⟨h1, h2, h3, h4, h5⟩ := h.near hm
    obtain ⟨k1, k2, k3, k4, k5⟩ := k.near (h.method ▸ hm)
    exact ⟨k1.trans h1, k2.trans h2, k3.trans h3, k4.trans h4, k5.trans h5⟩

theorem Same.rates {s s' : Elset} (h : Same s s') (x y z : ℝ) : rates s' x y z = rates s x y z := by
  obtain ⟨_, _, _, _, _, _, _, _, _, _, _, rfl⟩ := h.eq; rfl

theorem Same.loop {s s' : Elset} (h : Same s s') (t : ℝ) (fuel : ℕ) (b : Bool) (x y z : ℝ) : dspaceLoop s' t fuel b x y z = dspaceLoop s t fuel b x y z := by
  induction fuel generalizing b x y z with
  | zero => rfl
  | succ n ih => simp only [dspaceLoop, h.rates, ih]

/-- Two outcomes of `dspace` or of its omission. -/
def SameStep (r r' : Res (Elset × Mean)) : Prop :=
  match r, r' with
  | .ok a, .ok b => Same a.1 b.1 ∧ a.2 = b.2 ∧ a.1.t = b.1.t
  | .stuck, .stuck => True
  | _, _ => False

theorem loop_ends (s : Elset) (t : ℝ) (fuel : ℕ) (b : Bool) (x y z : ℝ) : (∃ o, dspaceLoop s t fuel b x y z = .ok o) ∨ dspaceLoop s t fuel b x y z = .stuck := by
  induction fuel generalizing b x y z with
  | zero => exact .inr rfl
  | succ n ih =>
    unfold dspaceLoop
    dsimp only
    split_ifs
    · exact ih ..
    · exact ih ..
    · exact ih ..
    · exact ih ..
    · exact .inl ⟨_, rfl⟩

theorem Same.dspace {s s' : Elset} (h : Same s s') (ht : s'.t = s.t) (fuel : ℕ) (m : Mean) : SameStep (dspace fuel s m) (dspace fuel s' m) := by
  have hl := h.loop s.t fuel false 0 s.xlamo s.no
  have hn := h.near
  obtain ⟨_, _, _, _, _, _, _, _, _, _, _, rfl⟩ := h.eq
  dsimp only at ht
  subst ht
  unfold Sgp4.dspace
  dsimp only
  rw [hl]
  by_cases hz : s.irez ≠ 0
  · rw [if_pos hz, if_pos hz]
    rcases loop_ends s s.t fuel false 0 s.xlamo s.no with ⟨o, ho⟩ | ho
    · rw [ho]
      exact ⟨⟨⟨_, _, _, _, _, _, _, _, _, _, _, rfl⟩, hn⟩, rfl, rfl⟩
    · rw [ho]; trivial
  · rw [if_neg hz, if_neg hz]
    exact ⟨⟨⟨_, _, _, _, _, _, _, _, _, _, _, rfl⟩, hn⟩, rfl, rfl⟩

theorem Same.drag {s s' : Elset} (h : Same s s') (c : Consts) (q : Secular) (m : Mean) : drag c s' q m = drag c s q m := by
  obtain ⟨_, _, _, _, _, _, _, _, _, _, _, rfl⟩ := h.eq; rfl

theorem Same.secular {s s' : Elset} (h : Same s s') (ht : s'.t = s.t) : secular s' = secular s := by
  obtain ⟨_, _, _, _, _, _, _, _, _, _, _, rfl⟩ := h.eq
  dsimp only at ht
  subst ht
  rfl

theorem Same.lunisolar {s s' : Elset} (h : Same s s') (ht : s'.t = s.t) (d : Drag) : lunisolar s' d = lunisolar s d := by
  obtain ⟨_, _, _, _, _, _, _, _, _, _, _, rfl⟩ := h.eq
  dsimp only at ht
  subst ht
  rfl

/-- What the last part reads of the record. -/
theorem shortPeriod_congr (c : Consts) {s s' : Elset} (hm : s'.method = s.method)
    (hn : s.method ≠ 'd' → s'.con41 = s.con41 ∧ s'.x1mth2 = s.x1mth2 ∧ s'.x7thm1 = s.x7thm1) (a n si co ax ay se ce x y : ℝ) (e : ℕ) :
    (shortPeriod c s' a n si co ax ay se ce x y e).written = (shortPeriod c s a n si co ax ay se ce x y e).written ∧
      (shortPeriod c s' a n si co ax ay se ce x y e).elset.error = (shortPeriod c s a n si co ax ay se ce x y e).elset.error := by
  unfold shortPeriod
  dsimp only
  by_cases hp : a * (1 - (ax * ax + ay * ay)) < 0
  · rw [if_pos hp, if_pos hp]; exact ⟨rfl, rfl⟩
  · rw [if_neg hp, if_neg hp]
    by_cases hd : s.method = 'd'
    · rw [if_pos hd, if_pos (hm.trans hd)]; exact ⟨rfl, rfl⟩
    · rw [if_neg hd, if_neg (fun k => hd (hm ▸ k))]
      obtain ⟨h1, h2, h3⟩ := hn hd
      simp only [h1, h2, h3, and_self]

theorem shortPeriod_same (c : Consts) (s : Elset) (a n si co ax ay se ce x y : ℝ) (e : ℕ) : Same s (shortPeriod c s a n si co ax ay se ce x y e).elset := by
  unfold shortPeriod
  dsimp only
  by_cases hp : a * (1 - (ax * ax + ay * ay)) < 0
  · rw [if_pos hp]; exact ⟨⟨_, _, _, _, _, _, _, _, _, _, _, rfl⟩, fun _ => ⟨rfl, rfl, rfl, rfl, rfl⟩⟩
  · rw [if_neg hp]
    by_cases hd : s.method = 'd'
    · rw [if_pos hd]; exact ⟨⟨_, _, _, _, _, _, _, _, _, _, _, rfl⟩, fun k => absurd hd k⟩
    · rw [if_neg hd]; exact ⟨⟨_, _, _, _, _, _, _, _, _, _, _, rfl⟩, fun _ => ⟨rfl, rfl, rfl, rfl, rfl⟩⟩

theorem longPeriod_same (c : Consts) (s : Elset) (i : ℝ) : Same s (longPeriod c s i) := by
  unfold longPeriod
  by_cases hd : s.method = 'd'
  · rw [if_pos hd]; exact ⟨⟨_, _, _, _, _, _, _, _, _, _, _, rfl⟩, fun k => absurd hd k⟩
  · rw [if_neg hd]; exact Same.refl s

theorem Same.longPeriod {s s' : Elset} (h : Same s s') (c : Consts) (i : ℝ) :
    (longPeriod c s' i).aycof = (longPeriod c s i).aycof ∧ (longPeriod c s' i).xlcof = (longPeriod c s i).xlcof ∧
      (s.method ≠ 'd' → (longPeriod c s' i).con41 = (longPeriod c s i).con41 ∧ (longPeriod c s' i).x1mth2 = (longPeriod c s i).x1mth2 ∧
        (longPeriod c s' i).x7thm1 = (longPeriod c s i).x7thm1) := by
  unfold Sgp4.longPeriod
  by_cases hd : s.method = 'd'
  · rw [if_pos hd, if_pos (h.method.trans hd)]; exact ⟨rfl, rfl, fun k => absurd hd k⟩
  · rw [if_neg hd, if_neg (fun k => hd (h.method ▸ k))]
    obtain ⟨h1, h2, h3, h4, h5⟩ := h.near hd
    exact ⟨h1, h2, fun _ => ⟨h3, h4, h5⟩⟩

theorem finish_same (c : Consts) (s : Elset) (d : Drag) (p : Periodic) (e : ℕ) : Same s (finish c s d p e).elset :=
  (longPeriod_same c s p.inclp).trans (shortPeriod_same ..)

theorem Same.finish {s s' : Elset} (h : Same s s') (c : Consts) (d : Drag) (p : Periodic) (e : ℕ) :
    (finish c s' d p e).written = (finish c s d p e).written ∧ (finish c s' d p e).elset.error = (finish c s d p e).elset.error := by
  unfold Sgp4.finish
  dsimp only
  obtain ⟨h1, h2, h3⟩ := h.longPeriod c p.inclp
  rw [h1, h2, h.method]
  have m1 := (longPeriod_same c s p.inclp).method
  have m2 := (longPeriod_same c s' p.inclp).method
  exact shortPeriod_congr c (by rw [m1, m2, h.method]) (fun k => h3 (m1 ▸ k)) ..

/-- The step with `dspace` or without it. -/
theorem Same.step {s s' : Elset} (h : Same s s') (ht : s'.t = s.t) (fuel : ℕ) (m : Mean) :
    SameStep (if s.method = 'd' then Sgp4.dspace fuel s m else .ok (s, m)) (if s'.method = 'd' then Sgp4.dspace fuel s' m else .ok (s', m)) := by
  rw [h.method]
  by_cases hd : s.method = 'd'
  · rw [if_pos hd, if_pos hd]; exact h.dspace ht fuel m
  · rw [if_neg hd, if_neg hd]; exact ⟨h, rfl, ht.symm⟩

theorem Same.start {s s' : Elset} (h : Same s s') (t : ℝ) : Same { s with t := t, error := 0 } { s' with t := t, error := 0 } := by
  refine ⟨?_, h.near⟩
  obtain ⟨_, _, _, _, _, _, _, _, _, _, _, rfl⟩ := h.eq
  exact ⟨_, _, _, _, _, _, _, _, _, _, _, rfl⟩

theorem step_same (s : Elset) (fuel : ℕ) (m : Mean) (o : Elset × Mean)
    (h : (if s.method = 'd' then Sgp4.dspace fuel s m else .ok (s, m)) = .ok o) : Same s o.1 ∧ o.1.t = s.t := by
  by_cases hd : s.method = 'd'
  · rw [if_pos hd] at h
    unfold dspace at h
    dsimp only at h
    by_cases hz : s.irez ≠ 0
    · rw [if_pos hz] at h
      rcases loop_ends s s.t fuel false 0 s.xlamo s.no with ⟨p, hp⟩ | hp
      · rw [hp] at h
        obtain rfl := Res.ok.inj h
        exact ⟨⟨⟨_, _, _, _, _, _, _, _, _, _, _, rfl⟩, fun _ => ⟨rfl, rfl, rfl, rfl, rfl⟩⟩, rfl⟩
      · rw [hp] at h; cases h
    · rw [if_neg hz] at h
      obtain rfl := Res.ok.inj h
      exact ⟨⟨⟨_, _, _, _, _, _, _, _, _, _, _, rfl⟩, fun _ => ⟨rfl, rfl, rfl, rfl, rfl⟩⟩, rfl⟩
  · rw [if_neg hd] at h
    obtain rfl := Res.ok.inj h
    exact ⟨Same.refl s, rfl⟩

theorem advance_same (fuel : ℕ) (c : Consts) (s : Elset) (o : Out) (h : advance fuel c s = .ok o) : Same s o.elset := by
  unfold advance at h
  dsimp only at h
  rcases h1 : (if s.method = 'd' then dspace fuel s _ else .ok (s, _) : Res (Elset × Mean)) with a | _ | _ | _
  · rw [h1] at h
    obtain rfl := Res.ok.inj h
    exact (step_same s fuel _ a h1).1.trans (finish_same ..)
  all_goals rw [h1] at h; cases h

theorem sgp4_same (fuel : ℕ) (w : Wgs) (s : Elset) (t : ℝ) (o : Out) (h : sgp4 fuel w s t = .ok o) : Same s o.elset := by
  have k0 : Same s { s with t := t, error := 0 } := ⟨⟨_, _, _, _, _, _, _, _, _, _, _, rfl⟩, fun _ => ⟨rfl, rfl, rfl, rfl, rfl⟩⟩
  exact k0.trans (advance_same fuel (consts w) _ o h)

theorem SameStep.tail {a b : Res (Elset × Mean)} (k : SameStep a b) (c : Consts) (q : Secular) :
    observe (b.bind fun sm => .ok (Sgp4.finish c sm.1 (Sgp4.drag c sm.1 q sm.2) (Sgp4.lunisolar sm.1 (Sgp4.drag c sm.1 q sm.2)).1
      (Sgp4.lunisolar sm.1 (Sgp4.drag c sm.1 q sm.2)).2)) =
    observe (a.bind fun sm => .ok (Sgp4.finish c sm.1 (Sgp4.drag c sm.1 q sm.2) (Sgp4.lunisolar sm.1 (Sgp4.drag c sm.1 q sm.2)).1
      (Sgp4.lunisolar sm.1 (Sgp4.drag c sm.1 q sm.2)).2)) := by
  rcases a with a | _ | _ | _ <;> rcases b with b | _ | _ | _ <;> first | exact k.elim | rfl | skip
  obtain ⟨k1, k2, k3⟩ := k
  simp only [Res.bind, observe]
  rw [← k2, k1.drag, k1.lunisolar k3.symm]
  obtain ⟨f1, f2⟩ := k1.finish c (Sgp4.drag c a.1 q a.2) (Sgp4.lunisolar a.1 (Sgp4.drag c a.1 q a.2)).1 (Sgp4.lunisolar a.1 (Sgp4.drag c a.1 q a.2)).2
  rw [f1, f2]

theorem Same.advance {s s' : Elset} (h : Same s s') (ht : s'.t = s.t) (fuel : ℕ) (c : Consts) : observe (advance fuel c s') = observe (advance fuel c s) := by
  have e1 : (Sgp4.secular s') = Sgp4.secular s := h.secular ht
  have e2 : s'.ecco = s.ecco ∧ s'.inclo = s.inclo ∧ s'.no = s.no := by
    obtain ⟨_, _, _, _, _, _, _, _, _, _, _, rfl⟩ := h.eq
    exact ⟨rfl, rfl, rfl⟩
  obtain ⟨e2, e3, e4⟩ := e2
  have k := h.step ht fuel ⟨s.ecco, (Sgp4.secular s).argpm, s.inclo, (Sgp4.secular s).mm, (Sgp4.secular s).nodem, s.no⟩
  unfold Sgp4.advance
  dsimp only
  rw [e1, e2, e3, e4]
  exact SameStep.tail k c (Sgp4.secular s)

theorem Same.sgp4 {s s' : Elset} (h : Same s s') (fuel : ℕ) (w : Wgs) (t : ℝ) : observe (sgp4 fuel w s' t) = observe (sgp4 fuel w s t) :=
  (h.start t).advance rfl fuel (consts w)

theorem runs_same (fuel : ℕ) (w : Wgs) (ts : List ℝ) (s s' : Elset) (h : runs fuel w ts s = .ok s') : Same s s' := by
  induction ts generalizing s with
  | nil => obtain rfl := Res.ok.inj h; exact Same.refl s
  | cons t ts ih =>
    unfold runs at h
    rcases h1 : sgp4 fuel w s t with o | _ | _ | _ <;> rw [h1] at h <;> simp only [Res.bind, reduceCtorEq] at h
    exact (sgp4_same fuel w s t o h1).trans (ih o.elset h)

theorem init_same (fuel : ℕ) (w : Wgs) (epoch bstar ecco argpo inclo mo no nodeo : ℝ) (s s' : Elset)
    (h : sgp4init fuel w epoch bstar ecco argpo inclo mo no nodeo s = .ok s') : Same (prepare w epoch bstar ecco argpo inclo mo no nodeo s) s' := by
  unfold sgp4init at h
  dsimp only at h
  generalize prepare w epoch bstar ecco argpo inclo mo no nodeo s = x at h ⊢
  have k : ∀ y : Elset, Same y { y with init := 'n' } := fun y => ⟨⟨_, _, _, _, _, _, _, _, _, _, _, rfl⟩, fun _ => ⟨rfl, rfl, rfl, rfl, rfl⟩⟩
  by_cases he : x.error = 0
  · rw [if_pos he] at h
    rcases h1 : Sgp4.sgp4 fuel w x 0 with o | _ | _ | _ <;> rw [h1] at h <;> simp only [Res.bind, reduceCtorEq] at h
    obtain rfl := Res.ok.inj h
    exact (sgp4_same fuel w x 0 o h1).trans (k _)
  · rw [if_neg he] at h
    obtain rfl := Res.ok.inj h
    exact k _

end S2E.Sgp4
