import Verif.Props.TrigInterpolation

/-!
# C88: the sliding window of interpolation data

Specification: out of a sequence of offered points `(time, value)` those are kept whose time is later than every time kept before
(`records`); the object holds the last `degree` points.
-/
namespace S2E.Interp

variable {K : Type} [Field K] [LinearOrder K]

/-- The points later than `last` and than every earlier point of the list. -/
def records {α : Type} (last : K) : List (K × α) → List (K × α)
  | [] => []
  | p :: l => if last < p.1 then p :: records p.1 l else records last l

/-- A sequence of `PushAndPopData` calls, results ignored. -/
def pushAll (s : Interpolation K) : List (K × K) → Res (Interpolation K)
  | [] => .ok s
  | p :: l => do
    let r ← pushAndPop s p.1 p.2
    pushAll r.2 l

/-- One call: refused, without effect, exactly if the new time is not later than the newest one; otherwise the oldest point leaves and
the new one enters, in both lists. -/
theorem C88_push (s : Interpolation K) (hs : WellFormed s) (hpos : 0 < s.degree) (x y : K) :
    (x ≤ s.xs.getLast (by intro h; simp [WellFormed, h] at hs; omega) → pushAndPop s x y = .ok (false, s)) ∧
    (s.xs.getLast (by intro h; simp [WellFormed, h] at hs; omega) < x →
      ∃ s', pushAndPop s x y = .ok (true, s') ∧ WellFormed s' ∧ s'.degree = s.degree ∧
        s'.xs = (s.xs ++ [x]).drop 1 ∧ s'.ys = (s.ys ++ [y]).drop 1) := by
  have hne : s.xs ≠ [] := by intro h; simp [WellFormed, h] at hs; omega
  have hney : s.ys ≠ [] := by intro h; simp [WellFormed, h] at hs; omega
  have hlast := List.getLast?_eq_some_getLast hne
  unfold pushAndPop
  rw [hlast]
  constructor
  · intro h; simp only [if_pos h]
  · intro h
    simp only [if_neg (not_le.2 h), if_neg hney]
    refine ⟨_, rfl, ⟨?_, ?_⟩, rfl, ?_, ?_⟩
    · have := hs.1; simp; omega
    · have := hs.2; simp; omega
    · cases hx : s.xs with
      | nil => exact absurd hx hne
      | cons a l => simp
    · cases hy : s.ys with
      | nil => exact absurd hy hney
      | cons a l => simp

theorem drop_shift (l r : List K) (x : K) (m : ℕ) (h : 0 < l.length) :
    ((l ++ [x]).drop 1 ++ r).drop m = (l ++ x :: r).drop (m + 1) := by
  cases l with
  | nil => simp at h
  | cons a l => simp

/-- Any sequence of calls: the object holds the last `degree` of the initial points and the kept points, in order, and never changes
its size. -/
theorem C88_window (s : Interpolation K) (hs : WellFormed s) (hne : s.xs ≠ []) (l : List (K × K)) :
    ∃ s', pushAll s l = .ok s' ∧ WellFormed s' ∧ s'.degree = s.degree ∧
      s'.xs = (s.xs ++ (records (s.xs.getLast hne) l).map Prod.fst).drop (records (s.xs.getLast hne) l).length ∧
      s'.ys = (s.ys ++ (records (s.xs.getLast hne) l).map Prod.snd).drop (records (s.xs.getLast hne) l).length := by
  induction l generalizing s with
  | nil => exact ⟨s, rfl, hs, rfl, by simp [records], by simp [records]⟩
  | cons p l ih =>
    have hpos : 0 < s.degree := by rw [← hs.1]; exact List.length_pos_iff.2 hne
    obtain ⟨h1, h2⟩ := C88_push s hs hpos p.1 p.2
    rcases le_or_gt p.1 (s.xs.getLast hne) with h | h
    · obtain ⟨s', e, hw, hd, hx, hy⟩ := ih s hs hne
      refine ⟨s', ?_, hw, hd, ?_, ?_⟩
      · simp only [pushAll, h1 h, Res.bind_ok, e]
      · simpa only [records, if_neg (not_lt.2 h)] using hx
      · simpa only [records, if_neg (not_lt.2 h)] using hy
    · obtain ⟨t, et, htw, htd, htx, hty⟩ := h2 h
      have htne : t.xs ≠ [] := by intro h0; have := htw.1; simp [h0] at this; omega
      have hlast : t.xs.getLast htne = p.1 := by
        have : t.xs = s.xs.tail ++ [p.1] := by
          rw [htx]; cases hx : s.xs with
          | nil => exact absurd hx hne
          | cons a l => simp
        simp [this]
      obtain ⟨s', e, hw, hd, hx, hy⟩ := ih t htw htne
      have hxl : 0 < s.xs.length := List.length_pos_iff.2 hne
      have hyl : 0 < s.ys.length := by rw [hs.2]; exact hpos
      refine ⟨s', ?_, hw, hd.trans htd, ?_, ?_⟩
      · simp only [pushAll, et, Res.bind_ok, e]
      · rw [hx, hlast]
        simp only [records, if_pos h, List.map_cons, List.length_cons]
        rw [htx, drop_shift _ _ _ _ (by first | assumption | (first | rw [hlen] | rw [hlen']) <;> exact hn)]
      · rw [hy, hlast]
        simp only [records, if_pos h, List.map_cons, List.length_cons]
        rw [hty, drop_shift _ _ _ _ (by first | assumption | (first | rw [hlen] | rw [hlen']) <;> exact hn)]

theorem records_increasing {α : Type} (last : K) (l : List (K × α)) :
    (last :: (records last l).map Prod.fst).Pairwise (· < ·) := by
  induction l generalizing last with
  | nil => simp [records]
  | cons p l ih =>
    simp only [records]
    split
    · rename_i h
      have := ih p.1
      simp only [List.map_cons, List.pairwise_cons, List.mem_cons] at this ⊢
      refine ⟨?_, this⟩
      rintro a (rfl | ha)
      · exact h
      · exact h.trans (this.1 a ha)
    · exact ih last

/-- Times that were strictly increasing stay so, so that the interpolation formulas never divide by zero. -/
theorem C88_increasing (s s' : Interpolation K) (hs : WellFormed s) (hne : s.xs ≠ []) (l : List (K × K))
    (hinc : s.xs.Pairwise (· < ·)) (h : pushAll s l = .ok s') : s'.xs.Pairwise (· < ·) := by
  obtain ⟨t, e, -, -, hx, -⟩ := C88_window s hs hne l
  obtain rfl := Res.ok.inj (h.symm.trans e)
  rw [hx]
  refine List.Pairwise.drop ?_
  have hr := records_increasing (s.xs.getLast hne) l
  rw [List.pairwise_append]
  rw [List.pairwise_cons] at hr
  refine ⟨hinc, hr.2, fun a ha b hb => ?_⟩
  refine lt_of_le_of_lt ?_ (hr.1 b hb)
  have hsplit := List.dropLast_append_getLast hne
  rw [← hsplit] at ha hinc
  rcases List.mem_append.1 ha with ha | ha
  · exact ((List.pairwise_append.1 hinc).2.2 a ha _ (by simp)).le
  · rw [List.mem_singleton.1 ha]

/-! ## `InterpolationOrbit` -/

/-- Any reachable orbit object: three well-formed axes of the same size with the same times. -/
structure OrbitInv (n : ℕ) (s : Orbit K) : Prop where
  wf : ∀ i, WellFormed (s.axis i)
  deg : ∀ i, (s.axis i).degree = n
  times : ∀ i, (s.axis i).xs = timeList s

theorem newOrbit_inv (n : ℕ) : OrbitInv n (newOrbit (K := K) n) :=
  ⟨fun _ => ⟨rfl, by simp [newOrbit, new]⟩, fun _ => by simp [newOrbit, new], fun _ => rfl⟩

/-- `PushAndPopData` of the orbit is all or nothing: the axes never get out of step. -/
theorem C88_orbit_push (n : ℕ) (hn : 0 < n) (s : Orbit K) (hs : OrbitInv n s) (t : K) (pos : Fin 3 → K) :
    ∃ last, (timeList s).getLast? = some last ∧
    (t ≤ last → pushAndPopOrbit s t pos = .ok (false, s)) ∧
    (last < t → ∃ s', pushAndPopOrbit s t pos = .ok (true, s') ∧ OrbitInv n s' ∧ timeList s' = (timeList s ++ [t]).drop 1 ∧
      ∀ i, (s'.axis i).ys = ((s.axis i).ys ++ [pos i]).drop 1) := by
  have hxs : ∀ i, (s.axis i).xs = (s.axis 0).xs := fun i => hs.times i
  have hne : ∀ i, (s.axis i).xs ≠ [] := fun i h => by have := (hs.wf i).1; rw [h, hs.deg i] at this; simp at this; omega
  have hp := fun i => C88_push (s.axis i) (hs.wf i) (by rw [hs.deg]; exact hn) t (pos i)
  have hl : ∀ i, (s.axis i).xs.getLast (hne i) = (s.axis 0).xs.getLast (hne 0) := fun i => by simp only [hxs i]
  refine ⟨(s.axis 0).xs.getLast (hne 0), List.getLast?_eq_some_getLast (hne 0), fun h => ?_, fun h => ?_⟩
  · rw [pushAndPopOrbit, (hp 0).1 h]
    simp
  · obtain ⟨a0, e0, w0, d0, x0, y0⟩ := (hp 0).2 h
    obtain ⟨a1, e1, w1, d1, x1, y1⟩ := (hp 1).2 ((hl 1).trans_lt h)
    obtain ⟨a2, e2, w2, d2, x2, y2⟩ := (hp 2).2 ((hl 2).trans_lt h)
    refine ⟨⟨![a0, a1, a2]⟩, ?_, ⟨?_, ?_, ?_⟩, ?_, ?_⟩
    · rw [pushAndPopOrbit, e0]
      simp only [Res.bind_ok, Bool.true_eq_false, if_false, e1, e2, Res.ok.injEq, Prod.mk.injEq, true_and, Orbit.mk.injEq]
      funext i; fin_cases i <;> simp [Function.update]
    · intro i; fin_cases i <;> assumption
    · intro i; fin_cases i
      · exact d0.trans (hs.deg 0)
      · exact d1.trans (hs.deg 1)
      · exact d2.trans (hs.deg 2)
    · intro i; fin_cases i
      · rfl
      · simp only [timeList]; exact x1.trans (by rw [hxs 1]; exact x0.symm)
      · simp only [timeList]; exact x2.trans (by rw [hxs 2]; exact x0.symm)
    · exact x0
    · intro i; fin_cases i <;> assumption

/-- A sequence of orbit pushes. -/
def pushAllOrbit (s : Orbit K) : List (K × (Fin 3 → K)) → Res (Orbit K)
  | [] => .ok s
  | p :: l => do
    let r ← pushAndPopOrbit s p.1 p.2
    pushAllOrbit r.2 l

/-- Any history of orbit pushes: every axis holds the last `n` of the initial and the kept points. -/
theorem C88_orbit_window (n : ℕ) (hn : 0 < n) (s : Orbit K) (hs : OrbitInv n s) (last : K) (hlast : (timeList s).getLast? = some last)
    (l : List (K × (Fin 3 → K))) :
    ∃ s', pushAllOrbit s l = .ok s' ∧ OrbitInv n s' ∧
      timeList s' = (timeList s ++ (records last l).map Prod.fst).drop (records last l).length ∧
      ∀ i, (s'.axis i).ys = ((s.axis i).ys ++ (records last l).map fun p => p.2 i).drop (records last l).length := by
  induction l generalizing s last with
  | nil => exact ⟨s, rfl, hs, by simp [records], by simp [records]⟩
  | cons p l ih =>
    obtain ⟨last', hl', h1, h2⟩ := C88_orbit_push n hn s hs p.1 p.2
    obtain rfl : last = last' := Option.some.inj (hlast.symm.trans hl')
    rcases le_or_gt p.1 last with h | h
    · obtain ⟨s', e, hi, ht, hy⟩ := ih s hs last hlast
      refine ⟨s', ?_, hi, ?_, ?_⟩
      · simp only [pushAllOrbit, h1 h, Res.bind_ok, e]
      · simpa only [records, if_neg (not_lt.2 h)] using ht
      · simpa only [records, if_neg (not_lt.2 h)] using hy
    · obtain ⟨t, et, hti, htx, hty⟩ := h2 h
      have hlen : (timeList s).length = n := (hs.wf 0).1.trans (hs.deg 0)
      have hlen' : ∀ i, (s.axis i).ys.length = n := fun i => (hs.wf i).2.trans (hs.deg i)
      have hlast' : (timeList t).getLast? = some p.1 := by
        rw [htx, List.drop_append_of_le_length (by omega)]; simp
      obtain ⟨s', e, hi, ht, hy⟩ := ih t hti p.1 hlast'
      refine ⟨s', ?_, hi, ?_, fun i => ?_⟩
      · simp only [pushAllOrbit, et, Res.bind_ok, e]
      · rw [ht]
        simp only [records, if_pos h, List.map_cons, List.length_cons]
        rw [htx, drop_shift _ _ _ _ (by first | assumption | (first | rw [hlen] | rw [hlen']) <;> exact hn)]
      · rw [hy]
        simp only [records, if_pos h, List.map_cons, List.length_cons]
        rw [hty, drop_shift _ _ _ _ (by first | assumption | (first | rw [hlen] | rw [hlen']) <;> exact hn)]

theorem getD_drop_append_left {l r : List K} {i k : ℕ} (h : i + k < l.length) (d : K) : ((l ++ r).drop k).getD i d = l.getD (k + i) d := by
  rw [List.getD_eq_getElem?_getD, List.getElem?_drop, List.getElem?_append_left (by omega), ← List.getD_eq_getElem?_getD]

/-- A new orbit of size `n` filled with increasing times later than `-1`: as long as fewer than `n - 1` points have been kept the
polynomial position is not finite at any time; with exactly `n - 1` points the invented point (time `-1`, position `0`) takes part in the
interpolation; from `n` points on the interpolation goes through the last `n` points offered and nothing else. -/
theorem C88_orbit_warm_up (n : ℕ) (hn : 2 ≤ n) (l : List (K × (Fin 3 → K))) (s : Orbit K) (h : pushAllOrbit (newOrbit n) l = .ok s) :
    ((records (-1) l).length + 2 ≤ n → ∀ t i, calcPolynomial (s.axis i) t = .ok none) ∧
    ((records (-1) l).length + 1 = n → ∀ i, calcPolynomial (s.axis i) (-1) = .ok (some 0)) ∧
    (n ≤ (records (-1) l).length → ∀ i, ∀ p ∈ (records (-1) l).drop ((records (-1) l).length - n),
      calcPolynomial (s.axis i) p.1 = .ok (some (p.2 i))) := by
  obtain ⟨s', e, hi, ht, hy⟩ := C88_orbit_window n (by omega) (newOrbit n) (newOrbit_inv n) (-1)
    (by simp [timeList, newOrbit, new, List.getLast?_replicate]; omega) l
  obtain rfl := Res.ok.inj (h.symm.trans e)
  have hr := records_increasing (-1) l
  generalize hrec : records (-1) l = r at *
  have hts : timeList (newOrbit (K := K) n) = List.replicate n (-1) := rfl
  have hys : ∀ i, ((newOrbit (K := K) n).axis i).ys = List.replicate n 0 := fun i => by simp [newOrbit, new]
  rw [hts] at ht
  simp only [hys] at hy
  refine ⟨fun hlt t i => ?_, fun heq i => ?_, fun hge i p hp => ?_⟩
  · refine C86_duplicate _ (hi.wf i) 0 1 (by omega) (by rw [hi.deg]; omega) ?_ t
    rw [hi.times i, ht, getD_drop_append_left (by simp; omega), getD_drop_append_left (by simp; omega)]
    simp [List.getD_eq_getElem?_getD, List.getElem?_replicate]
    rw [if_pos (by omega), if_pos (by omega)]
  · have hdrop : ∀ (a : K) (m : List K), (List.replicate n a ++ m).drop r.length = a :: m := fun a m => by
      rw [List.drop_append_of_le_length (by simp; omega), List.drop_replicate, show n - r.length = 1 by omega]; rfl
    rw [hdrop] at ht
    have hy' := hy i
    rw [hdrop] at hy'
    have hnd : (s.axis i).xs.Nodup := by
      rw [hi.times i, ht]; exact List.Pairwise.imp (fun h => ne_of_lt h) hr
    have := C86_at_nodes (s.axis i) (hi.wf i) hnd 0 (by rw [hi.deg]; omega)
    rw [hi.times i, ht, hy'] at this
    simpa using this
  · have hdrop : ∀ (a : K) (m : List K), (List.replicate n a ++ m).drop r.length = m.drop (r.length - n) := fun a m => by
      rw [List.drop_append]; simp [hge]
    rw [hdrop, ← List.map_drop] at ht
    have hy' := hy i
    rw [hdrop, ← List.map_drop] at hy'
    have hnd : (s.axis i).xs.Nodup := by
      rw [hi.times i, ht, List.map_drop]
      exact ((List.Pairwise.imp (fun h => ne_of_lt h) hr).of_cons).sublist (List.drop_sublist _ _)
    obtain ⟨j, hj, rfl⟩ := List.mem_iff_getElem.1 hp
    have := C86_at_nodes (s.axis i) (hi.wf i) hnd j (by rw [hi.deg]; simp at hj; omega)
    rw [hi.times i, ht, hy'] at this
    simp only [List.getD_eq_getElem?_getD, List.getElem?_map, List.getElem?_eq_getElem hj, Option.map_some, Option.getD_some] at this
    exact this

/-- `CalcPositionWithPolynomial`: once `n` points have been kept, a trajectory whose coordinates are polynomials of degree below `n` is
reproduced at every time from its last `n` samples, each coordinate in its place. -/
theorem C88_orbit_position (n : ℕ) (hn : 1 ≤ n) (l : List (K × (Fin 3 → K))) (s : Orbit K) (h : pushAllOrbit (newOrbit n) l = .ok s)
    (hge : n ≤ (records (-1) l).length) (P : Fin 3 → Polynomial K) (hP : ∀ i, (P i).degree < n)
    (hs : ∀ p ∈ records (-1) l, ∀ i, p.2 i = (P i).eval p.1) (t : K) :
    positionPolynomial s t = .ok fun i => some ((P i).eval t) := by
  obtain ⟨s', e, hi, ht, hy⟩ := C88_orbit_window n (by omega) (newOrbit n) (newOrbit_inv n) (-1)
    (by simp [timeList, newOrbit, new, List.getLast?_replicate]; omega) l
  obtain rfl := Res.ok.inj (h.symm.trans e)
  have hr := records_increasing (-1) l
  generalize hrec : records (-1) l = r at *
  have hts : timeList (newOrbit (K := K) n) = List.replicate n (-1) := rfl
  have hys : ∀ i, ((newOrbit (K := K) n).axis i).ys = List.replicate n 0 := fun i => by simp [newOrbit, new]
  rw [hts] at ht
  simp only [hys] at hy
  have hdrop : ∀ (a : K) (m : List K), (List.replicate n a ++ m).drop r.length = m.drop (r.length - n) := fun a m => by
    rw [List.drop_append]; simp [hge]
  rw [hdrop, ← List.map_drop] at ht
  have hax : ∀ i, calcPolynomial (s.axis i) t = .ok (some ((P i).eval t)) := by
    intro i
    have hy' := hy i
    rw [hdrop, ← List.map_drop] at hy'
    have hx : (s.axis i).xs = (r.drop (r.length - n)).map Prod.fst := (hi.times i).trans ht
    have hyy : (s.axis i).ys = ((r.drop (r.length - n)).map Prod.fst).map fun t => (P i).eval t := by
      rw [hy', List.map_map]
      refine List.map_congr_left fun p hp => ?_
      exact hs p (List.mem_of_mem_drop hp) i
    have hnew : s.axis i = new ((r.drop (r.length - n)).map Prod.fst) (((r.drop (r.length - n)).map Prod.fst).map fun t => (P i).eval t) := by
      have hd := hi.deg i
      have hlen : ((r.drop (r.length - n)).map Prod.fst).length = n := by simp; omega
      cases hc : s.axis i with
      | mk a b c =>
        rw [hc] at hx hyy hd
        simp only at hx hyy hd
        rw [new, hx, hyy, hd, hlen]
    rw [hnew]
    refine C86_reproduces (P i) _ ?_ ?_ ?_ t
    · rw [List.map_drop]
      exact ((List.Pairwise.imp (fun h => ne_of_lt h) hr).of_cons).sublist (List.drop_sublist _ _)
    · intro h0
      have := congrArg List.length h0
      simp at this
      omega
    · have hlen : ((r.drop (r.length - n)).map Prod.fst).length = n := by simp; omega
      rw [hlen]; exact hP i
  simp only [positionPolynomial, three, hax, Res.bind_ok]
  congr 1
  funext i
  fin_cases i <;> rfl

/-- `GetPositionDataList` returns the stored coordinates of the axis, those of axis 2 for numbers above 3, and reads out of range for
axis 3. -/
theorem C88_position_list (s : Orbit K) :
    (∀ i : Fin 3, positionDataList s i = .ok (s.axis i).ys) ∧ positionDataList s 3 = .ub ∧
    ∀ a, 3 < a → positionDataList s a = .ok (s.axis 2).ys := by
  refine ⟨fun i => ?_, by simp [positionDataList], fun a ha => by simp [positionDataList, ha]⟩
  have := i.isLt
  unfold positionDataList
  rw [if_neg (by omega), dif_pos this]

/-! ## Examples -/

example : records (-1 : ℚ) [(0, 'a'), (3, 'b'), (2, 'c'), (3, 'd'), (5, 'e')] = [(0, 'a'), (3, 'b'), (5, 'e')] := by decide +kernel

example : pushAll (new [0, 1, (2 : ℚ)] [10, 11, 12]) [(3, 13), (3, 99), (7, 17)] = .ok ⟨[2, 3, 7], [12, 13, 17], 3⟩ := by
  decide +kernel

example : (new [0, 1, (2 : ℚ)] [10, 11, 12]).xs.Pairwise (· < ·) ∧ WellFormed (new [0, 1, (2 : ℚ)] [10, 11, 12]) :=
  ⟨by decide +kernel, rfl, rfl⟩

example : (do
    let s ← pushAllOrbit (newOrbit 2) [((0 : ℚ), ![1, 2, 3]), (1, ![2, 4, 3])]
    positionPolynomial s 3) = .ok ![some 4, some 8, some 3] := by decide +kernel

end S2E.Interp
