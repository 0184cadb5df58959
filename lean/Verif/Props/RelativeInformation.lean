import Verif.Model.RelativeInformation
import Verif.Props.Lvlh
/-!
# C126: relative information of spacecraft
-/
namespace S2E.Rel
open S2E.TwoBody S2E.Kepler S2E.OrbitProp Quat

/-! ## Specification of the registry -/

/-- Which object is registered under an id after a history: the first one registered since the id was last removed. -/
def registered {P : Type} : List (Op P) → (ℕ → Option P) → ℕ → Option P
  | [], m => m
  | .register id p :: rest, m => registered rest fun k => if k = id then (if (m id).isSome then m id else some p) else m k
  | .remove id :: rest, m => registered rest fun k => if k = id then none else m k
  | .update _ :: rest, m => registered rest m

/-- The registered ids are 0, 1, …, with no gap. -/
def Gapless {P : Type} (m : ℕ → Option P) : Prop := ∀ k j, j ≤ k → (m k).isSome → (m j).isSome

/-! ## Invariant -/

structure Inv {P : Type} (s : Info P) : Prop where
  nodup : (s.database.map Prod.fst).Nodup
  side : s.side = s.database.length

theorem lookup_isSome {P : Type} (l : List (ℕ × P)) (k : ℕ) : (l.lookup k).isSome ↔ k ∈ l.map Prod.fst := by
  induction l with
  | nil => simp
  | cons a l ih =>
    obtain ⟨a1, a2⟩ := a
    by_cases h : k = a1
    · subst h; simp [List.lookup]
    · have : (k == a1) = false := by simpa using h
      simp [List.lookup, this, h, ih]

theorem lookup_filter {P : Type} (l : List (ℕ × P)) (id k : ℕ) :
    (l.filter fun x => x.1 ≠ id).lookup k = if k = id then none else l.lookup k := by
  induction l with
  | nil => simp
  | cons a l ih =>
    obtain ⟨a1, a2⟩ := a
    by_cases h : a1 = id
    · subst h
      simp only [ne_eq, not_true_eq_false, decide_false, Bool.false_eq_true, not_false_eq_true, List.filter_cons_of_neg]
      rw [ih]
      by_cases hk : k = a1
      · simp [hk]
      · have : (k == a1) = false := by simpa using hk
        simp [hk, List.lookup, this]
    · have hd : decide ((a1, a2).1 ≠ id) = true := by simpa using h
      rw [List.filter_cons_of_pos (p := fun x : ℕ × P => decide (x.1 ≠ id)) hd]
      by_cases hk : k = a1
      · subst hk
        simp [List.lookup, h]
      · have : (k == a1) = false := by simpa using hk
        simp only [List.lookup, this]
        exact ih

theorem inv_register {P : Type} (s : Info P) (h : Inv s) (id : ℕ) (p : P) : Inv (s.register id p) := by
  refine ⟨?_, rfl⟩
  simp only [Info.register, Info.resize]
  split
  · exact h.nodup
  · rename_i hn
    rw [lookup_isSome] at hn
    simp only [List.map_cons, List.nodup_cons]
    exact ⟨hn, h.nodup⟩

theorem inv_remove {P : Type} (s : Info P) (h : Inv s) (id : ℕ) : Inv (s.remove id) := by
  refine ⟨?_, rfl⟩
  simp only [Info.remove, Info.resize]
  exact h.nodup.sublist (List.Sublist.map _ List.filter_sublist)

/-- The loops change only the table; if they finish, every id in use was registered and the cells are as calculated. -/
theorem inner_spec {P : Type} (read : P → Craft) (t : ℕ) (l : List ℕ) : ∀ s : Info P, t < s.side → (∀ r ∈ l, r < s.side) →
    ((∀ r ∈ l, (s.database.lookup t).isSome ∧ (s.database.lookup r).isSome) → ∃ s', s.inner read t l = .ok s' ∧ s'.database = s.database ∧
      s'.side = s.side ∧ ∀ t' r', (t' = t ∧ r' ∈ l → ∀ a b, s.database.lookup t = some a → s.database.lookup r' = some b →
        s'.table t' r' = calcEntry (read a) (read b)) ∧ (¬ (t' = t ∧ r' ∈ l) → s'.table t' r' = s.table t' r')) ∧
    (¬ (∀ r ∈ l, (s.database.lookup t).isSome ∧ (s.database.lookup r).isSome) → s.inner read t l = .throws) := by
  induction l with
  | nil =>
    intro s _ _
    refine ⟨fun _ => ⟨s, rfl, rfl, rfl, fun t' r' => ⟨by simp, fun _ => rfl⟩⟩, fun h => absurd (by simp) h⟩
  | cons r l ih =>
    intro s ht hl
    have hr : r < s.side := hl r (by simp)
    constructor
    · intro h
      obtain ⟨h1, h2⟩ := h r (by simp)
      obtain ⟨a, ha⟩ := Option.isSome_iff_exists.1 h1
      obtain ⟨b, hb⟩ := Option.isSome_iff_exists.1 h2
      have e : s.inner read t (r :: l) = Info.inner read t l { s with
          table := fun t' r' => if t' = t ∧ r' = r then calcEntry (read a) (read b) else s.table t' r' } := by
        simp only [Info.inner, Info.at, ha, hb, Res.bind, Info.write, if_pos (show t < s.side ∧ r < s.side from ⟨ht, hr⟩)]
      obtain ⟨s', g1, g2, g3, g4⟩ := (ih { s with
        table := fun t' r' => if t' = t ∧ r' = r then calcEntry (read a) (read b) else s.table t' r' } ht
        (fun x hx => hl x (by simp [hx]))).1 (fun x hx => h x (by simp [hx]))
      refine ⟨s', e.trans g1, g2, g3, fun t' r' => ⟨?_, ?_⟩⟩
      · rintro ⟨rfl, hm⟩ a' b' ha' hb'
        by_cases hm' : r' ∈ l
        · exact (g4 t' r').1 ⟨rfl, hm'⟩ a' b' ha' hb'
        · obtain rfl : r' = r := by simpa [hm'] using hm
          rw [(g4 t' r').2 (by simp [hm'])]
          rw [ha] at ha'
          rw [hb] at hb'
          simp [Option.some.inj ha', Option.some.inj hb']
      · intro hn
        rw [(g4 t' r').2 (fun hx => hn ⟨hx.1, by simp [hx.2]⟩)]
        exact if_neg fun hx => hn ⟨hx.1, by simp [hx.2]⟩
    · intro h
      simp only [Info.inner]
      rcases ha : s.database.lookup t with _ | a
      · simp only [Info.at, ha, Res.bind]
      rcases hb : s.database.lookup r with _ | b
      · simp only [Info.at, ha, hb, Res.bind]
      simp only [Info.at, ha, hb, Res.bind, Info.write, if_pos (show t < s.side ∧ r < s.side from ⟨ht, hr⟩)]
      refine (ih { s with table := fun t' r' => if t' = t ∧ r' = r then calcEntry (read a) (read b) else s.table t' r' } ht
        (fun x hx => hl x (by simp [hx]))).2 ?_
      intro hx
      apply h
      intro x hm
      rcases List.mem_cons.1 hm with rfl | hm
      · rw [ha, hb]; simp
      · exact hx x hm

theorem outer_spec {P : Type} (read : P → Craft) (l : List ℕ) : ∀ s : Info P, s.side = s.database.length → (∀ t ∈ l, t < s.side) → 
    ((∀ t ∈ l, ∀ r < s.side, (s.database.lookup t).isSome ∧ (s.database.lookup r).isSome) → ∃ s', s.outer read l = .ok s' ∧
      s'.database = s.database ∧ s'.side = s.side ∧ ∀ t r, (t ∈ l ∧ r < s.side → ∀ a b, s.database.lookup t = some a → s.database.lookup r = some b →
        s'.table t r = calcEntry (read a) (read b)) ∧ (t ∉ l → s'.table t r = s.table t r)) ∧
    (¬ (∀ t ∈ l, ∀ r < s.side, (s.database.lookup t).isSome ∧ (s.database.lookup r).isSome) → s.outer read l = .throws) := by
  induction l with
  | nil =>
    intro s _ _
    exact ⟨fun _ => ⟨s, rfl, rfl, rfl, fun t r => ⟨by simp, fun _ => rfl⟩⟩, fun h => absurd (by simp) h⟩
  | cons t l ih =>
    intro s hs hl
    have ht : t < s.side := hl t (by simp)
    have hm : ∀ r, r ∈ List.range s.database.length ↔ r < s.side := fun r => by rw [List.mem_range, hs]
    obtain ⟨k1, k2⟩ := inner_spec read t (List.range s.database.length) s ht (fun r hr => (hm r).1 hr)
    constructor
    · intro h
      obtain ⟨s1, e1, d1, z1, c1⟩ := k1 fun r hr => h t (by simp) r ((hm r).1 hr)
      obtain ⟨s', e2, d2, z2, c2⟩ := (ih s1 (by rw [z1, d1, hs]) (fun x hx => by rw [z1]; exact hl x (by simp [hx]))).1
        (fun x hx r hr => by rw [d1]; exact h x (by simp [hx]) r (by rwa [z1] at hr))
      refine ⟨s', ?_, d2.trans d1, z2.trans z1, fun t' r => ⟨?_, ?_⟩⟩
      · simp only [Info.outer, e1, Res.bind, e2]
      · rintro ⟨hx, hr⟩ a b ha hb
        by_cases hx' : t' ∈ l
        · exact (c2 t' r).1 ⟨hx', by rwa [z1]⟩ a b (by rwa [d1]) (by rwa [d1])
        · obtain rfl : t' = t := by simpa [hx'] using hx
          rw [(c2 t' r).2 hx']
          exact (c1 t' r).1 ⟨rfl, (hm r).2 hr⟩ a b ha hb
      · intro hx
        rw [(c2 t' r).2 (fun h => hx (by simp [h])), (c1 t' r).2 (fun h => hx (by simp [h.1]))]
    · intro h
      simp only [Info.outer]
      by_cases h1 : ∀ r ∈ List.range s.database.length, (s.database.lookup t).isSome ∧ (s.database.lookup r).isSome
      · obtain ⟨s1, e1, d1, z1, c1⟩ := k1 h1
        simp only [e1, Res.bind]
        apply (ih s1 (by rw [z1, d1, hs]) (fun x hx => by rw [z1]; exact hl x (by simp [hx]))).2
        intro hx
        apply h
        intro x hm' r hr
        rcases List.mem_cons.1 hm' with rfl | hm'
        · exact h1 r ((hm r).2 hr)
        · rw [← d1]; exact hx x hm' r (by rwa [z1])
      · rw [k2 h1]; rfl

/-- With distinct ids, every number below their count is an id exactly when there is no gap. -/
theorem gapless_iff (ids : List ℕ) (hn : ids.Nodup) : (∀ k < ids.length, k ∈ ids) ↔ ∀ k j, j ≤ k → k ∈ ids → j ∈ ids := by
  have hc : ids.toFinset.card = ids.length := List.toFinset_card_of_nodup hn
  constructor
  · intro h k j hj hk
    have hsub : Finset.range ids.length ⊆ ids.toFinset := fun x hx => List.mem_toFinset.2 (h x (Finset.mem_range.1 hx))
    have he := Finset.eq_of_subset_of_card_le hsub (by rw [hc, Finset.card_range])
    have hk' : k ∈ ids.toFinset := List.mem_toFinset.2 hk
    rw [← he, Finset.mem_range] at hk'
    exact h j (by omega)
  · intro h k hk
    by_contra hc'
    have hsub : ids.toFinset ⊆ Finset.range k := fun x hx => by
      rw [Finset.mem_range]
      by_contra hx'
      exact hc' (h x k (by omega) (List.mem_toFinset.1 hx))
    have := Finset.card_le_card hsub
    rw [hc, Finset.card_range] at this
    omega

theorem run_inv {P : Type} (ops : List (Op P)) : ∀ s s' : Info P, Inv s → s.run ops = .ok s' →
    Inv s' ∧ ∀ k, s'.database.lookup k = registered ops (fun k => s.database.lookup k) k := by
  induction ops with
  | nil => intro s s' h e; obtain rfl := Res.ok.inj e; exact ⟨h, fun _ => rfl⟩
  | cons o ops ih =>
    intro s s' h e
    cases o with
    | register id p =>
      obtain ⟨g1, g2⟩ := ih (s.register id p) s' (inv_register s h id p) e
      refine ⟨g1, fun k => ?_⟩
      rw [g2]
      simp only [registered]
      congr 1
      funext j
      simp only [Info.register, Info.resize]
      by_cases hs : (s.database.lookup id).isSome
      · simp only [hs, if_true]
        by_cases hj : j = id <;> simp [hj]
      · simp only [hs, Bool.false_eq_true, if_false]
        by_cases hj : j = id
        · simp [hj, List.lookup]
        · have : (j == id) = false := by simpa using hj
          simp [hj, List.lookup, this]
    | remove id =>
      obtain ⟨g1, g2⟩ := ih (s.remove id) s' (inv_remove s h id) e
      refine ⟨g1, fun k => ?_⟩
      rw [g2]
      simp only [registered]
      congr 1
      funext j
      simp only [Info.remove, Info.resize]
      exact lookup_filter _ _ _
    | update read =>
      simp only [Info.run] at e
      obtain ⟨k1, k2⟩ := outer_spec read (List.range s.database.length) s h.side (fun t ht => by rw [h.side]; exact List.mem_range.1 ht)
      by_cases hx : ∀ t ∈ List.range s.database.length, ∀ r < s.side, (s.database.lookup t).isSome ∧ (s.database.lookup r).isSome
      · obtain ⟨s1, e1, d1, z1, -⟩ := k1 hx
        rw [Info.update, e1] at e
        obtain ⟨g1, g2⟩ := ih s1 s' ⟨by rw [d1]; exact h.nodup, by rw [z1, d1, h.side]⟩ e
        refine ⟨g1, fun k => ?_⟩
        rw [g2, d1]
        rfl
      · rw [Info.update, k2 hx] at e
        cases e

/-! ## C126 -/

/-- **C126 (update).** After any history of registrations, removals and updates (`read` gives what a registered object returns at the time): if the
registered ids are 0, 1, … without a gap, an update succeeds, and afterwards the relative information of each registered target with respect to each
registered reference is the one calculated from the current state of the object first registered under each id; if there is a gap, for instance after the
removal of a spacecraft that is not the last, the update throws. -/
theorem C126_update {P : Type} (ops : List (Op P)) (s : Info P) (h : (Info.new P).run ops = .ok s) (read : P → Craft) :
    let m := registered ops (fun _ => none)
    (Gapless m → ∃ s', s.update read = .ok s' ∧ ∀ t r a b, m t = some a → m r = some b → s'.get t r = .ok (calcEntry (read a) (read b))) ∧
    (¬ Gapless m → s.update read = .throws) := by
  intro m
  obtain ⟨hi, hm⟩ := run_inv ops (Info.new P) s ⟨by simp [Info.new], rfl⟩ h
  have hm' : ∀ k, s.database.lookup k = m k := hm
  have hg : Gapless m ↔ ∀ k < s.database.length, (s.database.lookup k).isSome := by
    have := gapless_iff (s.database.map Prod.fst) hi.nodup
    simp only [List.length_map, ← lookup_isSome] at this
    rw [this]
    simp only [hm', Gapless]
  obtain ⟨k1, k2⟩ := outer_spec read (List.range s.database.length) s hi.side (fun t ht => by rw [hi.side]; exact List.mem_range.1 ht)
  have hx : (∀ t ∈ List.range s.database.length, ∀ r < s.side, (s.database.lookup t).isSome ∧ (s.database.lookup r).isSome) ↔ Gapless m := by
    rw [hg, hi.side]
    constructor
    · exact fun hx k hk => (hx k (List.mem_range.2 hk) k hk).1
    · exact fun hx t ht r hr => ⟨hx t (List.mem_range.1 ht), hx r hr⟩
  refine ⟨fun hgap => ?_, fun hgap => k2 (fun h' => hgap (hx.1 h'))⟩
  obtain ⟨s', e, d, z, c⟩ := k1 (hx.2 hgap)
  refine ⟨s', e, fun t r a b ha hb => ?_⟩
  have below : ∀ k, (m k).isSome → k < s.database.length := fun k hk => by
    by_contra hc
    have hsub : Finset.range (k + 1) ⊆ (s.database.map Prod.fst).toFinset := fun x hx => by
      rw [List.mem_toFinset, ← lookup_isSome, hm']
      exact hgap k x (by have := Finset.mem_range.1 hx; omega) hk
    have := Finset.card_le_card hsub
    rw [Finset.card_range, List.toFinset_card_of_nodup hi.nodup, List.length_map] at this
    omega
  have ht := below t (by rw [ha]; rfl)
  have hr := below r (by rw [hb]; rfl)
  rw [Info.get, z, hi.side, if_pos ⟨ht, hr⟩, (c t r).1 ⟨List.mem_range.2 ht, by rw [hi.side]; exact hr⟩ a b (by rw [hm', ha]) (by rw [hm', hb])]

/-- Non-vacuous: two spacecraft registered in either order, with a repeated registration, which is ignored. -/
example : ∃ s, (Info.new ℕ).run [.register 1 11, .register 0 10, .register 1 99] = .ok s ∧
    Gapless (registered [.register 1 11, .register 0 10, .register 1 99] (fun _ => none) : ℕ → Option ℕ) ∧
    registered [.register 1 11, .register 0 10, .register 1 99] (fun _ => none) 1 = some 11 := by
  refine ⟨_, rfl, ?_, rfl⟩
  intro k j hj hk
  simp only [registered] at hk ⊢
  by_cases h0 : k = 0
  · subst h0; obtain rfl : j = 0 := by omega
    simp
  by_cases h1 : k = 1
  · have : j = 0 ∨ j = 1 := by omega
    rcases this with rfl | rfl <;> simp
  · simp [h0, h1] at hk

/-- **C126 (removal leaves a gap).** Registering spacecraft 0 and 1 and removing spacecraft 0 makes every later update throw. -/
theorem C126_removal_gap {P : Type} (a b : P) (read : P → Craft) :
    ∃ s, (Info.new P).run [.register 0 a, .register 1 b, .remove 0] = .ok s ∧ s.update read = .throws := by
  refine ⟨_, rfl, ?_⟩
  refine (C126_update [.register 0 a, .register 1 b, .remove 0] _ rfl read).2 ?_
  intro h
  have := h 1 0 (by omega) (by simp [registered])
  simp [registered] at this

/-- **C126 (reset).** Right after a registration or a removal, every relative quantity between any ids below the number of registered spacecraft reads
zero (attitude: identity) until the next update, whatever was calculated before; reading any other id is an access outside the lists. -/
theorem C126_reset {P : Type} (ops : List (Op P)) (s s' : Info P) (_h : (Info.new P).run ops = .ok s) (id : ℕ)
    (hs : s' = s.remove id ∨ ∃ p, s' = s.register id p) (t r : ℕ) :
    (t < s'.database.length ∧ r < s'.database.length → s'.get t r = .ok Entry.zero) ∧
    (¬ (t < s'.database.length ∧ r < s'.database.length) → s'.get t r = .ub) := by
  rcases hs with rfl | ⟨p, rfl⟩ <;> exact ⟨fun h => if_pos h, fun h => if_neg h⟩

/-! ## The values -/

theorem rtn_apply (p v a : Fin 3 → ℝ) (hne : cross p v ≠ 0) : (calcQuaternionI2Lvlh p v).frameConversion a =
    ![dot a p / len p, dot a (cross (cross p v) p) / (len (cross p v) * len p), dot a (cross p v) / len (cross p v)] := by
  obtain ⟨h1, h2⟩ := i2Lvlh_spec p v hne
  obtain ⟨hr, hh, e⟩ := dcmI2Lvlh_eq p v hne
  rw [← (C66_dcm_acts _ a).1, h2, e]
  funext i
  fin_cases i <;> simp [matVec, Fin.sum_univ_three, dot] <;> ring

/-- **C126 (position, velocity, distance).** Inertial quantities are target minus reference, the distance is the length of the relative position, and the
radial-tangential-normal position has the components of the relative position along the reference's position, along its orbital plane at right angles to
the position on the side of the motion, and along its angular momentum. -/
theorem C126_position (target reference : Craft) (hne : cross reference.position reference.velocity ≠ 0) :
    let e := calcEntry target reference
    let ρ := target.position - reference.position
    let p : Fin 3 → ℝ := reference.position
    let h := cross p reference.velocity
    e.positionI = ρ ∧ e.velocityI = target.velocity - reference.velocity ∧ e.distance = len ρ ∧
    e.positionRtn = ![dot ρ p / len p, dot ρ (cross h p) / (len h * len p), dot ρ h / len h] ∧ len e.positionRtn = e.distance := by
  intro e ρ p h
  refine ⟨rfl, rfl, calcNorm_len _, rtn_apply _ _ _ hne, ?_⟩
  have hu := (i2Lvlh_spec _ _ hne).1
  have h1 := (C64_isometry _ hu (vsub target.position reference.position) (vsub target.position reference.position)).1
  have h2 : len e.positionRtn ^ 2 = e.distance ^ 2 := by
    rw [show e.distance = len (vsub target.position reference.position) from calcNorm_len _, len_sq, len_sq]
    exact h1
  have h3 : e.distance = len (vsub target.position reference.position) := calcNorm_len _
  exact (pow_left_inj₀ (len_nonneg _) (by rw [h3]; exact len_nonneg _) (by norm_num)).mp h2

/-- Non-vacuous: a target ahead of, above and beside the reference. -/
example : cross (![7, 0, 0] : Fin 3 → ℝ) ![0, 7, 0] ≠ 0 ∧
    (calcEntry ⟨![8, 2, 3], ![0, 7, 0], ⟨0, 0, 0, 1⟩⟩ ⟨![7, 0, 0], ![0, 7, 0], ⟨0, 0, 0, 1⟩⟩).positionRtn = ![1, 2, 3] := by
  have hc : cross (![7, 0, 0] : Fin 3 → ℝ) ![0, 7, 0] = ![0, 0, 49] := by funext i; fin_cases i <;> simp [cross]; norm_num
  have hne : cross (![7, 0, 0] : Fin 3 → ℝ) ![0, 7, 0] ≠ 0 := by
    rw [hc]; intro h; have := congrFun h 2; simp at this
  refine ⟨hne, ?_⟩
  rw [(C126_position _ _ hne).2.2.2.1]
  have l1 : len ![7, 0, 0] = 7 := by
    rw [len, show ((![7, 0, 0] : Fin 3 → ℝ) 0 ^ 2 + (![7, 0, 0] : Fin 3 → ℝ) 1 ^ 2 + (![7, 0, 0] : Fin 3 → ℝ) 2 ^ 2) = 7 ^ 2 by simp]
    exact Real.sqrt_sq (by norm_num)
  have l2 : len ![0, 0, 49] = 49 := by
    rw [len, show ((![0, 0, 49] : Fin 3 → ℝ) 0 ^ 2 + (![0, 0, 49] : Fin 3 → ℝ) 1 ^ 2 + (![0, 0, 49] : Fin 3 → ℝ) 2 ^ 2) = 49 ^ 2 by simp]
    exact Real.sqrt_sq (by norm_num)
  rw [hc, l1, l2]
  funext i
  fin_cases i <;> simp [dot, cross] <;> norm_num

/-- **C126 (antisymmetry, self).** Exchanging target and reference negates the inertial quantities and keeps the distance; a spacecraft relative to itself
has zero position, velocity and distance and, with a unit attitude quaternion, the identity attitude. -/
theorem C126_exchange (a b : Craft) :
    (calcEntry b a).positionI = -(calcEntry a b).positionI ∧ (calcEntry b a).velocityI = -(calcEntry a b).velocityI ∧
    (calcEntry b a).distance = (calcEntry a b).distance ∧
    (a.i2b.IsUnit → calcEntry a a = Entry.zero) := by
  refine ⟨?_, ?_, ?_, fun hu => ?_⟩
  · funext i; simp [calcEntry, vsub]
  · funext i; simp [calcEntry, vsub]
  · simp only [calcEntry, calcNorm, vsub]
    congr 1
    apply Finset.sum_congr rfl
    intro i _
    ring
  · have z : ∀ v : Vec 3, vsub v v = fun _ => 0 := fun v => by funext i; simp [vsub]
    have zf : ∀ q : Quat, q.frameConversion (fun _ => 0) = fun _ => 0 := fun q => by
      rw [frame_explicit]; funext i; fin_cases i <;> simp
    have zo : ∀ w : Vec 3, outerProduct w (fun _ => 0) = fun _ => 0 := fun w => by funext i; fin_cases i <;> simp [outerProduct]
    simp only [calcEntry, Entry.zero, positionRtn, velocityRtn, z, zf, zo, attitudeQuaternion, ((C65_group a.i2b a.i2b a.i2b).2.2.2.2.1 hu).1]
    simp [calcNorm]

/-! ## Velocity in the rotating frame -/

theorem hasDerivAt_dot {x y : ℝ → Fin 3 → ℝ} {x' y' : Fin 3 → ℝ} {t : ℝ} (hx : HasDerivAt x x' t) (hy : HasDerivAt y y' t) :
    HasDerivAt (fun s => dot (x s) (y s)) (dot x' (y t) + dot (x t) y') t := by
  have a := hasDerivAt_pi.1 hx
  have b := hasDerivAt_pi.1 hy
  exact ((((a 0).mul (b 0)).add ((a 1).mul (b 1))).add ((a 2).mul (b 2))).congr_deriv (by simp only [dot]; ring)

theorem hasDerivAt_cross {x y : ℝ → Fin 3 → ℝ} {x' y' : Fin 3 → ℝ} {t : ℝ} (hx : HasDerivAt x x' t) (hy : HasDerivAt y y' t) :
    HasDerivAt (fun s => cross (x s) (y s)) (cross x' (y t) + cross (x t) y') t := by
  have a := hasDerivAt_pi.1 hx
  have b := hasDerivAt_pi.1 hy
  rw [hasDerivAt_pi]
  intro i
  fin_cases i
  · exact (((a 1).mul (b 2)).sub ((a 2).mul (b 1))).congr_deriv (by simp [cross]; ring)
  · exact (((a 2).mul (b 0)).sub ((a 0).mul (b 2))).congr_deriv (by simp [cross]; ring)
  · exact (((a 0).mul (b 1)).sub ((a 1).mul (b 0))).congr_deriv (by simp [cross]; ring)

theorem hasDerivAt_len {x : ℝ → Fin 3 → ℝ} {x' : Fin 3 → ℝ} {t : ℝ} (hx : HasDerivAt x x' t) (h0 : x t ≠ 0) :
    HasDerivAt (fun s => len (x s)) (dot (x t) x' / len (x t)) t := by
  have h1 := hasDerivAt_dot hx hx
  have hp := len_pos h0
  have e : ∀ s, len (x s) = Real.sqrt (dot (x s) (x s)) := fun s => by rw [← len_sq, Real.sqrt_sq (len_nonneg _)]
  have hd : dot (x t) (x t) ≠ 0 := by rw [← len_sq]; positivity
  have h2 := h1.sqrt hd
  simp only [← e] at h2
  refine h2.congr_deriv ?_
  rw [show dot x' (x t) = dot (x t) x' by simp only [dot]; ring]
  field_simp
  ring

/-- **C126 (velocity).** Along any motion of reference (`R`, velocity `V`, acceleration `A`) and target (`T`, velocity `U`) the reported
radial-tangential-normal velocity is the rate of change of the reported radial-tangential-normal position, up to the effect of the reference's acceleration
normal to its orbital plane: with `k = |R| a_N / |R × V|`, the true rate has an additional `k · (0, ρ_N, -ρ_T)`. -/
theorem C126_velocity (R V T U : ℝ → Fin 3 → ℝ) (qr qt : ℝ → Quat) (A : Fin 3 → ℝ) (t : ℝ) (hR : HasDerivAt R (V t) t) (hV : HasDerivAt V A t)
    (hT : HasDerivAt T (U t) t) (hne : cross (R t) (V t) ≠ 0) :
    let e := fun s => calcEntry ⟨T s, U s, qt s⟩ ⟨R s, V s, qr s⟩
    let h := cross (R t) (V t)
    let k := len (R t) * (dot A h / len h) / len h
    HasDerivAt (fun s => (e s).positionRtn) ((e t).velocityRtn + k • ![0, (e t).positionRtn 2, -(e t).positionRtn 1]) t := by
  intro e h k
  have hH := hasDerivAt_cross hR hV
  have hH' : HasDerivAt (fun s => cross (R s) (V s)) (cross (R t) A) t := hH.congr_deriv (by
    funext i; fin_cases i <;> simp [cross] <;> ring)
  have hR0 : R t ≠ 0 := by
    intro h0; apply hne; rw [h0]; funext i; fin_cases i <;> simp [cross]
  have hr := len_pos hR0
  have hh := len_pos hne
  have hev : (fun s => (e s).positionRtn) =ᶠ[nhds t] fun s => ![dot (T s - R s) (R s) / len (R s),
      dot (T s - R s) (cross (cross (R s) (V s)) (R s)) / (len (cross (R s) (V s)) * len (R s)),
      dot (T s - R s) (cross (R s) (V s)) / len (cross (R s) (V s))] := by
    filter_upwards [hH.continuousAt.eventually_ne hne] with s hs
    exact (C126_position ⟨T s, U s, qt s⟩ ⟨R s, V s, qr s⟩ hs).2.2.2.1
  refine HasDerivAt.congr_of_eventuallyEq ?_ hev
  have hp : (e t).positionRtn = ![dot (T t - R t) (R t) / len (R t),
      dot (T t - R t) (cross (cross (R t) (V t)) (R t)) / (len (cross (R t) (V t)) * len (R t)),
      dot (T t - R t) (cross (R t) (V t)) / len (cross (R t) (V t))] := hev.eq_of_nhds
  have hv : (e t).velocityRtn = ![_, _, _] := rtn_apply (R t) (V t) _ hne
  have hρ : HasDerivAt (fun s => T s - R s) (U t - V t) t := hT.sub hR
  have hC := hasDerivAt_cross hH' hR
  rw [hasDerivAt_pi]
  intro i
  rw [hp, hv]
  have g1 := len_sq (R t)
  have g2 := len_sq (cross (R t) (V t))
  simp only [outerProduct_cross, calcNorm_len]
  have d0 := (hasDerivAt_dot hρ hR).div (hasDerivAt_len hR hR0) hr.ne'
  have d1 := (hasDerivAt_dot hρ hC).div ((hasDerivAt_len hH' hne).mul (hasDerivAt_len hR hR0)) (mul_pos hh hr).ne'
  have d2 := (hasDerivAt_dot hρ hH').div (hasDerivAt_len hH' hne) hh.ne'
  have hk : k = len (R t) * (dot A (cross (R t) (V t)) / len (cross (R t) (V t))) / len (cross (R t) (V t)) := rfl
  clear_value k h e
  clear hp hv hev hH hH' hC hρ
  fin_cases i
  · refine d0.congr_deriv ?_
    clear d0 d1 d2 hk
    simp [vsub, vdiv, scale]
    generalize len (R t) = r at *
    generalize R t = p at *
    generalize V t = v at *
    generalize T t = x at *
    generalize U t = u at *
    have hr' := hr.ne'
    clear hR hV hT hne g2 hh
    simp [dot, cross, vsub, vdiv, scale] at g1 ⊢
    field_simp
    grind
  · refine d1.congr_deriv ?_
    clear d0 d1 d2
    simp [vsub, vdiv, scale, hk]
    generalize len (cross (R t) (V t)) = n at *
    generalize len (R t) = r at *
    generalize R t = p at *
    generalize V t = v at *
    generalize T t = x at *
    generalize U t = u at *
    have hr' := hr.ne'
    have hh' := hh.ne'
    clear hR hV hT hne hk
    simp [dot, cross, vsub, vdiv, scale] at g1 g2 ⊢
    field_simp
    grind
  · refine d2.congr_deriv ?_
    clear d0 d1 d2
    simp [vsub, vdiv, scale, hk]
    generalize len (cross (R t) (V t)) = n at *
    generalize len (R t) = r at *
    generalize R t = p at *
    generalize V t = v at *
    generalize T t = x at *
    generalize U t = u at *
    have hr' := hr.ne'
    have hh' := hh.ne'
    clear hR hV hT hne hk
    simp [dot, cross, vsub, vdiv, scale] at g1 g2 ⊢
    field_simp
    grind

/-- **C126 (velocity, undisturbed reference).** If the reference is accelerated within its orbital plane only, for instance by a central attraction of
any strength, the reported velocity is exactly the rate of change of the reported position. -/
theorem C126_velocity_central (R V T U : ℝ → Fin 3 → ℝ) (qr qt : ℝ → Quat) (g t : ℝ) (hR : HasDerivAt R (V t) t) (hV : HasDerivAt V (g • R t) t)
    (hT : HasDerivAt T (U t) t) (hne : cross (R t) (V t) ≠ 0) :
    HasDerivAt (fun s => (calcEntry ⟨T s, U s, qt s⟩ ⟨R s, V s, qr s⟩).positionRtn)
      (calcEntry ⟨T t, U t, qt t⟩ ⟨R t, V t, qr t⟩).velocityRtn t := by
  refine (C126_velocity R V T U qr qt (g • R t) t hR hV hT hne).congr_deriv ?_
  have : dot (g • R t) (cross (R t) (V t)) = 0 := by simp [dot, cross]; ring
  simp [this]

/-- Non-vacuous: a reference on the unit circle under a central attraction, a target on a straight line. -/
example : ∃ R V T U : ℝ → Fin 3 → ℝ, HasDerivAt R (V 0) 0 ∧ HasDerivAt V ((-1 : ℝ) • R 0) 0 ∧ HasDerivAt T (U 0) 0 ∧ cross (R 0) (V 0) ≠ 0 := by
  refine ⟨fun s => ![Real.cos s, Real.sin s, 0], fun s => ![-Real.sin s, Real.cos s, 0], fun s => ![0, s, 2], fun _ => ![0, 1, 0], ?_, ?_, ?_, ?_⟩
  · rw [hasDerivAt_pi]; intro i
    fin_cases i
    · exact Real.hasDerivAt_cos 0
    · exact Real.hasDerivAt_sin 0
    · exact hasDerivAt_const _ _
  · rw [hasDerivAt_pi]; intro i
    fin_cases i
    · exact (Real.hasDerivAt_sin 0).neg.congr_deriv (by simp)
    · exact (Real.hasDerivAt_cos 0).congr_deriv (by simp)
    · exact (hasDerivAt_const _ _).congr_deriv (by simp)
  · rw [hasDerivAt_pi]; intro i
    fin_cases i
    · exact hasDerivAt_const _ _
    · exact hasDerivAt_id _
    · exact hasDerivAt_const _ _
  · intro h
    have := congrFun h 2
    simp [cross] at this

/-! ## Attitude -/

theorem conj_frame (q : Quat) (v : Vec 3) :
    q.conjugate.frameConversion v = q.inverseFrameConversion v ∧ q.conjugate.inverseFrameConversion v = q.frameConversion v := by
  constructor <;> · simp only [frame_explicit, inverse_explicit]; apply vec3_ext <;> simp [conjugate] <;> ring_nf <;> simp

/-- **C126 (attitude).** For unit attitude quaternions the reported relative attitude, used as a rotation of inertial components, carries every direction
fixed in the reference's body (`x` in its body frame) to the same direction of the target's body; its scalar part is the one of the conversion from
reference body to target body components, so the angle between the two attitudes is right. -/
theorem C126_attitude (target reference : Craft) (hr : reference.i2b.IsUnit) (x : Vec 3) :
    (calcEntry target reference).attitude.inverseFrameConversion (reference.i2b.inverseFrameConversion x) = target.i2b.inverseFrameConversion x ∧
    (calcEntry target reference).attitude.w = (reference.i2b.conjugate.mul target.i2b).w := by
  constructor
  · change (target.i2b.mul reference.i2b.conjugate).inverseFrameConversion _ = _
    rw [(C65_composition _ _ _).2, (conj_frame _ _).2, (C64_inverse _ hr x).2]
  · simp [calcEntry, attitudeQuaternion, Quat.mul, conjugate]; ring

/-- **C126 (attitude as a coordinate conversion).** The reported relative attitude converts components in the reference's body frame into components in
the target's body frame exactly when the two attitudes commute. -/
theorem C126_attitude_conversion (target reference : Craft) (hr : reference.i2b.IsUnit) :
    (∀ x, (calcEntry target reference).attitude.frameConversion (reference.i2b.frameConversion x) = target.i2b.frameConversion x) ↔
    ∀ x, target.i2b.frameConversion (reference.i2b.frameConversion x) = reference.i2b.frameConversion (target.i2b.frameConversion x) := by
  have e : ∀ y, (calcEntry target reference).attitude.frameConversion y = reference.i2b.inverseFrameConversion (target.i2b.frameConversion y) := fun y => by
    change (target.i2b.mul reference.i2b.conjugate).frameConversion _ = _
    rw [(C65_composition _ _ _).1, (conj_frame _ _).1]
  simp only [e]
  constructor
  · intro h x
    rw [← h x, (C64_inverse _ hr _).2]
  · intro h x
    rw [h x, (C64_inverse _ hr _).1]

/-- **C126 (attitude, wrong conversion).** Two attitudes, a third of a turn about (1, 1, 1) and a half turn about z, for which the reported quaternion is not the conversion
between the body frames. -/
theorem C126_attitude_conversion_fails : ∃ target reference : Craft, target.i2b.IsUnit ∧ reference.i2b.IsUnit ∧
    ∃ x, (calcEntry target reference).attitude.frameConversion (reference.i2b.frameConversion x) ≠ target.i2b.frameConversion x := by
  refine ⟨⟨0, 0, ⟨1 / 2, 1 / 2, 1 / 2, 1 / 2⟩⟩, ⟨0, 0, ⟨0, 0, 1, 0⟩⟩, by norm_num [Quat.IsUnit], by norm_num [Quat.IsUnit], ?_⟩
  by_contra h
  push Not at h
  have := congrFun ((C126_attitude_conversion ⟨0, 0, ⟨1 / 2, 1 / 2, 1 / 2, 1 / 2⟩⟩ ⟨0, 0, ⟨0, 0, 1, 0⟩⟩ (by norm_num [Quat.IsUnit])).1 h ![1, 0, 0]) 2
  simp [frame_explicit] at this
  norm_num at this

end S2E.Rel
