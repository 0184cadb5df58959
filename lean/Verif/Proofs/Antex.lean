import Verif.Spec.Antex
import Verif.Proofs.TextLines
/-!
# Lemmas about the ANTEX reader
-/
namespace S2E.Antex
open S2E.Log S2E.Sp3 S2E.Time

/-! ## Labels -/

theorem find_iff (p : Str) : ∀ (l : Str) (k : ℕ), find p l = some k ↔ p <+: l.drop k ∧ ∀ i < k, ¬ p <+: l.drop i := by
  intro l
  induction l with
  | nil =>
    intro k
    simp only [find, List.drop_nil, List.isPrefixOf_iff_prefix, List.prefix_nil]
    by_cases hp : p = []
    · rw [if_pos hp]
      constructor
      · intro h
        obtain rfl := Option.some.inj h
        exact ⟨hp, fun i hi => absurd hi (Nat.not_lt_zero i)⟩
      · rintro ⟨_, h⟩
        rcases k with _ | k
        · rfl
        · exact absurd hp (h 0 (Nat.succ_pos k))
    · rw [if_neg hp]
      constructor
      · intro h; cases h
      · rintro ⟨h, _⟩; exact absurd h hp
  | cons a l ih =>
    intro k
    rw [find]
    by_cases h0 : p.isPrefixOf (a :: l) = true
    · rw [if_pos h0]
      rw [List.isPrefixOf_iff_prefix] at h0
      constructor
      · intro h
        obtain rfl := Option.some.inj h
        exact ⟨h0, fun i hi => absurd hi (Nat.not_lt_zero i)⟩
      · rintro ⟨_, h⟩
        rcases k with _ | k
        · rfl
        · exact absurd h0 (h 0 (Nat.succ_pos k))
    · rw [if_neg h0]
      rw [List.isPrefixOf_iff_prefix] at h0
      rcases k with _ | k
      · constructor
        · intro h
          rcases e : find p l with _ | j <;> rw [e] at h <;> simp at h
        · rintro ⟨h, _⟩; exact absurd h h0
      · have : (find p l).map (· + 1) = some (k + 1) ↔ find p l = some k := by
          rcases find p l with _ | j <;> simp
        rw [this, ih k]
        constructor
        · rintro ⟨h1, h2⟩
          refine ⟨h1, fun i hi => ?_⟩
          rcases i with _ | i
          · exact h0
          · exact h2 i (by omega)
        · rintro ⟨h1, h2⟩
          exact ⟨h1, fun i hi => h2 (i + 1) (by omega)⟩

theorem isLabel_iff {p : String} {l : Str} : isLabel p l = true ↔ Label p l := by
  rw [isLabel, beq_iff_eq, find_iff]
  rfl

theorem find_isSome (p : Str) : ∀ l : Str, (find p l).isSome = true ↔ p <:+: l := by
  intro l
  induction l with
  | nil =>
    simp only [find, List.isPrefixOf_iff_prefix, List.prefix_nil, List.infix_nil]
    by_cases hp : p = []
    · rw [if_pos hp]; simp [hp]
    · rw [if_neg hp]; simp [hp]
  | cons a l ih =>
    rw [find, List.infix_cons_iff]
    by_cases h0 : p.isPrefixOf (a :: l) = true
    · rw [if_pos h0]
      rw [List.isPrefixOf_iff_prefix] at h0
      simp [h0]
    · rw [if_neg h0]
      rw [List.isPrefixOf_iff_prefix] at h0
      rw [Option.isSome_map, ih]
      simp [h0]

theorem noAzimuth_iff {l : Str} : (find "NOAZI".toList l).isSome = true ↔ NoAzimuth l := find_isSome _ l

theorem label_length {p : String} {l : Str} (h : Label p l) : 60 + p.toList.length ≤ l.length ∨ p.toList = [] := by
  by_cases hp : p.toList = []
  · exact Or.inr hp
  · have := h.1.length_le
    rw [List.length_drop] at this
    have : 0 < p.toList.length := List.length_pos_iff.mpr hp
    omega

theorem label_nil (p : String) : ¬ Label p [] := by
  rintro ⟨h1, h2⟩
  exact h2 0 (by omega) (by simpa using h1)

/-- Two labels in one line. -/
theorem label_unique {p q : String} {l : Str} (h : Label p l) (hlen : q.toList.length ≤ p.toList.length) (hne : q.toList ≠ p.toList.take q.toList.length) :
    ¬ Label q l := by
  rintro ⟨h1, _⟩
  obtain ⟨t, ht⟩ := h.1
  obtain ⟨u, hu⟩ := h1
  rw [← ht] at hu
  apply hne
  have := congrArg (List.take q.toList.length) hu
  rw [List.take_left, List.take_append_of_le_length hlen] at this
  exact this

/-! ## The last line of a kind -/

/-- The value of the last line with `Q`, and `D` if there is none. -/
def IsLast {α : Type} (Q : Str → Prop) (B : List Str) (D : α → Prop) (value : Str → α → Prop) (x : α) : Prop :=
  (∀ A l C, B = A ++ l :: C → Q l → (∀ m ∈ C, ¬ Q m) → value l x) ∧ ((∀ l ∈ B, ¬ Q l) → D x)

theorem isLast_nil {α : Type} {Q : Str → Prop} {D : α → Prop} {value : Str → α → Prop} {x : α} : IsLast Q [] D value x ↔ D x := by
  constructor
  · intro h; exact h.2 (by simp)
  · intro h
    refine ⟨fun A l C e => ?_, fun _ => h⟩
    have := congrArg List.length e
    simp at this

theorem isLast_pos {α : Type} {Q : Str → Prop} {D : α → Prop} {value : Str → α → Prop} {x : α} {m : Str} {B : List Str} (hm : Q m) :
    IsLast Q (m :: B) D value x ↔ IsLast Q B (value m) value x := by
  constructor
  · rintro ⟨h1, h2⟩
    refine ⟨fun A l C e hl hC => h1 (m :: A) l C (by rw [e]; rfl) hl hC, fun h => h1 [] m B rfl hm h⟩
  · rintro ⟨h1, h2⟩
    refine ⟨fun A l C e hl hC => ?_, fun h => absurd hm (h m (by simp))⟩
    rcases A with _ | ⟨a, A⟩
    · obtain ⟨rfl, rfl⟩ := List.cons.inj e
      exact h2 hC
    · obtain ⟨rfl, rfl⟩ := List.cons.inj e
      exact h1 A l C rfl hl hC

theorem isLast_neg {α : Type} {Q : Str → Prop} {D : α → Prop} {value : Str → α → Prop} {x : α} {m : Str} {B : List Str} (hm : ¬ Q m) :
    IsLast Q (m :: B) D value x ↔ IsLast Q B D value x := by
  constructor
  · rintro ⟨h1, h2⟩
    refine ⟨fun A l C e hl hC => h1 (m :: A) l C (by rw [e]; rfl) hl hC, fun h => h2 fun l hl => ?_⟩
    rcases List.mem_cons.mp hl with rfl | hl
    · exact hm
    · exact h l hl
  · rintro ⟨h1, h2⟩
    refine ⟨fun A l C e hl hC => ?_, fun h => h2 fun l hl => h l (by simp [hl])⟩
    rcases A with _ | ⟨a, A⟩
    · obtain ⟨rfl, rfl⟩ := List.cons.inj e
      exact absurd hl hm
    · obtain ⟨rfl, rfl⟩ := List.cons.inj e
      exact h1 A l C rfl hl hC

theorem isLast_unique {α : Type} {Q : Str → Prop} {B : List Str} {value : Str → α → Prop} {x y : α}
    (hv : ∀ l x y, value l x → value l y → x = y) : ∀ {D : α → Prop}, (∀ x y, D x → D y → x = y) → IsLast Q B D value x → IsLast Q B D value y → x = y := by
  induction B with
  | nil => intro D hD h1 h2; exact hD _ _ (isLast_nil.mp h1) (isLast_nil.mp h2)
  | cons m B ih =>
    intro D hD h1 h2
    by_cases hm : Q m
    · rw [isLast_pos hm] at h1 h2
      exact ih (hv m) h1 h2
    · rw [isLast_neg hm] at h1 h2
      exact ih hD h1 h2

theorem field_iff {α : Type} {p : String} {O : List Str} {d : α} {value : Str → α → Prop} {x : α} :
    Field p O d value x ↔ IsLast (Label p) O (· = d) value x := by
  constructor
  · rintro ⟨h1, h2⟩
    exact ⟨fun A l C e hl hC => h1 l ⟨hl, A, C, e, hC⟩, h2⟩
  · rintro ⟨h1, h2⟩
    exact ⟨fun l ⟨hl, A, C, e, hC⟩ => h1 A l C e hl hC, h2⟩

/-! ## One frequency -/

theorem variation_iff (c : Codec) (l : Str) (k m : ℕ) (v : List ℝ) : readVariation c l k m = .ok v ↔
    v.length = m ∧ ∀ i < m, 8 + (k + i) * 8 ≤ l.length ∧ c.stod (cols l (8 + (k + i) * 8) 8) = v[i]? := by
  induction m generalizing k v with
  | zero =>
    simp only [readVariation, Res.ok.injEq, Nat.not_lt_zero, false_implies, implies_true, and_true, List.length_eq_zero_iff]
    exact eq_comm
  | succ m ih =>
    rw [readVariation]
    by_cases h : 8 + k * 8 ≤ l.length
    · rw [substr_ok h, Res.bind]
      rcases e : c.stod (cols l (8 + k * 8) 8) with _ | a
      · simp only [reduceCtorEq, false_iff, not_and]
        intro hv h2
        have := (h2 0 (by omega)).2
        rw [Nat.add_zero, e] at this
        rcases v with _ | ⟨b, v⟩
        · simp at hv
        · simp at this
      · simp only
        constructor
        · intro h2
          rcases h3 : readVariation c l (k + 1) m with w | _ | _ | _ <;> rw [h3] at h2 <;> simp only [Res.bind, reduceCtorEq] at h2
          obtain rfl := Res.ok.inj h2
          obtain ⟨i1, i2⟩ := (ih _ _).mp h3
          refine ⟨by simp [i1], fun i hi => ?_⟩
          rcases i with _ | i
          · exact ⟨h, by rw [Nat.add_zero, e]; rfl⟩
          · have := i2 i (by omega)
            rw [show k + (i + 1) = k + 1 + i by omega]
            simpa using this
        · rintro ⟨h1, h2⟩
          rcases v with _ | ⟨b, v⟩
          · simp at h1
          have h0 := (h2 0 (by omega)).2
          rw [Nat.add_zero, e] at h0
          obtain rfl : a = b := by simpa using h0
          have : readVariation c l (k + 1) m = .ok v := by
            refine (ih _ _).mpr ⟨by simpa using h1, fun i hi => ?_⟩
            have := h2 (i + 1) (by omega)
            rw [show k + (i + 1) = k + 1 + i by omega] at this
            simpa using this
          rw [this]
          rfl
    · rw [substr_throws (not_le.mp h), Res.bind]
      simp only [reduceCtorEq, false_iff, not_and]
      intro _ h2
      have := (h2 0 (by omega)).1
      rw [Nat.add_zero] at this
      exact h this

theorem variation_spec {c : Codec} {l : Str} {n : ℕ} {v : List ℝ} : readVariation c l 0 n = .ok v ↔ Variation c n l v := by
  rw [variation_iff]
  simp only [Nat.zero_add]
  rfl

theorem variation_total (c : Codec) (l : Str) (k m : ℕ) : readVariation c l k m = .throws ∨ ∃ v, readVariation c l k m = .ok v := by
  induction m generalizing k with
  | zero => exact Or.inr ⟨_, rfl⟩
  | succ m ih =>
    rw [readVariation]
    by_cases h : 8 + k * 8 ≤ l.length
    · rw [substr_ok h, Res.bind]
      rcases e : c.stod (cols l (8 + k * 8) 8) with _ | a
      · exact Or.inl rfl
      · rcases ih (k + 1) with h | ⟨v, h⟩
        · simp only [h]; exact Or.inl rfl
        · simp only [h]; exact Or.inr ⟨_, rfl⟩
    · rw [substr_throws (not_le.mp h)]; exact Or.inl rfl

theorem variation_det {c : Codec} {l : Str} {n : ℕ} {v w : List ℝ} (h1 : Variation c n l v) (h2 : Variation c n l w) : v = w :=
  Res.ok.inj ((variation_spec.mpr h1).symm.trans (variation_spec.mpr h2))

/-- What the lines of a frequency make of the data. -/
structure Fold (c : Codec) (g : Grid) (B : List Str) (p q : Phase) : Prop where
  variations : ∀ l ∈ B, NoAzimuth l → ∃ v, Variation c g.zeniths l v
  name : q.name = p.name
  grid : q.grid = p.grid
  offset : IsLast (Label "NORTH / EAST / UP") B (· = p.offset) (fun l x => x = offsetOf (c.reals l)) q.offset
  variation : IsLast NoAzimuth B (· = p.variation) (fun l x => ∃ v, Variation c g.zeniths l v ∧ x = [v]) q.variation

theorem fold_unique {c : Codec} {g : Grid} {B : List Str} {p q r : Phase} (h1 : Fold c g B p q) (h2 : Fold c g B p r) : q = r := by
  have e1 := isLast_unique (by rintro l x y rfl rfl; rfl) (by rintro x y rfl rfl; rfl) h1.offset h2.offset
  have e2 := isLast_unique (by rintro l x y ⟨v, hv, rfl⟩ ⟨w, hw, rfl⟩; rw [variation_det hv hw]) (by rintro x y rfl rfl; rfl) h1.variation h2.variation
  have e3 := h1.name.trans h2.name.symm
  have e4 := h1.grid.trans h2.grid.symm
  obtain ⟨a, b, c, d⟩ := q
  obtain ⟨a', b', c', d'⟩ := r
  simp only at e1 e2 e3 e4
  subst e1 e2 e3 e4
  rfl

theorem fold_nil {c : Codec} {g : Grid} (p : Phase) : Fold c g [] p p := ⟨by simp, rfl, rfl, isLast_nil.mpr rfl, isLast_nil.mpr rfl⟩

theorem phaseStep_total (c : Codec) (g : Grid) (l : Str) (p : Phase) : phaseStep c g l p = .throws ∨ ∃ q, phaseStep c g l p = .ok q := by
  unfold phaseStep
  simp only
  split_ifs
  · rcases variation_total c l 0 g.zeniths with h | ⟨v, h⟩ <;> rw [h]
    · exact Or.inl rfl
    · exact Or.inr ⟨_, rfl⟩
  · rcases variation_total c l 0 g.zeniths with h | ⟨v, h⟩ <;> rw [h]
    · exact Or.inl rfl
    · exact Or.inr ⟨_, rfl⟩
  · exact Or.inr ⟨_, rfl⟩
  · exact Or.inr ⟨_, rfl⟩

theorem phaseStep_fold {c : Codec} {g : Grid} {l : Str} {p q : Phase} (h : phaseStep c g l p = .ok q) : Fold c g [l] p q := by
  · skip
    unfold phaseStep at h
    simp only at h
    by_cases hn : (find "NOAZI".toList l).isSome = true
    · rw [if_pos hn] at h
      have hn' := noAzimuth_iff.mp hn
      rcases h3 : readVariation c l 0 g.zeniths with v | _ | _ | _ <;> rw [h3] at h <;> simp only [Res.bind, reduceCtorEq] at h
      have hv := variation_spec.mp h3
      obtain rfl := Res.ok.inj h
      refine ⟨by simpa using fun _ => ⟨v, hv⟩, ?_, ?_, ?_, ?_⟩
      · by_cases hl : isLabel "NORTH / EAST / UP" l = true <;> simp [hl]
      · by_cases hl : isLabel "NORTH / EAST / UP" l = true <;> simp [hl]
      · by_cases hl : isLabel "NORTH / EAST / UP" l = true
        · rw [if_pos hl, isLast_pos (isLabel_iff.mp hl), isLast_nil]
        · rw [if_neg hl, isLast_neg (fun h => hl (isLabel_iff.mpr h)), isLast_nil]
      · rw [isLast_pos hn', isLast_nil]
        exact ⟨v, hv, rfl⟩
    · rw [if_neg hn] at h
      have hn' : ¬ NoAzimuth l := fun h => hn (noAzimuth_iff.mpr h)
      obtain rfl := Res.ok.inj h
      refine ⟨by simpa using fun h => absurd h hn', ?_, ?_, ?_, ?_⟩
      · by_cases hl : isLabel "NORTH / EAST / UP" l = true <;> simp [hl]
      · by_cases hl : isLabel "NORTH / EAST / UP" l = true <;> simp [hl]
      · by_cases hl : isLabel "NORTH / EAST / UP" l = true
        · rw [if_pos hl, isLast_pos (isLabel_iff.mp hl), isLast_nil]
        · rw [if_neg hl, isLast_neg (fun h => hl (isLabel_iff.mpr h)), isLast_nil]
      · rw [isLast_neg hn', isLast_nil]
        by_cases hl : isLabel "NORTH / EAST / UP" l = true <;> simp [hl]

theorem phaseStep_iff {c : Codec} {g : Grid} {l : Str} {p q : Phase} : phaseStep c g l p = .ok q ↔ Fold c g [l] p q := by
  refine ⟨phaseStep_fold, fun h => ?_⟩
  have hex : ∃ r, phaseStep c g l p = .ok r := by
    unfold phaseStep
    simp only
    by_cases hn : (find "NOAZI".toList l).isSome = true
    · rw [if_pos hn]
      obtain ⟨v, hv⟩ := h.variations l (by simp) (noAzimuth_iff.mp hn)
      rw [variation_spec.mpr hv]
      exact ⟨_, rfl⟩
    · rw [if_neg hn]; exact ⟨_, rfl⟩
  obtain ⟨r, hr⟩ := hex
  rw [hr, fold_unique (phaseStep_fold hr) h]

theorem isLast_cons {α : Type} {Q : Str → Prop} {D : α → Prop} {value : Str → α → Prop} {y : α} {m : Str} {B : List Str}
    (hv : ∀ l x y, value l x → value l y → x = y) (hD : ∀ x y, D x → D y → x = y) (hy : IsLast Q [m] D value y) (z : α) :
    IsLast Q (m :: B) D value z ↔ IsLast Q B (· = y) value z := by
  have key : ∀ D' : α → Prop, D' y → (∀ x y, D' x → D' y → x = y) → D' = (· = y) := by
    intro D' h1 h2
    funext w
    exact propext ⟨fun h => h2 w y h h1, fun h => h ▸ h1⟩
  by_cases hm : Q m
  · rw [isLast_pos hm] at hy ⊢
    rw [key _ (isLast_nil.mp hy) (hv m)]
  · rw [isLast_neg hm] at hy ⊢
    rw [key _ (isLast_nil.mp hy) hD]

theorem fold_cons {c : Codec} {g : Grid} {l : Str} {B : List Str} {p r q : Phase} (h : Fold c g [l] p r) :
    Fold c g (l :: B) p q ↔ Fold c g B r q := by
  have o := fun z => isLast_cons (B := B) (by rintro l x y rfl rfl; rfl) (by rintro x y rfl rfl; rfl) h.offset z
  have v := fun z => isLast_cons (B := B) (by rintro l x y ⟨v, hv, rfl⟩ ⟨w, hw, rfl⟩; rw [variation_det hv hw]) (by rintro x y rfl rfl; rfl) h.variation z
  constructor
  · intro f
    exact ⟨fun m hm => f.variations m (by simp [hm]), f.name.trans h.name.symm, f.grid.trans h.grid.symm, (o _).mp f.offset, (v _).mp f.variation⟩
  · intro f
    refine ⟨fun m hm => ?_, f.name.trans h.name, f.grid.trans h.grid, (o _).mpr f.offset, (v _).mpr f.variation⟩
    rcases List.mem_cons.mp hm with rfl | hm
    · exact h.variations m (by simp)
    · exact f.variations m hm

theorem fold_head {c : Codec} {g : Grid} {l : Str} {B : List Str} {p q : Phase} (h : Fold c g (l :: B) p q) : ∃ r, phaseStep c g l p = .ok r ∧ Fold c g B r q := by
  have hex : ∃ r, phaseStep c g l p = .ok r := by
    unfold phaseStep
    simp only
    by_cases hn : (find "NOAZI".toList l).isSome = true
    · rw [if_pos hn]
      obtain ⟨v, hv⟩ := h.variations l (by simp) (noAzimuth_iff.mp hn)
      rw [variation_spec.mpr hv]
      exact ⟨_, rfl⟩
    · rw [if_neg hn]; exact ⟨_, rfl⟩
  obtain ⟨r, hr⟩ := hex
  exact ⟨r, hr, (fold_cons (phaseStep_fold hr)).mp h⟩

/-- Lines that can be read make something of the data. -/
theorem fold_exists {c : Codec} {g : Grid} {B : List Str} (h : ∀ l ∈ B, NoAzimuth l → ∃ v, Variation c g.zeniths l v) (p : Phase) : ∃ q, Fold c g B p q := by
  induction B generalizing p with
  | nil => exact ⟨p, fold_nil p⟩
  | cons l B ih =>
    have hex : ∃ r, phaseStep c g l p = .ok r := by
      unfold phaseStep
      simp only
      by_cases hn : (find "NOAZI".toList l).isSome = true
      · rw [if_pos hn]
        obtain ⟨v, hv⟩ := h l (by simp) (noAzimuth_iff.mp hn)
        rw [variation_spec.mpr hv]
        exact ⟨_, rfl⟩
      · rw [if_neg hn]; exact ⟨_, rfl⟩
    obtain ⟨r, hr⟩ := hex
    obtain ⟨q, hq⟩ := ih (fun m hm => h m (by simp [hm])) r
    exact ⟨q, (fold_cons (phaseStep_fold hr)).mpr hq⟩

theorem isPhase_iff {c : Codec} {g : Grid} {B : List Str} {e : Str} {p : Phase} : IsPhase c g B e p ↔
    (∀ m ∈ B, ¬ Label "END OF FREQUENCY" m) ∧ Label "END OF FREQUENCY" e ∧ ∃ q, Fold c g B {} q ∧ p = { q with name := cols e 3 3, grid := g } := by
  constructor
  · intro h
    refine ⟨h.inner, h.last, { p with name := [], grid := defaultGrid }, ⟨h.variations, rfl, rfl, ?_, ?_⟩, ?_⟩
    · exact ⟨fun A l C e hl hC => funext (h.offset.1 l ⟨hl, A, C, e, hC⟩), h.offset.2⟩
    · exact h.variation
    · have h1 := h.name
      have h2 := h.grid
      obtain ⟨a, b, c, d⟩ := p
      simp only at h1 h2
      subst h1 h2
      rfl
  · rintro ⟨h1, h2, q, hq, rfl⟩
    refine ⟨h1, h2, rfl, rfl, ⟨fun l ⟨hl, A, C, e, hC⟩ i => congrFun (hq.offset.1 A l C e hl hC) i, hq.offset.2⟩, hq.variations, hq.variation⟩

theorem phase_end {c : Codec} {g : Grid} {B : List Str} {e : Str} {L : List Str} (hB : ∀ m ∈ B, ¬ Label "END OF FREQUENCY" m) (he : Label "END OF FREQUENCY" e) :
    ∀ (n : ℕ) (s : Stream) (x : Str) (p q : Phase), Fold c g B p q → Holds s (B ++ e :: L) → B.length < n →
      ∃ s', readPhase c g n s x p = .ok (s', { q with name := cols e 3 3, grid := g }) ∧ Holds s' L := by
  induction B with
  | nil =>
    intro n s x p q hf hs hn
    obtain ⟨n, rfl⟩ : ∃ m, n = m + 1 := ⟨n - 1, by omega⟩
    obtain ⟨s', h1, h2⟩ := holds_getline hs
    obtain rfl := fold_unique hf (fold_nil p)
    refine ⟨s', ?_, h2⟩
    rw [readPhase]
    simp only [h1]
    rw [if_pos (isLabel_iff.mpr he)]
    have : 60 + "END OF FREQUENCY".toList.length ≤ e.length := (label_length he).resolve_right (by decide)
    rw [substr_ok (by omega)]
    rfl
  | cons m B ih =>
    intro n s x p q hf hs hn
    obtain ⟨n, rfl⟩ : ∃ m, n = m + 1 := ⟨n - 1, by omega⟩
    obtain ⟨s', h1, h2⟩ := holds_getline hs
    obtain ⟨r, hr, hf'⟩ := fold_head hf
    obtain ⟨s'', g1, g2⟩ := ih (fun k hk => hB k (by simp [hk])) n s' m r q hf' h2 (by simp at hn; omega)
    refine ⟨s'', ?_, g2⟩
    rw [readPhase]
    simp only [h1]
    rw [if_neg (fun h => hB m (by simp) (isLabel_iff.mp h)), hr]
    exact g1

theorem phase_dead {c : Codec} {g : Grid} {x : Str} (hx : ¬ Label "END OF FREQUENCY" x) (n : ℕ) (p : Phase) (r : Stream × Phase) :
    readPhase c g n ⟨[], true, true⟩ x p ≠ .ok r := by
  induction n generalizing p with
  | zero => simp [readPhase]
  | succ n ih =>
    rw [readPhase]
    simp only [dead_getline]
    rw [if_neg (fun h => hx (isLabel_iff.mp h))]
    rcases phaseStep_total c g x p with h | ⟨q, h⟩ <;> rw [h]
    · simp [Res.bind]
    · exact ih q

theorem phase_ok {c : Codec} {g : Grid} : ∀ (n : ℕ) (L : List Str) (s : Stream) (x : Str) (p : Phase) (r : Stream × Phase), ¬ Label "END OF FREQUENCY" x →
    Holds s L → readPhase c g n s x p = .ok r → ∃ B e R q, L = B ++ e :: R ∧ (∀ m ∈ B, ¬ Label "END OF FREQUENCY" m) ∧ Label "END OF FREQUENCY" e ∧
      Fold c g B p q ∧ r.2 = { q with name := cols e 3 3, grid := g } ∧ Holds r.1 R := by
  intro n
  induction n with
  | zero => intro L s x p r _ _ h; simp [readPhase] at h
  | succ n ih =>
    intro L s x p r hx hs h
    rw [readPhase] at h
    rcases L with _ | ⟨l, L⟩
    · exfalso
      have : ∀ y, ¬ Label "END OF FREQUENCY" y → s.getline x = (⟨[], true, true⟩, y) → False := by
        intro y hy e
        simp only [e] at h
        rw [if_neg (fun h => hy (isLabel_iff.mp h))] at h
        rcases phaseStep_total c g y p with h' | ⟨q, h'⟩ <;> rw [h'] at h
        · simp [Res.bind] at h
        · exact phase_dead hy n q r h
      rcases holds_nil hs with ⟨_, e⟩ | ⟨_, e⟩
      · exact this [] (label_nil _) (e x)
      · exact this x hx (e x)
    · obtain ⟨s', h1, h2⟩ := holds_getline hs
      simp only [h1] at h
      by_cases he : Label "END OF FREQUENCY" l
      · rw [if_pos (isLabel_iff.mpr he)] at h
        have : 60 + "END OF FREQUENCY".toList.length ≤ l.length := (label_length he).resolve_right (by decide)
        rw [substr_ok (by omega)] at h
        obtain rfl := Res.ok.inj h
        exact ⟨[], l, L, p, rfl, by simp, he, fold_nil p, rfl, h2⟩
      · rw [if_neg (fun h => he (isLabel_iff.mp h))] at h
        rcases h3 : phaseStep c g l p with q | _ | _ | _ <;> rw [h3] at h <;> simp only [Res.bind, reduceCtorEq] at h
        obtain ⟨B, e, R, q', rfl, i1, i2, i3, i4, i5⟩ := ih L s' l q r he h2 h
        refine ⟨l :: B, e, R, q', rfl, ?_, i2, (fold_cons (phaseStep_fold h3)).mpr i3, i4, i5⟩
        intro m hm
        rcases List.mem_cons.mp hm with rfl | hm
        · exact he
        · exact i1 m hm

theorem phase_dead_stuck {c : Codec} {g : Grid} {x : Str} (hx : ¬ Label "END OF FREQUENCY" x ∧ (NoAzimuth x → ∃ v, Variation c g.zeniths x v)) (n : ℕ) (p : Phase) :
    readPhase c g n ⟨[], true, true⟩ x p = .stuck := by
  induction n generalizing p with
  | zero => rfl
  | succ n ih =>
    rw [readPhase]
    simp only [dead_getline]
    rw [if_neg (fun h => hx.1 (isLabel_iff.mp h))]
    obtain ⟨q, hq⟩ := fold_exists (B := [x]) (c := c) (g := g) (by simpa using hx.2) p
    rw [phaseStep_iff.mpr hq]
    exact ih q

/-- Lines that can be read and do not end the frequency: the loop does not end. -/
theorem phase_open {c : Codec} {g : Grid} : ∀ (n : ℕ) (L : List Str) (s : Stream) (x : Str) (p : Phase),
    (∀ m ∈ x :: L, ¬ Label "END OF FREQUENCY" m ∧ (NoAzimuth m → ∃ v, Variation c g.zeniths m v)) → Holds s L → readPhase c g n s x p = .stuck := by
  have step : ∀ m p, (NoAzimuth m → ∃ v, Variation c g.zeniths m v) → ∃ r, phaseStep c g m p = .ok r := by
    intro m p h
    obtain ⟨q, hq⟩ := fold_exists (B := [m]) (c := c) (g := g) (by simpa using h) p
    exact ⟨q, phaseStep_iff.mpr hq⟩
  have dead := fun n x p h => phase_dead_stuck (c := c) (g := g) (x := x) h n p
  have hnil : ¬ Label "END OF FREQUENCY" [] ∧ (NoAzimuth [] → ∃ v, Variation c g.zeniths [] v) :=
    ⟨label_nil _, fun h => by rw [NoAzimuth, List.infix_nil] at h; exact absurd h (by decide)⟩
  intro n
  induction n with
  | zero => intro L s x p _ _; rfl
  | succ n ih =>
    intro L s x p h hs
    rcases L with _ | ⟨l, L⟩
    · have : ∀ y, ¬ Label "END OF FREQUENCY" y ∧ (NoAzimuth y → ∃ v, Variation c g.zeniths y v) → s.getline x = (⟨[], true, true⟩, y) →
          readPhase c g (n + 1) s x p = .stuck := by
        intro y hy e
        rw [readPhase]
        simp only [e]
        rw [if_neg (fun h => hy.1 (isLabel_iff.mp h))]
        obtain ⟨r, hr⟩ := step y p hy.2
        rw [hr]
        exact dead n y r hy
      rcases holds_nil hs with ⟨_, e⟩ | ⟨_, e⟩
      · exact this [] hnil (e x)
      · exact this x (h x (by simp)) (e x)
    · obtain ⟨s', h1, h2⟩ := holds_getline hs
      rw [readPhase]
      simp only [h1]
      have hl := h l (by simp)
      rw [if_neg (fun h => hl.1 (isLabel_iff.mp h))]
      obtain ⟨r, hr⟩ := step l p hl.2
      rw [hr]
      exact ih L s' l r (fun m hm => h m (by simp only [List.mem_cons] at hm ⊢; tauto)) h2

/-! ## One antenna -/

theorem toSize_iff {x : ℝ} {k : ℕ} : toSize x = .ok k ↔ -1 < x ∧ x < 2 ^ 64 ∧ k = ⌊x⌋₊ := by
  unfold toSize
  by_cases h : x ≤ -1 ∨ 2 ^ 64 ≤ x
  · rw [if_pos h]
    simp only [reduceCtorEq, false_iff, not_and]
    intro h1 h2
    rcases h with h | h <;> linarith
  · rw [if_neg h]
    push Not at h
    simp only [Res.ok.injEq, h.1, h.2, true_and]
    exact eq_comm

theorem mkGrid_iff {a b d : ℝ} {g : Grid} : mkGrid a b d 0 = .ok g ↔ IsGrid a b d g := by
  have hn : nodes 360 0 = .ok 0 := by unfold nodes; rw [if_pos le_rfl]
  obtain ⟨g1, g2, g3, g4, g5, g6⟩ := g
  unfold mkGrid IsGrid
  rw [hn]
  by_cases hd : d ≤ 0
  · rw [nodes, if_pos hd, if_pos hd]
    simp only [Res.bind, Res.ok.injEq, Grid.mk.injEq]
    constructor
    · rintro ⟨rfl, rfl, rfl, rfl, rfl, rfl⟩; simp
    · rintro ⟨rfl, rfl, rfl, rfl, rfl, rfl⟩; simp
  · rw [nodes, if_neg hd, if_neg hd]
    rcases h : toSize ((b - a) / d) with k | _ | _ | _
    · obtain ⟨h1, h2, rfl⟩ := toSize_iff.mp h
      simp only [Res.bind, Res.ok.injEq, Grid.mk.injEq, h1, h2, true_and]
      constructor
      · rintro ⟨rfl, rfl, rfl, rfl, rfl, rfl⟩; simp
      · rintro ⟨rfl, rfl, rfl, rfl, rfl, rfl⟩; simp
    all_goals
      simp only [Res.bind, reduceCtorEq, false_iff, not_and]
      intro _ _ _ _ _ h1 h2 _
      rw [toSize_iff.mpr ⟨h1, h2, rfl⟩] at h
      cases h

theorem isGrid_det {a b d : ℝ} {g g' : Grid} (h : IsGrid a b d g) (h' : IsGrid a b d g') : g = g' :=
  Res.ok.inj ((mkGrid_iff.mpr h).symm.trans (mkGrid_iff.mpr h'))

/-- What lines outside of the frequencies make of the data. -/
structure Fields (c : Codec) (O : List Str) (x y : Satellite) : Prop where
  antenna : y.antenna = x.antenna
  serial : y.serial = x.serial
  phases : y.phases = x.phases
  frequencies : IsLast (Label "# OF FREQUENCIES") O (· = x.frequencies) (fun l z => ∃ v, c.stoi (l.take 20) = some v ∧ z = toU64 v) y.frequencies
  validFrom : IsLast (Label "VALID FROM") O (· = x.validFrom) (fun l z => c.scan (l.take 59) = some z) y.validFrom
  validUntil : IsLast (Label "VALID UNTIL") O (· = x.validUntil) (fun l z => c.scan (l.take 59) = some z) y.validUntil

theorem fields_unique {c : Codec} {O : List Str} {x y z : Satellite} (h1 : Fields c O x y) (h2 : Fields c O x z) : y = z := by
  have e1 := isLast_unique (by rintro l x y ⟨v, hv, rfl⟩ ⟨w, hw, rfl⟩; rw [hv] at hw; rw [Option.some.inj hw]) (by rintro x y rfl rfl; rfl) h1.frequencies h2.frequencies
  have e2 := isLast_unique (by intro l x y h1 h2; rw [h1] at h2; exact Option.some.inj h2) (by rintro x y rfl rfl; rfl) h1.validFrom h2.validFrom
  have e3 := isLast_unique (by intro l x y h1 h2; rw [h1] at h2; exact Option.some.inj h2) (by rintro x y rfl rfl; rfl) h1.validUntil h2.validUntil
  have e4 := h1.antenna.trans h2.antenna.symm
  have e5 := h1.serial.trans h2.serial.symm
  have e6 := h1.phases.trans h2.phases.symm
  obtain ⟨a1, a2, a3, a4, a5, a6⟩ := y
  obtain ⟨b1, b2, b3, b4, b5, b6⟩ := z
  simp only at e1 e2 e3 e4 e5 e6
  subst e1 e2 e3 e4 e5 e6
  rfl

theorem fields_nil {c : Codec} (x : Satellite) : Fields c [] x x := ⟨rfl, rfl, rfl, isLast_nil.mpr rfl, isLast_nil.mpr rfl, isLast_nil.mpr rfl⟩

theorem fields_cons {c : Codec} {l : Str} {O : List Str} {x y z : Satellite} (h : Fields c [l] x y) : Fields c (l :: O) x z ↔ Fields c O y z := by
  have o := fun z => isLast_cons (B := O) (by rintro l x y ⟨v, hv, rfl⟩ ⟨w, hw, rfl⟩; rw [hv] at hw; rw [Option.some.inj hw]) (by rintro x y rfl rfl; rfl) h.frequencies z
  have v := fun z => isLast_cons (B := O) (by intro l x y h1 h2; rw [h1] at h2; exact Option.some.inj h2) (by rintro x y rfl rfl; rfl) h.validFrom z
  have u := fun z => isLast_cons (B := O) (by intro l x y h1 h2; rw [h1] at h2; exact Option.some.inj h2) (by rintro x y rfl rfl; rfl) h.validUntil z
  constructor
  · intro f
    exact ⟨f.antenna.trans h.antenna.symm, f.serial.trans h.serial.symm, f.phases.trans h.phases.symm, (o _).mp f.frequencies, (v _).mp f.validFrom,
      (u _).mp f.validUntil⟩
  · intro f
    exact ⟨f.antenna.trans h.antenna, f.serial.trans h.serial, f.phases.trans h.phases, (o _).mpr f.frequencies, (v _).mpr f.validFrom, (u _).mpr f.validUntil⟩

/-- A line of no kind. -/
theorem fields_other {c : Codec} {l : Str} (h1 : ¬ Label "# OF FREQUENCIES" l) (h2 : ¬ Label "VALID FROM" l) (h3 : ¬ Label "VALID UNTIL" l) (x : Satellite) :
    Fields c [l] x x :=
  ⟨rfl, rfl, rfl, (isLast_neg h1).mpr (isLast_nil.mpr rfl), (isLast_neg h2).mpr (isLast_nil.mpr rfl), (isLast_neg h3).mpr (isLast_nil.mpr rfl)⟩

theorem no {p : String} {l : Str} (h : ¬ Label p l) : ¬ isLabel p l = true := fun h' => h (isLabel_iff.mp h')

theorem label_substr {p : String} {l : Str} (h : Label p l) (n : ℕ) : substr l 0 n = .ok (l.take n) := by
  rw [substr_ok (Nat.zero_le _)]
  rfl

/-- The kinds of lines outside of the frequencies. -/
theorem kinds (l : Str) : Label "ZEN1 / ZEN2 / DZEN" l ∨ Label "# OF FREQUENCIES" l ∨ Label "VALID FROM" l ∨ Label "VALID UNTIL" l ∨
    (¬ Label "ZEN1 / ZEN2 / DZEN" l ∧ ¬ Label "# OF FREQUENCIES" l ∧ ¬ Label "VALID FROM" l ∧ ¬ Label "VALID UNTIL" l) := by tauto

theorem fieldStep_iff {c : Codec} {l : Str} {x y : Satellite} {g g' : Grid} : fieldStep c l (x, g) = .ok (y, g') ↔
    Readable c l ∧ Fields c [l] x y ∧ (Label "ZEN1 / ZEN2 / DZEN" l → ∃ a b d, c.reals (l.take 60) = [a, b, d] ∧ IsGrid a b d g') ∧
      (¬ Label "ZEN1 / ZEN2 / DZEN" l → g' = g) := by
  unfold fieldStep
  rcases kinds l with h | h | h | h | ⟨h1, h2, h3, h4⟩
  · have h2 : ¬ Label "# OF FREQUENCIES" l := label_unique h (by decide) (by decide)
    have h3 : ¬ Label "VALID FROM" l := label_unique h (by decide) (by decide)
    have h4 : ¬ Label "VALID UNTIL" l := label_unique h (by decide) (by decide)
    rw [if_pos (isLabel_iff.mpr h), label_substr h]
    simp only [Res.bind, if_neg (no h2), if_neg (no h3), if_neg (no h4)]
    constructor
    · intro e
      rcases hr : c.reals (l.take 60) with _ | ⟨a, _ | ⟨b, _ | ⟨d, _ | ⟨_, _⟩⟩⟩⟩ <;> rw [hr] at e <;> simp only [reduceCtorEq] at e
      rcases hg : mkGrid a b d 0 with q | _ | _ | _ <;> rw [hg] at e <;> simp only [reduceCtorEq] at e
      obtain ⟨rfl, rfl⟩ := Prod.mk.inj (Res.ok.inj e)
      have hg := mkGrid_iff.mp hg
      exact ⟨⟨fun _ => ⟨a, b, d, _, hr, hg⟩, fun h => absurd h h2, fun h => absurd h h3, fun h => absurd h h4⟩, fields_other h2 h3 h4 _,
        fun _ => ⟨a, b, d, rfl, hg⟩, fun h' => absurd h h'⟩
    · rintro ⟨_, hf, hg, _⟩
      obtain ⟨a, b, d, hr, hg⟩ := hg h
      rw [hr]
      simp only [mkGrid_iff.mpr hg]
      rw [fields_unique (fields_other h2 h3 h4 x) hf]
  · have h1 : ¬ Label "ZEN1 / ZEN2 / DZEN" l := fun h' => label_unique h' (by decide) (by decide) h
    have h3 : ¬ Label "VALID FROM" l := label_unique h (by decide) (by decide)
    have h4 : ¬ Label "VALID UNTIL" l := label_unique h (by decide) (by decide)
    simp only [if_neg (no h1), Res.bind]
    rw [if_pos (isLabel_iff.mpr h), label_substr h]
    simp only [if_neg (no h3), if_neg (no h4)]
    rcases hr : c.stoi (l.take 20) with _ | v
    · simp only [reduceCtorEq, false_iff]
      rintro ⟨hR, _⟩
      obtain ⟨v, hv⟩ := hR.frequencies h
      rw [hr] at hv; cases hv
    · have hf : Fields c [l] x { x with frequencies := toU64 v } :=
        ⟨rfl, rfl, rfl, (isLast_pos h).mpr (isLast_nil.mpr ⟨v, hr, rfl⟩), (isLast_neg h3).mpr (isLast_nil.mpr rfl), (isLast_neg h4).mpr (isLast_nil.mpr rfl)⟩
      simp only [Res.ok.injEq, Prod.mk.injEq]
      constructor
      · rintro ⟨rfl, rfl⟩
        exact ⟨⟨fun h => absurd h h1, fun _ => ⟨v, hr⟩, fun h => absurd h h3, fun h => absurd h h4⟩, hf, fun h => absurd h h1, fun _ => rfl⟩
      · rintro ⟨_, hf', _, e⟩
        exact ⟨fields_unique hf hf', (e h1).symm⟩
  · have h1 : ¬ Label "ZEN1 / ZEN2 / DZEN" l := fun h' => label_unique h' (by decide) (by decide) h
    have h2 : ¬ Label "# OF FREQUENCIES" l := fun h' => label_unique h' (by decide) (by decide) h
    have h4 : ¬ Label "VALID UNTIL" l := fun h' => label_unique h' (by decide) (by decide) h
    simp only [if_neg (no h1), if_neg (no h2), Res.bind]
    rw [if_pos (isLabel_iff.mpr h), readDate, label_substr h]
    simp only [if_neg (no h4), Res.bind]
    rcases hr : c.scan (l.take 59) with _ | v
    · simp only [reduceCtorEq, false_iff]
      rintro ⟨hR, _⟩
      obtain ⟨v, hv⟩ := hR.validFrom h
      rw [hr] at hv; cases hv
    · have hf : Fields c [l] x { x with validFrom := v } :=
        ⟨rfl, rfl, rfl, (isLast_neg h2).mpr (isLast_nil.mpr rfl), (isLast_pos h).mpr (isLast_nil.mpr hr), (isLast_neg h4).mpr (isLast_nil.mpr rfl)⟩
      simp only [Res.ok.injEq, Prod.mk.injEq]
      constructor
      · rintro ⟨rfl, rfl⟩
        exact ⟨⟨fun h => absurd h h1, fun h => absurd h h2, fun _ => ⟨v, hr⟩, fun h => absurd h h4⟩, hf, fun h => absurd h h1, fun _ => rfl⟩
      · rintro ⟨_, hf', _, e⟩
        exact ⟨fields_unique hf hf', (e h1).symm⟩
  · have h1 : ¬ Label "ZEN1 / ZEN2 / DZEN" l := fun h' => label_unique h' (by decide) (by decide) h
    have h2 : ¬ Label "# OF FREQUENCIES" l := fun h' => label_unique h' (by decide) (by decide) h
    have h3 : ¬ Label "VALID FROM" l := label_unique h (by decide) (by decide)
    simp only [if_neg (no h1), if_neg (no h2), if_neg (no h3), Res.bind]
    rw [if_pos (isLabel_iff.mpr h), readDate, label_substr h]
    simp only [Res.bind]
    rcases hr : c.scan (l.take 59) with _ | v
    · simp only [reduceCtorEq, false_iff]
      rintro ⟨hR, _⟩
      obtain ⟨v, hv⟩ := hR.validUntil h
      rw [hr] at hv; cases hv
    · have hf : Fields c [l] x { x with validUntil := v } :=
        ⟨rfl, rfl, rfl, (isLast_neg h2).mpr (isLast_nil.mpr rfl), (isLast_neg h3).mpr (isLast_nil.mpr rfl), (isLast_pos h).mpr (isLast_nil.mpr hr)⟩
      simp only [Res.ok.injEq, Prod.mk.injEq]
      constructor
      · rintro ⟨rfl, rfl⟩
        exact ⟨⟨fun h => absurd h h1, fun h => absurd h h2, fun h => absurd h h3, fun _ => ⟨v, hr⟩⟩, hf, fun h => absurd h h1, fun _ => rfl⟩
      · rintro ⟨_, hf', _, e⟩
        exact ⟨fields_unique hf hf', (e h1).symm⟩
  · simp only [if_neg (no h1), if_neg (no h2), if_neg (no h3), if_neg (no h4), Res.bind, Res.ok.injEq, Prod.mk.injEq]
    have hf := fields_other (c := c) h2 h3 h4 x
    constructor
    · rintro ⟨rfl, rfl⟩
      exact ⟨⟨fun h => absurd h h1, fun h => absurd h h2, fun h => absurd h h3, fun h => absurd h h4⟩, hf, fun h => absurd h h1, fun _ => rfl⟩
    · rintro ⟨_, hf', _, e⟩
      exact ⟨fields_unique hf hf', (e h1).symm⟩

theorem fieldStep_exists {c : Codec} {l : Str} (h : Readable c l) (x : Satellite) (g : Grid) : ∃ y g', fieldStep c l (x, g) = .ok (y, g') := by
  by_cases hz : Label "ZEN1 / ZEN2 / DZEN" l
  · obtain ⟨a, b, d, g', hr, hg⟩ := h.grid hz
    have h2 : ¬ Label "# OF FREQUENCIES" l := label_unique hz (by decide) (by decide)
    have h3 : ¬ Label "VALID FROM" l := label_unique hz (by decide) (by decide)
    have h4 : ¬ Label "VALID UNTIL" l := label_unique hz (by decide) (by decide)
    exact ⟨x, g', fieldStep_iff.mpr ⟨h, fields_other h2 h3 h4 x, fun _ => ⟨a, b, d, hr, hg⟩, fun h' => absurd hz h'⟩⟩
  · suffices ∃ y, Fields c [l] x y by
      obtain ⟨y, hy⟩ := this
      exact ⟨y, g, fieldStep_iff.mpr ⟨h, hy, fun h' => absurd h' hz, fun _ => rfl⟩⟩
    by_cases h2 : Label "# OF FREQUENCIES" l
    · obtain ⟨v, hv⟩ := h.frequencies h2
      have h3 : ¬ Label "VALID FROM" l := label_unique h2 (by decide) (by decide)
      have h4 : ¬ Label "VALID UNTIL" l := label_unique h2 (by decide) (by decide)
      exact ⟨{ x with frequencies := toU64 v }, rfl, rfl, rfl, (isLast_pos h2).mpr (isLast_nil.mpr ⟨v, hv, rfl⟩), (isLast_neg h3).mpr (isLast_nil.mpr rfl),
        (isLast_neg h4).mpr (isLast_nil.mpr rfl)⟩
    by_cases h3 : Label "VALID FROM" l
    · obtain ⟨v, hv⟩ := h.validFrom h3
      have h4 : ¬ Label "VALID UNTIL" l := fun h' => label_unique h' (by decide) (by decide) h3
      exact ⟨{ x with validFrom := v }, rfl, rfl, rfl, (isLast_neg h2).mpr (isLast_nil.mpr rfl), (isLast_pos h3).mpr (isLast_nil.mpr hv),
        (isLast_neg h4).mpr (isLast_nil.mpr rfl)⟩
    by_cases h4 : Label "VALID UNTIL" l
    · obtain ⟨v, hv⟩ := h.validUntil h4
      exact ⟨{ x with validUntil := v }, rfl, rfl, rfl, (isLast_neg h2).mpr (isLast_nil.mpr rfl), (isLast_neg h3).mpr (isLast_nil.mpr rfl),
        (isLast_pos h4).mpr (isLast_nil.mpr hv)⟩
    exact ⟨x, fields_other h2 h3 h4 x⟩

end S2E.Antex
