import Verif.Proofs.Antex
import Verif.Props.BiasSinex
/-!
# C163: ANTEX files
-/
namespace S2E.Antex
open S2E.Log S2E.Sp3 S2E.Time

/-! ## One antenna -/

/-- The fields of a line with the start of a frequency. -/
theorem start_fields {c : Codec} {l : Str} (h : Label "START OF FREQUENCY" l) (x : Satellite) (g : Grid) : fieldStep c l (x, g) = .ok (x, g) := by
  have h1 : ¬ Label "ZEN1 / ZEN2 / DZEN" l := label_unique h (by decide) (by decide)
  have h2 : ¬ Label "# OF FREQUENCIES" l := label_unique h (by decide) (by decide)
  have h3 : ¬ Label "VALID FROM" l := label_unique h (by decide) (by decide)
  have h4 : ¬ Label "VALID UNTIL" l := label_unique h (by decide) (by decide)
  exact fieldStep_iff.mpr ⟨⟨fun h => absurd h h1, fun h => absurd h h2, fun h => absurd h h3, fun h => absurd h h4⟩, fields_other h2 h3 h4 x,
    fun h => absurd h h1, fun _ => rfl⟩

theorem gridAfter_cons {c : Codec} {l : Str} (hl : Label "ZEN1 / ZEN2 / DZEN" l) {a b d : ℝ} {g g' : Grid} (hr : c.reals (l.take 60) = [a, b, d]) (hg : IsGrid a b d g')
    {O : List Str} {g'' : Grid} (h : GridAfter c g' O g'') : GridAfter c g (l :: O) g'' := by
  have hy : IsLast (Label "ZEN1 / ZEN2 / DZEN") [l] (· = g) (fun l g' => ∃ a b d, c.reals (l.take 60) = [a, b, d] ∧ IsGrid a b d g') g' :=
    (isLast_pos hl).mpr (isLast_nil.mpr ⟨a, b, d, hr, hg⟩)
  refine field_iff.mpr ((isLast_cons ?_ ?_ hy g'').mpr (field_iff.mp h))
  · rintro l x y ⟨a, b, d, h1, h2⟩ ⟨a', b', d', h3, h4⟩
    rw [h1] at h3
    simp only [List.cons.injEq, and_true] at h3
    obtain ⟨rfl, rfl, rfl⟩ := h3
    exact isGrid_det h2 h4
  · rintro x y rfl rfl; rfl

/-- Reading the lines of an antenna that are there. -/
theorem sections_part {c : Codec} {g : Grid} {B O : List Str} {ps : List Phase} (h : Sections c g B O ps) :
    ∀ (R : List Str) (n : ℕ) (s : Stream) (y : Str) (x : Satellite) (qs : List Phase), Holds s (B ++ R) → B.length ≤ n →
      ∃ k s' y' x' g', n ≤ k + B.length ∧ k ≤ n ∧ Holds s' R ∧ (Fields c O x x' ∧ GridAfter c g O g') ∧ (B = [] → y' = y) ∧
        (B ≠ [] → ¬ Label "END OF ANTENNA" y' ∧ Readable c y') ∧
        readSatellite c n s y (x, g) qs = readSatellite c k s' y' (x', g') (qs ++ ps) := by
  induction h with
  | nil g =>
    intro R n s y x qs hs hn
    exact ⟨n, s, y, x, g, by simp, le_rfl, hs, ⟨fields_nil x, field_iff.mpr (isLast_nil.mpr rfl)⟩, fun _ => rfl, fun h => absurd rfl h, by simp⟩
  | grid g l L O ps a b d g' hl hr hg _ ih =>
    intro R n s y x qs hs hn
    simp only [List.length_cons] at hn
    obtain ⟨n, rfl⟩ : ∃ m, n = m + 1 := ⟨n - 1, by omega⟩
    obtain ⟨s', h1, h2⟩ := holds_getline hs
    have h3 : ¬ Label "# OF FREQUENCIES" l := label_unique hl (by decide) (by decide)
    have h4 : ¬ Label "VALID FROM" l := label_unique hl (by decide) (by decide)
    have h5 : ¬ Label "VALID UNTIL" l := label_unique hl (by decide) (by decide)
    have h6 : ¬ Label "START OF FREQUENCY" l := label_unique hl (by decide) (by decide)
    have h7 : ¬ Label "END OF ANTENNA" l := label_unique hl (by decide) (by decide)
    have hR : Readable c l := ⟨fun _ => ⟨a, b, d, g', hr, hg⟩, fun h => absurd h h3, fun h => absurd h h4, fun h => absurd h h5⟩
    have hf := fields_other (c := c) h3 h4 h5 x
    have e : fieldStep c l (x, g) = .ok (x, g') := fieldStep_iff.mpr ⟨hR, hf, fun _ => ⟨a, b, d, hr, hg⟩, fun h => absurd hl h⟩
    obtain ⟨k, t, y', x', g'', i1, i2, i3, i4, i5, i6, i7⟩ := ih R n s' l x qs h2 (by omega)
    refine ⟨k, t, y', x', g'', by simp only [List.length_cons]; omega, by omega, i3, ⟨(fields_cons hf).mpr i4.1, gridAfter_cons hl hr hg i4.2⟩, by simp, fun _ => ?_, ?_⟩
    · by_cases hL : L = []
      · rw [i5 hL]; exact ⟨h7, hR⟩
      · exact i6 hL
    · rw [readSatellite]
      simp only [h1]
      rw [if_neg (no h7), e]
      simp only [Res.bind]
      rw [if_neg (no h6)]
      exact i7
  | line g l L O ps h0 h6 h7 hR _ ih =>
    intro R n s y x qs hs hn
    simp only [List.length_cons] at hn
    obtain ⟨n, rfl⟩ : ∃ m, n = m + 1 := ⟨n - 1, by omega⟩
    obtain ⟨s', h1, h2⟩ := holds_getline hs
    obtain ⟨z, g', e⟩ := fieldStep_exists hR x g
    obtain ⟨_, hf, _, hg⟩ := fieldStep_iff.mp e
    obtain rfl := hg h0
    obtain ⟨k, t, y', x', g'', i1, i2, i3, i4, i5, i6, i7⟩ := ih R n s' l z qs h2 (by omega)
    refine ⟨k, t, y', x', g'', by simp only [List.length_cons]; omega, by omega, i3, ⟨(fields_cons hf).mpr i4.1, field_iff.mpr ((isLast_neg h0).mpr (field_iff.mp i4.2))⟩, by simp, fun _ => ?_, ?_⟩
    · by_cases hL : L = []
      · rw [i5 hL]; exact ⟨h7, hR⟩
      · exact i6 hL
    · rw [readSatellite]
      simp only [h1]
      rw [if_neg (no h7), e]
      simp only [Res.bind]
      rw [if_neg (no h6)]
      exact i7
  | frequency g l B e L O p ps hl hp _ ih =>
    intro R n s y x qs hs hn
    simp only [List.length_cons, List.length_append] at hn
    obtain ⟨n, rfl⟩ : ∃ m, n = m + 1 := ⟨n - 1, by omega⟩
    have hs' : Holds s (l :: (B ++ e :: (L ++ R))) := by simpa using hs
    obtain ⟨s', h1, h2⟩ := holds_getline hs'
    have h7 : ¬ Label "END OF ANTENNA" l := label_unique hl (by decide) (by decide)
    have e1 := start_fields (c := c) hl x g
    obtain ⟨hB, he, q, hq, rfl⟩ := isPhase_iff.mp hp
    obtain ⟨s'', j1, j2⟩ := phase_end hB he n s' [] {} q hq h2 (by omega)
    obtain ⟨k, t, y', x', g'', i1, i2, i3, i4, i5, i6, i7⟩ := ih R n s'' l x (qs ++ [{ q with name := cols e 3 3, grid := g }]) j2 (by omega)
    refine ⟨k, t, y', x', g'', by simp only [List.length_cons, List.length_append]; omega, by omega, i3, i4, by simp, fun _ => ?_, ?_⟩
    · by_cases hL : L = []
      · rw [i5 hL]; exact ⟨h7, (fieldStep_iff.mp e1).1⟩
      · exact i6 hL
    · rw [readSatellite]
      simp only [h1]
      rw [if_neg (no h7), e1]
      simp only [Res.bind]
      rw [if_pos (isLabel_iff.mpr hl)]
      simp only [j1]
      rw [i7, List.append_assoc]
      rfl

theorem satellite_end {c : Codec} {g : Grid} {B O : List Str} {ps : List Phase} (h : Sections c g B O ps) {e : Str} (he : Label "END OF ANTENNA" e) (L : List Str)
    (n : ℕ) (s : Stream) (y : Str) (x : Satellite) (hs : Holds s (B ++ e :: L)) (hn : B.length < n) :
    ∃ s' x', readSatellite c n s y (x, g) [] = .ok (s', { x' with phases := ps }) ∧ Fields c O x x' ∧ Holds s' L := by
  obtain ⟨k, t, y', x', g', i1, i2, i3, i4, i5, i6, i7⟩ := sections_part h (e :: L) n s y x [] hs (by omega)
  obtain ⟨k, rfl⟩ : ∃ m, k = m + 1 := ⟨k - 1, by omega⟩
  obtain ⟨s', h1, h2⟩ := holds_getline i3
  refine ⟨s', x', ?_, i4.1, h2⟩
  rw [i7, readSatellite]
  simp only [h1]
  rw [if_pos (isLabel_iff.mpr he)]
  rfl

theorem satellite_dead {c : Codec} {y : Str} (hy : ¬ Label "END OF ANTENNA" y) (n : ℕ) (x : Satellite × Grid) (qs : List Phase) (r : Stream × Satellite) :
    readSatellite c n ⟨[], true, true⟩ y x qs ≠ .ok r := by
  induction n generalizing x qs with
  | zero => simp [readSatellite]
  | succ n ih =>
    rw [readSatellite]
    simp only [dead_getline]
    rw [if_neg (no hy)]
    rcases h : fieldStep c y x with z | _ | _ | _ <;> simp only [Res.bind, ne_eq, reduceCtorEq, not_false_iff]
    split_ifs with h2
    · rcases h3 : readPhase c z.2 n ⟨[], true, true⟩ [] {} with q | _ | _ | _ <;> simp only [ne_eq, reduceCtorEq, not_false_iff]
      exact absurd h3 (phase_dead (label_nil _) n _ _)
    · exact ih z qs

theorem satellite_ok {c : Codec} : ∀ (n : ℕ) (L : List Str) (s : Stream) (y : Str) (x : Satellite) (g : Grid) (qs : List Phase) (r : Stream × Satellite),
    ¬ Label "END OF ANTENNA" y → Holds s L → readSatellite c n s y (x, g) qs = .ok r →
    ∃ B e R O ps x', L = B ++ e :: R ∧ Label "END OF ANTENNA" e ∧ Sections c g B O ps ∧ Fields c O x x' ∧ r.2 = { x' with phases := qs ++ ps } ∧ Holds r.1 R := by
  intro n
  induction n with
  | zero => intro L s y x g qs r _ _ h; simp [readSatellite] at h
  | succ n ih =>
    intro L s y x g qs r hy hs h
    rw [readSatellite] at h
    rcases L with _ | ⟨l, L⟩
    · exfalso
      have : ∀ z, ¬ Label "END OF ANTENNA" z → s.getline y = (⟨[], true, true⟩, z) → False := by
        intro z hz e
        simp only [e] at h
        have := satellite_dead (c := c) hz (n + 1) (x, g) qs r
        rw [readSatellite] at this
        simp only [dead_getline] at this
        exact this h
      rcases holds_nil hs with ⟨_, e⟩ | ⟨_, e⟩
      · exact this [] (label_nil _) (e y)
      · exact this y hy (e y)
    · obtain ⟨s', h1, h2⟩ := holds_getline hs
      simp only [h1] at h
      by_cases he : Label "END OF ANTENNA" l
      · rw [if_pos (isLabel_iff.mpr he)] at h
        obtain rfl := Res.ok.inj h
        exact ⟨[], l, L, [], [], x, rfl, he, .nil g, fields_nil x, by simp, h2⟩
      · rw [if_neg (no he)] at h
        by_cases hF : Label "START OF FREQUENCY" l
        · rw [start_fields hF] at h
          simp only [Res.bind, if_pos (isLabel_iff.mpr hF)] at h
          rcases h3 : readPhase c g n s' [] {} with q | _ | _ | _ <;> rw [h3] at h <;> simp only [reduceCtorEq] at h
          obtain ⟨B, e, R, q', rfl, i1, i2, i3, i4, i5⟩ := phase_ok n L s' [] {} q (label_nil _) h2 h3
          obtain ⟨B', e', R', O, ps, x', rfl, j1, j2, j3, j4, j5⟩ := ih R q.1 l x g (qs ++ [q.2]) r he i5 h
          refine ⟨l :: (B ++ e :: B'), e', R', O, q.2 :: ps, x', by simp, j1, .frequency g l B e B' O q.2 ps hF ?_ j2, j3, by rw [j4]; simp, j5⟩
          exact isPhase_iff.mpr ⟨i1, i2, q', i3, i4⟩
        · rcases h3 : fieldStep c l (x, g) with ⟨z, g'⟩ | _ | _ | _ <;> rw [h3] at h <;> simp only [Res.bind, reduceCtorEq, if_neg (no hF)] at h
          obtain ⟨hR, hf, hz, hg⟩ := fieldStep_iff.mp h3
          obtain ⟨B', e', R', O, ps, x', rfl, j1, j2, j3, j4, j5⟩ := ih L s' l z g' qs r he h2 h
          refine ⟨l :: B', e', R', l :: O, ps, x', rfl, j1, ?_, (fields_cons hf).mpr j3, j4, j5⟩
          by_cases hZ : Label "ZEN1 / ZEN2 / DZEN" l
          · obtain ⟨a, b, d, k1, k2⟩ := hz hZ
            exact .grid g l B' O ps a b d g' hZ k1 k2 j2
          · obtain rfl := hg hZ
            exact .line g' l B' O ps hZ hF he hR j2

theorem isSatellite_iff {c : Codec} {t : Str} {B : List Str} {d : Satellite} : IsSatellite c t B d ↔
    ∃ O ps x, Sections c defaultGrid B O ps ∧ Fields c O {} x ∧ d = { x with phases := ps, antenna := t.take 20, serial := cols t 20 20 } := by
  constructor
  · intro h
    obtain ⟨O, h1, h2, h3, h4⟩ := h.fields
    refine ⟨O, d.phases, { d with phases := [], antenna := [], serial := [] }, h1, ⟨rfl, rfl, rfl, field_iff.mp h2, field_iff.mp h3, field_iff.mp h4⟩, ?_⟩
    have e1 := h.antenna
    have e2 := h.serial
    obtain ⟨a1, a2, a3, a4, a5, a6⟩ := d
    simp only at e1 e2
    subst e1 e2
    rfl
  · rintro ⟨O, ps, x, h1, h2, rfl⟩
    exact ⟨rfl, rfl, O, h1, field_iff.mpr h2.frequencies, field_iff.mpr h2.validFrom, field_iff.mpr h2.validUntil⟩

/-! ## The map -/

/-- The entries made of a list of satellites. -/
def pushAll (m : Data) (d : List (ℕ × Satellite)) : Data := d.foldl (fun m x => push x.1 x.2 m) m

theorem satellite_push (i j : ℕ) (x : Satellite) (m : Data) : satellite j (push i x m) =
    if j = i then .ok ((match satellite i m with | .ok l => l | _ => []) ++ [x]) else satellite j m := by
  induction m with
  | nil =>
    by_cases h : j = i
    · subst h; simp [push, satellite]
    · have h' : i ≠ j := fun e => h e.symm
      simp [push, satellite, h, h']
  | cons a m ih =>
    obtain ⟨k, l⟩ := a
    unfold push
    by_cases hk : k = i
    · subst hk
      rw [if_pos rfl]
      by_cases h : j = k
      · subst h; simp [satellite]
      · have h' : k ≠ j := fun e => h e.symm
        simp [satellite, h, h']
    · rw [if_neg hk]
      by_cases h : j = k
      · subst h; simp [satellite, hk]
      · have h' : k ≠ j := fun e => h e.symm
        simp only [satellite, if_neg h', if_neg hk, ih]

/-- The keys of the map. -/
def keys (m : Data) : List ℕ := m.map Prod.fst

theorem keys_push (i : ℕ) (x : Satellite) (m : Data) : keys (push i x m) = if i ∈ keys m then keys m else keys m ++ [i] := by
  induction m with
  | nil => simp [push, keys]
  | cons a m ih =>
    obtain ⟨k, l⟩ := a
    unfold push
    by_cases hk : k = i
    · subst hk; simp [keys]
    · have hk' : i ≠ k := fun e => hk e.symm
      rw [if_neg hk]
      simp only [keys, List.map_cons, List.mem_cons, hk', false_or] at ih ⊢
      rw [ih]
      by_cases h : i ∈ List.map Prod.fst m <;> simp [h]

theorem satellite_mem (i : ℕ) (m : Data) : satellite i m = .throws ∨ ∃ l, satellite i m = .ok l := by
  induction m with
  | nil => exact Or.inl rfl
  | cons a m ih =>
    obtain ⟨k, l⟩ := a
    rw [satellite]
    split_ifs
    · exact Or.inr ⟨l, rfl⟩
    · exact ih

/-- The map made of the satellites of a file. -/
theorem isMap_pushAll (d : List (ℕ × Satellite)) : IsMap d (pushAll [] d) := by
  have key : (∀ i, satellite i (pushAll [] d) = if i ∈ d.map Prod.fst then .ok ((d.filter fun x => x.1 = i).map Prod.snd) else .throws) ∧
      (keys (pushAll [] d)).Nodup ∧ (∀ i, i ∈ keys (pushAll [] d) ↔ i ∈ d.map Prod.fst) := by
    induction d using List.reverseRecOn with
    | nil => exact ⟨fun i => by simp [pushAll, satellite], by simp [pushAll, keys], by simp [pushAll, keys]⟩
    | append_singleton d x ih =>
      obtain ⟨ih1, ih2, ih3⟩ := ih
      have e : pushAll [] (d ++ [x]) = push x.1 x.2 (pushAll [] d) := by simp [pushAll]
      rw [e]
      refine ⟨fun i => ?_, ?_, fun i => ?_⟩
      · rw [satellite_push]
        by_cases hi : i = x.1
        · subst hi
          rw [if_pos rfl, if_pos (by simp), ih1]
          by_cases hm : x.1 ∈ d.map Prod.fst
          · rw [if_pos hm]
            simp
          · rw [if_neg hm]
            have : (d.filter fun y => y.1 = x.1) = [] := by
              rw [List.filter_eq_nil_iff]
              intro y hy
              simp only [decide_eq_true_eq]
              intro h
              exact hm (List.mem_map.mpr ⟨y, hy, h⟩)
            simp [this]
        · have hi' : x.1 ≠ i := fun e => hi e.symm
          rw [if_neg hi, ih1]
          by_cases hm : i ∈ d.map Prod.fst
          · rw [if_pos hm, if_pos (by rw [List.map_append, List.mem_append]; exact Or.inl hm)]
            simp [hi']
          · rw [if_neg hm, if_neg]
            rw [List.map_append, List.mem_append]
            simp [hi, hm] at hm ⊢
      · rw [keys_push]
        split_ifs with h
        · exact ih2
        · exact List.nodup_append.mpr ⟨ih2, by simp, fun a ha b hb e => h (by rw [List.mem_singleton] at hb; rwa [← hb, ← e])⟩
      · rw [keys_push]
        split_ifs with h
        · rw [ih3]
          simp only [List.map_append, List.mem_append, List.map_cons, List.map_nil, List.mem_singleton]
          constructor
          · exact Or.inl
          · rintro (h' | rfl)
            · exact h'
            · exact (ih3 _).mp h
        · simp only [List.mem_append, ih3, List.map_append, List.map_cons, List.map_nil]
  refine ⟨key.1, ?_⟩
  have e : (d.map Prod.fst).toFinset = (keys (pushAll [] d)).toFinset := by
    ext i
    simp only [List.mem_toFinset]
    exact (key.2.2 i).symm
  rw [e, List.toFinset_card_of_nodup key.2.1, count, keys, List.length_map]

/-! ## The file -/

theorem type_length {t : Str} (h : Label "TYPE / SERIAL NO" t) : 40 ≤ t.length := by
  have : 60 + "TYPE / SERIAL NO".toList.length ≤ t.length := (label_length h).resolve_right (by decide)
  omega

/-- The lines before the type are skipped. -/
theorem antenna_skip {c : Codec} {H : List Str} (hH : ∀ m ∈ H, ¬ Label "TYPE / SERIAL NO" m) :
    ∀ (R : List Str) (n : ℕ) (s : Stream) (y : Str) (m : Data), Holds s (H ++ R) → 
      ∃ s', readAntenna c (n + H.length) s y m = readAntenna c n s' ((y :: H).getLast (by simp)) m ∧ Holds s' R := by
  induction H with
  | nil => intro R n s y m hs; exact ⟨s, rfl, hs⟩
  | cons l H ih =>
    intro R n s y m hs
    obtain ⟨s', h1, h2⟩ := holds_getline hs
    obtain ⟨s'', g1, g2⟩ := ih (fun k hk => hH k (by simp [hk])) R n s' l m h2
    refine ⟨s'', ?_, g2⟩
    rw [show n + (l :: H).length = (n + H.length) + 1 by simp; omega, readAntenna]
    simp only [h1]
    rw [if_neg (no (hH l (by simp))), g1]
    rfl

theorem antenna_type {c : Codec} {t : Str} (ht : Label "TYPE / SERIAL NO" t) {n : ℕ} {s s' : Stream} {y : Str} {m : Data} (h1 : s.getline y = (s', t)) :
    readAntenna c (n + 1) s y m = (Gnss.numberToIndex (cols t 20 20)).bind fun i =>
        if i = 2 ^ 32 - 1 then .ok (s', m)
        else (readSatellite c n s' [] ({}, defaultGrid) []).bind fun q => .ok (q.1, push i { q.2 with antenna := t.take 20, serial := cols t 20 20 } m) := by
  rw [readAntenna]
  simp only [h1]
  have := type_length ht
  rw [if_pos (isLabel_iff.mpr ht), label_substr ht, Res.bind, substr_ok (by omega), Res.bind]

theorem antenna_other {c : Codec} {H : List Str} {t : Str} {L : List Str} (hH : ∀ m ∈ H, ¬ Label "TYPE / SERIAL NO" m) (ht : Label "TYPE / SERIAL NO" t)
    (hi : Gnss.numberToIndex (cols t 20 20) = .ok (2 ^ 32 - 1)) (n : ℕ) (s : Stream) (y : Str) (m : Data) (hs : Holds s (H ++ t :: L)) (hn : H.length < n) :
    ∃ s', readAntenna c n s y m = .ok (s', m) ∧ Holds s' L := by
  obtain ⟨k, rfl⟩ : ∃ k, n = (k + 1) + H.length := ⟨n - H.length - 1, by omega⟩
  obtain ⟨s', g1, g2⟩ := antenna_skip (c := c) hH (t :: L) (k + 1) s y m hs
  obtain ⟨s'', h1, h2⟩ := holds_getline g2
  refine ⟨s'', ?_, h2⟩
  rw [g1, antenna_type ht (h1 _), hi, Res.bind, if_pos rfl]

theorem antenna_satellite {c : Codec} {H : List Str} {t : Str} {B : List Str} {e : Str} {L : List Str} {i : ℕ} {x : Satellite}
    (hH : ∀ m ∈ H, ¬ Label "TYPE / SERIAL NO" m) (ht : Label "TYPE / SERIAL NO" t) (hi : Gnss.numberToIndex (cols t 20 20) = .ok i) (h0 : i ≠ 2 ^ 32 - 1)
    (hx : IsSatellite c t B x) (he : Label "END OF ANTENNA" e) (n : ℕ) (s : Stream) (y : Str) (m : Data) (hs : Holds s (H ++ t :: (B ++ e :: L)))
    (hn : H.length + B.length + 1 < n) : ∃ s', readAntenna c n s y m = .ok (s', push i x m) ∧ Holds s' L := by
  obtain ⟨k, rfl⟩ : ∃ k, n = (k + 1) + H.length := ⟨n - H.length - 1, by omega⟩
  obtain ⟨s', g1, g2⟩ := antenna_skip (c := c) hH _ (k + 1) s y m hs
  obtain ⟨s'', h1, h2⟩ := holds_getline g2
  obtain ⟨O, ps, z, j1, j2, rfl⟩ := isSatellite_iff.mp hx
  obtain ⟨s3, x', i1, i2, i3⟩ := satellite_end j1 he L k s'' [] {} h2 (by omega)
  refine ⟨s3, ?_, i3⟩
  rw [g1, antenna_type ht (h1 _), hi, Res.bind, if_neg h0, i1, Res.bind, fields_unique i2 j2]

theorem antenna_dead {c : Codec} {y : Str} (hy : ¬ Label "TYPE / SERIAL NO" y) (n : ℕ) (m : Data) : readAntenna c n ⟨[], true, true⟩ y m = .stuck := by
  induction n with
  | zero => rfl
  | succ n ih =>
    rw [readAntenna]
    simp only [dead_getline]
    rw [if_neg (no hy)]
    exact ih

theorem antenna_open {c : Codec} : ∀ (n : ℕ) (H : List Str) (s : Stream) (y : Str) (m : Data), (∀ k ∈ y :: H, ¬ Label "TYPE / SERIAL NO" k) → Holds s H →
    readAntenna c n s y m = .stuck := by
  intro n
  induction n with
  | zero => intro H s y m _ _; rfl
  | succ n ih =>
    intro H s y m hH hs
    rcases H with _ | ⟨l, H⟩
    · have : ∀ z, ¬ Label "TYPE / SERIAL NO" z → s.getline y = (⟨[], true, true⟩, z) → readAntenna c (n + 1) s y m = .stuck := by
        intro z hz e
        rw [readAntenna]
        simp only [e]
        rw [if_neg (no hz)]
        exact antenna_dead hz n m
      rcases holds_nil hs with ⟨_, e⟩ | ⟨_, e⟩
      · exact this [] (label_nil _) (e y)
      · exact this y (hH y (by simp)) (e y)
    · obtain ⟨s', h1, h2⟩ := holds_getline hs
      rw [readAntenna]
      simp only [h1]
      rw [if_neg (no (hH l (by simp)))]
      exact ih H s' l m (fun k hk => hH k (by simp only [List.mem_cons] at hk ⊢; tauto)) h2

/-- Reading an antenna returns exactly with the layout. -/
theorem antenna_ok {c : Codec} : ∀ (n : ℕ) (L : List Str) (s : Stream) (y : Str) (m : Data) (r : Stream × Data), ¬ Label "TYPE / SERIAL NO" y →
    Holds s L → readAntenna c n s y m = .ok r →
    (∃ H t R, L = H ++ t :: R ∧ (∀ k ∈ H, ¬ Label "TYPE / SERIAL NO" k) ∧ Label "TYPE / SERIAL NO" t ∧ Gnss.numberToIndex (cols t 20 20) = .ok (2 ^ 32 - 1) ∧
      r.2 = m ∧ Holds r.1 R) ∨
    (∃ H t B e R i x, L = H ++ t :: (B ++ e :: R) ∧ (∀ k ∈ H, ¬ Label "TYPE / SERIAL NO" k) ∧ Label "TYPE / SERIAL NO" t ∧
      Gnss.numberToIndex (cols t 20 20) = .ok i ∧ i ≠ 2 ^ 32 - 1 ∧ IsSatellite c t B x ∧ Label "END OF ANTENNA" e ∧ r.2 = push i x m ∧ Holds r.1 R) := by
  intro n
  induction n with
  | zero => intro L s y m r _ _ h; simp [readAntenna] at h
  | succ n ih =>
    intro L s y m r hy hs h
    rcases L with _ | ⟨l, L⟩
    · rw [antenna_open (n + 1) [] s y m (by simpa using hy) hs] at h
      cases h
    · obtain ⟨s', h1, h2⟩ := holds_getline hs
      by_cases ht : Label "TYPE / SERIAL NO" l
      · rw [antenna_type ht (h1 _)] at h
        rcases hi : Gnss.numberToIndex (cols l 20 20) with i | _ | _ | _ <;> rw [hi] at h <;> simp only [Res.bind, reduceCtorEq] at h
        by_cases h0 : i = 2 ^ 32 - 1
        · rw [if_pos h0] at h
          obtain rfl := Res.ok.inj h
          subst h0
          exact Or.inl ⟨[], l, L, rfl, by simp, ht, hi, rfl, h2⟩
        · rw [if_neg h0] at h
          rcases h3 : readSatellite c n s' [] ({}, defaultGrid) [] with q | _ | _ | _ <;> rw [h3] at h <;> simp only [reduceCtorEq] at h
          obtain rfl := Res.ok.inj h
          obtain ⟨B, e, R, O, ps, x', rfl, j1, j2, j3, j4, j5⟩ := satellite_ok n L s' [] {} defaultGrid [] q (label_nil _) h2 h3
          refine Or.inr ⟨[], l, B, e, R, i, _, rfl, by simp, ht, hi, h0, isSatellite_iff.mpr ⟨O, ps, x', j2, j3, rfl⟩, j1, ?_, j5⟩
          rw [j4]
          rfl
      · rw [readAntenna] at h
        simp only [h1] at h
        rw [if_neg (no ht)] at h
        have hc : ∀ H : List Str, (∀ k ∈ H, ¬ Label "TYPE / SERIAL NO" k) → ∀ k ∈ l :: H, ¬ Label "TYPE / SERIAL NO" k := by
          intro H hH k hk
          rcases List.mem_cons.mp hk with rfl | hk
          · exact ht
          · exact hH k hk
        rcases ih L s' l m r ht h2 h with ⟨H, t, R, rfl, i1, i2⟩ | ⟨H, t, B, e, R, i, x, rfl, i1, i2⟩
        · exact Or.inl ⟨l :: H, t, R, rfl, hc H i1, i2⟩
        · exact Or.inr ⟨l :: H, t, B, e, R, i, x, rfl, hc H i1, i2⟩

theorem start_step {c : Codec} {l : Str} (h : Label "START OF ANTENNA" l) {n : ℕ} {s s' : Stream} {m : Data} (hend : Bias.atEnd s = false)
    (hs : ∀ x, s.getline x = (s', l)) : readLoop c (n + 1) s m = (readAntenna c n s' [] m).bind fun q => readLoop c n q.1 q.2 := by
  have h1 : 60 + "START OF ANTENNA".toList.length ≤ l.length := (label_length h).resolve_right (by decide)
  have h2 : ¬ Label "COMMENT" l := label_unique h (by decide) (by decide)
  rw [readLoop]
  simp only [hend, hs, Bool.false_eq_true, if_false]
  rw [if_neg (by omega), if_neg (no h2), if_pos (isLabel_iff.mpr h)]

theorem line_step {c : Codec} {l : Str} (h : ¬ Label "START OF ANTENNA" l) {n : ℕ} {s s' : Stream} {m : Data} (hend : Bias.atEnd s = false)
    (hs : ∀ x, s.getline x = (s', l)) : readLoop c (n + 1) s m = readLoop c n s' m := by
  rw [readLoop]
  simp only [hend, hs, Bool.false_eq_true, if_false]
  rw [if_neg (no h)]
  split_ifs <;> rfl

theorem pushAll_cons (m : Data) (x : ℕ × Satellite) (d : List (ℕ × Satellite)) : pushAll m (x :: d) = pushAll (push x.1 x.2 m) d := rfl

/-- After complete antennas the loop goes on with the remaining lines. -/
theorem reads_before {c : Codec} {L : List Str} {d : List (ℕ × Satellite)} (h : Reads c L d) :
    ∀ (R : List Str) (n : ℕ) (s : Stream) (m : Data), Holds s (L ++ R) → L.length ≤ n →
      ∃ k s', n ≤ k + L.length ∧ k ≤ n ∧ Holds s' R ∧ readLoop c n s m = readLoop c k s' (pushAll m d) := by
  induction h with
  | nil => intro R n s m hs hn; exact ⟨n, s, by simp, le_rfl, hs, rfl⟩
  | line l L d h _ ih =>
    intro R n s m hs hn
    simp only [List.length_cons] at hn
    obtain ⟨n, rfl⟩ : ∃ k, n = k + 1 := ⟨n - 1, by omega⟩
    obtain ⟨s', h1, h2⟩ := holds_getline hs
    obtain ⟨k, t, i1, i2, i3, i4⟩ := ih R n s' m h2 (by omega)
    exact ⟨k, t, by simp only [List.length_cons]; omega, by omega, i3, by rw [line_step h (Bias.atEnd_cons hs) h1, i4]⟩
  | other l H t L d h hH ht hi _ ih =>
    intro R n s m hs hn
    simp only [List.length_cons, List.length_append] at hn
    obtain ⟨n, rfl⟩ : ∃ k, n = k + 1 := ⟨n - 1, by omega⟩
    have hs' : Holds s (l :: (H ++ t :: (L ++ R))) := by simpa using hs
    obtain ⟨s', h1, h2⟩ := holds_getline hs'
    obtain ⟨s'', g1, g2⟩ := antenna_other (c := c) hH ht hi n s' [] m h2 (by omega)
    obtain ⟨k, t, i1, i2, i3, i4⟩ := ih R n s'' m g2 (by omega)
    refine ⟨k, t, by simp only [List.length_cons, List.length_append]; omega, by omega, i3, ?_⟩
    rw [start_step h (Bias.atEnd_cons hs') h1, g1, Res.bind, i4]
  | satellite l H t B e L i x d h hH ht hi h0 hx he _ ih =>
    intro R n s m hs hn
    simp only [List.length_cons, List.length_append] at hn
    obtain ⟨n, rfl⟩ : ∃ k, n = k + 1 := ⟨n - 1, by omega⟩
    have hs' : Holds s (l :: (H ++ t :: (B ++ e :: (L ++ R)))) := by simpa using hs
    obtain ⟨s', h1, h2⟩ := holds_getline hs'
    obtain ⟨s'', g1, g2⟩ := antenna_satellite hH ht hi h0 hx he n s' [] m h2 (by omega)
    obtain ⟨k, t, i1, i2, i3, i4⟩ := ih R n s'' (push i x m) g2 (by omega)
    refine ⟨k, t, by simp only [List.length_cons, List.length_append]; omega, by omega, i3, ?_⟩
    rw [start_step h (Bias.atEnd_cons hs') h1, g1, Res.bind, i4, pushAll_cons]

theorem loop_reads {c : Codec} {L : List Str} {d : List (ℕ × Satellite)} (h : Reads c L d) (n : ℕ) (s : Stream) (m : Data) (hs : Holds s L) (hn : L.length < n) :
    readLoop c n s m = .ok (pushAll m d) := by
  obtain ⟨k, s', h1, h2, h3, h4⟩ := reads_before h [] n s m (by simpa using hs) (by omega)
  obtain ⟨k, rfl⟩ : ∃ j, k = j + 1 := ⟨k - 1, by omega⟩
  rw [h4, readLoop, if_pos (Bias.atEnd_nil h3)]

theorem reads_loop {c : Codec} : ∀ (n : ℕ) (L : List Str) (s : Stream) (m r : Data), Holds s L → readLoop c n s m = .ok r →
    ∃ d, r = pushAll m d ∧ Reads c L d := by
  intro n
  induction n with
  | zero => intro L s m r _ h; simp [readLoop] at h
  | succ n ih =>
    intro L s m r hs h
    rcases L with _ | ⟨l, L⟩
    · rw [readLoop, if_pos (Bias.atEnd_nil hs)] at h
      obtain rfl := Res.ok.inj h
      exact ⟨[], rfl, .nil⟩
    obtain ⟨s', h1, h2⟩ := holds_getline hs
    by_cases hl : Label "START OF ANTENNA" l
    · rw [start_step hl (Bias.atEnd_cons hs) h1] at h
      rcases h3 : readAntenna c n s' [] m with q | _ | _ | _ <;> rw [h3] at h <;> simp only [Res.bind, reduceCtorEq] at h
      rcases antenna_ok n L s' [] m q (label_nil _) h2 h3 with ⟨H, t, R, rfl, i1, i2, i3, i4, i5⟩ | ⟨H, t, B, e, R, i, x, rfl, i1, i2, i3, i4, i5, i6, i7, i8⟩
      · obtain ⟨d, e, hd⟩ := ih R q.1 q.2 r i5 h
        exact ⟨d, by rw [e, i4], .other l H t R d hl i1 i2 i3 hd⟩
      · obtain ⟨d, e', hd⟩ := ih R q.1 q.2 r i8 h
        exact ⟨(i, x) :: d, by rw [e', i7, pushAll_cons], .satellite l H t B e R i x d hl i1 i2 i3 i4 i5 i6 hd⟩
    · rw [line_step hl (Bias.atEnd_cons hs) h1] at h
      obtain ⟨d, e, hd⟩ := ih L s' m r h2 h
      exact ⟨d, e, .line l L d hl hd⟩

/-- **C163 (all files).** For every file, with its lines: reading returns for all sufficiently large fuels exactly if the file has the layout `Reads`, and then the data
of an index are those of all its antennas in the file, in their order; for any other index the getter throws, and the number of satellites counts each index once.
The success flag says only that the file could be opened. -/
theorem C163_complete (c : Codec) (f : Str) (L : List Str) (hf : IsLines f L) :
    (∀ d, Reads c L d → ∃ m, IsMap d m ∧ ∀ n, L.length < n → construct c n (some f) = .ok (true, m)) ∧
    (∀ n r, construct c n (some f) = .ok r → r.1 = true ∧ ∃ d, Reads c L d ∧ IsMap d r.2) ∧ (∀ n, construct c n none = .ok (false, [])) := by
  refine ⟨fun d hd => ⟨pushAll [] d, isMap_pushAll d, fun n hn => ?_⟩, fun n r h => ?_, fun n => rfl⟩
  · rw [construct, loop_reads hd n _ [] hf.holds hn]
    rfl
  · rw [construct] at h
    rcases h3 : readLoop c n ⟨f, false, false⟩ [] with q | _ | _ | _ <;> rw [h3] at h <;> simp only [Res.bind, reduceCtorEq] at h
    obtain rfl := Res.ok.inj h
    obtain ⟨d, rfl, hd⟩ := reads_loop n L _ [] q hf.holds h3
    exact ⟨rfl, d, hd, isMap_pushAll d⟩

theorem readable_nil (c : Codec) : Readable c [] :=
  ⟨fun h => absurd h (label_nil _), fun h => absurd h (label_nil _), fun h => absurd h (label_nil _), fun h => absurd h (label_nil _)⟩

theorem noAzimuth_nil : ¬ NoAzimuth [] := fun h => by rw [NoAzimuth, List.infix_nil] at h; exact absurd h (by decide)

theorem satellite_dead_stuck {c : Codec} {y : Str} (hy : ¬ Label "END OF ANTENNA" y ∧ Readable c y) (n : ℕ) (x : Satellite) (g : Grid) (qs : List Phase) :
    readSatellite c n ⟨[], true, true⟩ y (x, g) qs = .stuck := by
  induction n generalizing x g qs with
  | zero => rfl
  | succ n ih =>
    rw [readSatellite]
    simp only [dead_getline]
    obtain ⟨z, g', e⟩ := fieldStep_exists hy.2 x g
    rw [if_neg (no hy.1), e]
    simp only [Res.bind]
    split_ifs
    · rw [phase_dead_stuck ⟨label_nil _, fun h => absurd h noAzimuth_nil⟩]
    · exact ih z g' qs

theorem satellite_open {c : Codec} {C : List Str} (h : Open c C) (n : ℕ) (s : Stream) (hs : Holds s C) (hn : C.length ≤ n) :
    readSatellite c n s [] ({}, defaultGrid) [] = .stuck := by
  rcases h with ⟨C, O, ps, h⟩ | ⟨C, O, ps, g', l, B, h, hg, hl, hB⟩
  · obtain ⟨k, t, y', x', g'', i1, i2, i3, i4, i5, i6, i7⟩ := sections_part h [] n s [] {} [] (by simpa using hs) hn
    rw [i7]
    have hy : ¬ Label "END OF ANTENNA" y' ∧ Readable c y' := by
      by_cases hC : C = []
      · rw [i5 hC]; exact ⟨label_nil _, readable_nil c⟩
      · exact i6 hC
    rcases k with _ | k
    · rfl
    have key : ∀ z, ¬ Label "END OF ANTENNA" z ∧ Readable c z → t.getline y' = (⟨[], true, true⟩, z) →
        readSatellite c (k + 1) t y' (x', g'') ([] ++ ps) = .stuck := by
      intro z hz e
      have := satellite_dead_stuck hz (k + 1) x' g'' ([] ++ ps)
      rw [readSatellite] at this ⊢
      simp only [dead_getline] at this
      simp only [e]
      exact this
    rcases holds_nil i3 with ⟨_, e⟩ | ⟨_, e⟩
    · exact key [] ⟨label_nil _, readable_nil c⟩ (e y')
    · exact key y' hy (e y')
  · simp only [List.length_append, List.length_cons] at hn
    obtain ⟨k, t, y', x', g'', i1, i2, i3, i4, i5, i6, i7⟩ := sections_part h (l :: B) n s [] {} [] hs (by omega)
    have eg : g'' = g' := by
      refine isLast_unique ?_ ?_ (field_iff.mp i4.2) (field_iff.mp hg)
      · rintro l x y ⟨a, b, d, h1, h2⟩ ⟨a', b', d', h3, h4⟩
        rw [h1] at h3
        simp only [List.cons.injEq, and_true] at h3
        obtain ⟨rfl, rfl, rfl⟩ := h3
        exact isGrid_det h2 h4
      · rintro x y rfl rfl; rfl
    subst eg
    rw [i7]
    rcases k with _ | k
    · rfl
    obtain ⟨s', h1, h2⟩ := holds_getline i3
    rw [readSatellite]
    simp only [h1]
    rw [if_neg (no (label_unique hl (by decide) (by decide))), start_fields hl]
    simp only [Res.bind]
    rw [if_pos (isLabel_iff.mpr hl), phase_open k B s' [] {} ?_ h2]
    intro m hm
    rcases List.mem_cons.mp hm with rfl | hm
    · exact ⟨label_nil _, fun h => absurd h noAzimuth_nil⟩
    · exact hB m hm

/-- **C163 (cut files).** A file that ends before the type of an antenna, or in the antenna of a satellite (after complete frequencies or in one), is read for ever:
no end of file is noticed. `A` are the lines before the antenna. -/
theorem C163_cut (c : Codec) (f : Str) (A H : List Str) (l : Str) (d : List (ℕ × Satellite)) (hA : Reads c A d) (hl : Label "START OF ANTENNA" l)
    (hH : ∀ m ∈ H, ¬ Label "TYPE / SERIAL NO" m) :
    (IsLines f (A ++ l :: H) → ∀ n, (A ++ l :: H).length ≤ n → construct c n (some f) = .stuck) ∧
    ∀ t C i, Label "TYPE / SERIAL NO" t → Gnss.numberToIndex (cols t 20 20) = .ok i → i ≠ 2 ^ 32 - 1 → Open c C →
      IsLines f (A ++ l :: (H ++ t :: C)) → ∀ n, (A ++ l :: (H ++ t :: C)).length ≤ n → construct c n (some f) = .stuck := by
  constructor
  · intro hf n hn
    simp only [List.length_append, List.length_cons] at hn
    obtain ⟨k, s', h1, h2, h3, h4⟩ := reads_before hA (l :: H) n _ [] hf.holds (by omega)
    rw [construct, h4]
    rcases k with _ | k
    · rfl
    obtain ⟨s'', g1, g2⟩ := holds_getline h3
    rw [start_step hl (Bias.atEnd_cons h3) g1, antenna_open k H s'' [] _ ?_ g2]
    · rfl
    · intro m hm
      rcases List.mem_cons.mp hm with rfl | hm
      · exact label_nil _
      · exact hH m hm
  · intro t C i ht hi h0 hC hf n hn
    simp only [List.length_append, List.length_cons] at hn
    obtain ⟨k, s', h1, h2, h3, h4⟩ := reads_before hA (l :: (H ++ t :: C)) n _ [] hf.holds (by omega)
    obtain ⟨k, rfl⟩ : ∃ j, k = ((j + 1) + H.length) + 1 := ⟨k - H.length - 2, by omega⟩
    obtain ⟨s'', g1, g2⟩ := holds_getline h3
    obtain ⟨s3, g3, g4⟩ := antenna_skip (c := c) hH (t :: C) (k + 1) s'' [] (pushAll [] d) g2
    obtain ⟨s4, g5, g6⟩ := holds_getline g4
    rw [construct, h4, start_step hl (Bias.atEnd_cons h3) g1, g3, antenna_type ht (g5 _), hi, Res.bind, if_neg h0, satellite_open hC k s4 g6 (by omega)]
    rfl

/-! ## A file -/

instance (p : String) (l : Str) : Decidable (Label p l) := decidable_of_iff _ isLabel_iff

instance (l : Str) : Decidable (NoAzimuth l) := decidable_of_iff _ noAzimuth_iff

/-- Every number is read as 1 or 2, every triple as 0, 2, 1 and every date as the first of January 2024. -/
noncomputable def exCodec : Codec := ⟨fun _ => some 2, fun _ => some 1, fun _ => [0, 2, 1], fun _ => some ⟨2024, 1, 1, 0, 0, 0⟩⟩

/-- The grid of the example: zenith angles 0, 1, 2. -/
noncomputable def exGrid3 : Grid := ⟨0, 2, 1, 0, 3, 0⟩

def exStart : Str := "                                                            START OF ANTENNA".toList
def exType : Str := "BLOCK IIA           G01                 G032      1992-079A TYPE / SERIAL NO".toList
def exZen : Str := "     0.0  17.0   1.0                                        ZEN1 / ZEN2 / DZEN".toList
def exNumber : Str := "     2                                                      # OF FREQUENCIES".toList
def exFrom : Str := "  1992    11    22     0     0    0.0000000                 VALID FROM".toList
def exFreq : Str := "   G01                                                      START OF FREQUENCY".toList
def exNorth : Str := "    279.00      0.00   2319.50                              NORTH / EAST / UP".toList
def exNoazi : Str := "   NOAZI   -0.80   -0.90   -0.90".toList
def exEndFreq : Str := "   G01                                                      END OF FREQUENCY".toList
def exEnd : Str := "                                                            END OF ANTENNA".toList

noncomputable def exPhase : Phase := ⟨"G01".toList, ![0, 2, 1], exGrid3, [[1, 1, 1]]⟩

noncomputable def exSatellite : Satellite := ⟨"BLOCK IIA           ".toList, "G01                 ".toList, ⟨2024, 1, 1, 0, 0, 0⟩, ⟨0, 1, 1, 0, 0, 0⟩, 2, [exPhase]⟩

theorem ex_variation : Variation exCodec 3 exNoazi [1, 1, 1] := by
  refine ⟨rfl, fun i hi => ?_⟩
  have hl : exNoazi.length = 32 := by decide +kernel
  refine ⟨by omega, ?_⟩
  rcases i with _ | _ | _ | i <;> first | rfl | omega

theorem ex_phase : IsPhase exCodec exGrid3 [exNorth, exNoazi] exEndFreq exPhase := by
  refine isPhase_iff.mpr ⟨by decide +kernel, by decide +kernel, ⟨[], ![0, 2, 1], defaultGrid, [[1, 1, 1]]⟩, ⟨?_, rfl, rfl, ?_, ?_⟩, ?_⟩
  · intro l hl h
    simp only [List.mem_cons, List.not_mem_nil, or_false] at hl
    rcases hl with rfl | rfl
    · exact absurd h (by decide +kernel)
    · exact ⟨_, ex_variation⟩
  · refine (isLast_pos (by decide +kernel)).mpr ((isLast_neg (by decide +kernel)).mpr (isLast_nil.mpr ?_))
    funext i
    fin_cases i <;> rfl
  · refine (isLast_neg (by decide +kernel)).mpr ((isLast_pos (by decide +kernel)).mpr (isLast_nil.mpr ⟨_, ex_variation, rfl⟩))
  · have : cols exEndFreq 3 3 = "G01".toList := by decide +kernel
    rw [this]
    rfl

theorem ex_grid : IsGrid 0 2 1 exGrid3 := by
  refine ⟨rfl, rfl, rfl, rfl, rfl, ?_⟩
  rw [if_neg (by norm_num)]
  refine ⟨by norm_num, by norm_num, ?_⟩
  have : ⌊(2 - 0 : ℝ) / 1⌋₊ = 2 := by norm_num
  rw [this]
  rfl

theorem ex_readable (l : Str) : Readable exCodec l := ⟨fun _ => ⟨0, 2, 1, exGrid3, rfl, ex_grid⟩, fun _ => ⟨2, rfl⟩, fun _ => ⟨_, rfl⟩, fun _ => ⟨_, rfl⟩⟩

theorem ex_sections (L : List Str) (O : List Str) (ps : List Phase) (h : Sections exCodec exGrid3 L O ps) :
    Sections exCodec defaultGrid (exZen :: exNumber :: exFrom :: L) (exZen :: exNumber :: exFrom :: O) ps := by
  refine .grid _ _ _ _ _ 0 2 1 exGrid3 (by decide +kernel) rfl ex_grid ?_
  refine .line _ _ _ _ _ (by decide +kernel) (by decide +kernel) (by decide +kernel) (ex_readable _) ?_
  exact .line _ _ _ _ _ (by decide +kernel) (by decide +kernel) (by decide +kernel) (ex_readable _) h

/-- A case of `C163_complete`: one antenna, which announces two frequencies and has one, so that the second one cannot be asked for. -/
theorem C163_announced : Reads exCodec [exStart, exType, exZen, exNumber, exFrom, exFreq, exNorth, exNoazi, exEndFreq, exEnd] [(0, exSatellite)] ∧
    exSatellite.frequencies = 2 ∧ exSatellite.phase 0 = .ok exPhase ∧ exSatellite.phase 1 = .ub := by
  refine ⟨?_, rfl, rfl, rfl⟩
  refine .satellite exStart [] exType [exZen, exNumber, exFrom, exFreq, exNorth, exNoazi, exEndFreq] exEnd [] 0 exSatellite [] (by decide +kernel) (by simp) (by decide +kernel)
    (by rfl) (by decide) ?_ (by decide +kernel) .nil
  refine isSatellite_iff.mpr ⟨[exZen, exNumber, exFrom], [exPhase], { ({} : Satellite) with frequencies := 2, validFrom := ⟨2024, 1, 1, 0, 0, 0⟩ }, ?_, ?_, ?_⟩
  · exact ex_sections _ _ _ (.frequency _ exFreq [exNorth, exNoazi] exEndFreq [] [] _ _ (by decide +kernel) ex_phase (.nil _))
  · refine ⟨rfl, rfl, rfl, ?_, ?_, ?_⟩
    · exact (isLast_neg (by decide +kernel)).mpr ((isLast_pos (by decide +kernel)).mpr ((isLast_neg (by decide +kernel)).mpr (isLast_nil.mpr ⟨2, rfl, rfl⟩)))
    · exact (isLast_neg (by decide +kernel)).mpr ((isLast_neg (by decide +kernel)).mpr ((isLast_pos (by decide +kernel)).mpr (isLast_nil.mpr rfl)))
    · exact (isLast_neg (by decide +kernel)).mpr ((isLast_neg (by decide +kernel)).mpr ((isLast_neg (by decide +kernel)).mpr (isLast_nil.mpr rfl)))
  · have h1 : exType.take 20 = "BLOCK IIA           ".toList := by decide +kernel
    have h2 : cols exType 20 20 = "G01                 ".toList := by decide +kernel
    rw [h1, h2]
    rfl

/-- A case of `C163_cut`: the file ends after the line with variations. -/
example : Open exCodec ([exZen, exNumber, exFrom] ++ exFreq :: [exNorth, exNoazi]) := by
  refine .frequency _ [exZen, exNumber, exFrom] [] exGrid3 _ _ (ex_sections _ _ _ (.nil _)) ?_ (by decide +kernel) ?_
  · exact field_iff.mpr ((isLast_pos (by decide +kernel)).mpr ((isLast_neg (by decide +kernel)).mpr ((isLast_neg (by decide +kernel)).mpr
      (isLast_nil.mpr ⟨0, 2, 1, rfl, ex_grid⟩))))
  · intro m hm
    simp only [List.mem_cons, List.not_mem_nil, or_false] at hm
    rcases hm with rfl | rfl
    · exact ⟨by decide +kernel, fun h => absurd h (by decide +kernel)⟩
    · exact ⟨by decide +kernel, fun _ => ⟨_, ex_variation⟩⟩

end S2E.Antex
