import Verif.Spec.Sp3
import Mathlib.Tactic.Linarith
/-!
# Lemmas for C150
-/
namespace S2E.Sp3
open S2E.Log S2E.Time

theorem substr_ok {l : Str} {a n : ℕ} (h : a ≤ l.length) : substr l a n = .ok (cols l a n) := if_neg (not_lt.mpr h)

theorem substr_throws {l : Str} {a n : ℕ} (h : l.length < a) : substr l a n = .throws := if_pos h

theorem int_ok {c : Codec} {l : Str} {a n : ℕ} {v : ℤ} (h : a ≤ l.length) (hv : c.stoi (cols l a n) = some v) : c.int l a n = .ok v := by
  rw [Codec.int, substr_ok h, Res.bind, hv]

theorem real_ok {c : Codec} {l : Str} {a n : ℕ} {v : ℝ} (h : a ≤ l.length) (hv : c.stod (cols l a n) = some v) : c.real l a n = .ok v := by
  rw [Codec.real, substr_ok h, Res.bind, hv]

theorem date_ok {c : Codec} {l : Str} {t : DateTime ℝ} (h : 3 ≤ l.length) (hv : c.scan (cols l 3 28) = some t) : c.date l = .ok t := by
  rw [Codec.date, substr_ok h, Res.bind, hv]

theorem starts_iff {p l : Str} : starts p l = true ↔ p <+: l := List.isPrefixOf_iff_prefix

theorem starts_false {p l : Str} : starts p l = false ↔ ¬p <+: l := by rw [← starts_iff, Bool.not_eq_true]

theorem prefix_ne {a b : Char} {p q l : Str} (h : (a :: p) <+: l) (hab : a ≠ b) : ¬(b :: q) <+: l := by
  rintro ⟨t, ht⟩
  obtain ⟨u, hu⟩ := h
  rw [← ht] at hu
  exact hab (List.cons.inj hu).1

theorem prefix_ne2 {x a b : Char} {p q l : Str} (h : (x :: a :: p) <+: l) (hab : a ≠ b) : ¬(x :: b :: q) <+: l := by
  rintro ⟨t, ht⟩
  obtain ⟨u, hu⟩ := h
  rw [← ht] at hu
  exact hab (List.cons.inj (List.cons.inj hu).2).1

theorem takeWhile_line {l r : Str} (h : '\n' ∉ l) : (l ++ '\n' :: r).takeWhile (· ≠ '\n') = l ∧ (l ++ '\n' :: r).dropWhile (· ≠ '\n') = '\n' :: r := by
  induction l with
  | nil => simp
  | cons a l ih =>
    simp only [List.mem_cons, not_or] at h
    have ha : a ≠ '\n' := fun e => h.1 e.symm
    obtain ⟨h1, h2⟩ := ih h.2
    constructor
    · rw [List.cons_append, List.takeWhile_cons_of_pos (by simpa using ha), h1]
    · rw [List.cons_append, List.dropWhile_cons_of_pos (by simpa using ha), h2]

/-- Reading a complete line. -/
theorem getline_line {l r x : Str} (h : '\n' ∉ l) : (⟨l ++ '\n' :: r, false, false⟩ : Stream).getline x = (⟨r, false, false⟩, l) := by
  obtain ⟨h1, h2⟩ := takeWhile_line (r := r) h
  have hg : (⟨l ++ '\n' :: r, false, false⟩ : Stream).good = true := rfl
  rw [Stream.getline, if_pos hg]
  simp only [h2, h1]

theorem text_cons (l : Str) (L : List Str) : text (l :: L) = l ++ '\n' :: text L := by simp [text]

theorem text_append (L M : List Str) : text (L ++ M) = text L ++ text M := by simp [text]

theorem getline_text {l x R : Str} {L : List Str} (h : '\n' ∉ l) : (⟨text (l :: L) ++ R, false, false⟩ : Stream).getline x = (⟨text L ++ R, false, false⟩, l) := by
  rw [text_cons, List.append_assoc, List.cons_append]; exact getline_line h

theorem work_getline {l x R : Str} {L : List Str} {r : Reader} (h : '\n' ∉ l) :
    (⟨⟨text (l :: L) ++ R, false, false⟩, x, r⟩ : Work).getline = ⟨⟨text L ++ R, false, false⟩, l, r⟩ := by
  simp only [Work.getline, getline_text h]

/-! ## Position lines -/

theorem take_one {l : Str} {a : ℕ} {ch : Char} : cols l a 1 = [ch] ↔ l[a]? = some ch := by
  rw [cols]
  rcases h : l.drop a with _ | ⟨x, r⟩
  · have : l[a]? = none := by rw [List.getElem?_eq_none_iff]; exact List.drop_eq_nil_iff.mp h
    simp [this]
  · have : l[a]? = some x := by
      have := List.getElem?_drop (xs := l) (i := a) (j := 0)
      rw [h] at this
      simpa using this.symm
    simp [this]

theorem deviation_ok {c : Codec} {l : Str} {a n : ℕ} (h : a ≤ l.length) : c.deviation l a n = .ok ((c.stod (cols l a n)).getD 0) := by
  rw [Codec.deviation, substr_ok h, Res.bind]

theorem decode_ok (c : Codec) (l : Str) (v : PositionClock) (hl : GoodLength l.length) (hv : Says c l v) : decodePosition c l = .ok v := by
  have h46 : 46 ≤ l.length := by rcases hl with h | h | h <;> omega
  obtain ⟨vid, vpos, vclk, vdev, vcd, b1, b2, b3, b4⟩ := v
  obtain ⟨s1, s2, s3, s4, s5, s6, s7, s8, s9, s10, s11⟩ := hv
  dsimp only at *
  rw [decodePosition, substr_ok (by omega), real_ok (by omega) s2, real_ok (by omega) s3, real_ok (by omega) s4, real_ok (by omega) s5]
  simp only [Res.bind]
  have hpos : (![vpos 0, vpos 1, vpos 2] : Vec 3) = vpos := by
    funext k; fin_cases k <;> rfl
  have hz : (fun _ => 0 : Vec 3) = 0 := rfl
  rw [hpos]
  have hfl : ∀ p : PositionClock, p.clockEvent = false → p.clockPrediction = false → p.maneuver = false → p.orbitPrediction = false →
      decodeFlags l p = .ok { p with clockEvent := b1, clockPrediction := b2, maneuver := b3, orbitPrediction := b4 } := by
    intro p p1 p2 p3 p4
    rw [decodeFlags]
    split_ifs with h73
    · have h79 : 79 ≤ l.length := by rcases hl with h | h | h <;> omega
      rw [substr_ok (by omega), substr_ok (by omega), substr_ok (by omega), substr_ok (by omega)]
      simp only [Res.bind, take_one]
      simp only [← s8, ← s9, ← s10, ← s11, Bool.decide_eq_true]
    · have hn : ∀ k, 74 ≤ k → l[k]? = none := fun k hk => by rw [List.getElem?_eq_none_iff]; omega
      have e1 : b1 = false := by rw [hn 74 (by omega)] at s8; simpa using s8
      have e2 : b2 = false := by rw [hn 75 (by omega)] at s9; simpa using s9
      have e3 : b3 = false := by rw [hn 78 (by omega)] at s10; simpa using s10
      have e4 : b4 = false := by rw [hn 79 (by omega)] at s11; simpa using s11
      obtain ⟨q1, q2, q3, q4, q5, q6, q7, q8, q9⟩ := p
      simp only at p1 p2 p3 p4
      rw [e1, e2, e3, e4, p1, p2, p3, p4]
  by_cases h61 : 61 < l.length
  · have h70 : 70 ≤ l.length := by rcases hl with h | h | h <;> omega
    rw [decodeDeviations, if_pos h61, deviation_ok (by omega), deviation_ok (by omega), deviation_ok (by omega), deviation_ok (by omega)]
    simp only [Res.bind]
    rw [hfl _ rfl rfl rfl rfl, s6, s7, if_pos h61, if_pos h61, s1]
  · rw [decodeDeviations, if_neg h61]
    simp only
    rw [hfl _ rfl rfl rfl rfl, s6, s7, if_neg h61, if_neg h61, s1, hz]

theorem decode_throws (c : Codec) (l : Str) (hl : ¬GoodLength l.length) : decodePosition c l = .throws := by
  rw [GoodLength] at hl
  have hcase : l.length < 46 ∨ (62 ≤ l.length ∧ l.length < 70) ∨ (74 ≤ l.length ∧ l.length < 79) := by omega
  have hr : ∀ a n, c.real l a n = .throws ∨ ∃ v, c.real l a n = .ok v := by
    intro a n
    rw [Codec.real]
    by_cases h : a ≤ l.length
    · rw [substr_ok h, Res.bind]
      rcases c.stod (cols l a n) with _ | v
      · exact Or.inl rfl
      · exact Or.inr ⟨v, rfl⟩
    · rw [substr_throws (not_le.mp h)]
      exact Or.inl rfl
  rw [decodePosition]
  by_cases h1 : 1 ≤ l.length
  swap
  · rw [substr_throws (not_le.mp h1)]; rfl
  rw [substr_ok h1, Res.bind]
  try dsimp only
  rcases hr 4 14 with e | ⟨x, e⟩ <;> rw [e, Res.bind]
  try dsimp only
  rcases hr 18 14 with e | ⟨y, e⟩ <;> rw [e, Res.bind]
  try dsimp only
  rcases hr 32 14 with e | ⟨z, e⟩ <;> rw [e, Res.bind]
  try dsimp only
  rcases hr 46 14 with e | ⟨k, e⟩ <;> rw [e, Res.bind]
  try dsimp only
  have hd : ∀ a n, (l.length < a ∧ c.deviation l a n = .throws) ∨ (a ≤ l.length ∧ ∃ v, c.deviation l a n = .ok v) := by
    intro a n
    rcases le_or_gt a l.length with h | h
    · exact Or.inr ⟨h, _, deviation_ok h⟩
    · exact Or.inl ⟨h, by rw [Codec.deviation, substr_throws h]; rfl⟩
  have h46 : 46 ≤ l.length := by
    by_contra hcon
    rw [Codec.real, substr_throws (by omega)] at e
    simp [Res.bind] at e
  rw [decodeDeviations, if_pos (by omega)]
  rcases hd 61 2 with ⟨h, e⟩ | ⟨-, a1, e⟩ <;> rw [e, Res.bind]
  · rfl
  try dsimp only
  rcases hd 64 2 with ⟨h, e⟩ | ⟨-, a2, e⟩ <;> rw [e, Res.bind]
  · rfl
  try dsimp only
  rcases hd 67 2 with ⟨h, e⟩ | ⟨-, a3, e⟩ <;> rw [e, Res.bind]
  · rfl
  try dsimp only
  rcases hd 70 3 with ⟨h, e⟩ | ⟨h70, a4, e⟩ <;> rw [e, Res.bind]
  · rfl
  try dsimp only
  rw [Res.bind]
  try dsimp only
  rw [decodeFlags, if_pos (by omega), substr_ok (by omega)]
  by_cases h75 : 75 ≤ l.length
  swap
  · rw [substr_throws (not_le.mp h75)]; rfl
  rw [substr_ok h75]
  by_cases h78 : 78 ≤ l.length
  swap
  · rw [substr_throws (not_le.mp h78)]; rfl
  rw [substr_ok h78, substr_throws (show l.length < 79 by omega)]
  rfl

/-! ## Correlation lines -/

theorem correlation_ok (c : Codec) (l : Str) (h72 : 72 ≤ l.length)
    (h : ∀ f ∈ [(4, 4), (9, 4), (14, 4), (19, 7), (27, 8), (36, 8), (45, 8), (54, 8), (63, 8), (72, 8)], ∃ v, c.stoi (cols l f.1 f.2) = some v) :
    decodeCorrelation c l = .ok () := by
  rw [decodeCorrelation]
  have key : ∀ L : List (ℕ × ℕ), (∀ f ∈ L, f.1 ≤ 72 ∧ ∃ v, c.stoi (cols l f.1 f.2) = some v) →
      L.foldlM (fun _ (f : ℕ × ℕ) => (c.int l f.1 f.2).bind fun _ => .ok ()) () = (.ok () : Res Unit) := by
    intro L
    induction L with
    | nil => intro _; rfl
    | cons f L ih =>
      intro hL
      obtain ⟨h1, v, hv⟩ := hL f (by simp)
      rw [List.foldlM_cons, int_ok (by omega) hv]
      exact ih fun g hg => hL g (by simp [hg])
  apply key
  intro f hf
  refine ⟨?_, h f hf⟩
  fin_cases hf <;> norm_num

/-! ## Identifier and accuracy lines -/

theorem pushFields_spec {α : Type} (dec : Str → Res α) (g : Str → α) (n : ℕ) (line : Str) : ∀ (k i : ℕ) (acc : List α), 9 + (i + k - 1) * 3 ≤ line.length →
    (∀ f ∈ ((List.range' i k).map fun j => cols line (9 + j * 3) 3).take (n - acc.length), dec f = .ok (g f)) →
    pushFields dec n line k i acc = .ok (acc ++ (((List.range' i k).map fun j => cols line (9 + j * 3) 3).take (n - acc.length)).map g) := by
  intro k
  induction k with
  | zero => intro i acc _ _; simp [pushFields]
  | succ k ih =>
    intro i acc hlen hdec
    rw [pushFields]
    split_ifs with hn
    · rw [Nat.sub_eq_zero_of_le hn]; simp
    · obtain ⟨m, hm⟩ : ∃ m, n - acc.length = m + 1 := ⟨n - acc.length - 1, by omega⟩
      rw [hm, List.range'_succ, List.map_cons, List.take_succ_cons] at hdec
      rw [substr_ok (by omega), Res.bind]
      try dsimp only
      rw [hdec _ (by simp), Res.bind]
      try dsimp only
      have hm' : n - (acc ++ [g (cols line (9 + i * 3) 3)]).length = m := by simp; omega
      rw [ih (i + 1) (acc ++ [g (cols line (9 + i * 3) 3)]) (by omega) (fun f hf => hdec f (by rw [hm'] at hf; exact List.mem_cons_of_mem _ hf))]
      rw [hm', hm, List.range'_succ, List.map_cons, List.take_succ_cons]
      simp

theorem fields_eq (l : Str) : fields l = (List.range' 0 17).map fun j => cols l (9 + j * 3) 3 := by rw [fields, List.range_eq_range']

theorem lineLoop_spec {α : Type} (dec : Str → Res α) (g : Str → α) (p : Str) (n : ℕ) (next : Str) (hnext : ¬p <+: next) (hnb : '\n' ∉ next) (M : List Str) (R : Str) :
    ∀ (L : List Str) (line : Str) (acc : List α), (∀ l ∈ line :: L, p <+: l ∧ 57 ≤ l.length) → (∀ l ∈ L, '\n' ∉ l) →
    (∀ f ∈ ((line :: L).flatMap fields).take (n - acc.length), dec f = .ok (g f)) →
    lineLoop dec p n ⟨text (L ++ next :: M) ++ R, false, false⟩ line acc =
      .ok (⟨text M ++ R, false, false⟩, next, acc ++ (((line :: L).flatMap fields).take (n - acc.length)).map g) := by
  intro L
  induction L with
  | nil =>
    intro line acc hl hL hdec
    obtain ⟨h1, h2⟩ := hl line (by simp)
    rw [lineLoop, if_pos (starts_iff.mpr h1), pushFields_spec dec g n line 17 0 acc (by omega) (by simpa [← fields_eq] using hdec), Res.bind]
    try dsimp only
    rw [dif_pos (show Stream.good ⟨_, false, false⟩ = true from rfl), List.nil_append, getline_text hnb, lineLoop, if_neg (by rw [starts_iff]; exact hnext), ← fields_eq]
    simp
  | cons l2 L ih =>
    intro line acc hl hL hdec
    obtain ⟨h1, h2⟩ := hl line (by simp)
    have hsplit : ((line :: l2 :: L).flatMap fields).take (n - acc.length) =
        (fields line).take (n - acc.length) ++ ((l2 :: L).flatMap fields).take (n - acc.length - 17) := by
      rw [List.flatMap_cons, List.take_append]
      congr 2
      try simp [fields]
    rw [hsplit] at hdec
    rw [lineLoop, if_pos (starts_iff.mpr h1),
      pushFields_spec dec g n line 17 0 acc (by omega) (fun f hf => hdec f (by rw [← fields_eq] at hf; exact List.mem_append_left _ hf)), Res.bind]
    try dsimp only
    rw [dif_pos (show Stream.good ⟨_, false, false⟩ = true from rfl), List.cons_append, getline_text (hL l2 (by simp)), ← fields_eq]
    have hlen : n - (acc ++ ((fields line).take (n - acc.length)).map g).length = n - acc.length - 17 := by
      have : (fields line).length = 17 := by simp [fields]
      simp only [List.length_append, List.length_map, List.length_take, this]
      omega
    rw [ih l2 _ (fun l hl' => hl l (by simp at hl' ⊢; tauto)) (fun l hl' => hL l (by simp [hl']))
      (fun f hf => hdec f (by rw [hlen] at hf; exact List.mem_append_right _ hf)), hlen, hsplit]
    simp [List.map_append]

theorem commentLoop_spec (next : Str) (hnext : ¬['/', '*'] <+: next) (hnb : '\n' ∉ next) (M : List Str) (R : Str) :
    ∀ (L : List Str) (line : Str), (∀ l ∈ L, ['/', '*'] <+: l ∧ '\n' ∉ l) →
    commentLoop ⟨text (L ++ next :: M) ++ R, false, false⟩ line = .ok ⟨text (next :: M) ++ R, false, false⟩ := by
  intro L
  induction L with
  | nil =>
    intro line _
    rw [commentLoop]
    simp only [Stream.tellg, Stream.good, Bool.not_false, Bool.and_self, if_true, List.nil_append, getline_text hnb]
    rw [if_neg (by rw [starts_iff]; exact hnext)]
    simp [Stream.seekg]
  | cons l L ih =>
    intro line hL
    obtain ⟨h1, h2⟩ := hL l (by simp)
    rw [commentLoop]
    simp only [Stream.tellg, Stream.good, Bool.not_false, Bool.and_self, if_true, List.cons_append, getline_text h2, starts_iff.mpr h1, and_self, dite_true]
    exact ih l fun x hx => hL x (by simp [hx])

end S2E.Sp3
