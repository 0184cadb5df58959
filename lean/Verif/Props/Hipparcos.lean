import Verif.Model.Hipparcos
import Verif.Props.SunSensor
/-!
# C137: star catalogue
-/
namespace S2E.Hip
open S2E.TwoBody S2E.Shadow S2E.Log S2E.Ini Quat

/-- A word: not empty, no white space. -/
def IsWord (w : Str) : Prop := w ≠ [] ∧ ∀ c ∈ w, isSpace c = false

/-- Only white space. -/
def Blank (w : Str) : Prop := ∀ c ∈ w, isSpace c = true

/-- A catalogue file: the title, then for each star some white space and a line, then possibly white space at the end. -/
def text (title : Str) (rows : List (Str × Str)) (tail : Str) : Str := title ++ (rows.flatMap fun r => r.1 ++ r.2) ++ tail

/-- Each line is a word after some white space, and has the values of a star. -/
def Rows (parse : Str → Option Star) (rows : List (Str × Str)) (stars : List Star) : Prop :=
  List.Forall₂ (fun r s => r.1 ≠ [] ∧ Blank r.1 ∧ IsWord r.2 ∧ parse r.2 = some s) rows stars

theorem dropWhile_append_of {p : Char → Bool} {a b : Str} (h : ∀ c ∈ a, p c = true) : (a ++ b).dropWhile p = b.dropWhile p := by
  induction a with
  | nil => rfl
  | cons x a ih => rw [List.cons_append, List.dropWhile_cons_of_pos (h x (by simp))]; exact ih fun c hc => h c (by simp [hc])

theorem takeWhile_append_of {p : Char → Bool} {a b : Str} (h : ∀ c ∈ a, p c = true) : (a ++ b).takeWhile p = a ++ b.takeWhile p := by
  induction a with
  | nil => rfl
  | cons x a ih =>
    rw [List.cons_append, List.takeWhile_cons_of_pos (h x (by simp)), ih fun c hc => h c (by simp [hc])]; rfl

/-- The rest of a file after a word: at its end or at white space. -/
def Stops (s : Str) : Prop := s = [] ∨ ∃ c t, s = c :: t ∧ isSpace c = true

theorem word_eq {sep w rest : Str} (h1 : Blank sep) (h2 : IsWord w) (h3 : Stops rest) : word (sep ++ (w ++ rest)) = (w, rest) := by
  have hd : (sep ++ (w ++ rest)).dropWhile isSpace = w ++ rest := by
    rw [dropWhile_append_of h1]
    obtain ⟨hw, h2⟩ := h2
    cases w with
    | nil => exact absurd rfl hw
    | cons x w => rw [List.cons_append, List.dropWhile_cons_of_neg (by rw [h2 x (by simp)]; simp)]
  have hw : ∀ c ∈ w, (!isSpace c) = true := fun c hc => by rw [h2.2 c hc]; rfl
  rw [word, hd]
  simp only [takeWhile_append_of hw, dropWhile_append_of hw]
  rcases h3 with rfl | ⟨c, t, rfl, hc⟩
  · simp
  · rw [List.takeWhile_cons_of_neg (by simp [hc]), List.dropWhile_cons_of_neg (by simp [hc]), List.append_nil]

theorem word_blank {s : Str} (h : Blank s) : (word s).1 = [] := by
  have : s.dropWhile isSpace = [] := by
    have := dropWhile_append_of (b := []) h
    rwa [List.append_nil] at this
  simp [word, this]

theorem blank_stops {s : Str} (h : Blank s) : Stops s := by
  cases s with
  | nil => exact Or.inl rfl
  | cons c t => exact Or.inr ⟨c, t, rfl, h c (by simp)⟩

theorem rows_stops {parse : Str → Option Star} {rows : List (Str × Str)} {stars : List Star} (h : Rows parse rows stars) {tail : Str} (ht : Blank tail) :
    Stops ((rows.flatMap fun r => r.1 ++ r.2) ++ tail) := by
  cases h with
  | nil => exact blank_stops ht
  | @cons r s rows stars h _ =>
    obtain ⟨h1, h2, -, -⟩ := h
    cases hr : r.1 with
    | nil => exact absurd hr h1
    | cons c t =>
      refine Or.inr ⟨c, t ++ r.2 ++ (rows.flatMap fun r => r.1 ++ r.2) ++ tail, ?_, h2 c (by rw [hr]; simp)⟩
      rw [List.flatMap_cons, hr]
      simp

theorem loop_spec (parse : Str → Option Star) (limit : ℝ) (tail : Str) (ht : Blank tail) (rows : List (Str × Str)) (stars : List Star)
    (h : Rows parse rows stars) (hne : (rows.flatMap fun r => r.1 ++ r.2) ++ tail ≠ []) :
    ((tail = [] ∨ ∃ s ∈ stars, limit < s.magnitude) →
      readLoop parse limit ((rows.flatMap fun r => r.1 ++ r.2) ++ tail) = .ok (stars.takeWhile fun s => decide (s.magnitude ≤ limit))) ∧
    (tail ≠ [] → (∀ s ∈ stars, s.magnitude ≤ limit) → readLoop parse limit ((rows.flatMap fun r => r.1 ++ r.2) ++ tail) = .ub) := by
  induction h with
  | nil =>
    have hu : readLoop parse limit tail = .ub := by rw [readLoop, dif_pos (word_blank ht)]
    refine ⟨fun h => ?_, fun _ _ => hu⟩
    rcases h with rfl | ⟨s, h, -⟩
    · exact absurd rfl hne
    · simp at h
  | @cons r s rows stars h hr ih =>
    obtain ⟨h1, h2, h3, h4⟩ := h
    have hw : word (((r :: rows).flatMap fun r => r.1 ++ r.2) ++ tail) = (r.2, (rows.flatMap fun r => r.1 ++ r.2) ++ tail) := by
      rw [List.flatMap_cons, List.append_assoc, List.append_assoc]
      exact word_eq h2 h3 (rows_stops hr ht)
    have hl : readLoop parse limit (((r :: rows).flatMap fun r => r.1 ++ r.2) ++ tail) =
        if s.magnitude > limit then .ok []
        else if (rows.flatMap fun r => r.1 ++ r.2) ++ tail = [] then .ok [s]
        else (readLoop parse limit ((rows.flatMap fun r => r.1 ++ r.2) ++ tail)).bind fun l => .ok (s :: l) := by
      rw [readLoop, hw]
      simp only [h3.1, dite_false, h4]
    rw [hl]
    by_cases hs : s.magnitude > limit
    · rw [if_pos hs]
      refine ⟨fun _ => ?_, fun _ h => absurd (h s (by simp)) (not_le.2 hs)⟩
      rw [List.takeWhile_cons_of_neg (by simpa using hs)]
    · rw [if_neg hs]
      have hs' := not_lt.1 hs
      by_cases he : (rows.flatMap fun r => r.1 ++ r.2) ++ tail = []
      · rw [if_pos he]
        obtain ⟨e1, e2⟩ := List.append_eq_nil_iff.1 he
        refine ⟨fun _ => ?_, fun h => absurd e2 h⟩
        cases hr with
        | nil => rw [List.takeWhile_cons_of_pos (by simpa using hs'), List.takeWhile_nil]
        | cons h _ =>
          rw [List.flatMap_cons] at e1
          exact absurd (List.append_eq_nil_iff.1 (List.append_eq_nil_iff.1 e1).1).1 h.1
      · rw [if_neg he]
        obtain ⟨i1, i2⟩ := ih he
        refine ⟨fun h => ?_, fun h h' => ?_⟩
        · rw [i1 (h.imp_right fun ⟨x, hx, hlt⟩ => ?_)]
          · rw [List.takeWhile_cons_of_pos (by simpa using hs')]; rfl
          · rcases List.mem_cons.1 hx with rfl | hx
            · exact absurd hlt (not_lt.2 hs')
            · exact ⟨x, hx, hlt⟩
        · rw [i2 h fun x hx => h' x (by simp [hx])]; rfl

/-- **C137 (reading).** A file with a title and one line per star: the catalogue holds the stars before the first one darker than the limit, provided there is such
a star or the file ends with its last line. If the file ends with a newline (or other white space) and no star is darker than the limit, a line that does not exist is
evaluated: undefined behaviour. -/
theorem C137_read (parse : Str → Option Star) (limit : ℝ) (title : Str) (rows : List (Str × Str)) (stars : List Star) (tail : Str) (h1 : IsWord title)
    (h2 : Rows parse rows stars) (h3 : Blank tail) :
    ((tail = [] ∨ ∃ s ∈ stars, limit < s.magnitude) →
      readContents parse true limit (some (text title rows tail)) = .ok (true, stars.takeWhile fun s => decide (s.magnitude ≤ limit))) ∧
    (tail ≠ [] → (∀ s ∈ stars, s.magnitude ≤ limit) → readContents parse true limit (some (text title rows tail)) = .ub) := by
  have hw : word (text title rows tail) = (title, (rows.flatMap fun r => r.1 ++ r.2) ++ tail) := by
    have := word_eq (sep := []) (fun _ h => absurd h (by simp)) h1 (rows_stops h2 h3)
    rwa [List.nil_append, ← List.append_assoc] at this
  have hr : readContents parse true limit (some (text title rows tail)) =
      if (rows.flatMap fun r => r.1 ++ r.2) ++ tail = [] then .ok (true, [])
      else (readLoop parse limit ((rows.flatMap fun r => r.1 ++ r.2) ++ tail)).bind fun l => .ok (true, l) := by
    simp only [readContents, hw]
    simp
  rw [hr]
  by_cases he : (rows.flatMap fun r => r.1 ++ r.2) ++ tail = []
  · rw [if_pos he]
    obtain ⟨e1, e2⟩ := List.append_eq_nil_iff.1 he
    refine ⟨fun _ => ?_, fun h => absurd e2 h⟩
    cases h2 with
    | nil => rfl
    | cons h _ =>
      rw [List.flatMap_cons] at e1
      exact absurd (List.append_eq_nil_iff.1 (List.append_eq_nil_iff.1 e1).1).1 h.1
  · rw [if_neg he]
    obtain ⟨i1, i2⟩ := loop_spec parse limit tail h3 rows stars h2 he
    exact ⟨fun h => by rw [i1 h]; rfl, fun h h' => by rw [i2 h h']; rfl⟩

/-- **C137 (sorted files).** In a file sorted by magnitude, the stars before the first one darker than the limit are all those not darker than the limit. -/
theorem C137_sorted (stars : List Star) (limit : ℝ) (h : stars.Pairwise fun a b => a.magnitude ≤ b.magnitude) :
    (stars.takeWhile fun s => decide (s.magnitude ≤ limit)) = stars.filter fun s => decide (s.magnitude ≤ limit) := by
  induction h with
  | nil => rfl
  | @cons a l ha hl ih =>
    by_cases hm : a.magnitude ≤ limit
    · rw [List.takeWhile_cons_of_pos (by simpa using hm), List.filter_cons_of_pos (by simpa using hm), ih]
    · rw [List.takeWhile_cons_of_neg (by simpa using hm), List.filter_cons_of_neg (by simpa using hm), eq_comm, List.filter_eq_nil_iff]
      intro b hb
      simp only [decide_eq_true_eq]
      intro h
      exact hm ((ha b hb).trans h)

/-- **C137 (no catalogue).** When the catalogue is disabled or its file cannot be opened it stays empty; then, and for every rank beyond its size, a star's direction is
undefined behaviour. -/
theorem C137_none (parse : Str → Option Star) (limit : ℝ) (file : Option Str) :
    readContents parse false limit file = .ok (false, []) ∧ (∀ enabled, readContents parse enabled limit none = .ok (false, [])) ∧
    ∀ (l : List Star) (rank : ℕ) (q : Quat), l.length ≤ rank → directionI l rank = .ub ∧ directionB l rank q = .ub := by
  refine ⟨rfl, fun e => by cases e <;> rfl, fun l rank q h => ?_⟩
  have : star l rank = .ub := by rw [star, List.getElem?_eq_none h]
  constructor
  · rw [directionI, this]; rfl
  · rw [directionB, directionI, this]; rfl

/-- **C137 (direction).** The direction of the star of a rank in the catalogue is a unit vector at the star's declination above the equator and, away from the poles, at
its right ascension; two stars are apart by the angle of spherical trigonometry. In the body frame it is the vector that the attitude turns back to the inertial one. -/
theorem C137_direction (l : List Star) (rank : ℕ) (h : rank < l.length) : ∃ d, directionI l rank = .ok d ∧ len d = 1 ∧
    (-90 ≤ l[rank].declination → l[rank].declination ≤ 90 → Real.arcsin (d 2) * (180 / Real.pi) = l[rank].declination) ∧
    (-90 < l[rank].declination → l[rank].declination < 90 → -180 < l[rank].rightAscension → l[rank].rightAscension ≤ 180 →
      Complex.arg ⟨d 0, d 1⟩ * (180 / Real.pi) = l[rank].rightAscension) ∧
    (∀ (r : ℕ) (hr : r < l.length), ∃ e, directionI l r = .ok e ∧
      dot d e = Real.sin (l[rank].declination * (Real.pi / 180)) * Real.sin (l[r].declination * (Real.pi / 180)) +
        Real.cos (l[rank].declination * (Real.pi / 180)) * Real.cos (l[r].declination * (Real.pi / 180)) *
          Real.cos ((l[rank].rightAscension - l[r].rightAscension) * (Real.pi / 180))) ∧
    ∀ q : Quat, q.IsUnit → ∃ b, directionB l rank q = .ok b ∧ q.inverseFrameConversion b = d := by
  have key : ∀ (r : ℕ) (hr : r < l.length), directionI l r = .ok ![Real.cos (l[r].rightAscension * degToRad) * Real.cos (l[r].declination * degToRad),
      Real.sin (l[r].rightAscension * degToRad) * Real.cos (l[r].declination * degToRad), Real.sin (l[r].declination * degToRad)] := by
    intro r hr
    rw [directionI, star, List.getElem?_eq_getElem hr]
    rfl
  have hp := Real.pi_pos
  have hpp := hp.ne'
  refine ⟨_, key rank h, ?_, ?_, ?_, ?_, ?_⟩
  · apply Star.len_one
    simp only [dot3, Matrix.cons_val]
    nlinarith [Real.sin_sq_add_cos_sq (l[rank].rightAscension * degToRad), Real.sin_sq_add_cos_sq (l[rank].declination * degToRad)]
  · intro h1 h2
    simp only [Matrix.cons_val]
    rw [Real.arcsin_sin]
    · simp only [degToRad]; field_simp
    · simp only [degToRad]; nlinarith
    · simp only [degToRad]; nlinarith
  · intro h1 h2 h3 h4
    simp only [Matrix.cons_val]
    have hc : 0 < Real.cos (l[rank].declination * degToRad) := by
      apply Real.cos_pos_of_mem_Ioo
      constructor <;> simp only [degToRad] <;> nlinarith
    have e : (⟨Real.cos (l[rank].rightAscension * degToRad) * Real.cos (l[rank].declination * degToRad),
        Real.sin (l[rank].rightAscension * degToRad) * Real.cos (l[rank].declination * degToRad)⟩ : ℂ) =
        (Real.cos (l[rank].declination * degToRad) : ℂ) *
          (Complex.cos ((l[rank].rightAscension * degToRad : ℝ) : ℂ) + Complex.sin ((l[rank].rightAscension * degToRad : ℝ) : ℂ) * Complex.I) := by
      rw [← Complex.ofReal_cos, ← Complex.ofReal_sin]
      generalize Real.cos (l[rank].declination * degToRad) = u
      generalize Real.cos (l[rank].rightAscension * degToRad) = v
      generalize Real.sin (l[rank].rightAscension * degToRad) = w
      apply Complex.ext <;> simp [mul_comm]
    rw [e, Complex.arg_mul_cos_add_sin_mul_I hc]
    · simp only [degToRad]; field_simp
    · constructor <;> simp only [degToRad] <;> nlinarith
  · intro r hr
    refine ⟨_, key r hr, ?_⟩
    rw [sub_mul, Real.cos_sub]
    simp only [dot, Matrix.cons_val, degToRad]
    ring
  · intro q hq
    refine ⟨_, by rw [directionB, key rank h]; rfl, ?_⟩
    exact (C64_inverse q hq _).1

/-! ## The hypotheses are satisfiable -/

/-- A parser for the examples: the length of the line is the magnitude. -/
def exampleParse (s : Str) : Option Star := some ⟨s.length, s.length, 10, 20⟩

theorem example_rows : Rows exampleParse [(['\n'], ['a']), (['\n'], ['b', 'c'])] [⟨1, 1, 10, 20⟩, ⟨2, 2, 10, 20⟩] := by
  refine .cons ⟨by simp, ?_, ⟨by simp, ?_⟩, by simp [exampleParse]⟩ (.cons ⟨by simp, ?_, ⟨by simp, ?_⟩, by simp [exampleParse]⟩ .nil) <;>
    · intro c hc; simp at hc; first | (subst hc; decide) | (rcases hc with rfl | rfl <;> decide)

theorem example_title : IsWord ['t'] := ⟨by simp, by intro c hc; simp at hc; subst hc; decide⟩

/-- With a limit between the two magnitudes the first star is read. -/
example : readContents exampleParse true (3 / 2) (some (text ['t'] [(['\n'], ['a']), (['\n'], ['b', 'c'])] [])) = .ok (true, [⟨1, 1, 10, 20⟩]) := by
  rw [(C137_read exampleParse (3 / 2) ['t'] _ _ [] example_title example_rows (fun _ h => absurd h (by simp))).1 (Or.inl rfl)]
  rw [List.takeWhile_cons_of_pos (by norm_num), List.takeWhile_cons_of_neg (by norm_num)]

/-- With a newline at the end and a limit that no star exceeds the program has no defined behaviour. -/
example : readContents exampleParse true 5 (some (text ['t'] [(['\n'], ['a']), (['\n'], ['b', 'c'])] ['\n'])) = .ub :=
  (C137_read exampleParse 5 ['t'] _ _ ['\n'] example_title example_rows (by intro c hc; simp at hc; subst hc; decide)).2 (by simp)
    (by intro s hs; simp at hs; rcases hs with rfl | rfl <;> norm_num)

example : ([⟨1, 1, 10, 20⟩, ⟨2, 2, 10, 20⟩] : List Star).Pairwise fun a b => a.magnitude ≤ b.magnitude := by simp

/-- In a file that is not sorted a bright star after a dark one is lost. -/
example : (([⟨1, 7, 0, 0⟩, ⟨2, 1, 0, 0⟩] : List Star).takeWhile fun s => decide (s.magnitude ≤ 5)) = [] ∧
    ([⟨1, 7, 0, 0⟩, ⟨2, 1, 0, 0⟩] : List Star).filter (fun s => decide (s.magnitude ≤ 5)) = [⟨2, 1, 0, 0⟩] := by
  constructor
  · rw [List.takeWhile_cons_of_neg (by norm_num)]
  · rw [List.filter_cons_of_neg (by norm_num), List.filter_cons_of_pos (by norm_num), List.filter_nil]

example : ∃ d, directionI [⟨1, 1, 10, 20⟩] 0 = .ok d ∧ len d = 1 := by
  obtain ⟨d, h1, h2, -⟩ := C137_direction [⟨1, 1, 10, 20⟩] 0 (by simp)
  exact ⟨d, h1, h2⟩

end S2E.Hip
