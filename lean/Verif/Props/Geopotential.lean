import Verif.Model.Geopotential
import Verif.Props.GravityPotential
import Verif.Props.AttitudeRk4
/-!
# C131, C132: the gravity field disturbances of the Earth and the Moon
-/
namespace S2E.Gravity
open Polynomial TwoBody GravityModel

/-- The line of a coefficient file: degree, order, cosine and sine coefficient. -/
abbrev Entry := ℤ × ℤ × ℝ × ℝ

/-- The coefficients a list of lines states for degree `n` and order `m`: those of the last line for these numbers, zero if there is none. -/
def stated (lines : List Entry) (n m : ℕ) : ℝ × ℝ :=
  match lines.reverse.find? (fun l : Entry => l.1 = (n : ℤ) ∧ l.2.1 = (m : ℤ)) with
  | some l => (l.2.2.1, l.2.2.2)
  | none => (0, 0)

/-- The table is square with rows and columns `0..d` and contents `f`. -/
def Square (c : Coefs) (d : ℕ) (f : ℕ → ℕ → ℝ) : Prop :=
  c.length = d + 1 ∧ ∀ i row, c[i]? = some row → row.length = d + 1 ∧ ∀ j ≤ d, row[j]? = some (f i j)

theorem zero_square (d : ℕ) : Square (zeroCoefs d) d (fun _ _ => 0) := by
  refine ⟨by simp [zeroCoefs], ?_⟩
  intro i row h
  rw [zeroCoefs, List.getElem?_replicate] at h
  split at h
  · obtain rfl := Option.some.inj h
    refine ⟨by simp, ?_⟩
    intro j hj
    rw [List.getElem?_replicate, if_pos (by omega)]
  · cases h

theorem put_square {c : Coefs} {d : ℕ} {f : ℕ → ℕ → ℝ} (h : Square c d f) (n m : ℤ) (x : ℝ) (hn : 0 ≤ n ∧ n ≤ d) (hm : 0 ≤ m ∧ m ≤ d) :
    ∃ c', c.put n m x = .ok c' ∧ Square c' d (fun i j => if (i : ℤ) = n ∧ (j : ℤ) = m then x else f i j) := by
  obtain ⟨hl, hr⟩ := h
  have hlt : n.toNat < c.length := by omega
  have hrow := List.getElem?_eq_getElem hlt
  obtain ⟨h1, h2⟩ := hr _ _ hrow
  refine ⟨c.set n.toNat (c[n.toNat].set m.toNat x), ?_, ?_⟩
  · rw [Coefs.put, if_neg (by omega), hrow]
    simp only
    rw [if_pos (by omega)]
  · refine ⟨by simp [hl], ?_⟩
    intro i row hi
    rw [List.getElem?_set] at hi
    by_cases e : n.toNat = i
    · rw [if_pos e, if_pos hlt] at hi
      obtain rfl := Option.some.inj hi
      refine ⟨by simp [h1], ?_⟩
      intro j hj
      show _ = some (if (i : ℤ) = n ∧ (j : ℤ) = m then x else f i j)
      rw [List.getElem?_set]
      by_cases e2 : m.toNat = j
      · rw [if_pos e2, if_pos (by omega), if_pos ⟨by omega, by omega⟩]
      · rw [if_neg e2, if_neg (by omega), h2 j hj, e]
    · rw [if_neg e] at hi
      obtain ⟨h3, h4⟩ := hr i row hi
      refine ⟨h3, ?_⟩
      intro j hj
      show _ = some (if (i : ℤ) = n ∧ (j : ℤ) = m then x else f i j)
      rw [if_neg (by omega), h4 j hj]

theorem stated_append (l : List Entry) (e : Entry) (n m : ℕ) :
    stated (l ++ [e]) n m = if e.1 = n ∧ e.2.1 = m then (e.2.2.1, e.2.2.2) else stated l n m := by
  unfold stated
  rw [List.reverse_append]
  simp only [List.reverse_cons, List.reverse_nil, List.nil_append, List.singleton_append, List.find?_cons]
  by_cases h : e.1 = n ∧ e.2.1 = m
  · simp [h]
  · simp only [h, decide_false]
    simp

theorem readLines_spec (bad : Res (Coefs × Coefs)) (d : ℕ) (rest : List Line) (lines done : List Entry) (c s : Coefs)
    (hr : ∀ e ∈ lines, (0 ≤ e.1 ∧ e.1 ≤ d) ∧ (0 ≤ e.2.1 ∧ e.2.1 ≤ d)) (hc : Square c d fun n m => (stated done n m).1)
    (hs : Square s d fun n m => (stated done n m).2) :
    ∃ c' s', readLines bad lines.length (lines.map some ++ rest) c s = .ok (c', s') ∧ Square c' d (fun n m => (stated (done ++ lines) n m).1) ∧
      Square s' d (fun n m => (stated (done ++ lines) n m).2) := by
  induction lines generalizing done c s with
  | nil => exact ⟨c, s, rfl, by simpa using hc, by simpa using hs⟩
  | cons e l ih =>
    obtain ⟨n, m, x, y⟩ := e
    obtain ⟨hn, hm⟩ := hr (n, m, x, y) (by simp)
    obtain ⟨c1, h1, h2⟩ := put_square hc n m x hn hm
    obtain ⟨s1, h3, h4⟩ := put_square hs n m y hn hm
    have e1 : (fun (i j : ℕ) => if (i : ℤ) = n ∧ (j : ℤ) = m then x else (stated done i j).1) = fun i j => (stated (done ++ [(n, m, x, y)]) i j).1 := by
      funext i j
      rw [stated_append]
      by_cases h : n = i ∧ m = j
      · rw [if_pos ⟨h.1.symm, h.2.symm⟩, if_pos h]
      · rw [if_neg (fun h' => h ⟨h'.1.symm, h'.2.symm⟩), if_neg h]
    have e2 : (fun (i j : ℕ) => if (i : ℤ) = n ∧ (j : ℤ) = m then y else (stated done i j).2) = fun i j => (stated (done ++ [(n, m, x, y)]) i j).2 := by
      funext i j
      rw [stated_append]
      by_cases h : n = i ∧ m = j
      · rw [if_pos ⟨h.1.symm, h.2.symm⟩, if_pos h]
      · rw [if_neg (fun h' => h ⟨h'.1.symm, h'.2.symm⟩), if_neg h]
    rw [e1] at h2
    rw [e2] at h4
    obtain ⟨c', s', h5, h6, h7⟩ := ih (done ++ [(n, m, x, y)]) c1 s1 (fun e he => hr e (List.mem_cons_of_mem _ he)) h2 h4
    refine ⟨c', s', ?_, by simpa using h6, by simpa using h7⟩
    simp only [List.map_cons, List.length_cons, List.cons_append, readLines, h1, h3, Res.bind]
    exact h5

theorem Square.listed {c : Coefs} {d : ℕ} {f : ℕ → ℕ → ℝ} (h : Square c d f) : Listed c d f := by
  intro n m hm hn
  have hlt : n < c.length := by rw [h.1]; omega
  exact ⟨_, List.getElem?_eq_getElem hlt, (h.2 n _ (List.getElem?_eq_getElem hlt)).2 m (by omega)⟩

theorem toSize_nat (n : ℕ) (h : n < 2 ^ 64) : toSize (n : ℤ) = n := by
  rw [toSize, Int.emod_eq_of_lt (by omega) (by exact_mod_cast h)]
  rfl

/-- The gradient of a field seen from a rotated frame. -/
theorem isGradient_rotated {f : (Fin 3 → ℝ) → ℝ} {p a : Fin 3 → ℝ} (dcm : Matrix (Fin 3) (Fin 3) ℝ) (h : IsGradient f (matVec dcm p) a) :
    IsGradient (fun q => f (matVec dcm q)) p (matVec (matTranspose dcm) a) := by
  unfold IsGradient at *
  have hl : HasFDerivAt (fun q : Fin 3 → ℝ => matVec dcm q) (LinearMap.toContinuousLinearMap (Matrix.mulVecLin dcm)) p := by
    have e : (fun q : Fin 3 → ℝ => matVec dcm q) = LinearMap.toContinuousLinearMap (Matrix.mulVecLin dcm) := by
      funext q
      rw [Att.matVec_mulVec]
      rfl
    rw [e]
    exact ContinuousLinearMap.hasFDerivAt _
  refine (HasFDerivAt.comp p h hl).congr_fderiv ?_
  ext v
  simp [Fin.sum_univ_three, matVec, matTranspose, Matrix.mulVec, dotProduct]
  ring

/-- The number of coefficient lines that are read. -/
def lineCount (N skipped : ℕ) : ℕ := (N + 1) * (N + 2) / 2 - skipped

/-- **Earth.** For a degree from 2 to 360 and a file whose first `(N+1)(N+2)/2 - 3` lines give coefficients of degree and order up to `N`, the Earth-fixed
acceleration is the gradient of the potential of the stated coefficients (so without the central term if the file does not state one), and the inertial
acceleration is its gradient with respect to the inertial position. -/
theorem C131_geopotential (N : ℕ) (hN : 2 ≤ N ∧ N ≤ 360) (lines : List Entry) (rest : List Line) (hlen : lines.length = lineCount N 3)
    (hr : ∀ e ∈ lines, (0 ≤ e.1 ∧ e.1 ≤ N) ∧ (0 ≤ e.2.1 ∧ e.2.1 ≤ N)) :
    ∃ g, geopotentialNew N (some (lines.map some ++ rest)) = .ok g ∧
      ∀ (dcm : Mat 3 3) (q : Vec 3), matVec dcm q ≠ 0 → ∃ a ai, geopotentialUpdate g dcm (matVec dcm q) = .ok (a, ai) ∧
        let U := potential 3.986004415e14 6378136.6 N (fun n m => (stated lines n m).1) (fun n m => (stated lines n m).2)
        IsGradient U (matVec dcm q) a ∧ IsGradient (fun q => U (matVec dcm q)) q ai := by
  have hs := toSize_nat N (by omega)
  have hd : limitedDegree 360 N = N := by rw [limitedDegree, hs, if_neg (by omega), if_neg (by omega)]
  obtain ⟨c, s, h1, h2, h3⟩ := readLines_spec .ub N rest lines [] (zeroCoefs N) (zeroCoefs N) hr (by simpa [stated] using zero_square N)
    (by simpa [stated] using zero_square N)
  rw [List.nil_append] at h2 h3
  refine ⟨Potential.new N c s earthMu earthRadius, ?_, ?_⟩
  · simp only [geopotentialNew, hd, hs]
    rw [if_pos hN.1]
    rw [lineCount] at hlen
    rw [← hlen, h1]
    rfl
  · intro dcm q hq
    obtain ⟨a, ha, hg⟩ := C130_acceleration N hN.1 (by omega) c s _ _ h2.listed h3.listed earthMu earthRadius (by norm_num [earthRadius]) _ hq
    refine ⟨a, _, ?_, hg, isGradient_rotated dcm hg⟩
    rw [geopotentialUpdate, ha]
    rfl

/-- A file with the three lines of degree 2. -/
def exampleLines : List Entry := [(2, 0, -0.484e-3, 0), (2, 1, 0, 0), (2, 2, 0.24e-5, -0.14e-5)]

example : exampleLines.length = lineCount 2 3 ∧ (∀ e ∈ exampleLines, (0 ≤ e.1 ∧ e.1 ≤ (2 : ℕ)) ∧ (0 ≤ e.2.1 ∧ e.2.1 ≤ (2 : ℕ))) ∧
    stated exampleLines 2 2 = (0.24e-5, -0.14e-5) ∧ stated exampleLines 0 0 = (0, 0) := by
  refine ⟨rfl, ?_, ?_, ?_⟩
  · intro e he
    simp only [exampleLines, List.mem_cons, List.not_mem_nil, or_false] at he
    rcases he with rfl | rfl | rfl <;> norm_num
  · simp [stated, exampleLines]
  · simp [stated, exampleLines]

/-- A file that ends, or has a line without four numbers, before the last line needed makes the constructor undefined: indices are used uninitialised. -/
theorem C131_short_file (N : ℕ) (hN : 2 ≤ N ∧ N ≤ 360) (lines : List Entry) (rest : List Line) (hlen : lines.length < lineCount N 3)
    (hrest : rest = [] ∨ ∃ r, rest = none :: r) (hr : ∀ e ∈ lines, (0 ≤ e.1 ∧ e.1 ≤ N) ∧ (0 ≤ e.2.1 ∧ e.2.1 ≤ N)) :
    geopotentialNew N (some (lines.map some ++ rest)) = .ub := by
  have hs := toSize_nat N (by omega)
  have hd : limitedDegree 360 N = N := by rw [limitedDegree, hs, if_neg (by omega), if_neg (by omega)]
  have key : ∀ (l : List Entry) (k : ℕ) (f g : ℕ → ℕ → ℝ) (c s : Coefs), l.length < k → (∀ e ∈ l, (0 ≤ e.1 ∧ e.1 ≤ N) ∧ (0 ≤ e.2.1 ∧ e.2.1 ≤ N)) →
      Square c N f → Square s N g → readLines .ub k (l.map some ++ rest) c s = .ub := by
    intro l
    induction l with
    | nil =>
      intro k f g c s hk _ _ _
      obtain ⟨k, rfl⟩ : ∃ j, k = j + 1 := ⟨k - 1, by simp at hk; omega⟩
      rcases hrest with rfl | ⟨r, rfl⟩ <;> rfl
    | cons e l ih =>
      intro k f g c s hk he hc hs
      obtain ⟨n, m, x, y⟩ := e
      obtain ⟨k, rfl⟩ : ∃ j, k = j + 1 := ⟨k - 1, by simp at hk; omega⟩
      obtain ⟨hn, hm⟩ := he (n, m, x, y) (by simp)
      obtain ⟨c1, h1, h2⟩ := put_square hc n m x hn hm
      obtain ⟨s1, h3, h4⟩ := put_square hs n m y hn hm
      simp only [List.map_cons, List.cons_append, readLines, h1, h3, Res.bind]
      exact ih k _ _ c1 s1 (by simp at hk; omega) (fun e h => he e (List.mem_cons_of_mem _ h)) h2 h4
  simp only [geopotentialNew, hd, hs]
  rw [lineCount] at hlen
  rw [if_pos hN.1, key lines _ _ _ _ _ hlen hr (zero_square N) (zero_square N)]
  rfl

example : geopotentialNew (2 : ℕ) (some (exampleLines.tail.map some ++ [])) = .ub :=
  C131_short_file 2 (by norm_num) exampleLines.tail [] (by decide) (Or.inl rfl) (by
    intro e he
    simp only [exampleLines, List.tail_cons, List.mem_cons, List.not_mem_nil, or_false] at he
    rcases he with rfl | rfl <;> norm_num)

theorem put_length {c c' : Coefs} {n m : ℤ} {x : ℝ} (h : c.put n m x = .ok c') : c'.length = c.length := by
  unfold Coefs.put at h
  split at h
  · cases h
  · split at h
    · cases h
    · split at h
      · obtain rfl := Res.ok.inj h
        simp
      · cases h

theorem readLines_length {bad : Res (Coefs × Coefs)} (hb : ∀ t, bad ≠ .ok t) (k : ℕ) (lines : List Line) (c s : Coefs) (t : Coefs × Coefs)
    (h : readLines bad k lines c s = .ok t) : t.1.length = c.length := by
  induction k generalizing lines c s with
  | zero =>
    rw [readLines] at h
    obtain rfl := Res.ok.inj h
    rfl
  | succ k ih =>
    match lines with
    | [] => exact absurd h (hb t)
    | none :: r => exact absurd h (hb t)
    | some (n, m, x, y) :: r =>
      rw [readLines] at h
      rcases h1 : c.put n m x with v | _ | _ | _ <;> simp only [h1, Res.bind, reduceCtorEq] at h
      rcases h2 : s.put n m y with w | _ | _ | _ <;> simp only [h2, reduceCtorEq] at h
      rw [ih r v w h, put_length h1]

/-- A degree above 360 is not limited in the computation: whatever the file, if the constructor returns, every update accesses coefficients out of range. -/
theorem C131_degree_not_limited (degree : ℤ) (h : 360 < degree ∧ degree < 2 ^ 31) (file : Option (List Line)) (g : Potential)
    (hg : geopotentialNew degree file = .ok g) (dcm : Mat 3 3) (p : Vec 3) : geopotentialUpdate g dcm p = .ub := by
  obtain ⟨N, rfl⟩ : ∃ N : ℕ, degree = N := ⟨degree.toNat, by omega⟩
  have hs := toSize_nat N (by omega)
  have hd : limitedDegree 360 N = 360 := by rw [limitedDegree, hs, if_pos (by omega)]
  have key : ∃ c s, g = Potential.new N c s earthMu earthRadius ∧ c.length = 361 := by
    simp only [geopotentialNew, hd, hs] at hg
    rw [if_pos (by norm_num)] at hg
    match file with
    | none =>
      obtain rfl := Res.ok.inj hg
      exact ⟨_, _, rfl, by rw [zeroCoefs, List.length_replicate]⟩
    | some lines =>
      simp only at hg
      rcases h1 : readLines .ub ((360 + 1) * (360 + 2) / 2 - 3) lines (zeroCoefs 360) (zeroCoefs 360) with t | _ | _ | _ <;>
        simp only [h1, Res.bind, reduceCtorEq] at hg
      obtain rfl := Res.ok.inj hg
      refine ⟨_, _, rfl, ?_⟩
      rw [readLines_length (by simp) _ _ _ _ _ h1]
      rw [zeroCoefs, List.length_replicate]
  obtain ⟨c, s, rfl, hl⟩ := key
  rw [geopotentialUpdate, C130_missing N (by omega) (by omega) c s 361 0 (by omega) (by omega)]
  · rfl
  · exact Or.inl (Or.inl (by rw [List.getElem?_eq_none_iff]; omega))

example : ∃ g, geopotentialNew 361 none = .ok g := by
  rw [geopotentialNew]
  split <;> exact ⟨_, rfl⟩

/-- A negative degree is undefined behaviour (-1, -2) or an exception in every update, not a disabled field. -/
theorem C131_negative_degree (degree : ℤ) (h : -2 ^ 31 ≤ degree ∧ degree < 0) (file : Option (List Line)) (g : Potential)
    (hg : geopotentialNew degree file = .ok g) (dcm : Mat 3 3) (p : Vec 3) :
    geopotentialUpdate g dcm p = if -2 ≤ degree then .ub else .throws := by
  have hs : toSize degree = (degree + 2 ^ 64).toNat := by
    rw [toSize]
    congr 1
    omega
  have key : ∃ c s, g = Potential.new (toSize degree) c s earthMu earthRadius := by
    simp only [geopotentialNew] at hg
    split at hg
    · match file with
      | none =>
        obtain rfl := Res.ok.inj hg
        exact ⟨_, _, rfl⟩
      | some lines =>
        simp only at hg
        generalize readLines _ _ _ _ _ = r at hg
        rcases r with t | _ | _ | _ <;> simp only [Res.bind, reduceCtorEq] at hg
        obtain rfl := Res.ok.inj hg
        exact ⟨_, _, rfl⟩
    · obtain rfl := Res.ok.inj hg
      exact ⟨_, _, rfl⟩
  obtain ⟨c, s, rfl⟩ := key
  rw [geopotentialUpdate, new_degree _ _ _ _ _ (by omega), Potential.calcAcceleration]
  simp only
  rw [if_neg (by omega)]
  by_cases h2 : -2 ≤ degree
  · rw [if_pos (by omega), if_pos h2]; rfl
  · rw [if_neg (by omega), if_neg h2, if_pos (by omega)]; rfl

theorem stated_nil : stated [] = fun _ _ => (0, 0) := rfl

/-- Without a readable file (degrees 2 to 360), and for degrees 0 and 1, the acceleration is zero. -/
theorem C131_no_field (N : ℕ) (dcm : Mat 3 3) (p : Vec 3) (file : Option (List Line)) (h : N ≤ 1 ∨ (N ≤ 360 ∧ file = none)) :
    ∃ g, geopotentialNew N file = .ok g ∧ geopotentialUpdate g dcm p = .ok (0, 0) := by
  have hz : matVec (matTranspose dcm) (0 : Vec 3) = 0 := by funext i; simp [matVec]
  by_cases h1 : N ≤ 1
  · have hs := toSize_nat N (by omega)
    have hd : limitedDegree 360 N = 0 := by rw [limitedDegree, hs, if_neg (by omega), if_pos h1]
    refine ⟨Potential.new N (zeroCoefs 0) (zeroCoefs 0) earthMu earthRadius, ?_, ?_⟩
    · simp only [geopotentialNew, hd, hs]
      rw [if_neg (by omega)]
    · rw [geopotentialUpdate, (C130_low_degree N h1 _ _ _ _ p).1, Res.bind, hz]
  · obtain ⟨h2, rfl⟩ := h.resolve_left h1
    have hs := toSize_nat N (by omega)
    have hd : limitedDegree 360 N = N := by rw [limitedDegree, hs, if_neg (by omega), if_neg (by omega)]
    refine ⟨Potential.new N (zeroCoefs N) (zeroCoefs N) earthMu earthRadius, ?_, ?_⟩
    · simp only [geopotentialNew, hd, hs]
      rw [if_pos (by omega)]
    · have hl := (zero_square N).listed
      rw [geopotentialUpdate, new_degree _ _ _ _ _ (by omega), calcAcceleration_eq ⟨N, zeroCoefs N, zeroCoefs N, earthMu, earthRadius⟩
        (show 1 ≤ N by omega) (show N + 2 ≤ _ by omega) (by norm_num [earthRadius]) p _ _ hl.holds hl.holds, Res.bind]
      have e : accel earthMu earthRadius N (fun _ _ => 0) (fun _ _ => 0) p = 0 := by
        simp [accel, gterm]
      rw [e, hz]

/-- **Moon.** For a degree from 2 to 1200 and a file whose first `(N+1)(N+2)/2 - 1` lines give coefficients of degree and order up to `N`, the acceleration is
the gradient of the potential with the radius and gravity constant of the file, at the inertial position turned into the Moon-fixed frame: given the rotation
matrix of the Moon, the rest of `Update` is right. But see `C132_update_undefined`. -/
theorem C132_lunar (N : ℕ) (hN : 2 ≤ N ∧ N ≤ 1200) (radius mu : ℝ) (hR : radius ≠ 0) (lines : List Entry) (rest : List Line)
    (hlen : lines.length = lineCount N 1) (hr : ∀ e ∈ lines, (0 ≤ e.1 ∧ e.1 ≤ N) ∧ (0 ≤ e.2.1 ∧ e.2.1 ≤ N)) :
    ∃ g, lunarNew N (some (radius, mu, lines.map some ++ rest)) = .ok g ∧
      ∀ (dcm : Mat 3 3) (q : Vec 3), matVec dcm q ≠ 0 → ∃ a ai, lunarFrom g dcm q = .ok (a, ai) ∧
        let U := potential (mu * 1e9) (radius * 1e3) N (fun n m => (stated lines n m).1) (fun n m => (stated lines n m).2)
        IsGradient U (matVec dcm q) a ∧ IsGradient (fun q => U (matVec dcm q)) q ai := by
  have hs := toSize_nat N (by omega)
  have hd : limitedDegree 1200 N = N := by rw [limitedDegree, hs, if_neg (by omega), if_neg (by omega)]
  obtain ⟨c, s, h1, h2, h3⟩ := readLines_spec .throws N rest lines [] (zeroCoefs N) (zeroCoefs N) hr (by simpa [stated] using zero_square N)
    (by simpa [stated] using zero_square N)
  rw [List.nil_append] at h2 h3
  refine ⟨Potential.new N c s (mu * 1e9) (radius * 1e3), ?_, ?_⟩
  · simp only [lunarNew, hd, hs]
    rw [if_pos hN.1]
    rw [lineCount] at hlen
    rw [← hlen, h1]
    rfl
  · intro dcm q hq
    obtain ⟨a, ha, hg⟩ := C130_acceleration N hN.1 (by omega) c s _ _ h2.listed h3.listed (mu * 1e9) (radius * 1e3)
      (mul_ne_zero hR (by norm_num)) _ hq
    refine ⟨a, _, ?_, hg, isGradient_rotated dcm hg⟩
    rw [lunarFrom, ha]
    rfl

/-- Every update of the lunar gravity field is undefined behaviour, in every environment: it uses the Moon rotation of a copy that has none. -/
theorem C132_update_undefined (g : Potential) (environment : Rotations) (position : Vec 3) : lunarUpdate g environment position = .ub := rfl

/-- The update would be defined without the copy: the environment itself has its rotations. -/
example (g : Potential) (r : Vec 3 × Vec 3) (position : Vec 3) (h : lunarFrom g 1 position = .ok r) :
    ∃ environment : Rotations, environment.moon = some 1 ∧ environment.earth = some 1 ∧ lunarUpdate g environment position ≠ .ok r :=
  ⟨⟨some 1, some 1⟩, rfl, rfl, by rw [C132_update_undefined]; exact fun h => by cases h⟩

/-- A lunar file for degree 2. -/
def exampleLunar : List Entry := [(1, 0, 0, 0), (1, 1, 0, 0), (2, 0, -0.909e-4, 0), (2, 1, 0, 0), (2, 2, 0.346e-4, 0)]

example : exampleLunar.length = lineCount 2 1 ∧ ∀ e ∈ exampleLunar, (0 ≤ e.1 ∧ e.1 ≤ (2 : ℕ)) ∧ (0 ≤ e.2.1 ∧ e.2.1 ≤ (2 : ℕ)) := by
  refine ⟨rfl, ?_⟩
  intro e he
  simp only [exampleLunar, List.mem_cons, List.not_mem_nil, or_false] at he
  rcases he with rfl | rfl | rfl | rfl | rfl <;> norm_num

/-- With degree 0 or 1, or without a readable file, the constructor computes with the radius and gravity constant members before they have a value. -/
theorem C132_uninitialised (N : ℕ) (hN : N < 2 ^ 31) (file : Option (ℝ × ℝ × List Line)) (h : N ≤ 1 ∨ file = none) : lunarNew N file = .ub := by
  simp only [lunarNew]
  by_cases h1 : N ≤ 1
  · have hs := toSize_nat N (by omega)
    have hd : limitedDegree 1200 N = 0 := by rw [limitedDegree, hs, if_neg (by omega), if_pos h1]
    rw [hd, if_neg (by omega)]
  · obtain rfl := h.resolve_left h1
    split <;> rfl

/-- A degree above 1200 is not limited in the computation either. -/
theorem C132_degree_not_limited (degree : ℤ) (h : 1200 < degree ∧ degree < 2 ^ 31) (file : Option (ℝ × ℝ × List Line)) (g : Potential)
    (hg : lunarNew degree file = .ok g) (dcm : Mat 3 3) (p : Vec 3) : lunarFrom g dcm p = .ub := by
  obtain ⟨N, rfl⟩ : ∃ N : ℕ, degree = N := ⟨degree.toNat, by omega⟩
  have hs := toSize_nat N (by omega)
  have hd : limitedDegree 1200 N = 1200 := by rw [limitedDegree, hs, if_pos (by omega)]
  have key : ∃ c s mu R, g = Potential.new N c s mu R ∧ c.length = 1201 := by
    simp only [lunarNew, hd, hs] at hg
    rw [if_pos (by norm_num)] at hg
    match file with
    | none => cases hg
    | some (radius, mu, lines) =>
      simp only at hg
      rcases h1 : readLines .throws ((1200 + 1) * (1200 + 2) / 2 - 1) lines (zeroCoefs 1200) (zeroCoefs 1200) with t | _ | _ | _ <;>
        simp only [h1, Res.bind, reduceCtorEq] at hg
      obtain rfl := Res.ok.inj hg
      refine ⟨_, _, _, _, rfl, ?_⟩
      rw [readLines_length (by simp) _ _ _ _ _ h1]
      rw [zeroCoefs, List.length_replicate]
  obtain ⟨c, s, mu, R, rfl, hl⟩ := key
  rw [lunarFrom, C130_missing N (by omega) (by omega) c s 1201 0 (by omega) (by omega)]
  · rfl
  · exact Or.inl (Or.inl (by rw [List.getElem?_eq_none_iff]; omega))

/-- A file with enough lines makes the constructor return for a degree above the limit. -/
example : ∃ g, lunarNew 1201 (some (1738, 4902.8, List.replicate 721800 (some (0, 0, 0, 0)))) = .ok g := by
  have hd : limitedDegree 1200 1201 = 1200 := by rw [limitedDegree, show toSize 1201 = 1201 from rfl, if_pos (by omega)]
  obtain ⟨c, s, h1, -, -⟩ := readLines_spec .throws 1200 [] (List.replicate 721800 (0, 0, 0, 0)) [] (zeroCoefs 1200) (zeroCoefs 1200)
    (fun e he => by rw [List.eq_of_mem_replicate he]; norm_num) (by simpa [stated] using zero_square 1200) (by simpa [stated] using zero_square 1200)
  rw [List.length_replicate, List.map_replicate, List.append_nil] at h1
  simp only [lunarNew, hd]
  rw [if_pos (by norm_num), show (1200 + 1) * (1200 + 2) / 2 - 1 = 721800 by norm_num, h1]
  exact ⟨_, rfl⟩

end S2E.Gravity
