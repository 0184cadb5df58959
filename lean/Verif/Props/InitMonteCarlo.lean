import Verif.Model.InitMonteCarlo
import Verif.Props.MonteCarlo
import Verif.Props.InitOrbit
import Verif.Props.Csv
/-!
# C171: the Monte-Carlo settings
-/
namespace S2E.InitMonteCarlo
open Log Ini InitOrbit MonteCarlo

/-! ## What the settings say -/

/-- The section `MONTE_CARLO_RANDOMIZATION` lists these parameters: `parameter(0)`, `parameter(1)`, … up to the first one that is missing (or `NULL`). -/
structure Lists (rd : Reader) (file : File) (lines : List Str) : Prop where
  few : lines.length < 2 ^ 32
  each : ∀ i (hi : i < lines.length),
    readString rd.paths (file "MONTE_CARLO_RANDOMIZATION".toList) ("parameter(".toList ++ dec i ++ ")".toList) = lines[i] ∧ lines[i] ≠ "NULL".toList
  last : readString rd.paths (file "MONTE_CARLO_RANDOMIZATION".toList) ("parameter(".toList ++ dec lines.length ++ ")".toList) = "NULL".toList

/-- The object name and parameter name of a listed parameter: the first two pieces between dots, not counting empty ones; a piece that is not there is empty. -/
def NamesOf (line obj par : Str) : Prop :=
  (∃ a b rest, line = List.replicate a '.' ++ obj ++ List.replicate (b + 1) '.' ++ par ++ rest ∧ '.' ∉ obj ∧ '.' ∉ par ∧ obj ≠ [] ∧ par ≠ [] ∧
    (rest = [] ∨ ∃ r, rest = '.' :: r)) ∨
  (∃ a b, line = List.replicate a '.' ++ obj ++ List.replicate b '.' ∧ '.' ∉ obj ∧ obj ≠ [] ∧ par = []) ∨
  (∃ a, line = List.replicate a '.' ∧ obj = [] ∧ par = [])

/-- The names of the randomization types. -/
def kindNames : List (Str × RandType) :=
  [("NoRandomization".toList, .noRandomization), ("CartesianUniform".toList, .cartesianUniform), ("CartesianNormal".toList, .cartesianNormal),
   ("CircularNormalUniform".toList, .circularNormalUniform), ("CircularNormalNormal".toList, .circularNormalNormal),
   ("SphericalNormalUniformUniform".toList, .sphericalNormalUniformUniform), ("SphericalNormalNormal".toList, .sphericalNormalNormal),
   ("QuaternionUniform".toList, .quaternionUniform), ("QuaternionNormal".toList, .quaternionNormal)]

/-- A text names a type: the one of the list, and no randomization for every other text. -/
def IsKind (text : Str) (kind : RandType) : Prop :=
  (text, kind) ∈ kindNames ∨ text ∉ kindNames.map Prod.fst ∧ kind = .noRandomization

/-- The number of values a type draws. -/
def drawn : RandType → ℕ
  | .noRandomization => 0
  | .cartesianUniform | .cartesianNormal => 3
  | .circularNormalUniform | .circularNormalNormal => 2
  | .sphericalNormalUniformUniform | .sphericalNormalNormal => 3
  | .quaternionUniform | .quaternionNormal => 4

/-! ## Lemmas -/

theorem split_dots (a : ℕ) (s : Str) : split '.' (List.replicate a '.' ++ s) = List.replicate a [] ++ split '.' s := by
  induction a with
  | zero => simp
  | succ a ih =>
    have h := Csv.split_cons '.' [] (List.replicate a '.' ++ s) (by simp)
    rw [List.nil_append] at h
    rw [List.replicate_succ, List.cons_append, h, ih]
    rfl

theorem scan_empty (a : ℕ) (l : List Str) (ph : Phase) (so ip : Str) : scan (List.replicate a [] ++ l) ph so ip = scan l ph so ip := by
  induction a with
  | zero => simp
  | succ a ih =>
    rw [List.replicate_succ, List.cons_append, scan.eq_def]
    simpa using ih

theorem scan_item {item : Str} (h : item ≠ []) (l : List Str) (so ip : Str) :
    scan (item :: l) .nothing so ip = scan l .object item ip ∧ scan (item :: l) .object so ip = (so, item) := by
  have : item.isEmpty = false := by simpa using h
  constructor <;> rw [scan, this] <;> rfl

theorem split_piece {f : Str} (hf : '.' ∉ f) (b : ℕ) (s : Str) :
    split '.' (f ++ List.replicate (b + 1) '.' ++ s) = f :: (List.replicate b [] ++ split '.' s) := by
  rw [List.replicate_succ, List.append_assoc, List.cons_append, Csv.split_cons '.' f _ hf, split_dots]

theorem names_eq {line obj par : Str} (h : NamesOf line obj par) : names line = (obj, par) := by
  unfold names
  rcases h with ⟨a, b, rest, rfl, h1, h2, h3, h4, h5⟩ | ⟨a, b, rfl, h1, h2, rfl⟩ | ⟨a, rfl, rfl, rfl⟩
  · rw [show List.replicate a '.' ++ obj ++ List.replicate (b + 1) '.' ++ par ++ rest =
      List.replicate a '.' ++ (obj ++ List.replicate (b + 1) '.' ++ (par ++ rest)) by simp, split_dots, split_piece h1, scan_empty,
      (scan_item h3 _ _ _).1, scan_empty]
    rcases h5 with rfl | ⟨r, rfl⟩
    · rw [List.append_nil, Csv.split_last '.' par h2 h4, (scan_item h4 _ _ _).2]
    · rw [Csv.split_cons '.' par r h2, (scan_item h4 _ _ _).2]
  · rw [List.append_assoc, split_dots, scan_empty]
    rcases b with _ | b
    · rw [List.replicate_zero, List.append_nil, Csv.split_last '.' obj h1 h2, (scan_item h2 _ _ _).1]; rfl
    · have := split_piece h1 b []
      rw [List.append_nil, Csv.split_nil, List.append_nil] at this
      rw [this, (scan_item h2 _ _ _).1]
      have h := scan_empty b [] .object obj []
      rw [List.append_nil] at h
      rw [h]; rfl
  · have h := split_dots a []
    rw [List.append_nil, Csv.split_nil, List.append_nil] at h
    have h' := scan_empty a [] .nothing [] []
    rw [List.append_nil] at h'
    rw [h, h']; rfl

theorem same_iff (rd : Reader) (ini : Str → Option Str) (key text : Str) (h0 : Char.ofNat 0 ∉ readString rd.paths ini key) (ht : Char.ofNat 0 ∉ text)
    (hl : text.length < 256) : sameText (readChar rd.paths ini key 256) text = true ↔ readString rd.paths ini key = text := by
  unfold sameText readChar
  rw [List.isPrefixOf_iff_prefix]
  generalize readString rd.paths ini key = s at *
  constructor
  · intro h
    by_cases hs : s.length < 256
    · rw [List.take_of_length_le (by omega)] at h
      obtain ⟨k, hk⟩ : ∃ k, 256 - s.length = k + 1 := ⟨255 - s.length, by omega⟩
      rw [hk] at h
      obtain ⟨t, ht'⟩ := h
      have h1 := congrArg (List.takeWhile (· ≠ Char.ofNat 0)) ht'
      have tw : ∀ (l r : Str), Char.ofNat 0 ∉ l → (l ++ Char.ofNat 0 :: r).takeWhile (· ≠ Char.ofNat 0) = l := by
        intro l r hl
        rw [List.takeWhile_append_of_pos (by intro x hx; simp; rintro rfl; exact hl hx)]
        simp
      rw [List.append_assoc, List.singleton_append, tw _ _ ht, List.replicate_succ, tw _ _ h0] at h1
      exact h1.symm
    · exfalso
      rw [show 256 - s.length = 0 by omega, List.replicate_zero, List.append_nil] at h
      have : Char.ofNat 0 ∈ s.take 256 := h.subset (by simp)
      exact h0 (List.mem_of_mem_take this)
  · rintro rfl
    rw [List.take_of_length_le (by omega)]
    obtain ⟨k, hk⟩ : ∃ k, 256 - s.length = k + 1 := ⟨255 - s.length, by omega⟩
    rw [hk, List.replicate_succ]
    exact ⟨List.replicate k (Char.ofNat 0), by simp⟩

theorem kind_is (rd : Reader) (ini : Str → Option Str) (key : Str) (h0 : Char.ofNat 0 ∉ readString rd.paths ini key) :
    IsKind (readString rd.paths ini key) (kindOf (readChar rd.paths ini key 256)) := by
  have h := fun text => same_iff rd ini key text h0
  unfold IsKind kindOf
  generalize readString rd.paths ini key = s at *
  generalize readChar rd.paths ini key 256 = buf at *
  split_ifs with h1 h2 h3 h4 h5 h6 h7 h8 h9
  · rw [(h _ (by decide +kernel) (by decide +kernel)).1 h1]; decide +kernel
  · rw [(h _ (by decide +kernel) (by decide +kernel)).1 h2]; decide +kernel
  · rw [(h _ (by decide +kernel) (by decide +kernel)).1 h3]; decide +kernel
  · rw [(h _ (by decide +kernel) (by decide +kernel)).1 h4]; decide +kernel
  · rw [(h _ (by decide +kernel) (by decide +kernel)).1 h5]; decide +kernel
  · rw [(h _ (by decide +kernel) (by decide +kernel)).1 h6]; decide +kernel
  · rw [(h _ (by decide +kernel) (by decide +kernel)).1 h7]; decide +kernel
  · rw [(h _ (by decide +kernel) (by decide +kernel)).1 h8]; decide +kernel
  · rw [(h _ (by decide +kernel) (by decide +kernel)).1 h9]; decide +kernel
  · refine .inr ⟨?_, rfl⟩
    simp only [kindNames, List.map_cons, List.map_nil, List.mem_cons, List.not_mem_nil, or_false]
    rintro (rfl | rfl | rfl | rfl | rfl | rfl | rfl | rfl | rfl)
    · exact h1 ((h _ (by decide +kernel) (by decide +kernel)).2 rfl)
    · exact h2 ((h _ (by decide +kernel) (by decide +kernel)).2 rfl)
    · exact h3 ((h _ (by decide +kernel) (by decide +kernel)).2 rfl)
    · exact h4 ((h _ (by decide +kernel) (by decide +kernel)).2 rfl)
    · exact h5 ((h _ (by decide +kernel) (by decide +kernel)).2 rfl)
    · exact h6 ((h _ (by decide +kernel) (by decide +kernel)).2 rfl)
    · exact h7 ((h _ (by decide +kernel) (by decide +kernel)).2 rfl)
    · exact h8 ((h _ (by decide +kernel) (by decide +kernel)).2 rfl)
    · exact h9 ((h _ (by decide +kernel) (by decide +kernel)).2 rfl)

/-- A listed parameter with its names. -/
structure Entry where
  line : Str
  obj : Str
  par : Str

/-- What the section says about a listed parameter. -/
structure Gives (rd : Reader) (file : File) (line : Str) (p : Param) : Prop where
  value : p.value = []
  mean : p.mean = [readDouble rd.getReal (file "MONTE_CARLO_RANDOMIZATION".toList) (line ++ ".mean_or_min(0)".toList),
    readDouble rd.getReal (file "MONTE_CARLO_RANDOMIZATION".toList) (line ++ ".mean_or_min(1)".toList),
    readDouble rd.getReal (file "MONTE_CARLO_RANDOMIZATION".toList) (line ++ ".mean_or_min(2)".toList)]
  sigma : p.sigma = [readDouble rd.getReal (file "MONTE_CARLO_RANDOMIZATION".toList) (line ++ ".sigma_or_max(0)".toList),
    readDouble rd.getReal (file "MONTE_CARLO_RANDOMIZATION".toList) (line ++ ".sigma_or_max(1)".toList),
    readDouble rd.getReal (file "MONTE_CARLO_RANDOMIZATION".toList) (line ++ ".sigma_or_max(2)".toList)]
  kind : IsKind (readString rd.paths (file "MONTE_CARLO_RANDOMIZATION".toList) (line ++ ".randomization_type".toList)) p.kind

/-- The texts of the types contain no terminator (they come from a text file). -/
def Plain (rd : Reader) (file : File) : Prop := ∀ key, Char.ofNat 0 ∉ readString rd.paths (file "MONTE_CARLO_RANDOMIZATION".toList) key

/-- The parameter a line adds. -/
def paramOf (rd : Reader) (ini : Str → Option Str) (line : Str) : Param :=
  ⟨[], toList (rd.vec3 ini (line ++ ['.'] ++ "mean_or_min".toList)), toList (rd.vec3 ini (line ++ ['.'] ++ "sigma_or_max".toList)),
    kindOf (readChar rd.paths ini (line ++ ['.'] ++ "randomization_type".toList) 256)⟩

theorem paramOf_gives (rd : Reader) (file : File) (hz : Plain rd file) (line : Str) :
    Gives rd file line (paramOf rd (file "MONTE_CARLO_RANDOMIZATION".toList) line) := by
  have hk : ∀ (name : String) (i : ℕ) (key : String), ['.'] ++ name.toList ++ "(".toList ++ dec i ++ ")".toList = key.toList →
      indexedKey (line ++ ['.'] ++ name.toList) i = line ++ key.toList := by
    intro name i key h
    rw [← h, indexedKey]
    simp
  refine ⟨rfl, ?_, ?_, ?_⟩
  · rw [← hk "mean_or_min" 0 ".mean_or_min(0)" (by decide +kernel), ← hk "mean_or_min" 1 ".mean_or_min(1)" (by decide +kernel),
      ← hk "mean_or_min" 2 ".mean_or_min(2)" (by decide +kernel)]
    rfl
  · rw [← hk "sigma_or_max" 0 ".sigma_or_max(0)" (by decide +kernel), ← hk "sigma_or_max" 1 ".sigma_or_max(1)" (by decide +kernel),
      ← hk "sigma_or_max" 2 ".sigma_or_max(2)" (by decide +kernel)]
    rfl
  · have e : line ++ ".randomization_type".toList = line ++ ['.'] ++ "randomization_type".toList := by
      rw [List.append_assoc]; congr 1
    rw [e]
    exact kind_is rd _ _ (hz _)

/-- The key of a line. -/
def lineKey (line : Str) : String := key (String.ofList (names line).1) (String.ofList (names line).2)

theorem addLine_eq (rd : Reader) (ini : Str → Option Str) (l : ParamList) (line : Str) :
    addLine rd ini l line = match l (lineKey line) with
      | none => .ok fun k => if k = lineKey line then some (paramOf rd ini line) else l k
      | some _ => .throws := rfl

theorem addLines_ok (rd : Reader) (ini : Str → Option Str) (lines : List Str) : ∀ l : ParamList,
    ((lines.map lineKey).Nodup → (∀ line ∈ lines, l (lineKey line) = none) → ∃ l', addLines rd ini lines l = .ok l' ∧
      (∀ line ∈ lines, l' (lineKey line) = some (paramOf rd ini line)) ∧ ∀ k, k ∉ lines.map lineKey → l' k = l k) ∧
    ((¬ (lines.map lineKey).Nodup ∨ ∃ line ∈ lines, (l (lineKey line)).isSome) → addLines rd ini lines l = .throws) := by
  induction lines with
  | nil =>
    intro l
    exact ⟨fun _ _ => ⟨l, rfl, by simp, fun _ _ => rfl⟩, by simp⟩
  | cons line rest ih =>
    intro l
    rw [addLines, addLine_eq]
    cases hl : l (lineKey line) with
    | some p =>
      refine ⟨fun _ h => ?_, fun _ => rfl⟩
      rw [h line List.mem_cons_self] at hl; cases hl
    | none =>
      simp only [Res.bind]
      obtain ⟨i1, i2⟩ := ih fun k => if k = lineKey line then some (paramOf rd ini line) else l k
      constructor
      · intro hn h
        rw [List.map_cons, List.nodup_cons] at hn
        obtain ⟨l', e, e1, e2⟩ := i1 hn.2 (by
          intro x hx
          have hne : lineKey x ≠ lineKey line := by
            intro hh
            exact hn.1 (hh ▸ List.mem_map_of_mem hx)
          rw [if_neg hne]
          exact h x (List.mem_cons_of_mem _ hx))
        refine ⟨l', e, ?_, ?_⟩
        · intro x hx
          rcases List.mem_cons.1 hx with rfl | hx
          · rw [e2 _ hn.1, if_pos rfl]
          · exact e1 x hx
        · intro k hk
          rw [List.map_cons, List.mem_cons, not_or] at hk
          rw [e2 k hk.2, if_neg hk.1]
      · intro h
        apply i2
        by_cases hm : lineKey line ∈ rest.map lineKey
        · obtain ⟨x, hx, hxe⟩ := List.mem_map.1 hm
          exact .inr ⟨x, hx, by rw [hxe, if_pos rfl]; rfl⟩
        · rcases h with h | ⟨x, hx, hs⟩
          · exact .inl fun hn => h (by rw [List.map_cons, List.nodup_cons]; exact ⟨hm, hn⟩)
          · rcases List.mem_cons.1 hx with rfl | hx
            · rw [hl] at hs; cases hs
            · refine .inr ⟨x, hx, ?_⟩
              split_ifs
              · rfl
              · exact hs

theorem lists_read {rd : Reader} {file : File} {lines : List Str} (h : Lists rd file lines) {fuel : ℕ} (hf : lines.length < fuel) :
    readStrVector rd.paths (file "MONTE_CARLO_RANDOMIZATION".toList) "parameter".toList fuel = .ok lines := by
  have hk : ∀ i, indexedKey "parameter".toList i = "parameter(".toList ++ dec i ++ ")".toList := by
    intro i
    rw [indexedKey, show "parameter".toList ++ "(".toList = "parameter(".toList by decide +kernel]
  rw [readStrVector, IniRead.readStrVectorFrom_ok rd.paths _ _ lines.length h.few ?_ ?_ fuel lines.length 0 (by simp) hf]
  · congr 1
    rw [List.nil_append]
    refine List.ext_getElem (by simp) ?_
    intro i h1 h2
    rw [List.getElem_map, List.getElem_range', hk, zero_add, one_mul]
    exact (h.each i h2).1
  · intro i hi
    rw [hk, (h.each i hi).1]
    exact (h.each i hi).2
  · rw [hk]; exact h.last

theorem lineKey_eq {line obj par : Str} (h : NamesOf line obj par) : lineKey line = key (String.ofList obj) (String.ofList par) := by
  unfold lineKey
  rw [names_eq h]

theorem key_inj {line obj par line' obj' par' : Str} (h : NamesOf line obj par) (h' : NamesOf line' obj' par')
    (he : key (String.ofList obj) (String.ofList par) = key (String.ofList obj') (String.ofList par')) : obj = obj' ∧ par = par' := by
  have nodot : ∀ {l o p : Str}, NamesOf l o p → '.' ∉ (String.ofList o).toList := by
    intro l o p h
    rw [String.toList_ofList]
    rcases h with ⟨_, _, _, _, h, _⟩ | ⟨_, _, _, h, _⟩ | ⟨_, _, rfl, _⟩
    · exact h
    · exact h
    · simp
  obtain ⟨e1, e2⟩ := C35_key_injective _ _ _ _ (nodot h) (nodot h') he
  exact ⟨by simpa using congrArg String.toList e1, by simpa using congrArg String.toList e2⟩

theorem nodup_congr {α β δ : Type} {f : α → β} {g : α → δ} (l : List α) (h : ∀ x ∈ l, ∀ y ∈ l, f x = f y ↔ g x = g y) :
    (l.map f).Nodup ↔ (l.map g).Nodup := by
  induction l with
  | nil => simp
  | cons a l ih =>
    rw [List.map_cons, List.map_cons, List.nodup_cons, List.nodup_cons,
      ih fun x hx y hy => h x (List.mem_cons_of_mem _ hx) y (List.mem_cons_of_mem _ hy)]
    refine and_congr (not_congr ⟨fun hm => ?_, fun hm => ?_⟩) Iff.rfl
    · obtain ⟨x, hx, he⟩ := List.mem_map.1 hm
      exact (h x (List.mem_cons_of_mem _ hx) a List.mem_cons_self).1 he ▸ List.mem_map_of_mem hx
    · obtain ⟨x, hx, he⟩ := List.mem_map.1 hm
      exact (h x (List.mem_cons_of_mem _ hx) a List.mem_cons_self).2 he ▸ List.mem_map_of_mem hx

/-- **C171 (parameters).** The listed parameters are registered: each under its object and parameter name, with the type, the three values `mean_or_min` and the
three values `sigma_or_max` of the section, and nothing else is registered. If two of them have the same object and parameter name an exception is raised. -/
theorem C171_parameters (rd : Reader) (file : File) (hz : Plain rd file) (entries : List Entry) (hl : Lists rd file (entries.map Entry.line))
    (hn : ∀ x ∈ entries, NamesOf x.line x.obj x.par) (fuel : ℕ) (hf : entries.length < fuel) :
    ((entries.map fun x => (x.obj, x.par)).Nodup → ∃ e l, initMonteCarlo rd file fuel = .ok (e, l) ∧
      (∀ x ∈ entries, ∃ p, l (String.ofList x.obj ++ "." ++ String.ofList x.par) = some p ∧ Gives rd file x.line p) ∧
      ∀ k, (∀ x ∈ entries, k ≠ String.ofList x.obj ++ "." ++ String.ofList x.par) → l k = none) ∧
    (¬ (entries.map fun x => (x.obj, x.par)).Nodup → initMonteCarlo rd file fuel = .throws) := by
  have hread := lists_read hl (fuel := fuel) (by simpa using hf)
  obtain ⟨a1, a2⟩ := addLines_ok rd (file "MONTE_CARLO_RANDOMIZATION".toList) (entries.map Entry.line) fun _ => none
  have hk : ∀ x ∈ entries, lineKey x.line = String.ofList x.obj ++ "." ++ String.ofList x.par := fun x hx => lineKey_eq (hn x hx)
  have hnodup : ((entries.map Entry.line).map lineKey).Nodup ↔ (entries.map fun x => (x.obj, x.par)).Nodup := by
    rw [List.map_map]
    refine nodup_congr entries fun x hx y hy => ?_
    simp only [Function.comp, Prod.mk.injEq]
    rw [lineKey_eq (hn x hx), lineKey_eq (hn y hy)]
    exact ⟨fun h => key_inj (hn x hx) (hn y hy) h, fun h => by rw [h.1, h.2]⟩
  unfold initMonteCarlo
  dsimp only
  rw [hread]
  simp only [Res.bind]
  constructor
  · intro h
    obtain ⟨l, e, e1, e2⟩ := a1 (hnodup.2 h) fun _ _ => rfl
    rw [e]
    refine ⟨_, l, rfl, fun x hx => ⟨_, ?_, paramOf_gives rd file hz x.line⟩, fun k h => e2 k ?_⟩
    · rw [← hk x hx]
      exact e1 _ (List.mem_map_of_mem hx)
    · intro hk'
      rw [List.map_map] at hk'
      obtain ⟨x, hx, rfl⟩ := List.mem_map.1 hk'
      exact h x hx (hk x hx)
  · intro h
    rw [a2 (.inl fun hh => h (hnodup.1 hh))]

/-- **C171 (drawn).** A parameter with three values `mean_or_min` and three values `sigma_or_max` gives as many values as its type has. -/
theorem C171_drawn {γ : Type} (g : Gen γ) (p : Param) (hm : p.mean.length = 3) (hs : p.sigma.length = 3) (s : γ) :
    ∃ v s', randomize g p s = .ok ({ p with value := v }, s') ∧ v.length = drawn p.kind := by
  obtain ⟨m0, m1, m2, hm⟩ := List.length_eq_three.1 hm
  obtain ⟨x0, x1, x2, hs⟩ := List.length_eq_three.1 hs
  unfold randomize drawValue
  rw [hm, hs]
  cases p.kind <;> exact ⟨_, _, rfl, rfl⟩

/-- **C171 (draws).** With any random numbers, all the parameters of the settings can be drawn, again and again, and each gives as many values as its type has: an exception
or undefined behaviour never occurs there. Fetching a vector of `n` elements then raises an exception exactly if `n` is greater than that number (so a
circular parameter cannot be read into a vector of three), a scalar never, and a quaternion exactly if the type is not one of the two for quaternions. -/
theorem C171_draws (rd : Reader) (file : File) (fuel : ℕ) (e : Executor) (l : ParamList) (h : initMonteCarlo rd file fuel = .ok (e, l)) {γ : Type} (g : Gen γ)
    (k : String) (p : Param) (hp : l k = some p) (seeds : List γ) :
    ∃ ps : List Param, ps.length = seeds.length ∧
      (∀ i (hi : i < seeds.length) (hi' : i < ps.length), ∃ s', randomize g ((p :: ps)[i]'(by simp; omega)) seeds[i] = .ok (ps[i], s')) ∧
      ∀ q ∈ ps, q.value.length = drawn p.kind ∧ q.kind = p.kind ∧
        (p.kind ≠ .noRandomization → ∀ (l' : ParamList) (so name : String), l' (key so name) = some q →
          (∀ (n : ℕ) (v : Vec n), getVector true l' so name v = .throws ↔ drawn p.kind < n) ∧
          (∀ x, getScalar true l' so name x ≠ .throws) ∧
          (∀ x, getQuaternion true l' so name x = .throws ↔ p.kind ≠ .quaternionUniform ∧ p.kind ≠ .quaternionNormal)) := by
  have hlen : p.mean.length = 3 ∧ p.sigma.length = 3 := by
    unfold initMonteCarlo at h
    dsimp only at h
    rcases h1 : readStrVector rd.paths (file "MONTE_CARLO_RANDOMIZATION".toList) "parameter".toList fuel with lines | _ | _ | _ <;> rw [h1] at h <;>
      simp only [Res.bind, reduceCtorEq] at h
    obtain ⟨a1, a2⟩ := addLines_ok rd (file "MONTE_CARLO_RANDOMIZATION".toList) lines fun _ => none
    by_cases hn : (lines.map lineKey).Nodup
    · obtain ⟨l', e', e1, e2⟩ := a1 hn fun _ _ => rfl
      rw [e'] at h
      obtain ⟨rfl, rfl⟩ := Prod.mk.inj (Res.ok.inj h)
      by_cases hk : k ∈ lines.map lineKey
      · obtain ⟨line, hline, rfl⟩ := List.mem_map.1 hk
        rw [e1 line hline] at hp
        obtain rfl := Option.some.inj hp
        exact ⟨rfl, rfl⟩
      · rw [e2 k hk] at hp; cases hp
    · rw [a2 (.inl hn)] at h; cases h
  clear hp h
  induction seeds generalizing p with
  | nil => exact ⟨[], rfl, by simp, by simp⟩
  | cons s seeds ih =>
    obtain ⟨v, s', h1, h2⟩ := C171_drawn g p hlen.1 hlen.2 s
    obtain ⟨ps, i1, i2, i3⟩ := ih { p with value := v } hlen
    refine ⟨{ p with value := v } :: ps, by simp [i1], ?_, ?_⟩
    · intro i hi hi'
      rcases i with _ | i
      · exact ⟨s', h1⟩
      · exact i2 i (by simpa using hi) (by simpa using hi')
    · intro q hq
      rcases List.mem_cons.1 hq with rfl | hq
      · refine ⟨h2, rfl, fun hk l' so name hl => ?_⟩
        refine ⟨fun n w => ?_, fun x => ?_, fun x => ?_⟩
        · simp only [getVector, Bool.not_true, Bool.false_eq_true, if_false, hl, Param.getVector, if_neg hk, h2]
          split_ifs with hlt
          · simpa using hlt
          · simpa using hlt
        · have hd : ¬ 1 > v.length := by
            rw [h2]
            revert hk
            cases p.kind <;> simp [drawn]
          simp only [getScalar, Bool.not_true, Bool.false_eq_true, if_false, hl, Param.getScalar, if_neg hk, if_neg hd]
          simp
        · simp only [getQuaternion, Bool.not_true, Bool.false_eq_true, if_false, hl, Param.getQuaternion, if_neg hk, h2]
          revert hk
          cases p.kind <;> simp [drawn]
      · exact i3 q hq

/-- **C171 (cases).** A run enabled with `monte_carlo_enable` has as many cases as `number_of_executions` says (a negative number is taken modulo 2⁶⁴), and a run that is
not enabled has one; the history of an enabled run is logged exactly if `log_enable` is set, that of a run that is not enabled always. -/
theorem C171_cases (rd : Reader) (file : File) (fuel : ℕ) (e : Executor) (l : ParamList) (h : initMonteCarlo rd file fuel = .ok (e, l)) :
    (∀ n, n = (if readEnable rd.paths (file "MONTE_CARLO_EXECUTION".toList) "monte_carlo_enable".toList = true then
        (whole rd file "MONTE_CARLO_EXECUTION" "number_of_executions" % 2 ^ 64).toNat else 1) →
      ∃ e', e.runCases n = .ok (n, e') ∧ e'.willExecuteNextCase = false) ∧
    (e.getSaveLog = true ↔ readEnable rd.paths (file "MONTE_CARLO_EXECUTION".toList) "monte_carlo_enable".toList = false ∨
      readEnable rd.paths (file "MONTE_CARLO_EXECUTION".toList) "log_enable".toList = true) := by
  unfold initMonteCarlo at h
  dsimp only at h
  rcases h1 : readStrVector rd.paths (file "MONTE_CARLO_RANDOMIZATION".toList) "parameter".toList fuel with lines | _ | _ | _ <;> rw [h1] at h <;>
    simp only [Res.bind, reduceCtorEq] at h
  rcases h2 : addLines rd (file "MONTE_CARLO_RANDOMIZATION".toList) lines fun _ => none with l' | _ | _ | _ <;> rw [h2] at h <;>
    simp only [reduceCtorEq] at h
  obtain ⟨rfl, rfl⟩ := Prod.mk.inj (Res.ok.inj h)
  constructor
  · rintro n rfl
    generalize hE : Executor.setSaveLog _ _ = e
    have hr : requestedCases e = (if readEnable rd.paths (file "MONTE_CARLO_EXECUTION".toList) "monte_carlo_enable".toList = true then
        (whole rd file "MONTE_CARLO_EXECUTION" "number_of_executions" % 2 ^ 64).toNat else 1) := by
      rw [← hE]
      unfold requestedCases
      rfl
    have hd : e.done = 0 := by rw [← hE]; rfl
    obtain ⟨e', k1, k2, -⟩ := C33_runs_requested_cases e (requestedCases e) (by omega)
    rw [hd, Nat.sub_zero] at k1
    rw [← hr]
    exact ⟨e', k1, k2⟩
  · rw [C33_save_log]
    rfl

/-! ## An example -/

/-- Five cases, two parameters. -/
def exFile (second : String) : File := fun sec key =>
  if sec = "MONTE_CARLO_EXECUTION".toList then
    if key = "monte_carlo_enable".toList then some "ENABLE".toList
    else if key = "number_of_executions".toList then some "5".toList
    else none
  else if sec = "MONTE_CARLO_RANDOMIZATION".toList then
    if key = "parameter(0)".toList then some "A.angle".toList
    else if key = "parameter(1)".toList then some second.toList
    else if key = "A.angle.randomization_type".toList then some "CircularNormalUniform".toList
    else if key = "A.angle.mean_or_min(1)".toList then some "1".toList
    else none
  else none

/-- A reader that understands the file. -/
noncomputable def exReader : Reader where
  paths := ⟨[], [], []⟩
  getReal := fun s => if s = "1".toList then 1 else 0
  getInteger := fun s => if s = "5".toList then 5 else 0
  rows := fun _ => []

theorem ex_plain (second : String) (h : Char.ofNat 0 ∉ process ⟨[], [], []⟩ second.toList) : Plain exReader (exFile second) := by
  intro key
  unfold readString exFile
  rw [if_neg (by decide), if_pos rfl]
  change Char.ofNat 0 ∉ process ⟨[], [], []⟩ _
  split_ifs
  · change Char.ofNat 0 ∉ process ⟨[], [], []⟩ "A.angle".toList; decide +kernel
  · exact h
  · change Char.ofNat 0 ∉ process ⟨[], [], []⟩ "CircularNormalUniform".toList; decide +kernel
  · change Char.ofNat 0 ∉ process ⟨[], [], []⟩ "1".toList; decide +kernel
  · change Char.ofNat 0 ∉ process ⟨[], [], []⟩ "NULL".toList; decide +kernel

theorem ex_lists (second : String) (h : process ⟨[], [], []⟩ second.toList = second.toList) (h' : second.toList ≠ "NULL".toList) :
    Lists exReader (exFile second) ["A.angle".toList, second.toList] := by
  have hr : ∀ (key : Str) (v : String), exFile second "MONTE_CARLO_RANDOMIZATION".toList key = some v.toList →
      process ⟨[], [], []⟩ v.toList = v.toList →
      readString exReader.paths (exFile second "MONTE_CARLO_RANDOMIZATION".toList) key = v.toList := by
    intro key v h1 h2
    unfold readString
    rw [h1]; exact h2
  refine ⟨by simp, ?_, ?_⟩
  · intro i hi
    rcases i with _ | _ | i
    · exact ⟨hr _ "A.angle" rfl (by decide +kernel), by change "A.angle".toList ≠ _; decide +kernel⟩
    · exact ⟨hr _ second (by rfl) h, h'⟩
    · simp at hi
  · have h1 : exFile second "MONTE_CARLO_RANDOMIZATION".toList ("parameter(".toList ++ dec 2 ++ ")".toList) = none := rfl
    change readString _ _ ("parameter(".toList ++ dec 2 ++ ")".toList) = _
    unfold readString
    rw [h1]
    change process ⟨[], [], []⟩ "NULL".toList = _
    decide +kernel

/-- Non-vacuity of `C171_parameters`, `C171_draws` and `C171_cases`: two parameters with different names, five cases. -/
example : ∃ e l p, initMonteCarlo exReader (exFile ".B..rate.x") 3 = .ok (e, l) ∧ l "A.angle" = some p ∧ p.kind = .circularNormalUniform ∧ p.mean = [0, 1, 0] ∧
    l "B.rate" ≠ none ∧ ∃ e', e.runCases 5 = .ok (5, e') ∧ e'.willExecuteNextCase = false := by
  have hs : process ⟨[], [], []⟩ ".B..rate.x".toList = ".B..rate.x".toList := by decide +kernel
  obtain ⟨e, l, h, h1, h2⟩ := (C171_parameters exReader (exFile ".B..rate.x") (ex_plain _ (by rw [hs]; decide))
    [⟨"A.angle".toList, "A".toList, "angle".toList⟩, ⟨".B..rate.x".toList, "B".toList, "rate".toList⟩] (ex_lists _ hs (by decide)) (by
      intro x hx
      rcases List.mem_pair.1 hx with rfl | rfl
      · exact .inl ⟨0, 0, [], by decide, by decide, by decide, by decide, by decide, .inl rfl⟩
      · exact .inl ⟨1, 1, ".x".toList, by decide, by decide, by decide, by decide, by decide, .inr ⟨['x'], by decide⟩⟩) 3 (by decide)).1 (by decide)
  obtain ⟨p, hp, g⟩ := h1 _ (List.mem_cons_self)
  obtain ⟨p', hp', -⟩ := h1 _ (List.mem_cons_of_mem _ List.mem_cons_self)
  refine ⟨e, l, p, h, hp, ?_, ?_, ?_, ?_⟩
  · have : readString exReader.paths (exFile ".B..rate.x" "MONTE_CARLO_RANDOMIZATION".toList) ("A.angle".toList ++ ".randomization_type".toList) =
      "CircularNormalUniform".toList := by decide +kernel
    have hk := g.kind
    rw [this] at hk
    revert hk
    generalize p.kind = k
    cases k <;> simp [IsKind, kindNames]
  · rw [g.mean]
    unfold readDouble
    rw [show exFile ".B..rate.x" "MONTE_CARLO_RANDOMIZATION".toList ("A.angle".toList ++ ".mean_or_min(0)".toList) = none by decide +kernel,
      show exFile ".B..rate.x" "MONTE_CARLO_RANDOMIZATION".toList ("A.angle".toList ++ ".mean_or_min(1)".toList) = some "1".toList by decide +kernel,
      show exFile ".B..rate.x" "MONTE_CARLO_RANDOMIZATION".toList ("A.angle".toList ++ ".mean_or_min(2)".toList) = none by decide +kernel]
    simp [exReader]
  · intro hn
    have : l "B.rate" = some p' := hp'
    rw [hn] at this; cases this
  · refine (C171_cases exReader _ 3 e l h).1 5 ?_
    rw [if_pos (by decide +kernel)]
    have : whole exReader (exFile ".B..rate.x") "MONTE_CARLO_EXECUTION" "number_of_executions" = 5 := by
      change (if "5".toList = "5".toList then (5 : ℤ) else 0) = 5
      rw [if_pos rfl]
    rw [this]; rfl

/-- Non-vacuity of `C171_parameters`: the same name twice, written with different dots. -/
example : initMonteCarlo exReader (exFile "A..angle") 3 = .throws := by
  have hs : process ⟨[], [], []⟩ "A..angle".toList = "A..angle".toList := by decide +kernel
  refine (C171_parameters exReader (exFile "A..angle") (ex_plain _ (by rw [hs]; decide))
    [⟨"A.angle".toList, "A".toList, "angle".toList⟩, ⟨"A..angle".toList, "A".toList, "angle".toList⟩] (ex_lists _ hs (by decide)) (by
      intro x hx
      rcases List.mem_pair.1 hx with rfl | rfl
      · exact .inl ⟨0, 0, [], by decide, by decide, by decide, by decide, by decide, .inl rfl⟩
      · exact .inl ⟨0, 1, [], by decide, by decide, by decide, by decide, by decide, .inl rfl⟩) 3 (by decide)).2 (by decide)

/-- Non-vacuity of `C171_drawn`. -/
example : drawn .circularNormalNormal = 2 ∧ (⟨[], [0, 0, 0], [1, 1, 1], .circularNormalNormal⟩ : Param).mean.length = 3 := ⟨rfl, rfl⟩

end S2E.InitMonteCarlo
