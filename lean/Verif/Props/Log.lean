import Verif.Props.Csv
/-! # C51: log columns line up; C74: log column names -/
namespace S2E.LogProps
open S2E.Log S2E.Ini S2E.Csv

/-- A text that cannot break a table cell. -/
def Clean (f : Str) : Prop := ',' ∉ f ∧ '\n' ∉ f

/-- The text is exactly the given cells, each ended by a comma. -/
def Row (s : Str) (cells : List Str) : Prop := s = terminated ',' cells ∧ ∀ f ∈ cells, Clean f

theorem Row.append {s t : Str} {a b : List Str} (h : Row s a) (h' : Row t b) : Row (s ++ t) (a ++ b) := by
  obtain ⟨rfl, h1⟩ := h; obtain ⟨rfl, h2⟩ := h'
  refine ⟨by simp [terminated], ?_⟩
  intro f hf; rcases List.mem_append.1 hf with h | h
  · exact h1 f h
  · exact h2 f h

theorem Row.nil : Row [] [] := ⟨rfl, by simp⟩

theorem foldl_append {α : Type} (g : α → Str) (l : List α) : ∀ s, l.foldl (fun s i => s ++ g i) s = s ++ l.flatMap g := by
  induction l with
  | nil => intro s; simp
  | cons x xs ih => intro s; simp [ih]

theorem Row.flatMap {α : Type} (g : α → Str) (c : α → List Str) (l : List α) (h : ∀ x ∈ l, Row (g x) (c x)) :
    Row (l.flatMap g) (l.flatMap c) := by
  induction l with
  | nil => exact Row.nil
  | cons x xs ih =>
    simp only [List.flatMap_cons]
    exact (h x (by simp)).append (ih (fun y hy => h y (by simp [hy])))

theorem Row.foldl {α : Type} (g : α → Str) (c : α → List Str) (l : List α) (h : ∀ x ∈ l, Row (g x) (c x)) :
    Row (l.foldl (fun s x => s ++ g x) []) (l.flatMap c) := by
  rw [foldl_append, List.nil_append]; exact Row.flatMap g c l h

theorem Row.columns {s : Str} {cells : List Str} (h : Row s cells) : split ',' s = cells := by
  rw [h.1]; exact C53_split_terminated ',' cells (fun f hf => (h.2 f hf).1)

theorem dec_clean (n : Nat) : Clean (dec n) := by
  have h : ∀ c ∈ dec n, c.isDigit = true := fun c hc => Nat.isDigit_of_mem_toDigits (by norm_num) (by norm_num) hc
  exact ⟨fun hc => absurd (h _ hc) (by decide), fun hc => absurd (h _ hc) (by decide)⟩

theorem Clean.append {a b : Str} (ha : Clean a) (hb : Clean b) : Clean (a ++ b) := by
  refine ⟨fun h => ?_, fun h => ?_⟩
  · rcases List.mem_append.1 h with h | h
    · exact ha.1 h
    · exact hb.1 h
  · rcases List.mem_append.1 h with h | h
    · exact ha.2 h
    · exact hb.2 h

theorem Row.single {f : Str} (h : Clean f) : Row (f ++ [',']) [f] := ⟨by simp [terminated], by simpa using h⟩

/-! ## C51 -/

/-- **C51.** Scalars: one cell each, `name[unit]` above the number. -/
theorem C51_scalar {V : Type} (fmt : Nat → V → Str) (hf : ∀ p x, Clean (fmt p x)) (name unit : Str) (hn : Clean name) (hu : Clean unit) (p : Nat) (x : V) :
    split ',' (scalarHeader name unit) = [name ++ "[".toList ++ unit ++ "]".toList] ∧ split ',' (scalarValue fmt p x) = [fmt p x] := by
  refine ⟨Row.columns ⟨by simp [scalarHeader, terminated], ?_⟩, Row.columns (Row.single (hf p x))⟩
  intro f h; rw [List.mem_singleton.1 h]
  exact ((hn.append (by constructor <;> decide)).append hu).append (by constructor <;> decide)

theorem row_scalarHeader {name unit : Str} (hn : Clean name) (hu : Clean unit) :
    Row (scalarHeader name unit) [name ++ "[".toList ++ unit ++ "]".toList] := by
  refine ⟨by simp [scalarHeader, terminated], ?_⟩
  intro f h; rw [List.mem_singleton.1 h]
  exact ((hn.append (by constructor <;> decide)).append hu).append (by constructor <;> decide)

theorem row_scalarValue {V : Type} {fmt : Nat → V → Str} (hf : ∀ p x, Clean (fmt p x)) (p : Nat) (x : V) : Row (scalarValue fmt p x) [fmt p x] :=
  Row.single (hf p x)

/-- The name of column `i` of a vector of the given length. -/
def vectorColumn (name frame unit : Str) (length i : Nat) : Str :=
  name ++ "_".toList ++ frame ++ (if length = 3 then axisName i else "(".toList ++ dec i ++ ")".toList) ++ "[".toList ++ unit ++ "]".toList

theorem axis_clean (i : Nat) : Clean (axisName i) := by
  unfold axisName; split
  · constructor <;> decide
  · split <;> constructor <;> decide

theorem vectorColumn_clean {name frame unit : Str} (hn : Clean name) (hf : Clean frame) (hu : Clean unit) (length i : Nat) :
    Clean (vectorColumn name frame unit length i) := by
  have hc : ∀ s : Str, s ∈ ["_".toList, "[".toList, "]".toList, "(".toList, ")".toList] → Clean s := by
    intro s hs; simp at hs; rcases hs with rfl | rfl | rfl | rfl | rfl <;> constructor <;> decide
  unfold vectorColumn
  refine ((Clean.append (Clean.append ((hn.append (hc _ (by simp))).append hf) ?_) (hc _ (by simp))).append hu).append (hc _ (by simp))
  split
  · exact axis_clean i
  · exact ((hc _ (by simp)).append (dec_clean i)).append (hc _ (by simp))

theorem row_vectorHeader {name frame unit : Str} (hn : Clean name) (hf : Clean frame) (hu : Clean unit) (length : Nat) :
    Row (vectorHeader name frame unit length) ((List.range length).map (vectorColumn name frame unit length)) := by
  have e : vectorHeader name frame unit length = (List.range length).foldl (fun s i => s ++ (vectorColumn name frame unit length i ++ [','])) [] := by
    unfold vectorHeader vectorColumn
    congr 1; funext s i
    split <;> simp
  rw [e, List.map_eq_flatMap]
  exact Row.foldl _ _ _ (fun i _ => Row.single (vectorColumn_clean hn hf hu length i))

theorem row_vectorValue {V : Type} {fmt : Nat → V → Str} (hf : ∀ p x, Clean (fmt p x)) (p : Nat) {n : Nat} (v : Fin n → V) :
    Row (vectorValue fmt p v) ((List.finRange n).map (fun i => fmt p (v i))) := by
  have e : vectorValue fmt p v = (List.finRange n).foldl (fun s i => s ++ (fmt p (v i) ++ [','])) [] := by
    unfold vectorValue; congr 1; funext s i; simp
  rw [e, List.map_eq_flatMap]
  exact Row.foldl _ _ _ (fun i _ => Row.single (hf p (v i)))

/-- **C51.** Vectors: the header and the values have the same cells, one per element in index order. -/
theorem C51_vector {V : Type} (fmt : Nat → V → Str) (hf : ∀ p x, Clean (fmt p x)) (name frame unit : Str) (hn : Clean name) (hfr : Clean frame)
    (hu : Clean unit) (p n : Nat) (v : Fin n → V) (i : Fin n) :
    (split ',' (vectorHeader name frame unit n)).length = n ∧ (split ',' (vectorValue fmt p v)).length = n ∧
    (split ',' (vectorHeader name frame unit n))[i.val]? = some (vectorColumn name frame unit n i.val) ∧
    (split ',' (vectorValue fmt p v))[i.val]? = some (fmt p (v i)) := by
  rw [(row_vectorHeader hn hfr hu n).columns, (row_vectorValue hf p v).columns]
  refine ⟨by simp, by simp, ?_, ?_⟩
  · rw [List.getElem?_map, List.getElem?_range i.isLt]; rfl
  · simp [List.getElem?_map]

/-- The name of a matrix column. -/
def matrixColumn (name frame unit : Str) (i j : Nat) : Str :=
  name ++ "_".toList ++ frame ++ "(".toList ++ dec i ++ dec j ++ ")".toList ++ "[".toList ++ unit ++ "]".toList

theorem matrixColumn_clean {name frame unit : Str} (hn : Clean name) (hf : Clean frame) (hu : Clean unit) (i j : Nat) :
    Clean (matrixColumn name frame unit i j) := by
  have hc : ∀ s : Str, s ∈ ["_".toList, "[".toList, "]".toList, "(".toList, ")".toList] → Clean s := by
    intro s hs; simp at hs; rcases hs with rfl | rfl | rfl | rfl | rfl <;> constructor <;> decide
  unfold matrixColumn
  exact ((((((((hn.append (hc _ (by simp))).append hf).append (hc _ (by simp))).append (dec_clean i)).append (dec_clean j)).append (hc _ (by simp))).append
    (hc _ (by simp))).append hu).append (hc _ (by simp))

theorem foldl_foldl {α β : Type} (l : List α) (m : α → List β) (g : α → β → Str) : ∀ s,
    l.foldl (fun s i => (m i).foldl (fun s j => s ++ g i j) s) s = s ++ l.flatMap (fun i => (m i).flatMap (g i)) := by
  induction l with
  | nil => intro s; simp
  | cons x xs ih => intro s; simp only [List.foldl_cons, ih, foldl_append, List.flatMap_cons, List.append_assoc]

theorem row_matrixHeader {name frame unit : Str} (hn : Clean name) (hf : Clean frame) (hu : Clean unit) (r c : Nat) :
    Row (matrixHeader name frame unit r c) ((List.range r).flatMap (fun i => (List.range c).map (matrixColumn name frame unit i))) := by
  have e : matrixHeader name frame unit r c = (List.range r).foldl (fun s i => (List.range c).foldl (fun s j =>
      s ++ (matrixColumn name frame unit i j ++ [','])) s) [] := by
    unfold matrixHeader matrixColumn
    congr 1; funext s i; congr 1; funext s j; simp
  rw [e, foldl_foldl, List.nil_append]
  refine Row.flatMap _ _ _ (fun i _ => ?_)
  rw [List.map_eq_flatMap]
  exact Row.flatMap _ _ _ (fun j _ => Row.single (matrixColumn_clean hn hf hu i j))

theorem row_matrixValue {V : Type} {fmt : Nat → V → Str} (hf : ∀ p x, Clean (fmt p x)) (p : Nat) {r c : Nat} (m : Fin r → Fin c → V) :
    Row (matrixValue fmt p m) ((List.finRange r).flatMap (fun i => (List.finRange c).map (fun j => fmt p (m i j)))) := by
  have e : matrixValue fmt p m = (List.finRange r).foldl (fun s i => (List.finRange c).foldl (fun s j => s ++ (fmt p (m i j) ++ [','])) s) [] := by
    unfold matrixValue; congr 1; funext s i; congr 1; funext s j; simp
  rw [e, foldl_foldl, List.nil_append]
  refine Row.flatMap _ _ _ (fun i _ => ?_)
  rw [List.map_eq_flatMap]
  exact Row.flatMap _ _ _ (fun j _ => Row.single (hf p (m i j)))

theorem flatMap_getElem {α : Type} (c : Nat) (l : List Nat) (g : Nat → List α) (hg : ∀ i, (g i).length = c) (r : Nat) :
    ((List.range r).flatMap g).length = r * c := by
  simp [List.length_flatMap, hg]

/-- Element `i * c + j` of `r` blocks of length `c`. -/
theorem flatMap_block {α β : Type} (c : Nat) (g : β → List α) (hg : ∀ b, (g b).length = c) (l : List β) : ∀ (i : Nat) (b : β) (j : Nat), l[i]? = some b →
    j < c → (l.flatMap g)[i * c + j]? = (g b)[j]? := by
  induction l with
  | nil => intro i b j h _; simp at h
  | cons x xs ih =>
    intro i b j h hj
    rw [List.flatMap_cons]
    rcases i with _ | i
    · simp only [List.getElem?_cons_zero, Option.some.injEq] at h
      subst h
      rw [List.getElem?_append_left (by rw [hg]; omega)]; simp
    · rw [List.getElem?_append_right (by rw [hg, Nat.succ_mul]; omega), hg, show (i + 1) * c + j - c = i * c + j by rw [Nat.succ_mul]; omega]
      exact ih i b j (by simpa using h) hj

/-- **C51.** Matrices: the same number of cells, in row-major order, in header and values. -/
theorem C51_matrix {V : Type} (fmt : Nat → V → Str) (hf : ∀ p x, Clean (fmt p x)) (name frame unit : Str) (hn : Clean name) (hfr : Clean frame)
    (hu : Clean unit) (p r c : Nat) (m : Fin r → Fin c → V) (i : Fin r) (j : Fin c) :
    (split ',' (matrixHeader name frame unit r c)).length = r * c ∧ (split ',' (matrixValue fmt p m)).length = r * c ∧
    (split ',' (matrixHeader name frame unit r c))[i.val * c + j.val]? = some (matrixColumn name frame unit i.val j.val) ∧
    (split ',' (matrixValue fmt p m))[i.val * c + j.val]? = some (fmt p (m i j)) := by
  rw [(row_matrixHeader hn hfr hu r c).columns, (row_matrixValue hf p m).columns]
  refine ⟨by simp [List.length_flatMap], by simp [List.length_flatMap], ?_, ?_⟩
  · rw [flatMap_block c _ (by simp) _ i.val i.val j.val (by rw [List.getElem?_range i.isLt]) j.isLt, List.getElem?_map,
      List.getElem?_range j.isLt]; rfl
  · rw [flatMap_block c _ (by simp) _ i.val i j.val (by simp) j.isLt]; simp [List.getElem?_map]

/-- **C51.** Quaternions: four cells each, in the order x, y, z, w. -/
theorem C51_quaternion {V : Type} (fmt : Nat → V → Str) (hf : ∀ p x, Clean (fmt p x)) (name frame : Str) (hn : Clean name) (hfr : Clean frame)
    (p : Nat) (q : Fin 4 → V) :
    split ',' (quaternionHeader name frame) = ["_x".toList, "_y".toList, "_z".toList, "_w".toList].map (fun a => name ++ "_".toList ++ frame ++ a) ∧
    split ',' (quaternionValue fmt p q) = [fmt p (q 0), fmt p (q 1), fmt p (q 2), fmt p (q 3)] := by
  constructor
  · apply Row.columns
    have e : quaternionHeader name frame = ["_x".toList, "_y".toList, "_z".toList, "_w".toList].foldl
        (fun s a => s ++ ((name ++ "_".toList ++ frame ++ a) ++ [','])) [] := by
      unfold quaternionHeader; congr 1; funext s i; simp
    rw [e, List.map_eq_flatMap]
    refine Row.foldl _ _ _ (fun a ha => Row.single (((hn.append (by constructor <;> decide)).append hfr).append ?_))
    simp at ha; rcases ha with rfl | rfl | rfl | rfl <;> constructor <;> decide
  · exact (row_vectorValue hf p q).columns

/-! ### The log file -/

/-- A loggable whose header and values consist of the given cells. -/
structure Source where
  enabled : Bool
  names : List Str
  cells : Nat → List Str      -- at the k-th output

/-- It has clean cells, as many as its header at every output. -/
def Source.Ok (x : Source) : Prop := (∀ f ∈ x.names, Clean f) ∧ ∀ k, (x.cells k).length = x.names.length ∧ ∀ f ∈ x.cells k, Clean f

/-- What the logger sees of it at output `k`. -/
def Source.at (x : Source) (k : Nat) : Loggable := ⟨x.enabled, terminated ',' x.names, terminated ',' (x.cells k)⟩

/-- The log list as it is at output `k`. -/
def Logger.withList (l : Logger) (xs : List Source) (k : Nat) : Logger := { l with logList := xs.map (Source.at · k) }

/-- One header line and `n` value lines. -/
def writeLog (l : Logger) (xs : List Source) : Nat → Logger
  | 0 => (Logger.withList l xs 0).writeHeaders true
  | n + 1 => (Logger.withList (writeLog l xs n) xs n).writeValues true

theorem fold_write (sel : Loggable → Str) (xs : List Loggable) : ∀ l : Logger, l.isEnabled = true →
    xs.foldl (fun acc x => if !x.isLogEnabled then acc else acc.write (sel x)) l =
      { l with file := l.file ++ (xs.filter (·.isLogEnabled)).flatMap sel } := by
  induction xs with
  | nil => intro l _; simp
  | cons x xs ih =>
    intro l hl
    rw [List.foldl_cons]
    by_cases hx : x.isLogEnabled = true
    · have e : (if (!x.isLogEnabled) = true then l else l.write (sel x)) = { l with file := l.file ++ sel x } := by
        simp [hx, Logger.write, hl]
      rw [e, ih ⟨l.isEnabled, l.logList, l.file ++ sel x⟩ hl]; simp [hx, List.append_assoc]
    · have e : (if (!x.isLogEnabled) = true then l else l.write (sel x)) = l := by simp [hx]
      rw [e, ih l hl]; simp [hx]

/-- The cells of all enabled sources, in list order. -/
def headerCells (xs : List Source) : List Str := (xs.filter (·.enabled)).flatMap (·.names)
@[inherit_doc headerCells] def valueCells (xs : List Source) (k : Nat) : List Str := (xs.filter (·.enabled)).flatMap (·.cells k)

theorem header_line (l : Logger) (xs : List Source) (hl : l.isEnabled = true) :
    ((Logger.withList l xs 0).writeHeaders true).file = l.file ++ terminated ',' (headerCells xs) ++ ['\n'] ∧
    ((Logger.withList l xs 0).writeHeaders true).isEnabled = true := by
  unfold Logger.writeHeaders Logger.withList
  simp only
  rw [fold_write (fun x => x.header) _ ⟨l.isEnabled, xs.map (Source.at · 0), l.file⟩ hl]
  simp only [if_true, Logger.writeNewLine, Logger.write, hl]
  refine ⟨?_, trivial⟩
  congr 1; congr 1
  unfold headerCells
  induction xs with
  | nil => rfl
  | cons x xs ih =>
    by_cases hx : x.enabled = true
    · simp only [List.map_cons, List.filter_cons, Source.at, hx, if_true, List.flatMap_cons] at ih ⊢
      rw [ih]; simp [terminated]
    · simp only [List.map_cons, List.filter_cons, Source.at, hx] at ih ⊢
      exact ih

theorem value_line (l : Logger) (xs : List Source) (k : Nat) (hl : l.isEnabled = true) :
    ((Logger.withList l xs k).writeValues true).file = l.file ++ terminated ',' (valueCells xs k) ++ ['\n'] ∧
    ((Logger.withList l xs k).writeValues true).isEnabled = true := by
  unfold Logger.writeValues Logger.withList
  simp only
  rw [fold_write (fun x => x.value) _ ⟨l.isEnabled, xs.map (Source.at · k), l.file⟩ hl]
  simp only [if_true, Logger.writeNewLine, Logger.write, hl]
  refine ⟨?_, trivial⟩
  congr 1; congr 1
  unfold valueCells
  induction xs with
  | nil => rfl
  | cons x xs ih =>
    by_cases hx : x.enabled = true
    · simp only [List.map_cons, List.filter_cons, Source.at, hx, if_true, List.flatMap_cons] at ih ⊢
      rw [ih]; simp [terminated]
    · simp only [List.map_cons, List.filter_cons, Source.at, hx] at ih ⊢
      exact ih

theorem cells_clean (xs : List Source) (h : ∀ x ∈ xs, x.Ok) (k : Nat) :
    (∀ f ∈ headerCells xs, Clean f) ∧ (∀ f ∈ valueCells xs k, Clean f) ∧ (valueCells xs k).length = (headerCells xs).length := by
  induction xs with
  | nil => simp [headerCells, valueCells]
  | cons x xs ih =>
    obtain ⟨h1, h2, h3⟩ := ih (fun y hy => h y (by simp [hy]))
    have hx := h x (by simp)
    unfold headerCells valueCells at *
    by_cases he : x.enabled = true
    · simp only [List.filter_cons, he, if_true, List.flatMap_cons, List.mem_append, List.length_append, h3, (hx.2 k).1]
      refine ⟨?_, ?_, trivial⟩
      · rintro f (hf | hf)
        · exact hx.1 f hf
        · exact h1 f hf
      · rintro f (hf | hf)
        · exact (hx.2 k).2 f hf
        · exact h2 f hf
    · simp only [List.filter_cons, he]
      exact ⟨h1, h2, h3⟩

theorem newline_free (cells : List Str) (h : ∀ f ∈ cells, Clean f) : '\n' ∉ terminated ',' cells := by
  unfold terminated
  rw [List.mem_flatMap]
  rintro ⟨f, hf, hm⟩
  rcases List.mem_append.1 hm with hm | hm
  · exact (h f hf).2 hm
  · simp at hm

theorem writeLog_lines (l : Logger) (xs : List Source) (hl : l.isEnabled = true) (h0 : l.file = []) (n : Nat) :
    (writeLog l xs n).file = terminated '\n' (terminated ',' (headerCells xs) :: (List.range n).map (fun k => terminated ',' (valueCells xs k))) ∧
    (writeLog l xs n).isEnabled = true := by
  induction n with
  | zero =>
    obtain ⟨h1, h2⟩ := header_line l xs hl
    refine ⟨?_, h2⟩
    show ((Logger.withList l xs 0).writeHeaders true).file = _
    rw [h1, h0]; simp [terminated]
  | succ n ih =>
    obtain ⟨h1, h2⟩ := value_line (writeLog l xs n) xs n ih.2
    refine ⟨?_, h2⟩
    show ((Logger.withList (writeLog l xs n) xs n).writeValues true).file = _
    rw [h1, ih.1, List.range_succ]; simp [terminated]

/-- **C51.** The log file: after one header output and `n` value outputs of an enabled logger, the file read back is `n + 1` lines; the header
line's cells are the names of the enabled sources in registration order, line `k + 1` has the cells of output `k` of the same sources in the
same order, and all lines have the same number of cells. -/
theorem C51_file (l : Logger) (xs : List Source) (hl : l.isEnabled = true) (h0 : l.file = []) (h : ∀ x ∈ xs, x.Ok) (n : Nat) :
    (readCsvString (writeLog l xs n).file).length = n + 1 ∧ (readCsvString (writeLog l xs n).file)[0]? = some (headerCells xs) ∧
    (∀ k < n, (readCsvString (writeLog l xs n).file)[k + 1]? = some (valueCells xs k)) ∧
    ∀ row ∈ readCsvString (writeLog l xs n).file, row.length = (headerCells xs).length := by
  have e : readCsvString (writeLog l xs n).file = headerCells xs :: (List.range n).map (fun k => valueCells xs k) := by
    unfold readCsvString linesOf
    rw [(writeLog_lines l xs hl h0 n).1, C53_split_terminated]
    · rw [List.map_cons, List.map_map]
      congr 1
      · exact C53_split_terminated ',' _ (fun f hf => ((cells_clean xs h 0).1 f hf).1)
      · apply List.map_congr_left
        intro k _
        exact C53_split_terminated ',' _ (fun f hf => ((cells_clean xs h k).2.1 f hf).1)
    · intro f hf
      rcases List.mem_cons.1 hf with rfl | hf
      · exact newline_free _ (cells_clean xs h 0).1
      · obtain ⟨k, _, rfl⟩ := List.mem_map.1 hf
        exact newline_free _ (cells_clean xs h k).2.1
  rw [e]
  refine ⟨by simp, rfl, ?_, ?_⟩
  · intro k hk; simp [List.getElem?_range hk]
  · intro row hrow
    rcases List.mem_cons.1 hrow with rfl | hr
    · rfl
    · obtain ⟨k, _, rfl⟩ := List.mem_map.1 hr
      exact (cells_clean xs h k).2.2

/-- **C51.** A disabled logger writes nothing, whatever is called on it. -/
theorem C51_disabled (l : Logger) (hl : l.isEnabled = false) (b : Bool) : (l.writeHeaders b).file = l.file ∧ (l.writeValues b).file = l.file := by
  have h : ∀ (sel : Loggable → Str) (xs : List Loggable), xs.foldl (fun acc x => if !x.isLogEnabled then acc else acc.write (sel x)) l = l := by
    intro sel xs
    induction xs with
    | nil => rfl
    | cons x xs ih =>
      rw [List.foldl_cons]
      have : (if (!x.isLogEnabled) = true then l else l.write (sel x)) = l := by split <;> simp [Logger.write, hl]
      rw [this, ih]
  have hw : ∀ s, l.write s = l := fun s => by simp [Logger.write, hl]
  unfold Logger.writeHeaders Logger.writeValues
  simp only [h, Logger.writeNewLine, hw]
  cases b <;> exact ⟨rfl, rfl⟩

/-- **C51.** A logger without anything in its list, or with everything disabled, writes empty lines only. -/
example : (writeLog ⟨true, [], []⟩ [⟨true, ["a".toList, "b".toList], fun k => [dec k, "x".toList]⟩, ⟨false, ["c".toList], fun _ => ["y".toList]⟩] 2).file =
    "a,b,\n0,x,\n1,x,\n".toList := by decide +kernel

/-! ### Components with a variable number of columns -/

theorem lit_clean (s : String) (h : (',' ∉ s.toList ∧ '\n' ∉ s.toList)) : Clean s.toList := h

theorem count_eq {s t : Str} {a b : List Str} (h : Row s a) (h' : Row t b) (hab : a.length = b.length) : (split ',' s).length = (split ',' t).length := by
  rw [h.columns, h'.columns, hab]

theorem flatMap_len {α β : Type} (l : List α) (g : α → List β) (k : α → Nat) (h : ∀ x ∈ l, (g x).length = k x) : (l.flatMap g).length = (l.map k).sum := by
  induction l with
  | nil => rfl
  | cons x xs ih => simp only [List.flatMap_cons, List.length_append, List.map_cons, List.sum_cons]; rw [h x (by simp), ih (fun y hy => h y (by simp [hy]))]

/-- **C51.** Relative information of `n` spacecraft: header and values have the same number of columns, three per quantity and ordered pair. -/
theorem C51_relative {V : Type} (fmt : Nat → V → Str) (hf : ∀ p x, Clean (fmt p x)) (n : Nat) (a b c d : Nat → Nat → Fin 3 → V) :
    (split ',' (relativeHeader n)).length = (split ',' (relativeValue fmt n a b c d)).length ∧ (split ',' (relativeHeader n)).length = 6 * (n * (n - 1)) := by
  have hh : ∀ (q f u : Str), Clean q → Clean f → Clean u → ∃ cells, Row (relativeBlockHeader n q f u) cells ∧ cells.length = ((List.range n).map (fun t => 3 * t)).sum := by
    intro q f u hq hfr hu
    refine ⟨(List.range n).flatMap (fun t => (List.range t).flatMap (fun r => (List.range 3).map (vectorColumn ("satellite".toList ++ dec t ++ q ++ dec r) f u 3))), ?_, ?_⟩
    · unfold relativeBlockHeader
      rw [foldl_foldl, List.nil_append]
      exact Row.flatMap _ _ _ (fun t _ => Row.flatMap _ _ _ (fun r _ => row_vectorHeader
        ((((lit_clean "satellite" (by decide)).append (dec_clean t)).append hq).append (dec_clean r)) hfr hu 3))
    · apply flatMap_len
      intro t _
      rw [flatMap_len _ _ (fun _ => 3) (by simp)]; simp [Nat.mul_comm]
  have hv : ∀ v : Nat → Nat → Fin 3 → V, ∃ cells, Row ((List.range n).foldl (fun s t => (List.range t).foldl (fun s r => s ++ vectorValue fmt 6 (v t r)) s) []) cells ∧
      cells.length = ((List.range n).map (fun t => 3 * t)).sum := by
    intro v
    refine ⟨(List.range n).flatMap (fun t => (List.range t).flatMap (fun r => (List.finRange 3).map (fun i => fmt 6 (v t r i)))), ?_, ?_⟩
    · rw [foldl_foldl, List.nil_append]
      exact Row.flatMap _ _ _ (fun t _ => Row.flatMap _ _ _ (fun r _ => row_vectorValue hf 6 (v t r)))
    · apply flatMap_len
      intro t _
      rw [flatMap_len _ _ (fun _ => 3) (by simp)]; simp [Nat.mul_comm]
  obtain ⟨c1, r1, l1⟩ := hh _ "i".toList "m".toList (lit_clean "_position_from_satellite" (by decide)) (lit_clean "i" (by decide)) (lit_clean "m" (by decide))
  obtain ⟨c2, r2, l2⟩ := hh _ "i".toList "m/s".toList (lit_clean "_velocity_from_satellite" (by decide)) (lit_clean "i" (by decide)) (lit_clean "m/s" (by decide))
  obtain ⟨c3, r3, l3⟩ := hh _ "rtn".toList "m".toList (lit_clean "_position_from_satellite" (by decide)) (lit_clean "rtn" (by decide)) (lit_clean "m" (by decide))
  obtain ⟨c4, r4, l4⟩ := hh _ "rtn".toList "m/s".toList (lit_clean "_velocity_from_satellite" (by decide)) (lit_clean "rtn" (by decide)) (lit_clean "m/s" (by decide))
  obtain ⟨d1, s1, m1⟩ := hv a
  obtain ⟨d2, s2, m2⟩ := hv b
  obtain ⟨d3, s3, m3⟩ := hv c
  obtain ⟨d4, s4, m4⟩ := hv d
  have R : Row (relativeHeader n) (c1 ++ c2 ++ c3 ++ c4) := ((r1.append r2).append r3).append r4
  have S : Row (relativeValue fmt n a b c d) (d1 ++ d2 ++ d3 ++ d4) := ((s1.append s2).append s3).append s4
  refine ⟨count_eq R S (by simp only [List.length_append, l1, l2, l3, l4, m1, m2, m3, m4]), ?_⟩
  rw [R.columns]
  simp only [List.length_append, l1, l2, l3, l4]
  have hsum : ∀ m : Nat, 2 * ((List.range m).map (fun t => 3 * t)).sum = 3 * (m * (m - 1)) := by
    intro m
    induction m with
    | zero => rfl
    | succ m ih =>
      rw [List.range_succ, List.map_append, List.sum_append, Nat.mul_add, ih]
      rcases m with _ | m
      · rfl
      · simp; ring
  have := hsum n
  omega

/-- **C51.** Thermal nodes: five columns per node that is not a boundary node, in header and values. -/
theorem C51_temperature {V : Type} (fmt : Nat → V → Str) (hf : ∀ p x, Clean (fmt p x)) (nodes : List (NodeInfo × (Fin 5 → V)))
    (hn : ∀ x ∈ nodes, Clean x.1.name) :
    (split ',' (temperatureHeader (nodes.map (·.1)))).length = (split ',' (temperatureValue fmt nodes)).length ∧
    (split ',' (temperatureHeader (nodes.map (·.1)))).length = 5 * (nodes.filter (fun x => !x.1.isBoundary)).length := by
  have hh : ∀ label unit : Str, Clean label → Clean unit → ∃ cells, Row ((nodes.map (·.1)).foldl (fun s x => if !x.isBoundary then
      s ++ scalarHeader (label ++ dec x.id ++ " (".toList ++ x.name ++ ")".toList) unit else s) []) cells ∧
      cells.length = (nodes.filter (fun x => !x.1.isBoundary)).length := by
    intro label unit hl hu
    have : ∀ s : Str, ∀ cs, Row s cs → ∃ cells, Row ((nodes.map (·.1)).foldl (fun s x => if !x.isBoundary then
        s ++ scalarHeader (label ++ dec x.id ++ " (".toList ++ x.name ++ ")".toList) unit else s) s) cells ∧
        cells.length = cs.length + (nodes.filter (fun x => !x.1.isBoundary)).length := by
      induction nodes with
      | nil => intro s cs h; exact ⟨cs, h, by simp⟩
      | cons x xs ih =>
        intro s cs h
        rw [List.map_cons, List.foldl_cons]
        by_cases hb : x.1.isBoundary = true
        · obtain ⟨cells, h1, h2⟩ := ih (fun y hy => hn y (by simp [hy])) s cs h
          refine ⟨cells, ?_, by simp [hb, h2]⟩
          simpa [hb] using h1
        · obtain ⟨cells, h1, h2⟩ := ih (fun y hy => hn y (by simp [hy])) _ _ (h.append (row_scalarHeader (name := label ++ dec x.1.id ++ " (".toList ++ x.1.name ++ ")".toList)
            ((((hl.append (dec_clean x.1.id)).append (lit_clean " (" (by decide))).append (hn x (by simp))).append (lit_clean ")" (by decide))) hu))
          refine ⟨cells, ?_, ?_⟩
          · simp only [hb]; exact h1
          · simp only [h2, List.length_append, List.length_cons, List.length_nil, hb, List.filter_cons]; simp; omega
    obtain ⟨cells, h1, h2⟩ := this [] [] Row.nil
    exact ⟨cells, h1, by simpa using h2⟩
  have hv : ∀ k : Fin 5, ∃ cells, Row (nodes.foldl (fun s x => if !x.1.isBoundary then s ++ scalarValue fmt 6 (x.2 k) else s) []) cells ∧
      cells.length = (nodes.filter (fun x => !x.1.isBoundary)).length := by
    intro k
    have : ∀ s : Str, ∀ cs, Row s cs → ∃ cells, Row (nodes.foldl (fun s x => if !x.1.isBoundary then s ++ scalarValue fmt 6 (x.2 k) else s) s) cells ∧
        cells.length = cs.length + (nodes.filter (fun x => !x.1.isBoundary)).length := by
      clear hh
      induction nodes with
      | nil => intro s cs h; exact ⟨cs, h, by simp⟩
      | cons x xs ih =>
        intro s cs h
        rw [List.foldl_cons]
        by_cases hb : x.1.isBoundary = true
        · obtain ⟨cells, h1, h2⟩ := ih (fun y hy => hn y (by simp [hy])) s cs h
          refine ⟨cells, ?_, by simp [hb, h2]⟩
          simpa [hb] using h1
        · obtain ⟨cells, h1, h2⟩ := ih (fun y hy => hn y (by simp [hy])) _ _ (h.append (row_scalarValue hf 6 (x.2 k)))
          refine ⟨cells, ?_, ?_⟩
          · simp only [hb]; exact h1
          · simp only [h2, List.length_append, List.length_cons, List.length_nil, hb, List.filter_cons]; simp; omega
    obtain ⟨cells, h1, h2⟩ := this [] [] Row.nil
    exact ⟨cells, h1, by simpa using h2⟩
  obtain ⟨c1, r1, l1⟩ := hh _ _ (lit_clean "temp_" (by decide)) (lit_clean "deg" (by decide))
  obtain ⟨c2, r2, l2⟩ := hh _ _ (lit_clean "heat_" (by decide)) (lit_clean "W" (by decide))
  obtain ⟨c3, r3, l3⟩ := hh _ _ (lit_clean "solar_" (by decide)) (lit_clean "W" (by decide))
  obtain ⟨c4, r4, l4⟩ := hh _ _ (lit_clean "albedo_" (by decide)) (lit_clean "W" (by decide))
  obtain ⟨c5, r5, l5⟩ := hh _ _ (lit_clean "earthIR_" (by decide)) (lit_clean "W" (by decide))
  obtain ⟨d1, s1, m1⟩ := hv 0
  obtain ⟨d2, s2, m2⟩ := hv 1
  obtain ⟨d3, s3, m3⟩ := hv 2
  obtain ⟨d4, s4, m4⟩ := hv 3
  obtain ⟨d5, s5, m5⟩ := hv 4
  have R : Row (temperatureHeader (nodes.map (·.1))) (c1 ++ c2 ++ c3 ++ c4 ++ c5) := (((r1.append r2).append r3).append r4).append r5
  have S : Row (temperatureValue fmt nodes) (d1 ++ d2 ++ d3 ++ d4 ++ d5) := (((s1.append s2).append s3).append s4).append s5
  refine ⟨count_eq R S (by simp only [List.length_append, l1, l2, l3, l4, l5, m1, m2, m3, m4, m5]), ?_⟩
  rw [R.columns]; simp only [List.length_append, l1, l2, l3, l4, l5]; omega

theorem cl (s : String) (h : (',' ∉ s.toList ∧ '\n' ∉ s.toList) := by decide) : Clean s.toList := h

/-- **C51.** A ground station: one flag per spacecraft and three position columns, in header and values. -/
theorem C51_ground_station {V : Type} (fmt : Nat → V → Str) (hf : ∀ p x, Clean (fmt p x)) (id n : Nat) (visible : Nat → V) (pos : Fin 3 → V) :
    (split ',' (groundStationHeader id n)).length = n + 3 ∧ (split ',' (groundStationValue fmt n visible pos)).length = n + 3 := by
  have R : Row (groundStationHeader id n) _ := (Row.foldl _ (fun i => [_]) (List.range n) (fun i _ => Row.single (f := "ground_station".toList ++ dec id ++ "_".toList ++
    "sc".toList ++ dec i ++ "_visible_flag".toList) (((((( cl "ground_station").append (dec_clean id)).append (cl "_")).append (cl "sc")).append (dec_clean i)).append (cl "_visible_flag")))).append
    (row_vectorHeader (cl "ground_station_position") (cl "eci") (cl "m") 3)
  have S : Row (groundStationValue fmt n visible pos) _ := (Row.foldl _ (fun i => [_]) (List.range n) (fun i _ => row_scalarValue hf 6 (visible i))).append (row_vectorValue hf 6 pos)
  rw [R.columns, S.columns]
  simp [List.length_flatMap]

theorem Row.foldl_count {α : Type} (g : Str → α → Str) (g' : α → Str) (hg : ∀ s x, g s x = s ++ g' x) (k : Nat) (l : List α)
    (h : ∀ x ∈ l, ∃ c, Row (g' x) c ∧ c.length = k) : ∃ c, Row (l.foldl g []) c ∧ c.length = k * l.length := by
  have e : l.foldl g [] = l.flatMap g' := by
    have : g = fun s x => s ++ g' x := by funext s x; exact hg s x
    rw [this, foldl_append, List.nil_append]
  rw [e]; clear e
  induction l with
  | nil => exact ⟨[], Row.nil, rfl⟩
  | cons x xs ih =>
    obtain ⟨c, h1, h2⟩ := h x (by simp)
    obtain ⟨c', h3, h4⟩ := ih (fun y hy => h y (by simp [hy]))
    exact ⟨c ++ c', h1.append h3, by simp only [List.length_append, List.length_cons, h2, h4]; ring⟩

/-- **C51.** A telescope: eleven columns, and four more per logged star if the star catalogue is in use. -/
theorem C51_telescope {V : Type} (fmt : Nat → V → Str) (hf : ∀ p x, Clean (fmt p x)) (en : Bool) (stars : Nat) (flags : Fin 3 → V) (sun earth moon ground : Fin 2 → V)
    (starId starMag : Nat → V) (starPos : Nat → Fin 2 → V) :
    (split ',' (telescopeHeader en stars)).length = 11 + (if en then 4 * stars else 0) ∧
    (split ',' (telescopeValue fmt en stars flags sun earth moon ground starId starMag starPos)).length = 11 + (if en then 4 * stars else 0) := by
  have nm : Clean "telescope_".toList := cl "telescope_"
  have hstar : ∃ cells, Row (if en then (List.range stars).foldl (fun s i =>
    s ++ scalarHeader ("telescope_".toList ++ "hipparcos_id (".toList ++ dec i ++ ")".toList) " ".toList ++
      scalarHeader ("telescope_".toList ++ "visible_magnitude (".toList ++ dec i ++ ")".toList) " ".toList ++
      vectorHeader ("telescope_".toList ++ "star_position (".toList ++ dec i ++ ")".toList) "img".toList "pix".toList 2) [] else []) cells ∧
      cells.length = if en then 4 * stars else 0 := by
    cases en
    · exact ⟨[], Row.nil, rfl⟩
    · have := Row.foldl_count (fun (s : Str) (i : Nat) => s ++ scalarHeader ("telescope_".toList ++ "hipparcos_id (".toList ++ dec i ++ ")".toList) " ".toList ++
          scalarHeader ("telescope_".toList ++ "visible_magnitude (".toList ++ dec i ++ ")".toList) " ".toList ++
          vectorHeader ("telescope_".toList ++ "star_position (".toList ++ dec i ++ ")".toList) "img".toList "pix".toList 2) _
          (fun s i => by rw [List.append_assoc, List.append_assoc]) 4 (List.range stars) (fun i _ => ⟨_, ((row_scalarHeader (((nm.append (cl "hipparcos_id (")).append (dec_clean i)).append (cl ")")) (cl " ")).append
          ((row_scalarHeader (((nm.append (cl "visible_magnitude (")).append (dec_clean i)).append (cl ")")) (cl " ")).append
          (row_vectorHeader (((nm.append (cl "star_position (")).append (dec_clean i)).append (cl ")")) (cl "img") (cl "pix") 2))), by simp⟩)
      simpa only [if_true, List.length_range] using this
  have hstar' : ∃ cells, Row (if en then (List.range stars).foldl (fun s i =>
    s ++ scalarValue fmt 6 (starId i) ++ scalarValue fmt 6 (starMag i) ++ vectorValue fmt 6 (starPos i)) [] else []) cells ∧
      cells.length = if en then 4 * stars else 0 := by
    cases en
    · exact ⟨[], Row.nil, rfl⟩
    · have := Row.foldl_count (fun (s : Str) (i : Nat) => s ++ scalarValue fmt 6 (starId i) ++ scalarValue fmt 6 (starMag i) ++ vectorValue fmt 6 (starPos i)) _
          (fun s i => by rw [List.append_assoc, List.append_assoc]) 4 (List.range stars) (fun i _ => ⟨_, ((row_scalarValue hf 6 (starId i)).append ((row_scalarValue hf 6 (starMag i)).append
          (row_vectorValue hf 6 (starPos i)))), by simp⟩)
      simpa only [if_true, List.length_range] using this
  obtain ⟨c, r, lc⟩ := hstar
  obtain ⟨c', r', lc'⟩ := hstar'
  have R : Row (telescopeHeader en stars) _ := ((((((((row_scalarHeader (nm.append (cl "sun_in_exclusion_angle")) (cl "")).append
    (row_scalarHeader (nm.append (cl "earth_in_exclusion_angle")) (cl ""))).append (row_scalarHeader (nm.append (cl "moon_in_exclusion_angle")) (cl ""))).append
    (row_vectorHeader (nm.append (cl "sun_position")) (cl "img") (cl "pix") 2)).append (row_vectorHeader (nm.append (cl "earth_position")) (cl "img") (cl "pix") 2)).append
    (row_vectorHeader (nm.append (cl "moon_position")) (cl "img") (cl "pix") 2)).append (row_scalarHeader (nm.append (cl "ground_position_x")) (cl "pix"))).append
    (row_scalarHeader (nm.append (cl "ground_position_y")) (cl "pix"))).append r
  have S : Row (telescopeValue fmt en stars flags sun earth moon ground starId starMag starPos) _ := ((((((((row_scalarValue hf 6 (flags 0)).append
    (row_scalarValue hf 6 (flags 1))).append (row_scalarValue hf 6 (flags 2))).append (row_vectorValue hf 6 sun)).append (row_vectorValue hf 6 earth)).append
    (row_vectorValue hf 6 moon)).append (row_scalarValue hf 6 (ground 0))).append (row_scalarValue hf 6 (ground 1))).append r'
  rw [R.columns, S.columns]
  simp only [List.length_append, List.length_map, List.length_cons, List.length_nil, List.length_range, List.length_finRange, lc, lc']
  exact ⟨by trivial, by trivial⟩

theorem row_celestialHeader (origin frame : Str) (ho : Clean origin) (hfr : Clean frame) (names : List Str) (hn : ∀ x ∈ names, Clean x) :
    Row (celestialHeader origin frame names) (names.flatMap (fun name => (List.range 3).map (vectorColumn (name ++ "_position".toList ++ origin) frame "m".toList 3) ++
      (List.range 3).map (vectorColumn (name ++ "_velocity".toList ++ origin) frame "m/s".toList 3))) := by
  unfold celestialHeader
  have e : (fun (s : Str) (name : Str) => s ++ vectorHeader (name ++ "_position".toList ++ origin) frame "m".toList 3 ++
        vectorHeader (name ++ "_velocity".toList ++ origin) frame "m/s".toList 3) =
      fun s name => s ++ (vectorHeader (name ++ "_position".toList ++ origin) frame "m".toList 3 ++
        vectorHeader (name ++ "_velocity".toList ++ origin) frame "m/s".toList 3) := by
    funext s i; simp only [List.append_assoc]
  rw [e]
  exact Row.foldl _ _ _ (fun x hx => (row_vectorHeader (((hn x hx).append (cl "_position")).append ho) hfr (cl "m") 3).append
    (row_vectorHeader (((hn x hx).append (cl "_velocity")).append ho) hfr (cl "m/s") 3))

theorem row_celestialValue {V : Type} (fmt : Nat → V → Str) (hf : ∀ p x, Clean (fmt p x)) (n : Nat) (pos vel : Nat → V) :
    Row (celestialValue fmt n pos vel) ((List.range n).flatMap (fun i => (List.range 3).flatMap (fun j => [fmt 6 (pos (i * 3 + j))]) ++
      (List.range 3).flatMap (fun j => [fmt 6 (vel (i * 3 + j))]))) := by
  unfold celestialValue
  have e : (fun (s : Str) (i : Nat) => (List.range 3).foldl (fun s j => s ++ scalarValue fmt 6 (vel (i * 3 + j)))
      ((List.range 3).foldl (fun s j => s ++ scalarValue fmt 6 (pos (i * 3 + j))) s)) =
      fun s i => s ++ ((List.range 3).flatMap (fun j => scalarValue fmt 6 (pos (i * 3 + j))) ++ (List.range 3).flatMap (fun j => scalarValue fmt 6 (vel (i * 3 + j)))) := by
    funext s i; rw [foldl_append, foldl_append, List.append_assoc]
  rw [e]
  exact Row.foldl _ _ _ (fun i _ => (Row.flatMap _ _ _ (fun j _ => row_scalarValue hf 6 _)).append (Row.flatMap _ _ _ (fun j _ => row_scalarValue hf 6 _)))

/-- **C51.** Celestial bodies (inertial and body frame logs): six columns per selected body, in header and values. -/
theorem C51_celestial {V : Type} (fmt : Nat → V → Str) (hf : ∀ p x, Clean (fmt p x)) (origin frame : Str) (ho : Clean origin) (hfr : Clean frame) (names : List Str)
    (hn : ∀ x ∈ names, Clean x) (pos vel : Nat → V) :
    (split ',' (celestialHeader origin frame names)).length = 6 * names.length ∧ (split ',' (celestialValue fmt names.length pos vel)).length = 6 * names.length ∧
    ∀ i < names.length, ∀ j < 3, (split ',' (celestialValue fmt names.length pos vel))[6 * i + j]? = some (fmt 6 (pos (i * 3 + j))) ∧
      (split ',' (celestialValue fmt names.length pos vel))[6 * i + 3 + j]? = some (fmt 6 (vel (i * 3 + j))) := by
  have R := row_celestialHeader origin frame ho hfr names hn
  have S := row_celestialValue fmt hf names.length pos vel
  rw [R.columns, S.columns]
  refine ⟨?_, ?_, ?_⟩
  · rw [flatMap_len _ _ (fun _ => 6) (by intro x _; simp)]; simp [Nat.mul_comm]
  · rw [flatMap_len _ _ (fun _ => 6) (by intro x _; rfl)]; simp [Nat.mul_comm]
  · intro i hi j hj
    have hb := fun k (hk : k < 6) => flatMap_block 6 (fun i => (List.range 3).flatMap (fun j => [fmt 6 (pos (i * 3 + j))]) ++
      (List.range 3).flatMap (fun j => [fmt 6 (vel (i * 3 + j))])) (by intro b; rfl) (List.range names.length) i i k (by rw [List.getElem?_range hi]) hk
    rw [show 6 * i + j = i * 6 + j by ring, show 6 * i + 3 + j = i * 6 + (3 + j) by ring, hb j (by omega), hb (3 + j) (by omega)]
    rcases j with _ | _ | _ | j
    · exact ⟨rfl, rfl⟩
    · exact ⟨rfl, rfl⟩
    · exact ⟨rfl, rfl⟩
    · omega

/-- **C51.** GPS satellites: 128 columns in header and values. -/
theorem C51_gnss {V : Type} (fmt : Nat → V → Str) (hf : ∀ p x, Clean (fmt p x)) (pos : Nat → Fin 3 → V) (clock : Nat → V) :
    (split ',' gnssHeader).length = 128 ∧ (split ',' (gnssValue fmt pos clock)).length = 128 := by
  have hR := Row.foldl_count (fun (s : Str) (i : Nat) => s ++ vectorHeader ("GPS".toList ++ dec i ++ "_position".toList) "ecef".toList "m".toList 3 ++
      scalarHeader ("GPS".toList ++ dec i ++ "_clock_offset".toList) "s".toList) _ (fun s i => by rw [List.append_assoc]) 4 (List.range 32)
    (fun i _ => ⟨_, ((row_vectorHeader (((cl "GPS").append (dec_clean i)).append (cl "_position")) (cl "ecef") (cl "m") 3).append
      (row_scalarHeader (((cl "GPS").append (dec_clean i)).append (cl "_clock_offset")) (cl "s"))), by simp⟩)
  have hS := Row.foldl_count (fun (s : Str) (i : Nat) => s ++ vectorValue fmt 16 (pos i) ++ scalarValue fmt 6 (clock i)) _
    (fun s i => by rw [List.append_assoc]) 4 (List.range 32) (fun i _ => ⟨_, ((row_vectorValue hf 16 (pos i)).append (row_scalarValue hf 6 (clock i))), by simp⟩)
  obtain ⟨c, R, l⟩ := hR
  obtain ⟨c', S, l'⟩ := hS
  rw [List.length_range] at l l'
  have R' : Row gnssHeader c := R
  have S' : Row (gnssValue fmt pos clock) c' := S
  rw [R'.columns, S'.columns, l, l']
  exact ⟨rfl, rfl⟩

/-- **C51.** A reaction wheel: five columns, eleven with jitter logging, whichever way the two jitter switches are set. -/
theorem C51_reaction_wheel {V : Type} (fmt : Nat → V → Str) (hf : ∀ p x, Clean (fmt p x)) (name : Str) (hn : Clean name) (lg cal : Bool) (sc : Fin 5 → V)
    (force torque : Fin 3 → V) :
    (split ',' (reactionWheelHeader name lg cal)).length = (if lg && cal then 11 else 5) ∧
    (split ',' (reactionWheelValue fmt lg cal sc force torque)).length = (if lg && cal then 11 else 5) := by
  have hj : ∃ c, Row (if lg && cal then vectorHeader (name ++ "jitter_force".toList) "c".toList "N".toList 3 ++
      vectorHeader (name ++ "jitter_torque".toList) "c".toList "Nm".toList 3 else []) c ∧ c.length = if lg && cal then 6 else 0 := by
    cases lg && cal
    · exact ⟨[], Row.nil, rfl⟩
    · exact ⟨_, (row_vectorHeader (hn.append (cl "jitter_force")) (cl "c") (cl "N") 3).append (row_vectorHeader (hn.append (cl "jitter_torque")) (cl "c") (cl "Nm") 3), by simp⟩
  have hj' : ∃ c, Row (if lg && cal then vectorValue fmt 6 force ++ vectorValue fmt 6 torque else []) c ∧ c.length = if lg && cal then 6 else 0 := by
    cases lg && cal
    · exact ⟨[], Row.nil, rfl⟩
    · exact ⟨_, (row_vectorValue hf 6 force).append (row_vectorValue hf 6 torque), by simp⟩
  obtain ⟨c, r, l⟩ := hj
  obtain ⟨c', r', l'⟩ := hj'
  have R : Row (reactionWheelHeader name lg cal) _ := (((((row_scalarHeader (hn.append (cl "angular_velocity")) (cl "rad/s")).append
    (row_scalarHeader (hn.append (cl "angular_velocity")) (cl "rpm"))).append (row_scalarHeader (hn.append (cl "angular_velocity_upper_limit")) (cl "rpm"))).append
    (row_scalarHeader (hn.append (cl "target_angular_acceleration")) (cl "rad/s2"))).append (row_scalarHeader (hn.append (cl "angular_acceleration")) (cl "rad/s2"))).append r
  have S : Row (reactionWheelValue fmt lg cal sc force torque) _ := (((((row_scalarValue hf 6 (sc 0)).append (row_scalarValue hf 6 (sc 1))).append
    (row_scalarValue hf 6 (sc 2))).append (row_scalarValue hf 6 (sc 3))).append (row_scalarValue hf 6 (sc 4))).append r'
  rw [R.columns, S.columns]
  simp only [List.length_append, List.length_cons, List.length_nil, l, l']
  cases lg && cal <;> exact ⟨rfl, rfl⟩

/-- A formatting function with clean output exists: decimal numbers. -/
example : ∀ p (x : Nat), Clean ((fun _ n => dec n : Nat → Nat → Str) p x) := fun _ x => dec_clean x

/-! ## C74 column names -/

theorem dec_inj {a b : Nat} (h : dec a = dec b) : a = b := by
  have := congrArg (fun l => Nat.ofDigitChars 10 l 0) h
  simpa [dec, Nat.ofDigitChars_ten_toDigits] using this

theorem dec_no (c : Char) (hc : c.isDigit = false) (n : Nat) : c ∉ dec n := by
  intro h
  have := Nat.isDigit_of_mem_toDigits (b := 10) (by norm_num) (by norm_num) h
  rw [hc] at this; cases this

/-- A decimal number followed by a fixed non-digit is read off uniquely. -/
theorem dec_sep {a b : Nat} {x y : Str} {c : Char} (hc : c.isDigit = false) (h : dec a ++ c :: x = dec b ++ c :: y) : a = b ∧ x = y := by
  have h1 := split_cons c (dec a) x (dec_no c hc a)
  have h2 := split_cons c (dec b) y (dec_no c hc b)
  have hg1 := getline_cons c (dec a) x (dec_no c hc a)
  have hg2 := getline_cons c (dec b) y (dec_no c hc b)
  rw [h, hg2] at hg1
  simp only [Option.some.injEq, Prod.mk.injEq] at hg1
  exact ⟨(dec_inj hg1.1).symm, hg1.2.symm⟩

/-- **C74.** The columns of a vector of any length have different names. -/
theorem C74_vector_names (name frame unit : Str) (n i j : Nat) (hi : i < n) (hj : j < n)
    (h : vectorColumn name frame unit n i = vectorColumn name frame unit n j) : i = j := by
  unfold vectorColumn at h
  simp only [List.append_assoc] at h
  replace h := List.append_cancel_left (List.append_cancel_left (List.append_cancel_left h))
  by_cases h3 : n = 3
  · simp only [if_pos h3] at h
    replace h := List.append_cancel_right h
    subst h3
    have : ∀ i < 3, ∀ j < 3, axisName i = axisName j → i = j := by decide
    exact this i hi j hj h
  · simp only [if_neg h3, List.append_assoc] at h
    exact (dec_sep (c := ')') (by decide) (List.append_cancel_left h)).1

/-- **C74.** The columns of a matrix have different names as long as all indices have one digit. -/
theorem C74_matrix_names_partial (name frame unit : Str) (i j i' j' : Nat) (hi : i < 10) (hj : j < 10) (hi' : i' < 10) (hj' : j' < 10)
    (h : matrixColumn name frame unit i j = matrixColumn name frame unit i' j') : i = i' ∧ j = j' := by
  unfold matrixColumn at h
  have hd : ∀ k < 10, dec k = [k.digitChar] := fun k hk => Nat.toDigits_of_lt_base hk
  simp only [List.append_assoc] at h
  replace h := List.append_cancel_left (List.append_cancel_left (List.append_cancel_left (List.append_cancel_left h)))
  have h1 : dec i = dec i' := by
    rw [hd i hi, hd i' hi'] at h ⊢
    simpa using congrArg List.head? h
  rw [h1] at h
  exact ⟨dec_inj h1, (dec_sep (c := ')') (by decide) (List.append_cancel_left h)).1⟩

/-- **C74.** Larger matrices have columns of the same name: elements (1, 11) and (11, 1). -/
theorem C74_matrix_names_collide (name frame unit : Str) : matrixColumn name frame unit 1 11 = matrixColumn name frame unit 11 1 := by
  have : dec 1 ++ dec 11 = dec 11 ++ dec 1 := by decide
  unfold matrixColumn
  simp only [List.append_assoc] at *
  rw [← List.append_assoc (dec 1), this, List.append_assoc]

/-- **C74.** The position columns of two ground stations have the same names although the stations differ: the station number is missing there. -/
theorem C74_ground_station_names_collide (id id' n : Nat) (i : Nat) (hi : i < 3) :
    (split ',' (groundStationHeader id n))[n + i]? = (split ',' (groundStationHeader id' n))[n + i]? ∧
    ∃ c, (split ',' (groundStationHeader id n))[n + i]? = some c := by
  have R : ∀ id, split ',' (groundStationHeader id n) = (List.range n).flatMap (fun i => ["ground_station".toList ++ dec id ++ "_".toList ++
      "sc".toList ++ dec i ++ "_visible_flag".toList]) ++ (List.range 3).map (vectorColumn "ground_station_position".toList "eci".toList "m".toList 3) := fun id =>
    Row.columns ((Row.foldl _ (fun i => [_]) (List.range n) (fun i _ => Row.single (f := "ground_station".toList ++ dec id ++ "_".toList ++
    "sc".toList ++ dec i ++ "_visible_flag".toList) (((((( cl "ground_station").append (dec_clean id)).append (cl "_")).append (cl "sc")).append (dec_clean i)).append (cl "_visible_flag")))).append
    (row_vectorHeader (cl "ground_station_position") (cl "eci") (cl "m") 3))
  rw [R id, R id']
  have hl : ∀ id, ((List.range n).flatMap (fun i => ["ground_station".toList ++ dec id ++ "_".toList ++ "sc".toList ++ dec i ++ "_visible_flag".toList])).length = n := by
    intro id; simp [List.length_flatMap]
  rw [List.getElem?_append_right (by rw [hl]; omega), List.getElem?_append_right (by rw [hl]; omega), hl, hl, Nat.add_sub_cancel_left]
  exact ⟨rfl, _, by rw [List.getElem?_map, List.getElem?_range hi]; rfl⟩

/-- **C74.** The relative-information columns of different (target, reference) pairs have different names, for any number of spacecraft. -/
theorem C74_relative_names (frame unit : Str) (t r t' r' i j : Nat) (hi : i < 3) (hj : j < 3)
    (h : vectorColumn ("satellite".toList ++ dec t ++ "_position_from_satellite".toList ++ dec r) frame unit 3 i =
      vectorColumn ("satellite".toList ++ dec t' ++ "_position_from_satellite".toList ++ dec r') frame unit 3 j) : t = t' ∧ r = r' ∧ i = j := by
  unfold vectorColumn at h
  simp only [if_true, List.append_assoc] at h
  replace h := List.append_cancel_left h
  obtain ⟨h1, h2⟩ := dec_sep (c := '_') (by decide) h
  replace h2 : "position_from_satellite".toList ++ (dec r ++ ("_".toList ++ (frame ++ (axisName i ++ ("[".toList ++ (unit ++ "]".toList)))))) =
    "position_from_satellite".toList ++ (dec r' ++ ("_".toList ++ (frame ++ (axisName j ++ ("[".toList ++ (unit ++ "]".toList)))))) := h2
  obtain ⟨h3, h4⟩ := dec_sep (c := '_') (by decide) (List.append_cancel_left h2)
  replace h4 : frame ++ (axisName i ++ ("[".toList ++ (unit ++ "]".toList))) = frame ++ (axisName j ++ ("[".toList ++ (unit ++ "]".toList))) := h4
  have h5 := List.append_cancel_right (List.append_cancel_left h4)
  have : ∀ i < 3, ∀ j < 3, axisName i = axisName j → i = j := by decide
  exact ⟨h1, h3, this i hi j hj h5⟩

example : vectorColumn "gyro".toList "b".toList "rad/s".toList 3 1 = "gyro_b_y[rad/s]".toList ∧ matrixColumn "m".toList "b".toList "-".toList 2 7 = "m_b(27)[-]".toList := by
  decide

end S2E.LogProps
