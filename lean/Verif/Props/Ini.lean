import Verif.Props.Log
import Mathlib.Data.List.Basic
import Mathlib.Data.List.DropRight
import Mathlib.Tactic.IntervalCases
import Mathlib.Algebra.Order.Field.Basic
/-! # C52: reading values from the ini file -/
namespace S2E.IniRead
open S2E.Log S2E.Ini S2E.Csv S2E.LogProps

/-! ## Inline comments and path keywords -/

theorem strip_none (s acc : Str) (h : ¬ ['/', '/'] <:+: s) : stripComment acc s = acc ++ s := by
  induction s generalizing acc with
  | nil => simp [stripComment]
  | cons c cs ih =>
    have hcs : ¬ ['/', '/'] <:+: cs := fun hh => h (hh.trans (List.suffix_cons c cs).isInfix)
    have hc : ¬ (c = '/' ∧ cs.head? = some '/') := by
      rintro ⟨rfl, h2⟩
      cases cs with
      | nil => simp at h2
      | cons d ds => simp at h2; subst h2; exact h ⟨[], ds, rfl⟩
    simp only [stripComment, Bool.and_eq_true, decide_eq_true_eq, if_neg hc]
    split
    · rw [ih _ hcs]; simp
    · rw [ih _ hcs]; simp

theorem strip_at (pre post acc : Str) (hacc : ∀ c ∈ acc, isSpace c = true) (h : ¬ ['/', '/'] <:+: pre ++ ['/']) :
    stripComment acc (pre ++ '/' :: '/' :: post) = (acc ++ pre).rdropWhile isSpace := by
  induction pre generalizing acc with
  | nil =>
    have : acc.rdropWhile isSpace = [] := List.rdropWhile_eq_nil_iff.2 hacc
    simp [stripComment, this]
  | cons c cs ih =>
    have hcs : ¬ ['/', '/'] <:+: cs ++ ['/'] := fun hh => h (hh.trans (List.suffix_cons c (cs ++ ['/'])).isInfix)
    have hc : ¬ (c = '/' ∧ (cs ++ '/' :: '/' :: post).head? = some '/') := by
      rintro ⟨rfl, h2⟩
      cases cs with
      | nil => exact h ⟨[], [], rfl⟩
      | cons d ds => simp at h2; subst h2; exact h ⟨[], ds ++ ['/'], rfl⟩
    simp only [List.cons_append, stripComment, Bool.and_eq_true, decide_eq_true_eq, if_neg hc]
    split
    · rename_i hsp
      rw [ih _ (by intro x hx; simp at hx; rcases hx with hx | rfl; exacts [hacc x hx, hsp]) hcs]; simp
    · rename_i hsp
      rw [ih [] (by simp) hcs]
      have : (acc ++ c :: cs).rdropWhile isSpace = acc ++ c :: cs.rdropWhile isSpace := by
        simp only [List.rdropWhile, List.reverse_append, List.reverse_cons]
        rcases hd : cs.reverse.dropWhile isSpace with _ | ⟨x, xs⟩
        · have : ∀ y ∈ cs.reverse, isSpace y = true := List.dropWhile_eq_nil_iff.1 hd
          rw [List.append_assoc, List.dropWhile_append_of_pos this]
          simp [hsp]
        · rw [List.append_assoc, List.dropWhile_append]
          simp [hd]
      rw [this]; simp

theorem replaceAll_none (key text s : Str) (h : ¬ key <:+: s) : replaceAll key text s = s := by
  induction s with
  | nil => simp [replaceAll]
  | cons c cs ih =>
    rw [replaceAll, if_neg, ih]
    · exact fun hh => h (hh.trans (List.suffix_cons c cs).isInfix)
    · rintro ⟨_, h2⟩
      exact h ((List.isPrefixOf_iff_prefix.1 h2).isInfix)

theorem replaceAll_at (key text pre post : Str) (hk : key ≠ []) (h : ¬ key <:+: pre ++ key.dropLast) :
    replaceAll key text (pre ++ key ++ post) = pre ++ text ++ replaceAll key text post := by
  induction pre with
  | nil =>
    simp only [List.nil_append]
    rcases key with _ | ⟨k, ks⟩
    · exact absurd rfl hk
    · rw [List.cons_append, replaceAll, if_pos]
      · congr 2
        rw [← List.cons_append, List.drop_left']
        rfl
      · exact ⟨hk, by rw [← List.cons_append]; exact List.isPrefixOf_iff_prefix.2 (List.prefix_append _ _)⟩
  | cons c cs ih =>
    simp only [List.cons_append]
    rw [replaceAll, if_neg, ih]
    · exact fun hh => h (hh.trans (List.suffix_cons c (cs ++ key.dropLast)).isInfix)
    · rintro ⟨_, h2⟩
      apply h
      have hp := List.isPrefixOf_iff_prefix.1 h2
      have hlen : key.length = key.dropLast.length + 1 := by
        have := List.length_pos_of_ne_nil hk
        simp; omega
      have h1 : c :: (cs ++ key ++ post) = (c :: cs ++ key.dropLast) ++ ([key.getLast hk] ++ post) := by
        conv_lhs => rw [← List.dropLast_append_getLast hk]
        simp
      rw [h1] at hp
      have : key <+: c :: cs ++ key.dropLast :=
        List.prefix_of_prefix_length_le hp (List.prefix_append _ _) (by simp; omega)
      exact this.isInfix

/-- **C52.** The value of a present key without an inline comment and without a path keyword is returned unchanged. -/
theorem C52_plain (p : Paths) (ini : Str → Option Str) (key v : Str) (h : ini key = some v) (h0 : ¬ "//".toList <:+: v)
    (h1 : ¬ "SETTINGS_DIR_FROM_EXE".toList <:+: v) (h2 : ¬ "EXT_LIB_DIR_FROM_EXE".toList <:+: v) (h3 : ¬ "CORE_DIR_FROM_EXE".toList <:+: v) :
    readString p ini key = v := by
  simp only [readString, h, Option.getD_some, process, strip_none v [] h0, List.nil_append, replaceAll_none _ _ v h1, replaceAll_none _ _ v h2,
    replaceAll_none _ _ v h3]

/-- **C52.** An inline comment starts at the first `//` of the value and is removed together with the white space before it. (In particular the
value `https://host` is read as `https:`.) -/
theorem C52_comment (p : Paths) (ini : Str → Option Str) (key pre post : Str) (h : ini key = some (pre ++ "//".toList ++ post))
    (h0 : ¬ "//".toList <:+: pre ++ "/".toList) (h1 : ¬ "SETTINGS_DIR_FROM_EXE".toList <:+: pre) (h2 : ¬ "EXT_LIB_DIR_FROM_EXE".toList <:+: pre)
    (h3 : ¬ "CORE_DIR_FROM_EXE".toList <:+: pre) : readString p ini key = pre.rdropWhile isSpace := by
  have e : stripComment [] (pre ++ "//".toList ++ post) = pre.rdropWhile isSpace := by
    have := strip_at pre post [] (by simp) h0
    simpa using this
  have hpre : pre.rdropWhile isSpace <:+: pre := (List.rdropWhile_prefix isSpace pre).isInfix
  simp only [readString, h, Option.getD_some, process, e, replaceAll_none _ _ _ (fun hh => h1 (hh.trans hpre)),
    replaceAll_none _ _ _ (fun hh => h2 (hh.trans hpre)), replaceAll_none _ _ _ (fun hh => h3 (hh.trans hpre))]

example : readString ⟨[], [], []⟩ (fun _ => some "https://host".toList) [] = "https:".toList := by
  have := C52_comment ⟨[], [], []⟩ (fun _ => some "https://host".toList) [] "https:".toList "host".toList (by decide +kernel) (by decide +kernel) (by decide +kernel) (by decide +kernel) (by decide +kernel)
  rw [this]; decide +kernel
example : readString ⟨[], [], []⟩ (fun _ => some "ENABLE  // on".toList) [] = "ENABLE".toList := by
  have := C52_comment ⟨[], [], []⟩ (fun _ => some "ENABLE  // on".toList) [] "ENABLE  ".toList " on".toList (by decide +kernel) (by decide +kernel) (by decide +kernel) (by decide +kernel) (by decide +kernel)
  rw [this]; decide +kernel

/-- **C52.** The first path keyword `SETTINGS_DIR_FROM_EXE` of a value is replaced by the configured directory; the text around it is kept. -/
theorem C52_settings_dir (p : Paths) (ini : Str → Option Str) (key pre post : Str)
    (h : ini key = some (pre ++ "SETTINGS_DIR_FROM_EXE".toList ++ post))
    (hc : ¬ "//".toList <:+: pre ++ "SETTINGS_DIR_FROM_EXE".toList ++ post)
    (h1 : ¬ "SETTINGS_DIR_FROM_EXE".toList <:+: pre ++ "SETTINGS_DIR_FROM_EX".toList) (h1' : ¬ "SETTINGS_DIR_FROM_EXE".toList <:+: post)
    (h2 : ¬ "EXT_LIB_DIR_FROM_EXE".toList <:+: pre ++ p.settings ++ post) (h3 : ¬ "CORE_DIR_FROM_EXE".toList <:+: pre ++ p.settings ++ post) :
    readString p ini key = pre ++ p.settings ++ post := by
  have e := replaceAll_at "SETTINGS_DIR_FROM_EXE".toList p.settings pre post (by decide +kernel) h1
  rw [replaceAll_none _ _ post h1'] at e
  simp only [readString, h, Option.getD_some, process, strip_none _ [] hc, List.nil_append, e, replaceAll_none _ _ _ h2, replaceAll_none _ _ _ h3]

example : readString ⟨"../settings".toList, "ext".toList, "core".toList⟩ (fun _ => some "SETTINGS_DIR_FROM_EXE/sample.ini".toList) [] =
    "../settings/sample.ini".toList := by
  exact C52_settings_dir ⟨"../settings".toList, "ext".toList, "core".toList⟩ _ [] [] "/sample.ini".toList (by decide +kernel) (by decide +kernel) (by decide +kernel) (by decide +kernel)
    (by decide +kernel) (by decide +kernel)

/-! ## Missing keys -/

/-- **C52.** Reading a missing key gives the string `NULL`, the number zero and `false`. -/
theorem C52_missing {K : Type} [Zero K] (p : Paths) (getReal : Str → K) (ini : Str → Option Str) (key : Str) (h : ini key = none) :
    readString p ini key = "NULL".toList ∧ readDouble getReal ini key = 0 ∧ readEnable p ini key = false := by
  have e : readString p ini key = "NULL".toList := by
    have := C52_plain p (fun _ => some "NULL".toList) key "NULL".toList rfl (by decide +kernel) (by decide +kernel) (by decide +kernel) (by decide +kernel)
    simpa [readString, h] using this
  refine ⟨e, by simp [readDouble, h], ?_⟩
  simp [readEnable, e]

/-- **C52.** `ReadEnable` is true exactly when the value, after removal of the inline comment and replacement of the path keywords, is `ENABLE`
or `1`. -/
theorem C52_enable (p : Paths) (ini : Str → Option Str) (key : Str) :
    readEnable p ini key = true ↔ ∃ v, ini key = some v ∧ (process p v = "ENABLE".toList ∨ process p v = "1".toList) := by
  cases h : ini key with
  | none => have := (C52_missing (K := Nat) p (fun _ => 0) ini key h).2.2; simp [this]
  | some v =>
    have e : readString p ini key = process p v := by simp [readString, h]
    simp only [readEnable, e, Option.some.injEq, exists_eq_left']
    by_cases h1 : process p v = "ENABLE".toList
    · rw [if_pos h1]; exact ⟨fun _ => .inl h1, fun _ => rfl⟩
    · rw [if_neg h1]
      by_cases h2 : process p v = "1".toList
      · rw [if_pos h2]; exact ⟨fun _ => .inr h2, fun _ => rfl⟩
      · rw [if_neg h2]; exact ⟨fun h => absurd h (by simp), fun h => h.elim (fun h => absurd h h1) (fun h => absurd h h2)⟩

/-- **C52.** A value without comment or path keyword enables a feature exactly when it is the text `ENABLE` or `1` (so `enable`, `true`, `10` and
` ENABLE` do not). -/
theorem C52_enable_plain (p : Paths) (ini : Str → Option Str) (key v : Str) (h : ini key = some v) (h0 : ¬ "//".toList <:+: v)
    (h1 : ¬ "SETTINGS_DIR_FROM_EXE".toList <:+: v) (h2 : ¬ "EXT_LIB_DIR_FROM_EXE".toList <:+: v) (h3 : ¬ "CORE_DIR_FROM_EXE".toList <:+: v) :
    readEnable p ini key = true ↔ v = "ENABLE".toList ∨ v = "1".toList := by
  have e : readString p ini key = process p v := by simp [readString, h]
  rw [C52_enable, h]
  simp only [Option.some.injEq, exists_eq_left', ← e, C52_plain p ini key v h h0 h1 h2 h3]

example (p : Paths) : readEnable p (fun _ => some "ENABLE".toList) [] = true :=
  (C52_enable_plain p (fun _ => some "ENABLE".toList) [] "ENABLE".toList rfl (by decide +kernel) (by decide +kernel) (by decide +kernel) (by decide +kernel)).2 (.inl rfl)
example (p : Paths) : ¬ readEnable p (fun _ => some "DISABLE".toList) [] = true := fun h =>
  absurd ((C52_enable_plain p (fun _ => some "DISABLE".toList) [] "DISABLE".toList rfl (by decide +kernel) (by decide +kernel) (by decide +kernel) (by decide +kernel)).1 h) (by decide +kernel)

/-! ## Indexed keys -/

/-- **C52.** Different elements of a list are read from different keys. -/
theorem C52_keys_distinct (key : Str) (i j : Nat) (h : indexedKey key i = indexedKey key j) : i = j := by
  simp only [indexedKey, List.append_assoc] at h
  have h1 := List.append_cancel_left h
  exact (dec_sep (c := ')') (by decide +kernel) (x := []) (y := []) (List.append_cancel_left h1)).1

theorem foldl_push {α : Type} (f : Nat → α) (l : List Nat) (acc : List α) : l.foldl (fun d i => d ++ [f i]) acc = acc ++ l.map f := by
  induction l generalizing acc with
  | nil => simp
  | cons a l ih => rw [List.foldl_cons, ih]; simp

/-- **C52.** Reading a fixed number of strings or numbers gives exactly that many, element `i` being the value of `key(i)`. -/
theorem C52_vector {K : Type} [Zero K] (p : Paths) (getReal : Str → K) (ini : Str → Option Str) (key : Str) (num : Nat) :
    (readVectorString p ini key num = (List.range num).map (fun i => readString p ini (key ++ "(".toList ++ dec i ++ ")".toList))) ∧
    (readVectorDouble getReal ini key num = (List.range num).map (fun i => readDouble getReal ini (key ++ "(".toList ++ dec i ++ ")".toList))) ∧
    (readVectorString p ini key num).length = num ∧ (readVectorDouble getReal ini key num).length = num := by
  have e1 := foldl_push (fun i => readString p ini (indexedKey key i)) (List.range num) []
  have e2 := foldl_push (fun i => readDouble getReal ini (indexedKey key i)) (List.range num) []
  refine ⟨e1, e2, ?_, ?_⟩
  · rw [readVectorString, e1]; simp
  · rw [readVectorDouble, e2]; simp

/-- **C52.** Numbered arrays: with the values of array `id` under `key<id>(0)`, `key<id>(1)`, … the array is read in that order; keys that are missing give 0. -/
theorem C52_double_array {K : Type} [Zero K] (getReal : Str → K) (ini : Str → Option Str) (key : Str) (id : Nat) (vals : List K) (num : Nat)
    (h : ∀ i (hi : i < vals.length), ∃ text, ini (key ++ dec id ++ "(".toList ++ dec i ++ ")".toList) = some text ∧ getReal text = vals[i])
    (hm : ∀ i, vals.length ≤ i → ini (key ++ dec id ++ "(".toList ++ dec i ++ ")".toList) = none) :
    readDoubleArray getReal ini key id num = vals.take num ++ List.replicate (num - vals.length) 0 := by
  apply List.ext_getElem
  · simp [readDoubleArray]; omega
  · intro i h1 h2
    have hi : i < num := by simpa [readDoubleArray] using h1
    simp only [readDoubleArray, List.getElem_map, List.getElem_range]
    by_cases hv : i < vals.length
    · obtain ⟨text, e1, e2⟩ := h i hv
      rw [List.getElem_append_left (by simp; omega), List.getElem_take, ← e2, readDouble, e1]
    · rw [List.getElem_append_right (by simp; omega), List.getElem_replicate, readDouble, hm i (by omega)]

/-- The hypotheses of C52_double_array are met: two values for array 3. -/
example : ∃ ini : Str → Option Str, (∀ i (hi : i < [(5 : Int), 7].length), ∃ text, ini ("a".toList ++ dec 3 ++ "(".toList ++ dec i ++ ")".toList) = some text ∧
    (fun t : Str => if t = "5".toList then (5 : Int) else 7) text = [(5 : Int), 7][i]) ∧
    ∀ i, [(5 : Int), 7].length ≤ i → ini ("a".toList ++ dec 3 ++ "(".toList ++ dec i ++ ")".toList) = none := by
  refine ⟨fun k => if k = "a".toList ++ dec 3 ++ "(".toList ++ dec 0 ++ ")".toList then some "5".toList
    else if k = "a".toList ++ dec 3 ++ "(".toList ++ dec 1 ++ ")".toList then some "7".toList else none, ?_, ?_⟩
  · intro i hi
    match i with
    | 0 => exact ⟨"5".toList, by decide +kernel, rfl⟩
    | 1 => exact ⟨"7".toList, by decide +kernel, rfl⟩
    | n + 2 => simp at hi
  · intro i hi
    have hne : ∀ j, i ≠ j → "a".toList ++ dec 3 ++ "(".toList ++ dec i ++ ")".toList ≠ "a".toList ++ dec 3 ++ "(".toList ++ dec j ++ ")".toList :=
      fun j hj h => hj (dec_inj (List.append_cancel_left (List.append_cancel_right h)))
    have hi' : 2 ≤ i := hi
    exact (if_neg (hne 0 (by omega))).trans (if_neg (hne 1 (by omega)))

/-- Values for a list in the ini file: element `i` of `vals` under `key(i)`. -/
def HasList (ini : Str → Option Str) (key : Str) (vals : List Str) : Prop :=
  ∀ i (hi : i < vals.length), ini (key ++ "(".toList ++ dec i ++ ")".toList) = some vals[i]

theorem readStrVectorFrom_ok (p : Paths) (ini : Str → Option Str) (key : Str) (n : Nat) (hn : n < 2 ^ 32)
    (h : ∀ i < n, readString p ini (indexedKey key i) ≠ "NULL".toList) (hend : readString p ini (indexedKey key n) = "NULL".toList)
    (fuel : Nat) (k i : Nat) (hk : k + i = n) (hf : k < fuel) (data : List Str) :
    readStrVectorFrom p ini key fuel i data = .ok (data ++ (List.range' i k).map (fun j => readString p ini (indexedKey key j))) := by
  induction k generalizing i fuel data with
  | zero =>
    obtain ⟨fuel, rfl⟩ : ∃ m, fuel = m + 1 := ⟨fuel - 1, by omega⟩
    obtain rfl : i = n := by omega
    rw [readStrVectorFrom, if_pos hend]; simp
  | succ k ih =>
    obtain ⟨fuel, rfl⟩ : ∃ m, fuel = m + 1 := ⟨fuel - 1, by omega⟩
    rw [readStrVectorFrom, if_neg (h i (by omega)), Nat.mod_eq_of_lt (by omega), ih fuel (i + 1) (by omega) (by omega)]
    simp [List.range'_succ]

/-- **C52.** `ReadStrVector` returns the values of `key(0)`, `key(1)`, ... (comments removed and path keywords replaced) up to the first index
that is missing, provided none of them reads `NULL` before; what follows the gap is not seen. -/
theorem C52_list (p : Paths) (ini : Str → Option Str) (key : Str) (vals : List Str) (hlen : vals.length < 2 ^ 32) (h : HasList ini key vals)
    (hgap : ini (key ++ "(".toList ++ dec vals.length ++ ")".toList) = none) (hnull : ∀ v ∈ vals, process p v ≠ "NULL".toList) (fuel : Nat)
    (hfuel : vals.length < fuel) : readStrVector p ini key fuel = .ok (vals.map (process p)) := by
  have hval : ∀ i (hi : i < vals.length), readString p ini (indexedKey key i) = process p vals[i] := by
    intro i hi
    simp only [readString, indexedKey, h i hi, Option.getD_some]
  rw [readStrVector, readStrVectorFrom_ok p ini key vals.length hlen ?_ ?_ fuel vals.length 0 (by simp) hfuel]
  · congr 1
    refine List.ext_getElem (by simp) ?_
    intro i h1 h2
    simp only [List.nil_append, List.length_map, List.length_range'] at h1
    simp [hval i h1]
  · intro i hi; rw [hval i hi]; exact hnull _ (List.getElem_mem hi)
  · exact (C52_missing (K := Nat) p (fun _ => 0) ini _ hgap).1

/-- **C52.** A present value that reads `NULL` also ends the list. -/
theorem C52_list_null (p : Paths) (ini : Str → Option Str) (key : Str) (vals : List Str) (v : Str) (hlen : vals.length < 2 ^ 32) (h : HasList ini key vals)
    (hgap : ini (key ++ "(".toList ++ dec vals.length ++ ")".toList) = some v) (hv : process p v = "NULL".toList)
    (hnull : ∀ v ∈ vals, process p v ≠ "NULL".toList) (fuel : Nat) (hfuel : vals.length < fuel) :
    readStrVector p ini key fuel = .ok (vals.map (process p)) := by
  have hval : ∀ i (hi : i < vals.length), readString p ini (indexedKey key i) = process p vals[i] := by
    intro i hi
    simp only [readString, indexedKey, h i hi, Option.getD_some]
  rw [readStrVector, readStrVectorFrom_ok p ini key vals.length hlen ?_ ?_ fuel vals.length 0 (by simp) hfuel]
  · congr 1
    refine List.ext_getElem (by simp) ?_
    intro i h1 h2
    simp only [List.nil_append, List.length_map, List.length_range'] at h1
    simp [hval i h1]
  · intro i hi; rw [hval i hi]; exact hnull _ (List.getElem_mem hi)
  · simp only [indexedKey, readString, hgap, Option.getD_some, hv]

/-- An ini section with three spacecraft files, a gap, and a further entry after the gap. -/
def sampleIni : Str → Option Str := fun k =>
  if k = "f(0)".toList then some "a.ini".toList else if k = "f(1)".toList then some "b.ini // second".toList
  else if k = "f(3)".toList then some "d.ini".toList else none

example : readStrVector ⟨[], [], []⟩ sampleIni "f".toList 10 = .ok ["a.ini".toList, "b.ini".toList] := by
  have e0 : process ⟨[], [], []⟩ "a.ini".toList = "a.ini".toList :=
    (C52_plain ⟨[], [], []⟩ (fun _ => some "a.ini".toList) [] _ rfl (by decide +kernel) (by decide +kernel) (by decide +kernel) (by decide +kernel))
  have e1 : process ⟨[], [], []⟩ "b.ini // second".toList = "b.ini".toList :=
    (C52_comment ⟨[], [], []⟩ (fun _ => some "b.ini // second".toList) [] "b.ini ".toList " second".toList rfl (by decide +kernel) (by decide +kernel) (by decide +kernel)
      (by decide +kernel)).trans (by decide +kernel)
  have := C52_list ⟨[], [], []⟩ sampleIni "f".toList ["a.ini".toList, "b.ini // second".toList] (by decide +kernel) (by
    intro i hi
    rcases i with _ | _ | i
    · decide +kernel +revert
    · decide +kernel +revert
    · exact absurd hi (by simp)) (by decide +kernel) (by
    intro v hv
    simp only [List.mem_cons, List.not_mem_nil, or_false] at hv
    rcases hv with rfl | rfl
    · rw [e0]; decide +kernel
    · rw [e1]; decide) 10 (by decide +kernel)
  rw [this]; simp only [List.map_cons, List.map_nil, e0, e1]

/-- **C52.** A four-element attitude is read from `key_(0..3)` unless all four of those are zero (or missing); then from `key(0..3)`. -/
theorem C52_quaternion {K : Type} [Field K] [LinearOrder K] [IsStrictOrderedRing K] (getReal : Str → K) (ini : Str → Option Str) (key : Str) (i : Nat) (hi : i < 4) :
    ((∃ j < 4, readDouble getReal ini (key ++ "_(".toList ++ dec j ++ ")".toList) ≠ 0) →
      readQuaternion getReal ini key i = readDouble getReal ini (key ++ "_(".toList ++ dec i ++ ")".toList)) ∧
    ((∀ j < 4, readDouble getReal ini (key ++ "_(".toList ++ dec j ++ ")".toList) = 0) →
      readQuaternion getReal ini key i = readDouble getReal ini (key ++ "(".toList ++ dec i ++ ")".toList)) := by
  have key0 : ∀ a b c d : K, 0 + a * a + b * b + c * c + d * d = 0 ↔ a = 0 ∧ b = 0 ∧ c = 0 ∧ d = 0 := by
    intro a b c d
    constructor
    · intro h
      have ha := mul_self_nonneg a; have hb := mul_self_nonneg b; have hc := mul_self_nonneg c; have hd := mul_self_nonneg d
      refine ⟨mul_self_eq_zero.1 ?_, mul_self_eq_zero.1 ?_, mul_self_eq_zero.1 ?_, mul_self_eq_zero.1 ?_⟩ <;> linarith
    · rintro ⟨rfl, rfl, rfl, rfl⟩; simp
  constructor
  · rintro ⟨j, hj, hne⟩
    simp only [readQuaternion]
    rw [if_neg]
    rw [key0]
    rintro ⟨h0, h1, h2, h3⟩
    interval_cases j
    · exact hne h0
    · exact hne h1
    · exact hne h2
    · exact hne h3
  · intro h
    simp only [readQuaternion]
    rw [if_pos ((key0 _ _ _ _).2 ⟨h 0 (by norm_num), h 1 (by norm_num), h 2 (by norm_num), h 3 (by norm_num)⟩)]
    rfl

/-- **C52.** Reading into a caller's character buffer writes exactly its size; the text in it is terminated (and then equal to the value) exactly
when the value is shorter than the buffer. -/
theorem C52_char_buffer (p : Paths) (ini : Str → Option Str) (key : Str) (size : Nat) (hz : Char.ofNat 0 ∉ readString p ini key) :
    (readChar p ini key size).length = size ∧
    (Char.ofNat 0 ∈ readChar p ini key size ↔ (readString p ini key).length < size) ∧
    ((readString p ini key).length < size → (readChar p ini key size).takeWhile (· ≠ Char.ofNat 0) = readString p ini key) := by
  refine ⟨by simp only [readChar, List.length_append, List.length_take, List.length_replicate]; omega, ?_, ?_⟩
  · simp only [readChar, List.mem_append, List.mem_replicate]
    constructor
    · rintro (h | ⟨h, _⟩)
      · exact absurd (List.mem_of_mem_take h) hz
      · omega
    · intro h; exact .inr ⟨by omega, trivial⟩
  · intro h
    have hpos : ∀ c ∈ readString p ini key, (decide (c ≠ Char.ofNat 0)) = true := by
      intro c hc; simpa using fun e : c = Char.ofNat 0 => hz (e ▸ hc)
    obtain ⟨k, hk⟩ : ∃ k, size - (readString p ini key).length = k + 1 := ⟨size - (readString p ini key).length - 1, by omega⟩
    rw [readChar, List.take_of_length_le (by omega), hk, List.takeWhile_append_of_pos hpos]
    simp [List.replicate_succ]

end S2E.IniRead
