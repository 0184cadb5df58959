import Verif.Model.Slip
import Verif.Spec.Slip
import Mathlib.Tactic.SplitIfs
import Mathlib.Data.List.Induction
/-!
# The iterator loops of `slip.cpp` are the recursive specification
-/
namespace S2E
namespace Slip
open SlipSpec

theorem findFrom_eq (b : Byte) (suf : List Byte) : ∀ pre,
    findFrom b pre suf = (pre ++ suf.takeWhile (· ≠ b), suf.dropWhile (· ≠ b)) := by
  induction suf with
  | nil => intro pre; simp [findFrom]
  | cons x xs ih =>
    intro pre
    by_cases h : x = b
    · simp [findFrom, h]
    · simp [findFrom, h, ih]

/-- First pass: every FESC is followed by a TFESC. -/
def esc1 (b : Byte) : List Byte := if b = fesc then [fesc, tfesc] else [b]
/-- Second pass: every FEND becomes FESC TFEND. -/
def esc2 (b : Byte) : List Byte := if b = fend then [fesc, tfend] else [b]

theorem escapeFescLoop_skip (fuel : Nat) (pre : List Byte) (x : Byte) (xs : List Byte) (h : x ≠ fesc) :
    escapeFescLoop fuel pre (x :: xs) = escapeFescLoop fuel (pre ++ [x]) xs := by
  have : findFrom fesc pre (x :: xs) = findFrom fesc (pre ++ [x]) xs := by simp [findFrom, h]
  conv_lhs => unfold escapeFescLoop
  conv_rhs => unfold escapeFescLoop
  rw [this]

theorem escapeFescLoop_eq (suf : List Byte) : ∀ (fuel : Nat) (pre : List Byte), suf.length < fuel →
    escapeFescLoop fuel pre suf = .ok (pre ++ suf.flatMap esc1) := by
  induction suf with
  | nil => intro fuel pre _; unfold escapeFescLoop; simp [findFrom]
  | cons x xs ih =>
    intro fuel pre hf
    simp only [List.length_cons] at hf
    by_cases h : x = fesc
    · subst h
      obtain ⟨f, rfl⟩ : ∃ f, fuel = f + 1 := ⟨fuel - 1, by omega⟩
      have h1 : escapeFescLoop (f + 1) pre (fesc :: xs) = escapeFescLoop f (pre ++ [fesc]) (tfesc :: xs) := by
        conv_lhs => unfold escapeFescLoop
        simp [findFrom]
      rw [h1, escapeFescLoop_skip _ _ _ _ (by decide), ih f _ (by omega)]
      simp [esc1]
    · rw [escapeFescLoop_skip _ _ _ _ h, ih fuel _ (by omega)]
      simp [esc1, h]

theorem escapeFendLoop_skip (fuel : Nat) (pre : List Byte) (x : Byte) (xs : List Byte) (h : x ≠ fend) :
    escapeFendLoop fuel pre (x :: xs) = escapeFendLoop fuel (pre ++ [x]) xs := by
  have : findFrom fend pre (x :: xs) = findFrom fend (pre ++ [x]) xs := by simp [findFrom, h]
  conv_lhs => unfold escapeFendLoop
  conv_rhs => unfold escapeFendLoop
  rw [this]

theorem escapeFendLoop_eq (suf : List Byte) : ∀ (fuel : Nat) (pre : List Byte), suf.length < fuel →
    escapeFendLoop fuel pre suf = .ok (pre ++ suf.flatMap esc2) := by
  induction suf with
  | nil => intro fuel pre _; unfold escapeFendLoop; simp [findFrom]
  | cons x xs ih =>
    intro fuel pre hf
    simp only [List.length_cons] at hf
    by_cases h : x = fend
    · subst h
      obtain ⟨f, rfl⟩ : ∃ f, fuel = f + 1 := ⟨fuel - 1, by omega⟩
      have h1 : escapeFendLoop (f + 1) pre (fend :: xs) = escapeFendLoop f (pre ++ [fesc]) (tfend :: xs) := by
        conv_lhs => unfold escapeFendLoop
        simp [findFrom]
      rw [h1, escapeFendLoop_skip _ _ _ _ (by decide), ih f _ (by omega)]
      simp [esc2]
    · rw [escapeFendLoop_skip _ _ _ _ h, ih fuel _ (by omega)]
      simp [esc2, h]

theorem esc_comp (b : Byte) : (esc1 b).flatMap esc2 = stuff b := by
  unfold esc1 stuff
  by_cases h : b = fesc
  · subst h; decide
  · have h' : b ≠ 0xdb := h
    simp only [h, if_false, h', List.flatMap_cons, List.flatMap_nil, List.append_nil, esc2]
    rfl

theorem encode_eq (x : List Byte) : encode x = .ok (frame x) := by
  unfold encode
  rw [escapeFescLoop_eq x _ _ (by omega)]
  simp only [Res.bind_ok, List.nil_append]
  rw [escapeFendLoop_eq _ _ _ (by omega)]
  simp only [Res.bind_ok, List.nil_append, List.flatMap_assoc, esc_comp]
  rfl

theorem decodeLoop_skip (fuel : Nat) (pre : List Byte) (x : Byte) (xs : List Byte) (h : x ≠ fesc) :
    decodeLoop fuel pre (x :: xs) = decodeLoop fuel (pre ++ [x]) xs := by
  have : findFrom fesc pre (x :: xs) = findFrom fesc (pre ++ [x]) xs := by simp [findFrom, h]
  conv_lhs => unfold decodeLoop
  conv_rhs => unfold decodeLoop
  rw [this]

/-- What `decode` returns for an unstuffed (or dangling) payload. -/
def ofOption : Option (List Byte) → Res (List Byte)
  | some x => .ok x
  | none => .ub

theorem decodeLoop_eq (suf : List Byte) : ∀ (fuel : Nat) (pre : List Byte), suf.length < fuel →
    decodeLoop fuel pre suf = ofOption ((unstuff suf).map (pre ++ ·)) := by
  induction suf using unstuff.induct with
  | case1 => intro fuel pre _; unfold decodeLoop; simp [findFrom, unstuff, ofOption]
  | case2 =>
    intro fuel pre _
    unfold decodeLoop; simp [findFrom, unstuff, ofOption, fesc]
  | case3 b h =>
    intro fuel pre _
    unfold decodeLoop
    have : b ≠ fesc := h
    simp [findFrom, unstuff, ofOption, this, h]
  | case4 c rest ih =>
    intro fuel pre hf
    simp only [List.length_cons] at hf
    obtain ⟨f, rfl⟩ : ∃ f, fuel = f + 1 := ⟨fuel - 1, by omega⟩
    have h1 : decodeLoop (f + 1) pre (fesc :: c :: rest) =
        decodeLoop f (pre ++ [if c = tfend then fend else if c = tfesc then fesc else c]) rest := by
      conv_lhs => unfold decodeLoop
      simp [findFrom]
    have : (0xdb : Byte) = fesc := rfl
    rw [this, h1, ih f _ (by omega)]
    simp only [unstuff, fesc, if_true, Option.map_map]
    congr 2
    funext r
    simp [tfend, tfesc, fend]
    rfl
  | case5 b c rest h ih =>
    intro fuel pre hf
    simp only [List.length_cons] at hf
    have hb : b ≠ fesc := h
    rw [decodeLoop_skip _ _ _ _ hb, ih fuel _ (by simp only [List.length_cons]; omega)]
    simp only [unstuff, h, if_false, Option.map_map]
    congr 2
    funext r
    simp

theorem decode_eq (y : List Byte) : decode y = ofOption (unstuff (payload y)) := by
  unfold decode
  rw [findFrom_eq]
  simp only [List.nil_append]
  rw [decodeLoop_eq _ _ _ (by omega)]
  have : y.takeWhile (fun x => decide (x ≠ fend)) = payload y := rfl
  rw [this]
  congr 1
  cases unstuff (payload y) <;> simp

theorem unstuff_cons (b : Byte) (h : b ≠ 0xdb) (rest : List Byte) : unstuff (b :: rest) = (unstuff rest).map (b :: ·) := by
  cases rest with
  | nil => simp [unstuff, h]
  | cons c rest => simp [unstuff, h]

theorem unstuff_flatMap (x : List Byte) : unstuff (x.flatMap stuff) = some x := by
  induction x with
  | nil => rfl
  | cons b x ih =>
    rw [List.flatMap_cons]
    by_cases h1 : b = 0xc0
    · subst h1
      rw [show stuff 0xc0 = [0xdb, 0xdc] from rfl]
      simp [unstuff, ih]
    · by_cases h2 : b = 0xdb
      · subst h2
        rw [show stuff 0xdb = [0xdb, 0xdd] from rfl]
        simp [unstuff, ih]
      · rw [show stuff b = [b] by simp [stuff, h1, h2], List.singleton_append, unstuff_cons b h2, ih]; rfl

theorem fend_not_mem_stuffed (x : List Byte) : (0xc0 : Byte) ∉ x.flatMap stuff := by
  intro h
  obtain ⟨b, _, hb⟩ := List.mem_flatMap.1 h
  unfold stuff at hb
  split_ifs at hb with h1 h2
  · revert hb; decide
  · revert hb; decide
  · simp at hb; exact h1 hb.symm

theorem payload_frame (x tail : List Byte) : payload (frame x ++ tail) = x.flatMap stuff := by
  unfold payload frame
  have h := fend_not_mem_stuffed x
  generalize x.flatMap stuff = l at h
  induction l with
  | nil => simp
  | cons b l ih =>
    simp only [List.mem_cons, not_or] at h
    have hb : b ≠ 0xc0 := fun e => h.1 e.symm
    have ih := ih h.2
    simp only [List.cons_append, List.append_assoc] at ih ⊢
    rw [List.takeWhile_cons]
    simp only [hb, ne_eq, not_false_eq_true, decide_true, if_true]
    congr 1

theorem unstuff_length (p x : List Byte) (h : unstuff p = some x) : x.length ≤ p.length := by
  induction p using unstuff.induct generalizing x with
  | case1 => simp [unstuff] at h; subst h; simp
  | case2 => simp [unstuff] at h
  | case3 b hb => simp [unstuff, hb] at h; subst h; simp
  | case4 c rest ih =>
    simp only [unstuff, if_true, Option.map_eq_some_iff] at h
    obtain ⟨r, hr, rfl⟩ := h
    have := ih r hr
    simp only [List.length_cons]; omega
  | case5 b c rest hb ih =>
    simp only [unstuff, hb, if_false, Option.map_eq_some_iff] at h
    obtain ⟨r, hr, rfl⟩ := h
    have := ih r hr
    simp only [List.length_cons] at this ⊢; omega

/-- Length of the run of escape bytes at the end. -/
def run (p : List Byte) : Nat := (p.reverse.takeWhile (fun b => decide (b = (0xdb : Byte)))).length

theorem takeWhile_append_all {α : Type} (f : α → Bool) (l m : List α) (h : ∀ x ∈ l, f x = true) :
    (l ++ m).takeWhile f = l ++ m.takeWhile f := by
  induction l with
  | nil => rfl
  | cons a l ih =>
    simp [List.takeWhile_cons, h a (by simp), ih (fun x hx => h x (by simp [hx]))]

theorem takeWhile_append_stop {α : Type} (f : α → Bool) (l m : List α) (h : ∃ x ∈ l, f x = false) :
    (l ++ m).takeWhile f = l.takeWhile f := by
  induction l with
  | nil => obtain ⟨x, hx, _⟩ := h; simp at hx
  | cons a l ih =>
    cases ha : f a with
    | false => simp [List.takeWhile_cons, ha]
    | true =>
      have : ∃ x ∈ l, f x = false := by
        obtain ⟨x, hx, hfx⟩ := h
        rcases List.mem_cons.1 hx with rfl | hx
        · rw [ha] at hfx; cases hfx
        · exact ⟨x, hx, hfx⟩
      simp [List.takeWhile_cons, ha, ih this]

theorem run_cons_other (b : Byte) (h : b ≠ 0xdb) (p : List Byte) : run (b :: p) = run p := by
  unfold run
  rw [List.reverse_cons]
  by_cases hall : ∀ x ∈ p.reverse, decide (x = (0xdb : Byte)) = true
  · rw [takeWhile_append_all _ _ _ hall]
    have : [b].takeWhile (fun b => decide (b = (0xdb : Byte))) = [] := by simp [h]
    rw [this, List.append_nil]
    have := takeWhile_append_all _ p.reverse [] hall
    simp only [List.append_nil, List.takeWhile_nil] at this
    rw [this]
  · rw [takeWhile_append_stop]
    push Not at hall
    obtain ⟨x, hx, hf⟩ := hall
    exact ⟨x, hx, by simpa using hf⟩

theorem run_cons_esc (c : Byte) (p : List Byte) : run (0xdb :: c :: p) % 2 = run p % 2 := by
  by_cases hall : ∀ x ∈ p.reverse, decide (x = (0xdb : Byte)) = true
  · have hp : run p = p.length := by
      unfold run
      have := takeWhile_append_all _ p.reverse [] hall
      simp only [List.append_nil, List.takeWhile_nil] at this
      rw [this]; simp
    by_cases hc : c = 0xdb
    · subst hc
      have : run (0xdb :: 0xdb :: p) = p.length + 2 := by
        unfold run
        rw [List.reverse_cons, List.reverse_cons, List.append_assoc, takeWhile_append_all _ _ _ hall]
        simp
      omega
    · have : run (0xdb :: c :: p) = p.length := by
        unfold run
        rw [List.reverse_cons, List.reverse_cons, List.append_assoc, takeWhile_append_all _ _ _ hall]
        simp [hc]
      omega
  · have : run (0xdb :: c :: p) = run p := by
      unfold run
      rw [List.reverse_cons, List.reverse_cons, List.append_assoc, takeWhile_append_stop]
      push Not at hall
      obtain ⟨x, hx, hf⟩ := hall
      exact ⟨x, hx, by simpa using hf⟩
    rw [this]

theorem unstuff_none_iff (p : List Byte) : unstuff p = none ↔ DanglingEscape p := by
  have : DanglingEscape p ↔ run p % 2 = 1 := Iff.rfl
  rw [this]
  induction p using unstuff.induct with
  | case1 => simp [unstuff, run]
  | case2 => simp [unstuff, run]
  | case3 b hb => simp [unstuff, run, hb]
  | case4 c rest ih => simp only [unstuff, if_true, Option.map_eq_none_iff, run_cons_esc]; exact ih Iff.rfl
  | case5 b c rest hb ih =>
    simp only [unstuff, hb, if_false, Option.map_eq_none_iff, run_cons_other b hb]; exact ih Iff.rfl

theorem cut_append_stuffed (l : List Byte) (h : (0xc0 : Byte) ∉ l) : ∀ (acc rest : List Byte),
    cut acc (l ++ 0xc0 :: rest) = (acc ++ l ++ [0xc0]) :: cut [] rest := by
  induction l with
  | nil => intro acc rest; simp [cut]
  | cons b l ih =>
    intro acc rest
    simp only [List.mem_cons, not_or] at h
    have hb : b ≠ 0xc0 := fun e => h.1 e.symm
    simp only [List.cons_append, cut, hb, if_false]
    rw [ih h.2]; simp

end Slip
end S2E
