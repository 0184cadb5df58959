import Verif.Props.C2a
/-! # C55 (operation file), C75 (command lines) and C76 (command database) -/
namespace S2E.C2a
open S2E.Log S2E.Ini S2E.Csv S2E.LogProps

/-! ## C55: schedule -/
section Schedule
variable {K : Type} [Field K] [LinearOrder K] [IsStrictOrderedRing K] [FloorSemiring K]

/-- Specification: the number of runs of the main routine before the run that executes line `m` (0-based): every line takes one run, and a line with
waiting time `w` a further `⌈w / step⌉` runs (none if `w ≤ 0`). -/
def startRun (w : Nat → K) (step : K) : Nat → Nat
  | 0 => 0
  | m + 1 => startRun w step m + 1 + ⌈w m / step⌉₊

theorem run_add (exec : Str → Res (K × List Call)) (a b : Nat) (s : Sender K) : s.run exec (a + b) = (do let t ← s.run exec a; t.run exec b) := by
  induction b with
  | zero => rcases h : s.run exec a <;> simp [Sender.run, h]
  | succ b ih =>
    rw [← Nat.add_assoc, Sender.run, ih]
    rcases h : s.run exec a <;> simp [Sender.run]

theorem run_one (exec : Str → Res (K × List Call)) (s : Sender K) : s.run exec 1 = s.mainRoutine exec := rfl

theorem waiting (exec : Str → Res (K × List Call)) (s : Sender K) (he : s.enabled = true) (hl : s.endOfLine = false) (hs : 0 < s.step) (k : Nat)
    (hk : k ≤ ⌈s.wait / s.step⌉₊) : s.run exec k = .ok { s with wait := s.wait - k * s.step } := by
  induction k with
  | zero => simp [Sender.run]
  | succ k ih =>
    rw [Sender.run, ih (by omega), Res.bind_ok]
    have h1 : (k : K) < s.wait / s.step := Nat.lt_ceil.1 (by omega)
    have h2 : ¬ (s.wait - k * s.step ≤ 0) := by
      rw [lt_div_iff₀ hs] at h1; push Not; linarith
    simp only [Sender.mainRoutine, he, hl, if_neg h2, Bool.true_eq_false, Bool.false_eq_true, if_false]
    congr 2
    push_cast; ring

theorem waited (w step : K) (hs : 0 < step) : w - ((⌈w / step⌉₊ : Nat) : K) * step ≤ 0 := by
  have := Nat.le_ceil (w / step)
  rw [div_le_iff₀ hs] at this
  linarith

theorem at_start (exec : Str → Res (K × List Call)) (s : Sender K) (he : s.enabled = true) (hl : s.endOfLine = false) (hs : 0 < s.step)
    (hp : s.pointer = 0) (hx : s.executed = []) (hc : s.calls = []) (hw : s.wait ≤ 0) (w : Nat → K) (cs : Nat → List Call)
    (hexec : ∀ i l, s.lines[i]? = some l → l ≠ "EOL".toList ∧ exec l = .ok (w i, cs i)) (m : Nat) (hm : m ≤ s.lines.length) :
    ∃ wait', wait' ≤ 0 ∧ s.run exec (startRun w s.step m) =
      .ok { s with pointer := m, wait := wait', executed := s.lines.take m, calls := (List.range m).flatMap cs } := by
  induction m with
  | zero => exact ⟨s.wait, hw, by
      obtain ⟨a, b, c, d, e, f, g, h⟩ := s
      simp only at hp hx hc
      subst hp hx hc
      rfl⟩
  | succ m ih =>
    obtain ⟨wait', h1, h2⟩ := ih (by omega)
    obtain ⟨l, hli⟩ : ∃ l, s.lines[m]? = some l := ⟨s.lines[m], List.getElem?_eq_getElem (by omega)⟩
    obtain ⟨hne, hex⟩ := hexec m l hli
    have hstep : Sender.mainRoutine exec { s with pointer := m, wait := wait', executed := s.lines.take m, calls := (List.range m).flatMap cs } =
        .ok { s with pointer := m + 1, wait := w m, executed := s.lines.take (m + 1), calls := (List.range (m + 1)).flatMap cs } := by
      simp only [Sender.mainRoutine, he, hl, if_pos h1, Bool.true_eq_false, Bool.false_eq_true, if_false, Sender.getLatestLine, hli, if_neg hne, hex, Res.bind_ok]
      congr 2
      · rw [List.take_add_one, hli]; rfl
      · rw [List.range_succ, List.flatMap_append]; simp
    refine ⟨_, waited (w m) s.step hs, ?_⟩
    rw [startRun, run_add, run_add, h2, Res.bind_ok, run_one, hstep, Res.bind_ok]
    exact waiting exec { s with pointer := m + 1, wait := w m, executed := s.lines.take (m + 1), calls := (List.range (m + 1)).flatMap cs } he hl hs _ le_rfl

/-- **C55.** A sender whose operation file has executable lines (`w i` is the waiting time line `i` asks for, `cs i` the calls it makes): after `n` runs
of the main routine exactly the lines whose turn has come have been executed, each once and in file order, and their calls made in that order; between
two lines the sender is idle for exactly `⌈w / step⌉` runs; after the last line nothing more is ever executed. -/
theorem C55_schedule (exec : Str → Res (K × List Call)) (file : Str) (step : K) (hs : 0 < step) (w : Nat → K) (cs : Nat → List Call)
    (hexec : ∀ i l, (loadOperation file)[i]? = some l → l ≠ "EOL".toList ∧ exec l = .ok (w i, cs i)) :
    (∀ m < (loadOperation file).length, ∀ n, startRun w step m < n → n ≤ startRun w step (m + 1) → ∃ s,
      (Sender.init file true step).run exec n = .ok s ∧ s.executed = (loadOperation file).take (m + 1) ∧ s.calls = (List.range (m + 1)).flatMap cs) ∧
    (∀ n, startRun w step (loadOperation file).length < n → ∃ s,
      (Sender.init file true step).run exec n = .ok s ∧ s.executed = loadOperation file ∧
      s.calls = (List.range (loadOperation file).length).flatMap cs ∧ s.endOfLine = true) := by
  let s0 : Sender K := Sender.init file true step
  have A := at_start exec s0 rfl rfl hs rfl rfl rfl le_rfl w cs hexec
  constructor
  · intro m hm n h1 h2
    obtain ⟨wait', hw, hrun⟩ := A m hm.le
    obtain ⟨l, hli⟩ : ∃ l, (loadOperation file)[m]? = some l := ⟨(loadOperation file)[m], List.getElem?_eq_getElem (by omega)⟩
    obtain ⟨hne, hex⟩ := hexec m l hli
    have hli' : s0.lines[m]? = some l := hli
    have hstep : Sender.mainRoutine exec { s0 with pointer := m, wait := wait', executed := s0.lines.take m, calls := (List.range m).flatMap cs } =
        .ok { s0 with pointer := m + 1, wait := w m, executed := s0.lines.take (m + 1), calls := (List.range (m + 1)).flatMap cs } := by
      simp only [Sender.mainRoutine, show s0.enabled = true from rfl, show s0.endOfLine = false from rfl, if_pos hw, Bool.true_eq_false, Bool.false_eq_true, if_false,
        Sender.getLatestLine, hli', if_neg hne, hex, Res.bind_ok]
      congr 2
      · rw [List.take_add_one, hli']; rfl
      · rw [List.range_succ, List.flatMap_append]; simp
    obtain ⟨j, rfl⟩ : ∃ j, n = startRun w step m + 1 + j := ⟨n - (startRun w step m + 1), by omega⟩
    rw [startRun] at h2
    refine ⟨{ s0 with pointer := m + 1, wait := w m - j * step, executed := s0.lines.take (m + 1), calls := (List.range (m + 1)).flatMap cs }, ?_, rfl, rfl⟩
    · show s0.run exec _ = _
      change s0.run exec (startRun w step m) = _ at hrun
      rw [run_add, run_add, hrun, Res.bind_ok, run_one, hstep, Res.bind_ok]
      exact waiting exec { s0 with pointer := m + 1, wait := w m, executed := s0.lines.take (m + 1), calls := (List.range (m + 1)).flatMap cs } rfl rfl hs j (by
        show j ≤ ⌈w m / step⌉₊
        omega)
  · intro n hn
    obtain ⟨wait', hw, hrun⟩ := A (loadOperation file).length le_rfl
    have hnone : s0.lines[(loadOperation file).length]? = none := List.getElem?_eq_none le_rfl
    obtain ⟨j, rfl⟩ : ∃ j, n = startRun w step (loadOperation file).length + 1 + j := ⟨n - (startRun w step (loadOperation file).length + 1), by omega⟩
    let t : Sender K := { s0 with pointer := (loadOperation file).length, wait := wait', executed := s0.lines.take (loadOperation file).length,
                                  calls := (List.range (loadOperation file).length).flatMap cs, endOfLine := true }
    have hstay : ∀ j, t.run exec j = .ok t := by
      intro j
      induction j with
      | zero => rfl
      | succ j ih => rw [Sender.run, ih, Res.bind_ok]; rfl
    refine ⟨t, ?_, List.take_length, rfl, rfl⟩
    show s0.run exec _ = _
    change s0.run exec (startRun w step _) = _ at hrun
    rw [run_add, run_add, hrun, Res.bind_ok, run_one]
    have hstep : Sender.mainRoutine exec { s0 with pointer := (loadOperation file).length, wait := wait', executed := s0.lines.take (loadOperation file).length, calls := (List.range (loadOperation file).length).flatMap cs } = .ok t := by
      simp only [Sender.mainRoutine, show s0.enabled = true from rfl, show s0.endOfLine = false from rfl, if_pos hw, Bool.true_eq_false, Bool.false_eq_true, if_false,
        Sender.getLatestLine, hnone, if_true]
      rfl
    rw [hstep, Res.bind_ok, hstay]

/-- **C55.** A disabled sender never executes anything. -/
theorem C55_disabled (exec : Str → Res (K × List Call)) (file : Str) (step : K) (n : Nat) :
    (Sender.init file false step).run exec n = .ok (Sender.init file false step) := by
  induction n with
  | zero => rfl
  | succ n ih => rw [Sender.run, ih, Res.bind_ok]; rfl

end Schedule

/-! ## Lines of the file -/

/-- **C55.** Loading keeps the order of the lines; a line starting with `#`, or shorter than three characters, is skipped; a line of at least three
characters without comment and without leading dot or blank is kept as it is; one leading dot and one leading blank are removed. -/
theorem C55_load (lines : List Str) (hn : ∀ l ∈ lines, '\n' ∉ l) :
    loadOperation (terminated '\n' lines) = (lines.map cleanLine).filter (fun l => 2 < l.length) ∧
    (∀ r, cleanLine ('#' :: r) = [] ∧ cleanLine ('.' :: '#' :: r) = [] ∧ cleanLine ('.' :: ' ' :: '#' :: r) = []) ∧
    (∀ l, l.head? ≠ some '.' → l.head? ≠ some ' ' → '#' ∉ l → cleanLine l = l ∧ cleanLine (' ' :: l) = l ∧ cleanLine ('.' :: l) = l ∧
      cleanLine ('.' :: ' ' :: l) = l ∧ ∀ r, cleanLine (l ++ '#' :: r) = l) := by
  refine ⟨by rw [loadOperation, linesOf, C53_split_terminated _ _ hn], fun r => ⟨by simp [cleanLine], by simp [cleanLine], by simp [cleanLine]⟩, ?_⟩
  intro l h1 h2 h3
  have ht : l.takeWhile (fun c => decide (c ≠ '#')) = l :=
    List.takeWhile_eq_self_iff.2 (by intro a ha; simpa using fun h : a = '#' => h3 (h ▸ ha))
  have ht' : ∀ r, (l ++ '#' :: r).takeWhile (fun c => decide (c ≠ '#')) = l := by
    intro r
    rw [List.takeWhile_append_of_pos (by intro a ha; simpa using fun h : a = '#' => h3 (h ▸ ha))]; simp
  cases l with
  | nil => refine ⟨rfl, rfl, rfl, rfl, fun r => by simp [cleanLine]⟩
  | cons c cs =>
    have hc1 : c ≠ '.' := by simpa using h1
    have hc2 : c ≠ ' ' := by simpa using h2
    refine ⟨?_, ?_, ?_, ?_, fun r => ?_⟩
    · simp only [cleanLine, List.head?_cons, Option.some.injEq, if_neg hc1, if_neg hc2]; exact ht
    · simp only [cleanLine, List.head?_cons, Option.some.injEq, show ¬ (' ' = '.') by decide, if_true, if_false, List.drop_succ_cons, List.drop_zero]; exact ht
    · simp only [cleanLine, List.head?_cons, Option.some.injEq, if_true, List.drop_succ_cons, List.drop_zero, if_neg hc2]; exact ht
    · simp only [cleanLine, List.head?_cons, Option.some.injEq, if_true, List.drop_succ_cons, List.drop_zero]; exact ht
    · simp only [cleanLine, List.cons_append, List.head?_cons, Option.some.injEq, if_neg hc1, if_neg hc2]; exact ht' r

/-! ## Words and lines -/

theorem words_nil (s : Str) (h : ∀ c ∈ s, isSpace c = true) : words s = [] := by
  have : s.dropWhile isSpace = [] := List.dropWhile_eq_nil_iff.2 h
  unfold words
  split
  · rfl
  · rename_i h'; rw [this] at h'; cases h'

theorem words_space (c : Char) (s : Str) (h : isSpace c = true) : words (c :: s) = words s := by
  have : (c :: s).dropWhile isSpace = s.dropWhile isSpace := List.dropWhile_cons_of_pos h
  rw [words, words.eq_def s]
  split
  · rename_i h'; rw [this] at h'
    split
    · rfl
    · rename_i h''; rw [h'] at h''; cases h''
  · rename_i h'; rw [this] at h'
    split
    · rename_i h''; rw [h'] at h''; cases h''
    · rename_i h''; rw [h'] at h''; cases h''; rfl

theorem words_cons (t rest : Str) (hne : t ≠ []) (ht : ∀ c ∈ t, isSpace c = false) (hr : ∀ c, rest.head? = some c → isSpace c = true) :
    words (t ++ rest) = t :: words rest := by
  obtain ⟨c, cs, rfl⟩ := List.exists_cons_of_ne_nil hne
  have h0 : (c :: cs ++ rest).dropWhile isSpace = c :: cs ++ rest := by
    rw [List.cons_append, List.dropWhile_cons_of_neg (by simp [ht c (by simp)])]
  have h1 : (c :: cs ++ rest).takeWhile (fun c => !isSpace c) = c :: cs := by
    rw [List.takeWhile_append_of_pos (by intro a ha; simp [ht a ha])]
    cases rest with
    | nil => simp
    | cons d ds => simp [hr d rfl]
  have h2 : (c :: cs ++ rest).dropWhile (fun c => !isSpace c) = rest := by
    rw [List.dropWhile_append_of_pos (by intro a ha; simp [ht a ha])]
    cases rest with
    | nil => simp
    | cons d ds => simp [hr d rfl]
  rw [words]
  split
  · rename_i h'; rw [h0] at h'; cases h'
  · rename_i h'
    rw [h0] at h'
    rw [← h', h1, h2]

/-- The words of a line of words separated by single blanks are these words. -/
theorem words_join (ts : List Str) (h : ∀ t ∈ ts, t ≠ [] ∧ ∀ c ∈ t, isSpace c = false) : words (join ' ' ts) = ts := by
  induction ts with
  | nil => exact words_nil [] (by simp)
  | cons t ts ih =>
    have ht := h t (by simp)
    have ih' := ih (fun x hx => h x (by simp [hx]))
    cases ts with
    | nil =>
      have := words_cons t [] ht.1 ht.2 (by simp)
      rw [List.append_nil, words_nil [] (by simp)] at this
      exact this
    | cons u us =>
      show words (t ++ ' ' :: join ' ' (u :: us)) = _
      rw [words_cons t _ ht.1 ht.2 (by simp; decide), words_space _ _ (by decide), ih']

section Lines
variable {K : Type} [Zero K] (stod : Str → Res K) (io : FloatIo) (db : List (Str × CommandInfo)) (buffer : List Byte)

/-- **C55.** A line `wait_sec w` asks for the waiting time `w` and makes no call. -/
theorem C55_wait_line (t : Str) (v : K) (ht : t ≠ [] ∧ ∀ c ∈ t, isSpace c = false) (hv : stod t = .ok v) :
    executeLine stod io db buffer ("wait_sec ".toList ++ t) = .ok (v, []) := by
  have hw : words ("wait_sec ".toList ++ t) = ["wait_sec".toList, t] :=
    words_join ["wait_sec".toList, t] (by
      intro x hx
      simp only [List.mem_cons, List.not_mem_nil, or_false] at hx
      rcases hx with rfl | rfl
      · decide
      · exact ht)
  rw [executeLine, hw]
  simp only [token, List.getElem?_cons_zero, List.getElem?_cons_succ, Res.bind_ok]
  rw [if_pos (by decide), hv, Res.bind_ok]

/-- **C55.** A line whose first word starts with `check_value` or `let` makes no call and no waiting time (so a command whose name starts with `let`
is not sent either); any other line is analysed as a command, with no waiting time. -/
theorem C55_other_lines (ts : List Str) (t0 : Str) (h : ∀ t ∈ t0 :: ts, t ≠ [] ∧ ∀ c ∈ t, isSpace c = false) (hw : ¬ "wait_sec".toList <+: t0) :
    executeLine stod io db buffer (join ' ' (t0 :: ts)) =
      if "check_value".toList <+: t0 ∨ "let".toList <+: t0 then .ok (0, []) else (do let c ← analyze io db buffer (t0 :: ts); .ok (0, c)) := by
  rw [executeLine, words_join _ h]
  have hw' : ¬ ("wait_sec".toList.isPrefixOf t0 = true) := fun hh => hw (List.isPrefixOf_iff_prefix.1 hh)
  simp only [token, List.getElem?_cons_zero, Res.bind_ok, if_neg hw']
  by_cases h1 : "check_value".toList <+: t0
  · rw [if_pos (List.isPrefixOf_iff_prefix.2 h1), if_pos (.inl h1)]
  · rw [if_neg (fun hh => h1 (List.isPrefixOf_iff_prefix.1 hh))]
    by_cases h2 : "let".toList <+: t0
    · rw [if_pos (List.isPrefixOf_iff_prefix.2 h2), if_pos (.inr h2)]
    · rw [if_neg (fun hh => h2 (List.isPrefixOf_iff_prefix.1 hh)), if_neg (by rintro (h | h); exacts [h1 h, h2 h])]

/-- **C55 needs its hypothesis.** Blank lines are not all skipped: a line of at least four blanks (for instance a comment indented by four) is kept, and
executing it reads the first element of an empty list. -/
theorem C55_indented_comment_ub (n : Nat) (hn : 4 ≤ n) (comment : Str) (hc : '\n' ∉ comment) :
    loadOperation (terminated '\n' [List.replicate n ' ' ++ '#' :: comment]) = [List.replicate (n - 1) ' '] ∧
    executeLine stod io db buffer (List.replicate (n - 1) ' ') = .ub := by
  constructor
  · obtain ⟨n, rfl⟩ : ∃ k, n = k + 1 := ⟨n - 1, by omega⟩
    rw [loadOperation, linesOf, C53_split_terminated _ _ (by
      intro f hf
      simp only [List.mem_singleton] at hf
      subst hf
      simp only [List.mem_append, List.mem_replicate, List.mem_cons, not_or]
      exact ⟨by simp, by decide, hc⟩)]
    have : cleanLine (List.replicate (n + 1) ' ' ++ '#' :: comment) = List.replicate n ' ' := by
      simp only [cleanLine, List.replicate_succ, List.cons_append, List.head?_cons, Option.some.injEq, show ¬ (' ' = '.') by decide, if_true, if_false,
        List.drop_succ_cons, List.drop_zero]
      rw [List.takeWhile_append_of_pos (by intro a ha; rw [List.eq_of_mem_replicate ha]; decide)]
      simp
    simp only [List.map_cons, List.map_nil, this]
    rw [List.filter_cons_of_pos (by simp; omega)]; rfl
  · rw [executeLine, words_nil _ (by intro c hc; rw [List.eq_of_mem_replicate hc]; decide)]
    rfl

/-- **C55 needs its hypothesis.** `wait_sec` without a number is an access past the end as well. -/
theorem C55_wait_without_time_ub : executeLine stod io db buffer "wait_sec".toList = .ub := by
  have hw : words "wait_sec".toList = ["wait_sec".toList] := words_join ["wait_sec".toList] (by decide)
  rw [executeLine, hw]
  simp only [token, List.getElem?_cons_zero, Res.bind_ok]
  rw [if_pos (by decide)]
  rfl

end Lines

/-- **C55 needs its hypothesis.** A line consisting of the three letters `EOL` is taken for the end of the file; the lines after it are never executed. -/
theorem C55_eol_line {K : Type} [Zero K] [Sub K] [LE K] [DecidableLE K] (h0 : (0 : K) ≤ 0) (exec : Str → Res (K × List Call)) (rest : List Str)
    (hn : ∀ l ∈ rest, '\n' ∉ l) (step : K) (n : Nat) :
    ∃ s, (Sender.init (terminated '\n' ("EOL".toList :: rest)) true step).run exec (n + 1) = .ok s ∧ s.executed = [] ∧ s.calls = [] ∧ s.endOfLine = true := by
  have hl : ∃ tail, loadOperation (terminated '\n' ("EOL".toList :: rest)) = "EOL".toList :: tail := by
    rw [loadOperation, linesOf, C53_split_terminated _ _ (by
      intro f hf
      rcases List.mem_cons.1 hf with rfl | hf
      · decide
      · exact hn f hf)]
    rw [List.map_cons, show cleanLine "EOL".toList = "EOL".toList by decide, List.filter_cons_of_pos (by decide)]
    exact ⟨_, rfl⟩
  obtain ⟨tail, hl⟩ := hl
  have key : ∀ n, (Sender.init (terminated '\n' ("EOL".toList :: rest)) true step).run exec (n + 1) =
      .ok { lines := "EOL".toList :: tail, pointer := 1, enabled := true, step := step, wait := 0, endOfLine := true, executed := [], calls := [] } := by
    intro n
    induction n with
    | zero =>
      rw [Sender.init, hl]
      simp [Sender.run, Sender.mainRoutine, Sender.getLatestLine, h0]
    | succ n ih => rw [Sender.run, ih, Res.bind_ok]; rfl
  exact ⟨_, key n, rfl, rfl, rfl⟩

/-- A file with a command-like line, a wait of 2.5 s, and another line; step 1 s: runs 1, 2 and 6 execute the lines. -/
example : startRun (fun i => if i = 1 then (5 / 2 : ℚ) else 0) 1 1 = 1 ∧ startRun (fun i => if i = 1 then (5 / 2 : ℚ) else 0) 1 2 = 5 := by
  constructor
  · simp [startRun]
  · have : ⌈(5 / 2 : ℚ)⌉₊ = 3 := by rw [Nat.ceil_eq_iff (by norm_num)]; norm_num
    simp [startRun, this]

/-- A sample operation file. -/
def sampleFile : Str := terminated '\n' [".MOBC_RT.Cmd_NOP".toList, "# comment".toList, ". wait_sec 2.5 # wait".toList, "let x = 1".toList]

example : loadOperation sampleFile = ["MOBC_RT.Cmd_NOP".toList, "wait_sec 2.5 ".toList, "let x = 1".toList] := by
  rw [loadOperation, linesOf, sampleFile, C53_split_terminated _ _ (by decide)]
  decide

/-! ## C75: a command line becomes one call -/

/-- `bytes` is what the argument text is encoded to, wherever it is put in the buffer. -/
def Encodes (io : FloatIo) (t : ArgType) (text : Str) (bytes : List Byte) : Prop :=
  ∀ param, bytes.length ≤ param.length → decodeArgument io t text param 0 = .ok (bytes ++ param.drop bytes.length, bytes.length)

theorem decodeArguments_ok (io : FloatIo) (info : CommandInfo) (args : List Str) : ∀ (encs : List (List Byte)) (i : Nat) (param : List Byte) (len : Nat),
    args.length = encs.length →
    (∀ k a e, args[k]? = some a → encs[k]? = some e → Encodes io (info.argumentType (i + k)) a e) →
    len + encs.flatten.length ≤ param.length → len + encs.flatten.length < 2 ^ 16 →
    decodeArguments io info args i param len = .ok (param.take len ++ encs.flatten ++ param.drop (len + encs.flatten.length), len + encs.flatten.length) := by
  induction args with
  | nil =>
    intro encs i param len hl _ _ _
    have : encs = [] := List.length_eq_zero_iff.1 hl.symm
    subst this
    simp [decodeArguments]
  | cons a as ih =>
    intro encs i param len hl henc hp h16
    obtain ⟨e, es, rfl⟩ : ∃ e es, encs = e :: es := by
      cases encs with
      | nil => simp at hl
      | cons e es => exact ⟨e, es, rfl⟩
    simp only [List.flatten_cons, List.length_append] at hp h16 ⊢
    have h1 := henc 0 a e rfl rfl (param.drop len) (by simp; omega)
    rw [decodeArguments, Nat.add_zero] at *
    rw [h1, Res.bind_ok]
    simp only []
    rw [Nat.mod_eq_of_lt (show e.length < 2 ^ 16 by omega), Nat.mod_eq_of_lt (show len + e.length < 2 ^ 16 by omega)]
    rw [ih es (i + 1) _ _ (by simpa using hl) (by
      intro k a' e' h2 h3
      have := henc (k + 1) a' e' (by simpa using h2) (by simpa using h3)
      rwa [show i + (k + 1) = i + 1 + k by omega] at this) (by simp only [List.length_append, List.length_take, List.length_drop]; omega) (by omega)]
    have e1 : (param.take len ++ (e ++ (param.drop len).drop e.length)).take (len + e.length) = param.take len ++ e := by
      rw [← List.append_assoc, List.take_append_of_le_length (by simp; omega), List.take_of_length_le (by simp)]
    have e2 : (param.take len ++ (e ++ (param.drop len).drop e.length)).drop (len + e.length + es.flatten.length) = param.drop (len + (e.length + es.flatten.length)) := by
      rw [← List.append_assoc, List.drop_append, List.drop_of_length_le (by simp only [List.length_append, List.length_take]; omega), List.nil_append, List.drop_drop, List.drop_drop]
      congr 1
      simp only [List.length_append, List.length_take]
      omega
    rw [e1, e2]
    simp only [List.append_assoc, Nat.add_assoc]

theorem findIdx_us (target rest : Str) (h : '_' ∉ target) : (target ++ '_' :: rest).findIdx (· = '_') = target.length := by
  rw [List.findIdx_append, if_neg]
  · rw [List.findIdx_cons]; simp
  · simp only [List.findIdx_lt_length, decide_eq_true_eq, not_exists, not_and]
    rintro x hx rfl; exact h hx

theorem findIdx_dot (pre rest : Str) (h : '.' ∉ pre) : (pre ++ '.' :: rest).findIdx (· = '.') = pre.length := by
  rw [List.findIdx_append, if_neg]
  · rw [List.findIdx_cons]; simp
  · simp only [List.findIdx_lt_length, decide_eq_true_eq, not_exists, not_and]
    rintro x hx rfl; exact h hx

/-- The parts of a command word `target_TYPE.name`. -/
theorem analyze_word (io : FloatIo) (db : List (Str × CommandInfo)) (buffer : List Byte) (target type name : Str) (args : List Str)
    (h1 : '_' ∉ target) (h2 : '.' ∉ target) (h3 : '.' ∉ type) (hb : ∀ a ∈ args, a.head? ≠ some '{') :
    analyze io db buffer ((target ++ "_".toList ++ type ++ ".".toList ++ name) :: args) = (do
      let ti ← if type = "TL".toList ∨ type = "BL".toList then (do let a ← token args 0; let v ← stoi a; Res.ok (v % 2 ^ 32)) else .ok 0
      let args := if type = "TL".toList ∨ type = "BL".toList then args.drop 1 else args
      let r ← decodeArguments io (lookup db name) args 0 buffer 0
      if type = "RT".toList then (do let p ← readParam r.1 r.2; .ok [.rtc (lookup db name).id p])
      else if type = "TL".toList then (do let p ← readParam r.1 r.2; .ok [.tlc ti (lookup db name).id p])
      else .ok []) := by
  have e0 : target ++ "_".toList ++ type ++ ".".toList ++ name = target ++ '_' :: (type ++ '.' :: name) := by simp
  have e0' : target ++ '_' :: (type ++ '.' :: name) = (target ++ '_' :: type) ++ '.' :: name := by simp
  have hus := findIdx_us target (type ++ '.' :: name) h1
  have hdot : (target ++ '_' :: (type ++ '.' :: name)).findIdx (· = '.') = target.length + 1 + type.length := by
    rw [e0', findIdx_dot _ _ (by simp only [List.mem_append, List.mem_cons, not_or]; exact ⟨h2, by decide, h3⟩)]
    simp; omega
  have hb' : ¬ (args.any (fun a => decide (a.head? = some '{')) = true) := by
    simp only [List.any_eq_true, decide_eq_true_eq, not_exists, not_and]
    exact hb
  have hm : '_' ∈ target ++ '_' :: (type ++ '.' :: name) := by simp
  have hm' : '.' ∈ target ++ '_' :: (type ++ '.' :: name) := by simp
  rw [e0]
  have d1 : (target ++ '_' :: (type ++ '.' :: name)).drop (target.length + 1) = type ++ '.' :: name := by
    rw [List.drop_append, List.drop_of_length_le (by omega)]; simp
  have d2 : (target ++ '_' :: (type ++ '.' :: name)).drop (target.length + 1 + type.length + 1) = name := by
    rw [e0', List.drop_append, List.drop_of_length_le (by simp; omega)]
    simp [show target.length + 1 + type.length + 1 - (target.length + (type.length + 1)) = 1 by omega]
  have d3 : (type ++ '.' :: name).take (target.length + 1 + type.length - (target.length + 1)) = type := by
    rw [show target.length + 1 + type.length - (target.length + 1) = type.length by omega, List.take_left']
    rfl
  simp only [analyze, hus, hdot, d1, d2, d3, hm, hm', not_true_eq_false, if_false, if_true, hb', true_and,
    show target.length + 1 ≤ target.length + 1 + type.length by omega]
  rfl

/-- **C75.** A real-time command `target_RT.name a1 a2 ...` whose arguments are encoded as `encs` by the types registered for that name, and fit into the
packet, makes exactly one call: the registered code with the encodings one after the other. -/
theorem C75_rt (io : FloatIo) (db : List (Str × CommandInfo)) (buffer : List Byte) (target name : Str) (args : List Str) (encs : List (List Byte))
    (h1 : '_' ∉ target) (h2 : '.' ∉ target) (hb : ∀ a ∈ args, a.head? ≠ some '{') (hl : args.length = encs.length)
    (henc : ∀ k a e, args[k]? = some a → encs[k]? = some e → Encodes io ((lookup db name).argumentType k) a e)
    (hp : encs.flatten.length ≤ buffer.length) (h16 : encs.flatten.length < 2 ^ 16) :
    analyze io db buffer ((target ++ "_RT.".toList ++ name) :: args) = .ok [.rtc (lookup db name).id encs.flatten] := by
  have e := analyze_word io db buffer target "RT".toList name args h1 h2 (by decide) hb
  have e0 : target ++ "_".toList ++ "RT".toList ++ ".".toList ++ name = target ++ "_RT.".toList ++ name := by simp
  rw [e0] at e
  have hdec := decodeArguments_ok io (lookup db name) args encs 0 buffer 0 hl (by simpa using henc) (by omega) (by omega)
  have hne : ¬ ("RT".toList = "TL".toList ∨ "RT".toList = "BL".toList) := by decide
  rw [e]
  simp only [if_neg hne, Res.bind_ok, hdec, if_true]
  have : readParam (buffer.take 0 ++ encs.flatten ++ buffer.drop (0 + encs.flatten.length)) (0 + encs.flatten.length) = .ok encs.flatten := by
    rw [readParam, if_pos (by simp)]
    simp
  rw [this, Res.bind_ok]

/-- **C75.** A timed command `target_TL.name ti a1 a2 ...`: the first argument is the time, the others are encoded by the types registered for the name. -/
theorem C75_tl (io : FloatIo) (db : List (Str × CommandInfo)) (buffer : List Byte) (target name : Str) (ti : Int) (args : List Str) (encs : List (List Byte))
    (h1 : '_' ∉ target) (h2 : '.' ∉ target) (hb : ∀ a ∈ args, a.head? ≠ some '{') (hti : 0 ≤ ti ∧ ti < 2 ^ 31) (hl : args.length = encs.length)
    (henc : ∀ k a e, args[k]? = some a → encs[k]? = some e → Encodes io ((lookup db name).argumentType k) a e)
    (hp : encs.flatten.length ≤ buffer.length) (h16 : encs.flatten.length < 2 ^ 16) :
    analyze io db buffer ((target ++ "_TL.".toList ++ name) :: intText ti :: args) = .ok [.tlc ti (lookup db name).id encs.flatten] := by
  have hdig : (intText ti).head? ≠ some '{' := by
    rw [intText, if_neg (by omega)]
    intro h
    have : '{' ∈ dec ti.natAbs := List.mem_of_mem_head? h
    exact absurd (isDigit_dec _ _ this) (by decide)
  have e := analyze_word io db buffer target "TL".toList name (intText ti :: args) h1 h2 (by decide) (by
    intro a ha
    rcases List.mem_cons.1 ha with rfl | ha
    · exact hdig
    · exact hb a ha)
  have e0 : target ++ "_".toList ++ "TL".toList ++ ".".toList ++ name = target ++ "_TL.".toList ++ name := by simp
  rw [e0] at e
  have hdec := decodeArguments_ok io (lookup db name) args encs 0 buffer 0 hl (by simpa using henc) (by omega) (by omega)
  have hst := stoi_text ti [] (by simp)
  rw [List.append_nil, if_pos (by omega)] at hst
  rw [e]
  simp only [true_or, if_true, token, List.getElem?_cons_zero, Res.bind_ok, hst, List.drop_succ_cons, List.drop_zero, hdec,
    show ¬ ("TL".toList = "RT".toList) by decide, if_false]
  have : readParam (buffer.take 0 ++ encs.flatten ++ buffer.drop (0 + encs.flatten.length)) (0 + encs.flatten.length) = .ok encs.flatten := by
    rw [readParam, if_pos (by simp)]
    simp
  rw [this, Res.bind_ok, Int.emod_eq_of_lt hti.1 (by omega)]

/-- **C75 is false for unknown commands.** A real-time command whose name is not in the database is not rejected: code 0 is sent without parameters,
whatever the arguments are. -/
theorem C75_unknown_sends_zero (io : FloatIo) (db : List (Str × CommandInfo)) (buffer : List Byte) (target name : Str) (args : List Str)
    (h1 : '_' ∉ target) (h2 : '.' ∉ target) (hb : ∀ a ∈ args, a.head? ≠ some '{') (hu : ∀ e ∈ db, e.1 ≠ name) :
    analyze io db buffer ((target ++ "_RT.".toList ++ name) :: args) = .ok [.rtc 0 []] := by
  have hlk : lookup db name = {} := by
    have : db.find? (fun e => decide (e.1 = name)) = none := List.find?_eq_none.2 (by simpa using hu)
    simp [lookup, this]
  have := C75_rt io db buffer target name args (args.map (fun _ => [])) h1 h2 hb (by simp) (by
    intro k a e _ he
    have : e = [] := by
      have := List.mem_of_getElem? he
      simp at this; exact this.2
    subst this
    intro param _
    rw [hlk]
    rfl) (by simp) (by simp)
  rw [hlk] at this
  simpa using this

/-- **C75 is false for unsupported forms.** A timed command without arguments reads past the end of its argument list; a word without an underscore and a
line with a `{...}` argument are dropped. -/
theorem C75_other (io : FloatIo) (db : List (Str × CommandInfo)) (buffer : List Byte) (target name : Str) (h1 : '_' ∉ target) (h2 : '.' ∉ target) :
    analyze io db buffer [target ++ "_TL.".toList ++ name] = .ub ∧
    (∀ w args, '_' ∉ w → analyze io db buffer (w :: args) = .ok []) ∧
    (∀ w args, (∃ a ∈ args, a.head? = some '{') → analyze io db buffer (w :: args) = .ok []) := by
  refine ⟨?_, ?_, ?_⟩
  · have e := analyze_word io db buffer target "TL".toList name [] h1 h2 (by decide) (by simp)
    have e0 : target ++ "_".toList ++ "TL".toList ++ ".".toList ++ name = target ++ "_TL.".toList ++ name := by simp
    rw [e0] at e
    rw [e]; simp [token]
  · intro w args h
    simp [analyze, h]
  · rintro w args ⟨a, ha, hh⟩
    have : args.any (fun a => decide (a.head? = some '{')) = true := List.any_eq_true.2 ⟨a, ha, by simpa using hh⟩
    simp only [analyze, this, if_true]
    split <;> rfl

/-- Integer arguments in range are encoded as their big-endian bytes, so C75 applies to them. -/
theorem C75_encodes (io : FloatIo) (v : Int) :
    (∀ t n, (t, n) ∈ unsignedTypes → 0 ≤ v → v < 2 ^ (8 * n) → ∃ bytes, IsBigEndian n v bytes ∧ Encodes io t (intText v) bytes) ∧
    (∀ t n b, (t, n, b) ∈ signedTypes → -2 ^ (8 * n - 1) ≤ v → v < 2 ^ (8 * n - 1) → ∃ bytes, IsBigEndian n v bytes ∧ Encodes io t (intText v) bytes) := by
  have uniq : ∀ n (a b : List Byte), IsBigEndian n v a → IsBigEndian n v b → a = b := by
    intro n a b ⟨ha, ha'⟩ ⟨hb, hb'⟩
    have key : ∀ (n : Nat) (a b : List Byte), a.length = n → b.length = n → beValue a = beValue b → a = b := by
      intro n
      induction n with
      | zero => intro a b h1 h2 _; rw [List.length_eq_zero_iff.1 h1, List.length_eq_zero_iff.1 h2]
      | succ n ih =>
        intro a b h1 h2 h3
        obtain ⟨a', x, rfl⟩ : ∃ a' x, a = a' ++ [x] := ⟨a.dropLast, a.getLast (by intro h; simp [h] at h1), (List.dropLast_append_getLast _).symm⟩
        obtain ⟨b', y, rfl⟩ : ∃ b' y, b = b' ++ [y] := ⟨b.dropLast, b.getLast (by intro h; simp [h] at h2), (List.dropLast_append_getLast _).symm⟩
        rw [beValue_append, beValue_append] at h3
        have hx := x.toNat_lt; have hy := y.toNat_lt
        have h4 : beValue a' = beValue b' := by omega
        have h5 : x = y := UInt8.toNat_inj.1 (by omega)
        rw [ih a' b' (by simpa using h1) (by simpa using h2) h4, h5]
    exact key n a b ha hb (by rw [ha', hb'])
  constructor
  · intro t n ht h0 h1
    have hn : 1 ≤ n ∧ n ≤ 8 := by
      simp only [unsignedTypes, List.mem_cons, Prod.mk.injEq, List.not_mem_nil, or_false] at ht
      omega
    have hle : (2 : Int) ^ (8 * n) ≤ 2 ^ 64 := pow_le_pow_right₀ (by norm_num) (by omega)
    refine ⟨_, isBe n v, fun param hp => ?_⟩
    obtain ⟨bytes, hbe, he⟩ := (C54_unsigned io t n ht v [] (by simp) param (by simpa using hp) 0).1 ⟨by omega, by omega⟩
    rw [List.append_nil] at he
    rw [he, uniq n _ _ (isBe n v) hbe, hbe.1]
  · intro t n b ht h0 h1
    have hn : 1 ≤ n ∧ 8 * n ≤ b ∧ b ≤ 64 := by
      simp only [signedTypes, List.mem_cons, Prod.mk.injEq, List.not_mem_nil, or_false] at ht
      omega
    have hle : (2 : Int) ^ (8 * n - 1) ≤ 2 ^ (b - 1) := pow_le_pow_right₀ (by norm_num) (by omega)
    refine ⟨_, isBe n v, fun param hp => ?_⟩
    obtain ⟨bytes, hbe, he⟩ := (C54_signed io t n b ht v [] (by simp) param (by simpa using hp) 0).1 ⟨by omega, by omega⟩
    rw [List.append_nil] at he
    rw [he, uniq n _ _ (isBe n v) hbe, hbe.1]

/-- A database with one command of two arguments. -/
def sampleDb : List (Str × CommandInfo) := [("Cmd_SET".toList, { name := "Cmd_SET".toList, id := 7, types := [.uint8, .int16] })]

example : analyze noFloat sampleDb (List.replicate 10 0) ["MOBC_RT.Cmd_SET".toList, "3".toList, "-2".toList] = .ok [.rtc 7 [3, 255, 254]] := by decide +kernel
example : analyze noFloat sampleDb (List.replicate 10 0) ["MOBC_TL.Cmd_SET".toList, "100".toList, "3".toList, "-2".toList] = .ok [.tlc 100 7 [3, 255, 254]] := by decide +kernel
example : analyze noFloat sampleDb (List.replicate 10 0) ["MOBC_RT.Cmd_TYPO".toList, "3".toList] = .ok [.rtc 0 []] :=
  C75_unknown_sends_zero noFloat sampleDb _ "MOBC".toList "Cmd_TYPO".toList ["3".toList] (by decide) (by decide) (by decide) (by decide)
/-- Too many argument bytes for the packet buffer are written past its end. -/
example : analyze noFloat sampleDb [0, 0] ["MOBC_RT.Cmd_SET".toList, "3".toList, "-2".toList] = .ub := by decide +kernel

/-! ## C76: the command database -/

/-- A database line: an empty first cell, then name, a free cell, code, number of arguments, and a type and a free cell per argument. -/
def dbLine (name free code num : Str) (args : List (Str × Str)) (tail : List Str) : Str :=
  join ',' ([] :: name :: free :: code :: num :: (args.flatMap (fun a => [a.1, a.2]) ++ tail))

theorem flat_get (args : List (Str × Str)) (tail : List Str) (k : Nat) (a : Str × Str) (h : args[k]? = some a) :
    (args.flatMap (fun a => [a.1, a.2]) ++ tail)[2 * k]? = some a.1 := by
  induction args generalizing k with
  | nil => simp at h
  | cons x xs ih =>
    cases k with
    | zero => simp at h; subst h; simp
    | succ k =>
      have := ih k (by simpa using h)
      simpa [show 2 * (k + 1) = 2 * k + 1 + 1 by omega] using this

theorem readTypes_ok (tokens : List Str) (ts : List Str) : ∀ (k : Nat) (acc : List ArgType), (∀ j t, ts[j]? = some t → tokens[5 + 2 * (k + j)]? = some t) →
    readTypes tokens ts.length k acc = .ok (acc ++ ts.map convertArgumentType) := by
  induction ts with
  | nil => intro k acc _; simp [readTypes]
  | cons t ts ih =>
    intro k acc h
    have h0 := h 0 t rfl
    rw [List.length_cons, readTypes, token]
    rw [Nat.add_zero] at h0
    simp only [h0, Res.bind_ok]
    rw [ih (k + 1) _ (by
      intro j t' hj
      have := h (j + 1) t' (by simpa using hj)
      rwa [show k + (j + 1) = k + 1 + j by omega] at this)]
    simp

/-- **C76.** A complete database line gives the name, the code and the argument types written in it. -/
theorem C76_line (stoul0 : Str → Res Nat) (name free code num : Str) (args : List (Str × Str)) (tail : List Str) (id : Nat)
    (hcells : ∀ f ∈ [] :: name :: free :: code :: num :: (args.flatMap (fun a => [a.1, a.2]) ++ tail), ',' ∉ f)
    (hlast : ([] :: name :: free :: code :: num :: (args.flatMap (fun a => [a.1, a.2]) ++ tail)).getLast? ≠ some [])
    (hname : name ≠ []) (hid : stoul0 code = .ok id) (hnum : stoul0 num = .ok args.length) :
    parseLine stoul0 (dbLine name free code num args tail) = .ok { name := name, id := id, types := args.map (fun a => convertArgumentType a.1) } := by
  have hs : split ',' (dbLine name free code num args tail) = [] :: name :: free :: code :: num :: (args.flatMap (fun a => [a.1, a.2]) ++ tail) :=
    C53_split_join ',' _ hcells hlast
  have hh : (dbLine name free code num args tail).head? = some ',' := by simp [dbLine, join]
  have ht := readTypes_ok ([] :: name :: free :: code :: num :: (args.flatMap (fun a => [a.1, a.2]) ++ tail)) (args.map Prod.fst) 0 [] (by
    intro j t hj
    rw [List.getElem?_map] at hj
    rcases ha : args[j]? with _ | a
    · rw [ha] at hj; simp at hj
    · rw [ha] at hj; simp at hj; subst hj
      have := flat_get args tail j a ha
      rw [Nat.zero_add, show 5 + 2 * j = 2 * j + 1 + 1 + 1 + 1 + 1 by omega]
      simpa using this)
  rw [List.length_map, List.nil_append, List.map_map] at ht
  rw [parseLine, hh, if_neg (by decide), if_neg (by decide), hs]
  simp only [token, List.getElem?_cons_succ, List.getElem?_cons_zero, Res.bind_ok, if_neg hname, hid, hnum, ht]
  rfl

/-- **C76.** Lines that do not start with a comma (titles, lines marked with `*`, empty lines) define nothing. -/
theorem C76_other_lines (stoul0 : Str → Res Nat) (line : Str) (h : line.head? ≠ some ',') : parseLine stoul0 line = .ok {} := by
  rw [parseLine]
  by_cases h1 : line.head? = some '*'
  · rw [if_pos h1]
  · rw [if_neg h1, if_pos h]

/-- **C76.** Looking a name up gives the last definition of that name in the file, and the default (name `Error`, code 0, no arguments) if there is none. -/
theorem C76_lookup (stoul0 : Str → Res Nat) (lines : List Str) (infos : List CommandInfo) (hlen : lines.length = infos.length)
    (hparse : ∀ (k : Nat) l c, lines[k]? = some l → infos[k]? = some c → parseLine stoul0 l = .ok c) (name : Str) (hn : name ≠ "Error".toList) :
    ∃ db, loadDatabase stoul0 lines [] = .ok db ∧
      lookup db name = (((infos.reverse.find? (fun c => c.name = name))).getD {}) := by
  have key : ∀ (lines : List Str) (infos : List CommandInfo) (db : List (Str × CommandInfo)), lines.length = infos.length →
      (∀ (k : Nat) l c, lines[k]? = some l → infos[k]? = some c → parseLine stoul0 l = .ok c) →
      ∃ db', loadDatabase stoul0 lines db = .ok db' ∧
        db'.find? (fun e => e.1 = name) = ((infos.reverse.find? (fun c => c.name = name)).map (fun c => (c.name, c))).or (db.find? (fun e => e.1 = name)) := by
    intro lines
    induction lines with
    | nil =>
      intro infos db hl _
      have : infos = [] := List.length_eq_zero_iff.1 hl.symm
      subst this
      exact ⟨db, rfl, by simp⟩
    | cons l ls ih =>
      intro infos db hl hp
      obtain ⟨c, cs, rfl⟩ : ∃ c cs, infos = c :: cs := by
        cases infos with
        | nil => simp at hl
        | cons c cs => exact ⟨c, cs, rfl⟩
      have hc := hp 0 l c rfl rfl
      have hp' : ∀ (k : Nat) l c, ls[k]? = some l → cs[k]? = some c → parseLine stoul0 l = .ok c :=
        fun k l' c' h1 h2 => hp (k + 1) l' c' (by simpa using h1) (by simpa using h2)
      simp only [loadDatabase, hc, Res.bind_ok, List.reverse_cons, List.find?_append]
      by_cases hE : c.name = "Error".toList
      · rw [if_pos hE]
        obtain ⟨db', h1, h2⟩ := ih cs db (by simpa using hl) hp'
        refine ⟨db', h1, ?_⟩
        have hcn : ¬ (c.name = name) := by rw [hE]; exact fun h => hn h.symm
        rw [h2]
        simp [hcn]
      · rw [if_neg hE]
        obtain ⟨db', h1, h2⟩ := ih cs ((c.name, c) :: db) (by simpa using hl) hp'
        refine ⟨db', h1, ?_⟩
        rw [h2]
        by_cases hcn : c.name = name
        · generalize cs.reverse.find? (fun c => decide (c.name = name)) = o
          cases o <;> simp [hcn]
        · generalize cs.reverse.find? (fun c => decide (c.name = name)) = o
          cases o <;> simp [hcn]
  obtain ⟨db, h1, h2⟩ := key lines infos [] hlen hparse
  refine ⟨db, h1, ?_⟩
  simp only [lookup, h2, List.find?_nil, Option.or_none]
  generalize infos.reverse.find? (fun c => decide (c.name = name)) = o
  cases o <;> rfl

/-- **C76 is false for incomplete lines.** A line with fewer than two cells, or with a name but fewer than five cells, is read past its end. -/
theorem C76_short_line_ub (stoul0 : Str → Res Nat) (name : Str) (h : ',' ∉ name) (hne : name ≠ []) :
    parseLine stoul0 ",".toList = .ub ∧ parseLine stoul0 (",".toList ++ name) = .ub := by
  constructor
  · rw [parseLine, if_neg (by decide), if_neg (by decide), show split ',' ",".toList = [[]] from C53_split_terminated ',' [[]] (by simp)]
    rfl
  · have : split ',' (",".toList ++ name) = [[], name] := C53_split_join ',' [[], name] (by simpa using h) (by simpa using hne)
    rw [parseLine, if_neg (by simp), if_neg (by simp), this]
    simp [token, hne]

/-- A reader for the sample line. -/
def sampleStoul (s : Str) : Res Nat := if s = "0x0007".toList then .ok 7 else if s = "2".toList then .ok 2 else .throws

example : parseLine sampleStoul ",Cmd_SET,OBC,0x0007,2,uint8_t,id,int16_t,value".toList = .ok { name := "Cmd_SET".toList, id := 7, types := [.uint8, .int16] } := by
  have := C76_line sampleStoul "Cmd_SET".toList "OBC".toList "0x0007".toList "2".toList [("uint8_t".toList, "id".toList), ("int16_t".toList, "value".toList)] [] 7
    (by decide) (by decide) (by decide) (by decide) (by decide)
  simp only [dbLine, join, List.map_cons, List.map_nil, List.flatMap_cons, List.flatMap_nil] at this
  exact this.trans (by decide)

end S2E.C2a
