import Verif.Spec.LogFiles
import Verif.Props.Log
import Verif.Proofs.Settings
import Verif.Spec.InitWheel
import Verif.Props.InitWheel
/-!
# C193: where the log goes
-/
namespace S2E.LogFiles
open Log Ini InitOrbit MonteCarlo Settings

/-! ## Paths -/

theorem join_plain {a b : Str} (ha : Plain a) (hb : '/' ∉ b) : join a b = inDir a b := by
  unfold join
  have h1 : b.head? ≠ some '/' := fun h => hb (List.mem_of_head? h)
  rw [if_neg h1, if_neg (by rintro (h | h); exacts [ha.1 h, ha.2 h])]
  rfl

theorem join_empty {b : Str} (hb : '/' ∉ b) : join [] b = b := by
  unfold join
  have h1 : b.head? ≠ some '/' := fun h => hb (List.mem_of_head? h)
  rw [if_neg h1, if_pos (Or.inl rfl)]
  rfl

theorem fileName_eq {n p : Str} (h : IsName n p) : fileName p = n := by
  obtain ⟨h0, h1, h2⟩ := h
  have hall : ∀ x ∈ n.reverse, decide (x ≠ '/') = true := by
    intro x hx
    have : x ∈ n := List.mem_reverse.1 hx
    exact decide_eq_true (fun e => h1 (e ▸ this))
  unfold fileName
  rcases h2 with rfl | ⟨dir, rfl⟩
  · rw [List.takeWhile_eq_self_iff.2 hall, List.reverse_reverse]
  · unfold inDir
    rw [show (dir ++ '/' :: n).reverse = n.reverse ++ '/' :: dir.reverse by simp, List.takeWhile_append_of_pos hall]
    simp

theorem inDir_plain {a b : Str} (hb : b ≠ []) (h : '/' ∉ b) : Plain (inDir a b) := by
  refine ⟨by simp [inDir], ?_⟩
  unfold inDir
  rw [List.getLast?_append, List.getLast?_cons, List.getLast?_eq_some_getLast hb]
  simp only [Option.getD_some, Option.some_or, ne_eq, Option.some.injEq]
  exact fun e => h (e ▸ List.getLast_mem hb)

theorem logs_ok {time : Str} (ht : '/' ∉ time) : "logs_".toList ++ time ≠ [] ∧ '/' ∉ "logs_".toList ++ time := by
  refine ⟨by simp, ?_⟩
  rw [List.mem_append]
  rintro (h | h)
  · exact absurd h (by decide)
  · exact ht h

theorem file_ok {time name : Str} (ht : '/' ∉ time) (hn : '/' ∉ name) : '/' ∉ time ++ "_".toList ++ name := by
  simp only [List.mem_append, not_or]
  exact ⟨⟨ht, by decide⟩, hn⟩

/-! ## One logger -/

theorem copy_off {l : FileLogger} (h : l.saves = false) (d : Disk) (src : Str) : l.copy d src = .ok d := by
  unfold FileLogger.copy; rw [if_pos h]

/-- A copy leaves everything that is there as it is. -/
theorem copy_keeps {l : FileLogger} {d d' : Disk} {src : Str} (h : l.copy d src = .ok d') (q : Str) (hq : d.has q = true) : d'.files q = d.files q := by
  unfold FileLogger.copy at h
  split at h
  · cases h; rfl
  · dsimp only at h
    split at h
    · cases h; rfl
    · rename_i h2
      unfold Disk.copyFile at h
      split at h
      · cases h
      · split at h
        · cases h
        · cases h
          unfold Disk.set
          dsimp only
          rw [if_neg (by rintro rfl; exact h2 hq)]

theorem write_line (sel : Loggable → Str) (log : Logger) (nl : Bool) :
    (let l' := log.logList.foldl (fun acc x => if !x.isLogEnabled then acc else acc.write (sel x)) log
     if nl then l'.writeNewLine else l') = { log with file := log.file ++ if log.isEnabled then lineOf sel log.logList nl else [] } := by
  obtain ⟨en, list, text⟩ := log
  cases en
  · have hf : ∀ xs : List Loggable, xs.foldl (fun acc x => if !x.isLogEnabled then acc else acc.write (sel x)) (⟨false, list, text⟩ : Logger) = ⟨false, list, text⟩ := by
      intro xs
      induction xs with
      | nil => rfl
      | cons x xs ih =>
        rw [List.foldl_cons, show (if !x.isLogEnabled then (⟨false, list, text⟩ : Logger) else (⟨false, list, text⟩ : Logger).write (sel x)) = ⟨false, list, text⟩ by
          split
          · rfl
          · rfl]
        exact ih
    dsimp only
    rw [hf]
    cases nl <;> simp [Logger.writeNewLine, Logger.write]
  · dsimp only
    rw [LogProps.fold_write sel list ⟨true, list, text⟩ rfl]
    cases nl <;> simp [Logger.writeNewLine, Logger.write, lineOf]

theorem headers_line (log : Logger) (nl : Bool) :
    log.writeHeaders nl = { log with file := log.file ++ if log.isEnabled then lineOf Loggable.header log.logList nl else [] } := write_line Loggable.header log nl
theorem values_line (log : Logger) (nl : Bool) :
    log.writeValues nl = { log with file := log.file ++ if log.isEnabled then lineOf Loggable.value log.logList nl else [] } := write_line Loggable.value log nl

theorem overlay_end (t s : Str) : overlay t t.length s = t ++ s := by
  unfold overlay
  simp

/-- What an operation does to a logger whose stream is `some p` and whose file holds what was written. -/
theorem act_own {l l' : FileLogger} {d d' : Disk} {o : Op} {p : Str} (hs : l.stream = some p) (hf : d.files p = some l.log.file) (h : l.act d o = .ok (d', l')) :
    l'.stream = some p ∧ d'.files p = some l'.log.file ∧
    ∀ os, l.log.file ++ told l.log.isEnabled l.log.logList (o :: os) = l'.log.file ++ told l'.log.isEnabled l'.log.logList os := by
  have hput : ∀ s : Str, l.put d { l.log with file := l.log.file ++ s } = (d.set p (l.log.file ++ s), { l with log := { l.log with file := l.log.file ++ s } }) := by
    intro s
    unfold FileLogger.put
    rw [hs]
    dsimp only
    rw [hf, Option.getD_some, List.drop_left, overlay_end]
  have hset : ∀ t : Str, (d.set p t).files p = some t := fun t => if_pos rfl
  cases o with
  | headers nl =>
    change Res.ok (l.put d (l.log.writeHeaders nl)) = _ at h
    rw [headers_line, hput] at h
    cases h
    exact ⟨hs, hset _, fun os => by simp [told]⟩
  | values nl =>
    change Res.ok (l.put d (l.log.writeValues nl)) = _ at h
    rw [values_line, hput] at h
    cases h
    exact ⟨hs, hset _, fun os => by simp [told]⟩
  | add x => cases h; exact ⟨hs, hf, fun os => rfl⟩
  | clear => cases h; exact ⟨hs, hf, fun os => rfl⟩
  | enable b => cases h; exact ⟨hs, hf, fun os => rfl⟩
  | shows xs => cases h; exact ⟨hs, hf, fun os => rfl⟩
  | copy src =>
    change ((l.copy d src).bind fun d => Res.ok (d, l)) = _ at h
    rcases h1 : l.copy d src with v | _ | _ | _ <;> rw [h1] at h <;> simp only [Res.bind, reduceCtorEq] at h
    cases h
    refine ⟨hs, ?_, fun os => rfl⟩
    rw [copy_keeps h1 p (by unfold Disk.has; rw [hf]; rfl), hf]

/-- An operation on another logger leaves an existing file alone. -/
theorem act_other {l l' : FileLogger} {d d' : Disk} {o : Op} {p : Str} (hs : l.stream ≠ some p) (hf : (d.files p).isSome = true) (h : l.act d o = .ok (d', l')) :
    d'.files p = d.files p := by
  have hput : ∀ log' : Logger, (l.put d log').1.files p = d.files p := by
    intro log'
    unfold FileLogger.put
    rcases hst : l.stream with _ | q
    · rfl
    · exact if_neg (fun e => hs (by rw [hst, e]))
  cases o with
  | headers nl => cases h; exact hput _
  | values nl => cases h; exact hput _
  | add x => cases h; rfl
  | clear => cases h; rfl
  | enable b => cases h; rfl
  | shows xs => cases h; rfl
  | copy src =>
    change ((l.copy d src).bind fun d => Res.ok (d, l)) = _ at h
    rcases h1 : l.copy d src with v | _ | _ | _ <;> rw [h1] at h <;> simp only [Res.bind, reduceCtorEq] at h
    cases h
    exact copy_keeps h1 p (by unfold Disk.has; rw [hf]; rfl)

theorem act_stream {l l' : FileLogger} {d d' : Disk} {o : Op} (h : l.act d o = .ok (d', l')) : l'.stream = l.stream ∧ l'.saves = l.saves ∧ l'.dir = l.dir := by
  cases o with
  | copy src =>
    change ((l.copy d src).bind fun d => Res.ok (d, l)) = _ at h
    rcases h1 : l.copy d src with v | _ | _ | _ <;> rw [h1] at h <;> simp only [Res.bind, reduceCtorEq] at h
    cases h; exact ⟨rfl, rfl, rfl⟩
  | _ => cases h; exact ⟨rfl, rfl, rfl⟩

/-! ## Making a logger -/

theorem createDirectories_files {d d' : Disk} {p : Str} (h : d.createDirectories p = .ok d') : d'.files = d.files ∧ d'.allows = d.allows ∧ d'.dirs p = true ∧
    ∀ q, q ≠ p → d'.dirs q = d.dirs q := by
  unfold Disk.createDirectories at h
  split at h
  · rename_i h1; cases h; exact ⟨rfl, rfl, h1, fun _ _ => rfl⟩
  · split at h
    · cases h
    · cases h; exact ⟨rfl, rfl, if_pos rfl, fun q hq => if_neg hq⟩

/-- What a constructor with the log enabled does, when it returns. -/
theorem new_on {d d' : Disk} {l : FileLogger} {time name data ini : Str} {saves : Bool} (h : FileLogger.new d time name data ini saves true = .ok (d', l)) :
    ∃ d1, d.createDirectories (join data ("logs_".toList ++ time)) = .ok d1 ∧
      l = ⟨⟨true, [], []⟩, saves, join data ("logs_".toList ++ time), (openCsv d1 (join (join data ("logs_".toList ++ time)) (time ++ "_".toList ++ name))).2⟩ ∧
      l.copy (openCsv d1 (join (join data ("logs_".toList ++ time)) (time ++ "_".toList ++ name))).1 ini = .ok d' := by
  unfold FileLogger.new at h
  rw [if_neg (by decide)] at h
  unfold chooseDirectory at h
  rw [if_pos (show saves = true ∨ isDirectoryCreated = false from Or.inr rfl)] at h
  unfold createDirectory at h
  dsimp only at h
  rcases h1 : d.createDirectories (join data ("logs_".toList ++ time)) with v | _ | _ | _ <;> rw [h1] at h <;> simp only [Res.bind, reduceCtorEq] at h
  refine ⟨v, rfl, ?_⟩
  split at h
  · rename_i d2 h2
    cases h
    exact ⟨rfl, h2⟩
  all_goals cases h

theorem openCsv_cases (d : Disk) (p : Str) :
    (openCsv d p = (d.set p [], some p) ∧ d.dirs p = false ∧ d.allows p = true) ∨ (openCsv d p = (d, none) ∧ (d.dirs p = true ∨ d.allows p = false)) := by
  unfold openCsv Disk.openOut
  by_cases h : d.dirs p = true ∨ d.allows p = false
  · right; rw [if_pos h]; exact ⟨rfl, h⟩
  · left; rw [if_neg h]
    exact ⟨rfl, by simpa using (not_or.1 h).1, by simpa using (not_or.1 h).2⟩

/-! ## Runs -/

theorem new_stream {d d' : Disk} {l : FileLogger} {time name data ini : Str} {saves enabled : Bool} (h : FileLogger.new d time name data ini saves enabled = .ok (d', l)) (p : Str)
    (hf : (d.files p).isSome = true) (hs : l.stream ≠ some p) : d'.files p = d.files p := by
  cases enabled
  · cases h; rfl
  · obtain ⟨d1, h1, h2, h3⟩ := new_on h
    have hd1 := (createDirectories_files h1).1
    have hl : l.stream = (openCsv d1 (join (join data ("logs_".toList ++ time)) (time ++ "_".toList ++ name))).2 := by rw [h2]
    rcases openCsv_cases d1 (join (join data ("logs_".toList ++ time)) (time ++ "_".toList ++ name)) with ⟨h4, -⟩ | ⟨h4, -⟩
    · rw [h4] at h3 hl
      have hne : p ≠ join (join data ("logs_".toList ++ time)) (time ++ "_".toList ++ name) := fun e => hs (by rw [hl, e])
      have hkeep : (d1.set (join (join data ("logs_".toList ++ time)) (time ++ "_".toList ++ name)) []).files p = d.files p := (if_neg hne).trans (congrFun hd1 p)
      rw [copy_keeps h3 p (by unfold Disk.has; rw [hkeep, hf]; rfl), hkeep]
    · rw [h4] at h3
      rw [copy_keeps h3 p (by unfold Disk.has; rw [hd1, hf]; rfl), hd1]

theorem step_grows {w w' : World} {e : Event} (h : w.step e = .ok w') (j : ℕ) (l : FileLogger) (hj : w.loggers[j]? = some l) :
    ∃ l', w'.loggers[j]? = some l' ∧ l'.stream = l.stream := by
  have hlt := (List.getElem?_eq_some_iff.1 hj).1
  cases e with
  | make time name data ini saves enabled =>
    change ((FileLogger.new w.disk time name data ini saves enabled).bind fun r => Res.ok (⟨r.1, w.loggers ++ [r.2]⟩ : World)) = _ at h
    rcases h1 : FileLogger.new w.disk time name data ini saves enabled with v | _ | _ | _ <;> rw [h1] at h <;> simp only [Res.bind, reduceCtorEq] at h
    cases h
    exact ⟨l, by rw [← hj]; exact List.getElem?_append_left hlt, rfl⟩
  | use i o =>
    unfold World.step at h
    dsimp only at h
    split at h
    · cases h; exact ⟨l, hj, rfl⟩
    · rename_i li hi
      rcases h1 : li.act w.disk o with ⟨d1, l1⟩ | _ | _ | _ <;> rw [h1] at h <;> simp only [Res.bind, reduceCtorEq] at h
      cases h
      by_cases hij : i = j
      · subst hij
        rw [hi] at hj
        cases hj
        exact ⟨l1, by rw [List.getElem?_set_self hlt], (act_stream h1).1⟩
      · exact ⟨l, by rw [List.getElem?_set_ne hij]; exact hj, rfl⟩

theorem run_grows {es : List Event} : ∀ {w w' : World}, w.run es = .ok w' → ∀ (j : ℕ) (l : FileLogger), w.loggers[j]? = some l → ∃ l', w'.loggers[j]? = some l' ∧ l'.stream = l.stream := by
  induction es with
  | nil => intro w w' h j l hj; cases h; exact ⟨l, hj, rfl⟩
  | cons e es ih =>
    intro w w' h j l hj
    change ((w.step e).bind fun w => w.run es) = _ at h
    rcases h1 : w.step e with v | _ | _ | _ <;> rw [h1] at h <;> simp only [Res.bind, reduceCtorEq] at h
    obtain ⟨l1, h2, h3⟩ := step_grows h1 j l hj
    obtain ⟨l2, h4, h5⟩ := ih h j l1 h2
    exact ⟨l2, h4, h5.trans h3⟩

theorem run_text {p : Str} {i : ℕ} {es : List Event} : ∀ {w w' : World} {l : FileLogger}, w.loggers[i]? = some l → l.stream = some p → w.disk.files p = some l.log.file →
    w.run es = .ok w' → (∀ j lj, j ≠ i → w'.loggers[j]? = some lj → lj.stream ≠ some p) →
    w'.disk.files p = some (l.log.file ++ told l.log.isEnabled l.log.logList (opsOf i es)) := by
  induction es with
  | nil =>
    intro w w' l hi hs hf h ho
    cases h
    rw [hf]; simp [opsOf, told]
  | cons e es ih =>
    intro w w' l hi hs hf h ho
    change ((w.step e).bind fun w => w.run es) = _ at h
    rcases h1 : w.step e with w1 | _ | _ | _ <;> rw [h1] at h <;> simp only [Res.bind, reduceCtorEq] at h
    have ho1 : ∀ j lj, j ≠ i → w1.loggers[j]? = some lj → lj.stream ≠ some p := by
      intro j lj hj hl
      obtain ⟨l', h2, h3⟩ := run_grows h j lj hl
      rw [← h3]; exact ho j l' hj h2
    have hlt := (List.getElem?_eq_some_iff.1 hi).1
    have hsome : (w.disk.files p).isSome = true := by rw [hf]; rfl
    cases e with
    | make time name data ini saves enabled =>
      change ((FileLogger.new w.disk time name data ini saves enabled).bind fun r => Res.ok (⟨r.1, w.loggers ++ [r.2]⟩ : World)) = _ at h1
      rcases h2 : FileLogger.new w.disk time name data ini saves enabled with ⟨d2, l2⟩ | _ | _ | _ <;> rw [h2] at h1 <;> simp only [Res.bind, reduceCtorEq] at h1
      cases h1
      have hs2 : l2.stream ≠ some p := ho1 w.loggers.length l2 (by omega) (by simp)
      have hk := new_stream h2 p hsome hs2
      exact ih (by rw [List.getElem?_append_left hlt]; exact hi) hs (by rw [hk]; exact hf) h ho
    | use j o =>
      unfold World.step at h1
      dsimp only at h1
      by_cases hij : j = i
      · subst hij
        rw [hi] at h1
        dsimp only at h1
        rcases h2 : l.act w.disk o with ⟨d2, l2⟩ | _ | _ | _ <;> rw [h2] at h1 <;> simp only [Res.bind, reduceCtorEq] at h1
        cases h1
        obtain ⟨a1, a2, a3⟩ := act_own hs hf h2
        rw [ih (List.getElem?_set_self hlt) a1 a2 h ho, ← a3]
        simp [opsOf]
      · have hops : opsOf i (Event.use j o :: es) = opsOf i es := if_neg hij
        rw [hops]
        split at h1
        · cases h1; exact ih hi hs hf h ho
        · rename_i lj hj
          rcases h2 : lj.act w.disk o with ⟨d2, l2⟩ | _ | _ | _ <;> rw [h2] at h1 <;> simp only [Res.bind, reduceCtorEq] at h1
          cases h1
          have hsj : lj.stream ≠ some p := by
            rw [← (act_stream h2).1]
            exact ho1 j l2 hij (List.getElem?_set_self (List.getElem?_eq_some_iff.1 hj).1)
          exact ih (by rw [List.getElem?_set_ne hij]; exact hi) hs (by rw [act_other hsj hsome h2]; exact hf) h ho

/-! ## The property -/

variable (d : Disk) (time name data ini : Str) (saves : Bool)

/-- Making the log directory is possible, and so is opening the CSV file in it. -/
def CanLog (d : Disk) (data time name : Str) : Prop :=
  (d.dirs (logDir data time) = true ∨ d.files (logDir data time) = none ∧ d.allows (logDir data time) = true) ∧
    d.dirs (csvPath data time name) = false ∧ d.allows (csvPath data time name) = true

theorem dir_eq {data time : Str} (hp : Plain data) (ht : '/' ∉ time) : join data ("logs_".toList ++ time) = logDir data time := join_plain hp (logs_ok ht).2

theorem csv_eq {data time name : Str} (hp : Plain data) (ht : '/' ∉ time) (hn : '/' ∉ name) :
    join (join data ("logs_".toList ++ time)) (time ++ "_".toList ++ name) = csvPath data time name := by
  rw [dir_eq hp ht]
  exact join_plain (inDir_plain (logs_ok ht).1 (logs_ok ht).2) (file_ok ht hn)

theorem csv_ne_dir (data time name : Str) : csvPath data time name ≠ logDir data time := by
  intro h
  have := congrArg List.length h
  simp [csvPath, inDir] at this

theorem can_make {d : Disk} {data time : Str} (h : d.dirs (logDir data time) = true ∨ d.files (logDir data time) = none ∧ d.allows (logDir data time) = true) :
    ∃ d1, d.createDirectories (logDir data time) = .ok d1 := by
  unfold Disk.createDirectories
  rcases h with h | ⟨h1, h2⟩
  · exact ⟨d, if_pos h⟩
  · by_cases h3 : d.dirs (logDir data time) = true
    · exact ⟨d, if_pos h3⟩
    · exact ⟨_, by rw [if_neg h3, if_neg (by rw [h1, h2]; simp)]⟩

/-- **C193 (paths).** An enabled logger made at the clock time `time` in the directory `data` has the directory `data/logs_time`, which exists then, and an empty file
`data/logs_time/time_name`, whether or not settings files are saved; if they are, the settings file is in the directory under its last name, with the text it has — unless something of
that name was there already, which stays as it was. No other file changes. -/
theorem C193_paths (hp : Plain data) (ht : '/' ∉ time) (hn : '/' ∉ name) (hc : CanLog d data time name) (n : Str) (hi : IsName n ini) (hic : ini ≠ csvPath data time name)
    (text : Str) (hsave : saves = true → d.files ini = some text ∧ d.allows (inDir (logDir data time) n) = true) :
    ∃ d' l, FileLogger.new d time name data ini saves true = .ok (d', l) ∧ l.dir = logDir data time ∧ l.stream = some (csvPath data time name) ∧ l.log.isEnabled = true ∧
      d'.dirs (logDir data time) = true ∧ d'.files (csvPath data time name) = some [] ∧
      (saves = true → inDir (logDir data time) n ≠ csvPath data time name →
        d'.files (inDir (logDir data time) n) = if d.files (inDir (logDir data time) n) = none ∧ d.dirs (inDir (logDir data time) n) = false then some text
          else d.files (inDir (logDir data time) n)) ∧
      ∀ q, q ≠ csvPath data time name → (saves = true → q ≠ inDir (logDir data time) n) → d'.files q = d.files q := by
  obtain ⟨hc1, hc2, hc3⟩ := hc
  obtain ⟨d1, h1⟩ := can_make hc1
  obtain ⟨f1, f2, f3, f4⟩ := createDirectories_files h1
  have hopen : openCsv d1 (csvPath data time name) = (d1.set (csvPath data time name) [], some (csvPath data time name)) := by
    rcases openCsv_cases d1 (csvPath data time name) with ⟨h, -⟩ | ⟨-, h | h⟩
    · exact h
    · rw [f4 _ (csv_ne_dir data time name), hc2] at h; cases h
    · rw [f2, hc3] at h; cases h
  have htarget : join (logDir data time) (fileName ini) = inDir (logDir data time) n := by
    rw [fileName_eq hi]
    exact join_plain (inDir_plain (logs_ok ht).1 (logs_ok ht).2) hi.2.1
  have hnd : inDir (logDir data time) n ≠ logDir data time := by
    intro h
    have := congrArg List.length h
    simp [inDir] at this
  have hnew : FileLogger.new d time name data ini saves true =
      (FileLogger.copy ⟨⟨true, [], []⟩, saves, logDir data time, some (csvPath data time name)⟩ (d1.set (csvPath data time name) []) ini).bind
        fun d => .ok (d, ⟨⟨true, [], []⟩, saves, logDir data time, some (csvPath data time name)⟩) := by
    unfold FileLogger.new
    rw [if_neg (by decide)]
    unfold chooseDirectory
    rw [if_pos (show saves = true ∨ isDirectoryCreated = false from Or.inr rfl)]
    unfold createDirectory
    dsimp only
    rw [dir_eq hp ht, h1]
    simp only [Res.bind]
    rw [show join (logDir data time) (time ++ "_".toList ++ name) = csvPath data time name from join_plain (inDir_plain (logs_ok ht).1 (logs_ok ht).2) (file_ok ht hn), hopen]
  have hset : ∀ q, q ≠ csvPath data time name → (d1.set (csvPath data time name) []).files q = d.files q := fun q hq => (if_neg hq).trans (congrFun f1 q)
  have hcsv : (d1.set (csvPath data time name) []).files (csvPath data time name) = some [] := if_pos rfl
  cases saves
  · rw [hnew, copy_off rfl]
    exact ⟨_, _, rfl, rfl, rfl, rfl, f3, hcsv, fun h => absurd h (by decide), fun q hq _ => hset q hq⟩
  · obtain ⟨hs1, hs2⟩ := hsave rfl
    have hcopy : FileLogger.copy ⟨⟨true, [], []⟩, true, logDir data time, some (csvPath data time name)⟩ (d1.set (csvPath data time name) []) ini =
        if (d1.set (csvPath data time name) []).has (inDir (logDir data time) n) = true then .ok (d1.set (csvPath data time name) [])
        else .ok ((d1.set (csvPath data time name) []).set (inDir (logDir data time) n) text) := by
      unfold FileLogger.copy
      dsimp only
      rw [if_neg (by decide), htarget]
      split
      · rfl
      · unfold Disk.copyFile
        rw [hset ini hic, hs1]
        dsimp only
        rw [if_neg]
        rintro (h | h)
        · simp [inDir] at h
        · have : d1.allows (inDir (logDir data time) n) = false := h
          rw [f2, hs2] at this; cases this
    rw [hnew, hcopy]
    by_cases hh : (d1.set (csvPath data time name) []).has (inDir (logDir data time) n) = true
    · rw [if_pos hh]
      refine ⟨_, _, rfl, rfl, rfl, rfl, f3, hcsv, fun _ hne => ?_, fun q hq _ => hset q hq⟩
      rw [hset _ hne]
      unfold Disk.has at hh
      rw [hset _ hne] at hh
      have hdd : (d1.set (csvPath data time name) []).dirs (inDir (logDir data time) n) = d.dirs (inDir (logDir data time) n) := f4 _ hnd
      rw [hdd] at hh
      rw [if_neg]
      rintro ⟨h3, h4⟩
      rw [h3, h4] at hh
      cases hh
    · rw [if_neg hh]
      refine ⟨_, _, rfl, rfl, rfl, rfl, f3, ?_, fun _ hne => ?_, fun q hq hq2 => (if_neg (hq2 rfl)).trans (hset q hq)⟩
      · refine (if_neg ?_).trans hcsv
        intro e
        apply hh
        unfold Disk.has
        rw [← e, hcsv]; rfl
      · refine (if_pos rfl).trans ?_
        unfold Disk.has at hh
        rw [hset _ hne] at hh
        have hdd : (d1.set (csvPath data time name) []).dirs (inDir (logDir data time) n) = d.dirs (inDir (logDir data time) n) := f4 _ hnd
        rw [hdd] at hh
        rw [if_pos]
        rw [Bool.not_eq_true, Bool.or_eq_false_iff] at hh
        exact ⟨by simpa using hh.1, hh.2⟩

/-- **C193 (the CSV file).** Whatever a program does after it has made an enabled logger — makes further loggers, writes with them, copies settings files — as long as no other
logger has the same path, the CSV file of the logger holds exactly what the logger was told to write, in order: the texts of the enabled loggables of its list, while it was enabled. -/
theorem C193_csv (w w' : World) (hp : Plain data) (ht : '/' ∉ time) (hn : '/' ∉ name) (hc : CanLog w.disk data time name) (es : List Event)
    (h : w.run (.make time name data ini saves true :: es) = .ok w')
    (ho : ∀ j l, j ≠ w.loggers.length → w'.loggers[j]? = some l → l.stream ≠ some (csvPath data time name)) :
    w'.disk.files (csvPath data time name) = some (told true [] (opsOf w.loggers.length es)) := by
  change (((FileLogger.new w.disk time name data ini saves true).bind fun r => Res.ok (⟨r.1, w.loggers ++ [r.2]⟩ : World)).bind fun w => w.run es) = _ at h
  rcases h1 : FileLogger.new w.disk time name data ini saves true with ⟨d1, l1⟩ | _ | _ | _ <;> rw [h1] at h <;> simp only [Res.bind, reduceCtorEq] at h
  obtain ⟨d2, h2, h3, h4⟩ := new_on h1
  rw [csv_eq hp ht hn] at h3 h4
  rw [dir_eq hp ht] at h2
  obtain ⟨f1, f2, f3, f4⟩ := createDirectories_files h2
  have hopen : openCsv d2 (csvPath data time name) = (d2.set (csvPath data time name) [], some (csvPath data time name)) := by
    rcases openCsv_cases d2 (csvPath data time name) with ⟨h, -⟩ | ⟨-, h | h⟩
    · exact h
    · rw [f4 _ (csv_ne_dir data time name), hc.2.1] at h; cases h
    · rw [f2, hc.2.2] at h; cases h
  rw [hopen] at h3 h4
  have hcsv : (d2.set (csvPath data time name) []).files (csvPath data time name) = some [] := if_pos rfl
  have hd1 : d1.files (csvPath data time name) = some [] := by
    rw [copy_keeps h4 _ (by unfold Disk.has; rw [hcsv]; rfl), hcsv]
  have := run_text (p := csvPath data time name) (i := w.loggers.length) (w := ⟨d1, w.loggers ++ [l1]⟩) (l := l1) (by simp) (by rw [h3]) (by rw [h3]; exact hd1) h ho
  rw [this, h3]
  rfl

/-- **C193 (the same second).** A second logger of the same name in the same directory, made at the same clock time, empties the file of the first: what the first was told to write
is lost. -/
theorem C193_same_second (w w' : World) (hp : Plain data) (ht : '/' ∉ time) (hn : '/' ∉ name) (ini' : Str) (saves' : Bool) (es : List Event) (w1 : World)
    (h1 : w.run (.make time name data ini saves true :: es) = .ok w1) (hc0 : CanLog w.disk data time name)
    (ho : ∀ j l, j ≠ w.loggers.length → w1.loggers[j]? = some l → l.stream ≠ some (csvPath data time name)) (hc : CanLog w1.disk data time name)
    (h : w1.step (.make time name data ini' saves' true) = .ok w') :
    w1.disk.files (csvPath data time name) = some (told true [] (opsOf w.loggers.length es)) ∧ w'.disk.files (csvPath data time name) = some [] := by
  refine ⟨C193_csv time name data ini saves w w1 hp ht hn hc0 es h1 ho, ?_⟩
  change ((FileLogger.new w1.disk time name data ini' saves' true).bind fun r => Res.ok (⟨r.1, w1.loggers ++ [r.2]⟩ : World)) = _ at h
  rcases h3 : FileLogger.new w1.disk time name data ini' saves' true with ⟨d1, l1⟩ | _ | _ | _ <;> rw [h3] at h <;> simp only [Res.bind, reduceCtorEq] at h
  cases h
  obtain ⟨d2, h4, h5, h6⟩ := new_on h3
  rw [csv_eq hp ht hn] at h5 h6
  rw [dir_eq hp ht] at h4
  obtain ⟨f1, f2, f3, f4⟩ := createDirectories_files h4
  have hopen : openCsv d2 (csvPath data time name) = (d2.set (csvPath data time name) [], some (csvPath data time name)) := by
    rcases openCsv_cases d2 (csvPath data time name) with ⟨h, -⟩ | ⟨-, h | h⟩
    · exact h
    · rw [f4 _ (csv_ne_dir data time name), hc.2.1] at h; cases h
    · rw [f2, hc.2.2] at h; cases h
  rw [hopen] at h6
  have hcsv : (d2.set (csvPath data time name) []).files (csvPath data time name) = some [] := if_pos rfl
  rw [copy_keeps h6 _ (by unfold Disk.has; rw [hcsv]; rfl), hcsv]

theorem copies_keep {l : FileLogger} : ∀ (srcs : List Str) {d d' : Disk} {l' : FileLogger}, l.acts d (srcs.map .copy) = .ok (d', l') → l' = l ∧ d'.dirs = d.dirs ∧
    ∀ q, d.has q = true → d'.files q = d.files q := by
  intro srcs
  induction srcs with
  | nil => intro d d' l' h; cases h; exact ⟨rfl, rfl, fun _ _ => rfl⟩
  | cons s srcs ih =>
    intro d d' l' h
    change (((l.copy d s).bind fun d => Res.ok (d, l)).bind fun r => r.2.acts r.1 (srcs.map .copy)) = _ at h
    rcases h1 : l.copy d s with d1 | _ | _ | _ <;> rw [h1] at h <;> simp only [Res.bind, reduceCtorEq] at h
    obtain ⟨a, b, c⟩ := ih h
    have hd : d1.dirs = d.dirs := by
      unfold FileLogger.copy at h1
      split at h1
      · cases h1; rfl
      · dsimp only at h1
        split at h1
        · cases h1; rfl
        · unfold Disk.copyFile at h1
          split at h1
          · cases h1
          · split at h1
            · cases h1
            · cases h1; rfl
    refine ⟨a, b.trans hd, fun q hq => ?_⟩
    have hk := copy_keeps h1 q hq
    rw [c q (by unfold Disk.has at hq ⊢; rw [hk, hd]; exact hq), hk]

/-- One copy that returns: the target has the text of the source, or was there. -/
theorem copy_one {l : FileLogger} {d d' : Disk} {src : Str} (hs : l.saves = true) (h : l.copy d src = .ok d') :
    (d.has (join l.dir (fileName src)) = true ∧ d' = d) ∨
    (d.has (join l.dir (fileName src)) = false ∧ ∃ t, d.files src = some t ∧ d' = d.set (join l.dir (fileName src)) t) := by
  unfold FileLogger.copy at h
  rw [if_neg (by rw [hs]; decide)] at h
  dsimp only at h
  split at h
  · rename_i h1; cases h; exact .inl ⟨h1, rfl⟩
  · rename_i h1
    refine .inr ⟨by simpa using h1, ?_⟩
    unfold Disk.copyFile at h
    split at h
    · cases h
    · rename_i t ht
      split at h
      · cases h
      · cases h; exact ⟨t, ht, rfl⟩

theorem copies_spec {l : FileLogger} (hs : l.saves = true) : ∀ (srcs : List Str) {d d' : Disk} {l' : FileLogger}, l.acts d (srcs.map .copy) = .ok (d', l') →
    (∀ q, (∀ s ∈ srcs, join l.dir (fileName s) ≠ q) → d'.files q = d.files q) ∧
    (∀ before s after, srcs = before ++ s :: after → (∀ b ∈ before, join l.dir (fileName b) ≠ join l.dir (fileName s)) → d.has (join l.dir (fileName s)) = false →
      (s ∈ before.map (fun b => join l.dir (fileName b)) → s = join l.dir (fileName s)) →
      ∃ t, d.files s = some t ∧ d'.files (join l.dir (fileName s)) = some t) := by
  intro srcs
  induction srcs with
  | nil =>
    intro d d' l' h
    cases h
    exact ⟨fun _ _ => rfl, fun before s after h => absurd h (by simp)⟩
  | cons s0 srcs ih =>
    intro d d' l' h
    change (((l.copy d s0).bind fun d => Res.ok (d, l)).bind fun r => r.2.acts r.1 (srcs.map .copy)) = _ at h
    rcases h1 : l.copy d s0 with d1 | _ | _ | _ <;> rw [h1] at h <;> simp only [Res.bind, reduceCtorEq] at h
    obtain ⟨i1, i2⟩ := ih h
    have hone := copy_one hs h1
    have hother : ∀ q, join l.dir (fileName s0) ≠ q → d1.files q = d.files q ∧ d1.has q = d.has q := by
      intro q hq
      rcases hone with ⟨-, rfl⟩ | ⟨-, t, -, rfl⟩
      · exact ⟨rfl, rfl⟩
      · have : (d.set (join l.dir (fileName s0)) t).files q = d.files q := if_neg (Ne.symm hq)
        exact ⟨this, by unfold Disk.has; rw [this]; rfl⟩
    refine ⟨fun q hq => ?_, fun before s after he hb hn hc => ?_⟩
    · rw [i1 q fun s hs => hq s (List.mem_cons_of_mem _ hs), (hother q (hq s0 (List.mem_cons_self ..))).1]
    · cases before with
      | nil =>
        simp only [List.nil_append, List.cons.injEq] at he
        obtain ⟨rfl, rfl⟩ := he
        rcases hone with ⟨h2, -⟩ | ⟨-, t, h2, rfl⟩
        · rw [h2] at hn; cases hn
        · have hset : (d.set (join l.dir (fileName s0)) t).files (join l.dir (fileName s0)) = some t := if_pos rfl
          exact ⟨t, h2, by rw [(copies_keep _ h).2.2 _ (by unfold Disk.has; rw [hset]; rfl), hset]⟩
      | cons b before =>
        simp only [List.cons_append, List.cons.injEq] at he
        obtain ⟨rfl, rfl⟩ := he
        have hne := hb s0 (List.mem_cons_self ..)
        obtain ⟨t, a1, a2⟩ := i2 before s after rfl (fun b hb' => hb b (List.mem_cons_of_mem _ hb')) (by rw [(hother _ hne).2]; exact hn)
          (fun h => hc (List.mem_cons_of_mem _ h))
        refine ⟨t, ?_, a2⟩
        by_cases e : join l.dir (fileName s0) = s
        · have : s = join l.dir (fileName s) := hc (by rw [← e]; exact List.mem_cons_self ..)
          exact absurd (e.trans this) hne
        · rw [← (hother s e).1]; exact a1

theorem fileName_end {x b : Str} (hb : '/' ∉ b) (hx : x = [] ∨ x.getLast? = some '/') : fileName (x ++ b) = b := by
  have hall : ∀ c ∈ b.reverse, decide (c ≠ '/') = true := by
    intro c hc
    have : c ∈ b := List.mem_reverse.1 hc
    exact decide_eq_true (fun e => hb (e ▸ this))
  unfold fileName
  rw [List.reverse_append, List.takeWhile_append_of_pos hall]
  rcases hx with rfl | hx
  · simp
  · obtain ⟨y, rfl⟩ := List.getLast?_eq_some_iff.1 hx
    simp

theorem fileName_no (p : Str) : '/' ∉ fileName p := by
  unfold fileName
  rw [List.mem_reverse]
  intro h
  have := List.mem_takeWhile_imp h
  simp at this

theorem fileName_join (a p : Str) : fileName (join a (fileName p)) = fileName p := by
  have h0 := fileName_no p
  unfold join
  have h1 : (fileName p).head? ≠ some '/' := fun h => h0 (List.mem_of_head? h)
  rw [if_neg h1]
  split
  · rename_i h; exact fileName_end h0 h
  · rw [show a ++ '/' :: fileName p = (a ++ ['/']) ++ fileName p by simp]
    exact fileName_end h0 (.inr (by simp))

/-- **C193 (copies).** When settings files are saved and a sequence of copies returns, everything that was on the disk before is as it was; of the sources that have the same last
name the first one is what is found in the log directory — with the text it had before any of the copies — and nothing else has changed. The copies return when every
source exists and the directory can be written. -/
theorem C193_copies (l : FileLogger) (hs : l.saves = true) (hp : Plain l.dir) (srcs : List (Str × Str)) (hn : ∀ s ∈ srcs, IsName s.1 s.2) :
    (∀ d' l', l.acts d (srcs.map fun s => .copy s.2) = .ok (d', l') →
      (∀ q, (d.files q).isSome = true → d'.files q = d.files q) ∧
      (∀ before s after, srcs = before ++ s :: after → s.1 ∉ before.map Prod.fst → d.files (inDir l.dir s.1) = none → d.dirs (inDir l.dir s.1) = false →
        ∃ t, d.files s.2 = some t ∧ d'.files (inDir l.dir s.1) = some t) ∧
      (∀ q, (∀ s ∈ srcs, q ≠ inDir l.dir s.1) → d'.files q = d.files q)) ∧
    ((∀ s ∈ srcs, (d.files s.2).isSome = true ∧ d.allows (inDir l.dir s.1) = true) → ∃ d', l.acts d (srcs.map fun s => .copy s.2) = .ok (d', l)) := by
  have htarget : ∀ s ∈ srcs, join l.dir (fileName s.2) = inDir l.dir s.1 := fun s hs' => by
    rw [fileName_eq (hn s hs')]; exact join_plain hp (hn s hs').2.1
  have hmap : (srcs.map fun s => Op.copy s.2) = (srcs.map Prod.snd).map Op.copy := by simp
  constructor
  · intro d' l' h
    rw [hmap] at h
    obtain ⟨c1, c2⟩ := copies_spec hs _ h
    refine ⟨fun q hq => (copies_keep _ h).2.2 q (by unfold Disk.has; rw [hq]; rfl), fun before s after he hb hf hd => ?_, fun q hq => ?_⟩
    · have hsm : s ∈ srcs := by rw [he]; simp
      have := c2 (before.map Prod.snd) s.2 (after.map Prod.snd) (by rw [he]; simp) ?_ (by rw [htarget s hsm]; unfold Disk.has; rw [hf, hd]; rfl) ?_
      · rw [htarget s hsm] at this; exact this
      · intro b hb' e
        obtain ⟨b, hb2, rfl⟩ := List.mem_map.1 hb'
        have hbm : b ∈ srcs := by rw [he]; simp [hb2]
        rw [htarget b hbm, htarget s hsm] at e
        unfold inDir at e
        have := List.append_cancel_left e
        simp only [List.cons.injEq, true_and] at this
        exact hb (List.mem_map.2 ⟨b, hb2, this⟩)
      · intro hm
        obtain ⟨b, -, hb2⟩ := List.mem_map.1 hm
        rw [← hb2, fileName_join]
    · refine c1 q fun p hp' => ?_
      obtain ⟨s, hs', rfl⟩ := List.mem_map.1 hp'
      rw [htarget s hs']
      exact (hq s hs').symm
  · intro hall
    clear hmap hn
    induction srcs generalizing d with
    | nil => exact ⟨d, rfl⟩
    | cons s srcs ih =>
      have h0 := hall s (List.mem_cons_self ..)
      obtain ⟨t, ht⟩ := Option.isSome_iff_exists.1 h0.1
      have hstep : ∃ d1, l.copy d s.2 = .ok d1 ∧ d1.allows = d.allows := by
        unfold FileLogger.copy
        rw [if_neg (by rw [hs]; decide)]
        dsimp only
        split
        · exact ⟨d, rfl, rfl⟩
        · unfold Disk.copyFile
          rw [ht, htarget s (List.mem_cons_self ..)]
          dsimp only
          rw [if_neg (by rintro (h | h); · simp [inDir] at h
                         · rw [h0.2] at h; cases h)]
          exact ⟨_, rfl, rfl⟩
      obtain ⟨d1, h1, h2⟩ := hstep
      obtain ⟨d', h3⟩ := ih d1 (fun s hs' => htarget s (List.mem_cons_of_mem _ hs')) (fun s hs' => by
        have := hall s (List.mem_cons_of_mem _ hs')
        rw [copy_keeps h1 _ (by unfold Disk.has; rw [this.1]; rfl), h2]; exact this)
      refine ⟨d', ?_⟩
      change (((l.copy d s.2).bind fun d => Res.ok (d, l)).bind fun r => r.2.acts r.1 (srcs.map fun s => .copy s.2)) = _
      rw [h1]; exact h3

/-- **C193 (a missing settings file).** With the saving of settings files switched off nothing is copied; with it on, a source that does not exist ends the program with an
exception, unless something of its name is in the log directory already. -/
theorem C193_missing (l : FileLogger) (hp : Plain l.dir) (src n : Str) (hn : IsName n src) :
    (l.saves = false → l.acts d [.copy src] = .ok (d, l)) ∧
    (l.saves = true → d.files src = none → d.files (inDir l.dir n) = none → d.dirs (inDir l.dir n) = false → l.acts d [.copy src] = .throws) ∧
    ((d.files (inDir l.dir n)).isSome = true → l.acts d [.copy src] = .ok (d, l)) := by
  have ht : join l.dir (fileName src) = inDir l.dir n := by rw [fileName_eq hn]; exact join_plain hp hn.2.1
  have hact : l.acts d [.copy src] = ((l.copy d src).bind fun d => Res.ok (d, l)).bind fun r => Res.ok r := rfl
  refine ⟨fun h => by rw [hact, copy_off h]; rfl, fun h h1 h2 h3 => ?_, fun h => ?_⟩
  · rw [hact]
    unfold FileLogger.copy
    rw [if_neg (by rw [h]; decide)]
    dsimp only
    rw [ht, if_neg (by unfold Disk.has; rw [h2, h3]; decide)]
    unfold Disk.copyFile
    rw [h1]; rfl
  · rw [hact]
    unfold FileLogger.copy
    split
    · rfl
    · dsimp only
      rw [ht, if_pos (by unfold Disk.has; rw [h]; rfl)]; rfl

/-- The operations that are not copies. -/
def NoCopy (os : List Op) : Prop := ∀ o ∈ os, ∀ src, o ≠ .copy src

/-- **C193 (no file).** A logger without an open file — its log is switched off, or the file could not be opened, which is no error — writes nothing to the disk, whatever it is
told and even when it is enabled later. -/
theorem C193_silent (l : FileLogger) (h : l.stream = none) (os : List Op) (ho : NoCopy os) : ∃ l', l.acts d os = .ok (d, l') := by
  induction os generalizing l with
  | nil => exact ⟨l, rfl⟩
  | cons o os ih =>
    have h1 : ∃ l1, l.act d o = .ok (d, l1) ∧ l1.stream = none := by
      have hput : ∀ log', l.put d log' = (d, { l with log := log' }) := by
        intro log'; unfold FileLogger.put; rw [h]
      cases o with
      | headers nl => exact ⟨_, congrArg Res.ok (hput _), h⟩
      | values nl => exact ⟨_, congrArg Res.ok (hput _), h⟩
      | add x => exact ⟨_, rfl, h⟩
      | clear => exact ⟨_, rfl, h⟩
      | enable b => exact ⟨_, rfl, h⟩
      | shows xs => exact ⟨_, rfl, h⟩
      | copy src => exact absurd rfl (ho _ (List.mem_cons_self ..) src)
    obtain ⟨l1, h2, h3⟩ := h1
    obtain ⟨l', h4⟩ := ih l1 h3 fun o ho' => ho o (List.mem_cons_of_mem _ ho')
    refine ⟨l', ?_⟩
    change ((l.act d o).bind fun r => r.2.acts r.1 os) = _
    rw [h2]; exact h4

/-- **C193 (log switched off).** The constructor of a logger that is switched off makes no directory, no file and no copy, and the logger has no file; but with the saving of
settings files on, the settings files that are copied later land in the *working directory* of the program. -/
theorem C193_disabled : ∃ l, FileLogger.new d time name data ini saves false = .ok (d, l) ∧ l.stream = none ∧
    (saves = false → ∀ src, l.acts d [.copy src] = .ok (d, l)) ∧
    (saves = true → ∀ src n t, IsName n src → d.files src = some t → d.files n = none → d.dirs n = false → d.allows n = true →
      ∃ d', l.acts d [.copy src] = .ok (d', l) ∧ d'.files n = some t) := by
  refine ⟨_, rfl, rfl, fun h src => ?_, fun h src n t hn h1 h2 h3 h4 => ?_⟩
  · change ((FileLogger.copy _ d src).bind fun d => Res.ok (d, _)).bind (fun r => Res.ok r) = _
    rw [copy_off h]; rfl
  · refine ⟨d.set n t, ?_, if_pos rfl⟩
    change ((FileLogger.copy _ d src).bind fun d => Res.ok (d, _)).bind (fun r => Res.ok r) = _
    unfold FileLogger.copy
    dsimp only
    rw [if_neg (by rw [h]; decide), fileName_eq hn, join_empty hn.2.1, if_neg (by unfold Disk.has; rw [h2, h3]; decide)]
    unfold Disk.copyFile
    rw [h1]
    dsimp only
    rw [if_neg (by rintro (h | h); exacts [hn.1 h, by rw [h4] at h; cases h])]
    rfl

/-- **C193 (refused).** A log directory that cannot be made ends the constructor with an exception; a CSV file that cannot be opened does not: the logger is made, without a file. -/
theorem C193_refused (hp : Plain data) (ht : '/' ∉ time) (hn : '/' ∉ name) :
    (d.dirs (logDir data time) = false → ((d.files (logDir data time)).isSome = true ∨ d.allows (logDir data time) = false) →
      FileLogger.new d time name data ini saves true = .throws) ∧
    (d.files (logDir data time) = none → d.allows (logDir data time) = true → d.allows (csvPath data time name) = false →
      ∃ d' l, FileLogger.new d time name data ini false true = .ok (d', l) ∧ l.stream = none ∧ l.log.isEnabled = true ∧ d'.files = d.files) := by
  constructor
  · intro h1 h2
    unfold FileLogger.new
    rw [if_neg (by decide)]
    unfold chooseDirectory
    rw [if_pos (show saves = true ∨ isDirectoryCreated = false from Or.inr rfl)]
    unfold createDirectory
    dsimp only
    rw [dir_eq hp ht]
    unfold Disk.createDirectories
    rw [if_neg (by rw [h1]; decide), if_pos h2]
    rfl
  · intro h1 h2 h3
    obtain ⟨d1, h4⟩ := can_make (d := d) (data := data) (time := time) (.inr ⟨h1, h2⟩)
    obtain ⟨f1, f2, f3, f4⟩ := createDirectories_files h4
    have hopen : openCsv d1 (csvPath data time name) = (d1, none) := by
      rcases openCsv_cases d1 (csvPath data time name) with ⟨-, -, h⟩ | ⟨h, -⟩
      · rw [f2, h3] at h; cases h
      · exact h
    refine ⟨d1, ⟨⟨true, [], []⟩, false, logDir data time, none⟩, ?_, rfl, rfl, f1⟩
    unfold FileLogger.new
    rw [if_neg (by decide)]
    unfold chooseDirectory
    rw [if_pos (show false = true ∨ isDirectoryCreated = false from Or.inr rfl)]
    unfold createDirectory
    dsimp only
    rw [dir_eq hp ht, h4]
    simp only [Res.bind]
    rw [show join (logDir data time) (time ++ "_".toList ++ name) = csvPath data time name from join_plain (inDir_plain (logs_ok ht).1 (logs_ok ht).2) (file_ok ht hn), hopen,
      copy_off rfl]

theorem join_end (a b : Str) : ∃ x, join a b = x ++ b := by
  unfold join
  split
  · exact ⟨[], rfl⟩
  · split
    · exact ⟨a, rfl⟩
    · exact ⟨a ++ ['/'], by simp⟩

theorem number_of {x y : Str} {j k : ℕ} (h : x ++ ("default".toList ++ dec j ++ ".csv".toList) = y ++ ("default".toList ++ dec k ++ ".csv".toList)) : j = k := by
  have hd : ∀ n : ℕ, ∀ c ∈ (dec n).reverse, c.isDigit = true := by
    intro n c hc
    by_contra hb
    exact LogProps.dec_no c (by simpa using hb) n (List.mem_reverse.1 hc)
  have hr : ∀ (z : Str) (n : ℕ), (((z ++ ("default".toList ++ dec n ++ ".csv".toList)).reverse.drop 4).takeWhile Char.isDigit) = (dec n).reverse := by
    intro z n
    have e : (z ++ ("default".toList ++ dec n ++ ".csv".toList)).reverse = "vsc.".toList ++ ((dec n).reverse ++ ('t' :: ("luafed".toList ++ z.reverse))) := by
      simp
    rw [e, show ("vsc.".toList ++ ((dec n).reverse ++ ('t' :: ("luafed".toList ++ z.reverse)))).drop 4 = (dec n).reverse ++ ('t' :: ("luafed".toList ++ z.reverse)) from rfl,
      List.takeWhile_append_of_pos (hd n), List.takeWhile_cons_of_neg (by decide), List.append_nil]
  have := hr x j
  rw [h, hr y k] at this
  exact (LogProps.dec_inj (List.reverse_injective this)).symm

variable (rd : Reader) (file : File)

/-- **C193 (settings).** A simulation without Monte Carlo logs to `default.csv` and a Monte Carlo simulation logs its cases to `monte_carlo.csv`, both in the directory written in the
base file, and settings files are saved exactly if the base file says so; a case with a Monte Carlo executor that is switched off is a simulation without Monte Carlo. -/
theorem C193_settings (base : Str) (hd : Text rd file "SIMULATION_SETTINGS".toList "log_file_save_directory".toList data)
    (hs : Settings.Switch rd file "SIMULATION_SETTINGS".toList "save_initialize_files".toList saves) :
    caseLog rd file base time none = .make time "default.csv".toList data base saves true ∧
    (∀ (e : Executor) (path : Str), e.enabled = false → caseLog rd file base time (some (e, path)) = .make time "default.csv".toList data base saves true) ∧
    (∀ (e : Executor) (path : Str), e.enabled = true →
      caseLog rd file base time (some (e, path)) = .make time ("default".toList ++ dec e.done ++ ".csv".toList) path base saves e.saveLog) ∧
    ∀ b, initMonteCarloLog rd file base time b = .make time "monte_carlo.csv".toList data base saves b := by
  have h1 : caseLog rd file base time none = .make time "default.csv".toList data base saves true := by
    unfold caseLog initLog
    dsimp only
    rw [hd.read, InitWheel.Switch.read hs]
  refine ⟨h1, fun e path he => ?_, fun e path he => ?_, fun b => ?_⟩
  · rw [← h1]
    unfold caseLog
    dsimp only
    rw [if_pos he]
  · unfold caseLog
    dsimp only
    rw [if_neg (by rw [he]; decide), InitWheel.Switch.read hs]
    unfold Executor.getSaveLog
    rw [he]; rfl
  · unfold initMonteCarloLog
    dsimp only
    rw [hd.read, InitWheel.Switch.read hs]

/-- **C193 (Monte Carlo cases).** Two cases of a Monte Carlo simulation with different numbers never log to the same path, whatever the clock and the directories: together with
`C193_csv` the log of one case never mixes with that of another. -/
theorem C193_monte_carlo (base base' time' path path' : Str) (e e' : Executor) (he : e.enabled = true) (he' : e'.enabled = true) (hne : e.done ≠ e'.done) (w w1 w' w1' : World)
    (h : w.step (caseLog rd file base time (some (e, path))) = .ok w1) (h' : w'.step (caseLog rd file base' time' (some (e', path'))) = .ok w1')
    (l l' : FileLogger) (hl : w1.loggers = w.loggers ++ [l]) (hl' : w1'.loggers = w'.loggers ++ [l']) (p p' : Str) (hp : l.stream = some p) (hp' : l'.stream = some p') : p ≠ p' := by
  have hend : ∀ (base time path : Str) (e : Executor), e.enabled = true → ∀ (w w1 : World), w.step (caseLog rd file base time (some (e, path))) = .ok w1 → ∀ l : FileLogger,
      w1.loggers = w.loggers ++ [l] → ∀ p, l.stream = some p → ∃ x, p = x ++ ("default".toList ++ dec e.done ++ ".csv".toList) := by
    intro base time path e he w w1 h l hl p hp
    unfold caseLog at h
    dsimp only at h
    rw [if_neg (by rw [he]; decide)] at h
    generalize readEnable rd.paths (file "SIMULATION_SETTINGS".toList) "save_initialize_files".toList = sv at h
    change ((FileLogger.new w.disk time ("default".toList ++ dec e.done ++ ".csv".toList) path base sv e.getSaveLog).bind
      fun r => Res.ok (⟨r.1, w.loggers ++ [r.2]⟩ : World)) = _ at h
    rcases h1 : FileLogger.new w.disk time ("default".toList ++ dec e.done ++ ".csv".toList) path base sv e.getSaveLog with ⟨d1, l1⟩ | _ | _ | _ <;>
      rw [h1] at h <;> simp only [Res.bind, reduceCtorEq] at h
    cases h
    have hll : l1 = l := by simpa using hl
    subst hll
    cases hg : e.getSaveLog
    · rw [hg] at h1; cases h1; cases hp
    · rw [hg] at h1
      obtain ⟨d2, -, h3, -⟩ := new_on h1
      rw [h3] at hp
      dsimp only at hp
      rcases openCsv_cases d2 (join (join path ("logs_".toList ++ time)) (time ++ "_".toList ++ ("default".toList ++ dec e.done ++ ".csv".toList))) with ⟨h4, -⟩ | ⟨h4, -⟩
      · rw [h4] at hp
        cases hp
        obtain ⟨x, hx⟩ := join_end (join path ("logs_".toList ++ time)) (time ++ "_".toList ++ ("default".toList ++ dec e.done ++ ".csv".toList))
        exact ⟨x ++ (time ++ "_".toList), by rw [hx]; simp only [List.append_assoc]⟩
      · rw [h4] at hp; cases hp
  obtain ⟨x, hx⟩ := hend base time path e he w w1 h l hl p hp
  obtain ⟨y, hy⟩ := hend base' time' path' e' he' w' w1' h' l' hl' p' hp'
  intro heq
  rw [hx, hy] at heq
  exact hne (number_of heq)

/-! ## Examples -/

/-- A disk with two settings files of the same last name. -/
def exDisk : Disk where
  files := fun p => if p = "a/sat.ini".toList then some "A".toList else if p = "b/sat.ini".toList then some "B".toList else none
  dirs := fun p => decide (p = "logs".toList)
  allows := fun _ => true

theorem exPlain : Plain "logs".toList := ⟨by decide, by decide⟩
theorem exName (x : Str) : IsName "sat.ini".toList (inDir x "sat.ini".toList) := ⟨by decide, by decide, .inr ⟨x, rfl⟩⟩

theorem exCan : CanLog exDisk "logs".toList "260101_000000".toList "default.csv".toList := by
  unfold CanLog
  decide +kernel

/-- The first settings file is in the log directory. -/
example : ∃ d' l, FileLogger.new exDisk "260101_000000".toList "default.csv".toList "logs".toList "a/sat.ini".toList true true = .ok (d', l) ∧
    d'.files "logs/logs_260101_000000/sat.ini".toList = some "A".toList ∧ d'.files "logs/logs_260101_000000/260101_000000_default.csv".toList = some [] := by
  obtain ⟨d', l, h1, -, -, -, -, h6, h7, -⟩ := C193_paths exDisk "260101_000000".toList "default.csv".toList "logs".toList "a/sat.ini".toList true exPlain (by decide) (by decide) exCan
    "sat.ini".toList (exName "a".toList) (by decide +kernel) "A".toList (fun _ => ⟨by decide +kernel, rfl⟩)
  refine ⟨d', l, h1, ?_, h6⟩
  have := h7 rfl (by decide +kernel)
  rw [if_pos (by decide +kernel)] at this
  exact this

/-- A logger with a value that is logged, one that is not, and a second logger made in between. -/
def exEvents : List Event :=
  [.use 0 (.add ⟨true, "x,".toList, "1,".toList⟩), .use 0 (.add ⟨false, "y,".toList, "2,".toList⟩), .use 0 (.headers true),
    .make "260101_000001".toList "other.csv".toList "logs".toList "b/sat.ini".toList true true, .use 1 (.headers true), .use 0 (.copy "b/sat.ini".toList), .use 0 (.values true)]

theorem exRun : ∃ w', World.run ⟨exDisk, []⟩ (.make "260101_000000".toList "default.csv".toList "logs".toList "a/sat.ini".toList true true :: exEvents) = .ok w' ∧
    w'.loggers.map (·.stream) = [some "logs/logs_260101_000000/260101_000000_default.csv".toList, some "logs/logs_260101_000001/260101_000001_other.csv".toList] :=
  ⟨_, rfl, by decide +kernel⟩

/-- The CSV file of the first logger. -/
example : ∃ w', World.run ⟨exDisk, []⟩ (.make "260101_000000".toList "default.csv".toList "logs".toList "a/sat.ini".toList true true :: exEvents) = .ok w' ∧
    w'.disk.files "logs/logs_260101_000000/260101_000000_default.csv".toList = some "x,\n1,\n".toList := by
  obtain ⟨w', h, hl⟩ := exRun
  refine ⟨w', h, ?_⟩
  have := C193_csv "260101_000000".toList "default.csv".toList "logs".toList "a/sat.ini".toList true ⟨exDisk, []⟩ w' exPlain (by decide) (by decide) exCan exEvents h ?_
  · have e1 : csvPath "logs".toList "260101_000000".toList "default.csv".toList = "logs/logs_260101_000000/260101_000000_default.csv".toList := by decide +kernel
    have e2 : told true [] (opsOf 0 exEvents) = "x,\n1,\n".toList := by decide +kernel
    rw [e1] at this
    rw [this]
    exact congrArg some e2
  · intro j l hj hlj e
    have h2 : (w'.loggers.map (·.stream))[j]? = some (some (csvPath "logs".toList "260101_000000".toList "default.csv".toList)) := by
      rw [List.getElem?_map, hlj]; exact congrArg some e
    rw [hl] at h2
    rcases j with _ | _ | j
    · exact hj rfl
    · have e3 : some "logs/logs_260101_000001/260101_000001_other.csv".toList = some (csvPath "logs".toList "260101_000000".toList "default.csv".toList) := Option.some.inj h2
      exact absurd e3 (by decide +kernel)
    · have e3 : (none : Option (Option Str)) = some (some (csvPath "logs".toList "260101_000000".toList "default.csv".toList)) := h2
      cases e3

/-- A program that is started twice in the same second. -/
example : ∃ w1 w', World.run ⟨exDisk, []⟩ [.make "260101_000000".toList "default.csv".toList "logs".toList "a/sat.ini".toList false true,
      .use 0 (.add ⟨true, "x,".toList, "1,".toList⟩), .use 0 (.headers true)] = .ok w1 ∧
    w1.step (.make "260101_000000".toList "default.csv".toList "logs".toList "a/sat.ini".toList false true) = .ok w' ∧
    w1.disk.files (csvPath "logs".toList "260101_000000".toList "default.csv".toList) = some "x,\n".toList ∧
    w'.disk.files (csvPath "logs".toList "260101_000000".toList "default.csv".toList) = some [] := by
  obtain ⟨w1, h1, hl, hc⟩ : ∃ w1, World.run ⟨exDisk, []⟩ [.make "260101_000000".toList "default.csv".toList "logs".toList "a/sat.ini".toList false true,
      .use 0 (.add ⟨true, "x,".toList, "1,".toList⟩), .use 0 (.headers true)] = .ok w1 ∧ w1.loggers.length = 1 ∧
      CanLog w1.disk "logs".toList "260101_000000".toList "default.csv".toList := ⟨_, rfl, by decide +kernel, by unfold CanLog; decide +kernel⟩
  obtain ⟨d2, l2, h2, -⟩ := C193_paths w1.disk "260101_000000".toList "default.csv".toList "logs".toList "a/sat.ini".toList false exPlain (by decide) (by decide) hc
    "sat.ini".toList (exName "a".toList) (by decide +kernel) [] (fun h => absurd h (by decide))
  have h3 : w1.step (.make "260101_000000".toList "default.csv".toList "logs".toList "a/sat.ini".toList false true) = .ok ⟨d2, w1.loggers ++ [l2]⟩ := by
    change (FileLogger.new _ _ _ _ _ _ _).bind _ = _
    rw [h2]; rfl
  obtain ⟨h4, h5⟩ := C193_same_second "260101_000000".toList "default.csv".toList "logs".toList "a/sat.ini".toList false ⟨exDisk, []⟩ _ exPlain (by decide) (by decide)
    "a/sat.ini".toList false _ w1 h1 exCan (fun j l hj hlj => absurd (List.getElem?_eq_some_iff.1 hlj).1 (by rw [hl]; simp at hj; omega)) hc h3
  exact ⟨w1, _, h1, h3, h4.trans (by decide +kernel), h5⟩

/-- Two sources with the same last name: the first one stays. -/
example : ∃ d', FileLogger.acts ⟨⟨true, [], []⟩, true, "logs".toList, none⟩ exDisk [.copy "b/sat.ini".toList, .copy "a/sat.ini".toList] =
      .ok (d', ⟨⟨true, [], []⟩, true, "logs".toList, none⟩) ∧ d'.files "logs/sat.ini".toList = some "B".toList := by
  have hc := C193_copies exDisk ⟨⟨true, [], []⟩, true, "logs".toList, none⟩ rfl exPlain
    [("sat.ini".toList, "b/sat.ini".toList), ("sat.ini".toList, "a/sat.ini".toList)] (by
      intro s hs
      simp only [List.mem_cons, List.not_mem_nil, or_false] at hs
      rcases hs with rfl | rfl
      exacts [exName "b".toList, exName "a".toList])
  obtain ⟨d', h⟩ := hc.2 (by
    intro s hs
    simp only [List.mem_cons, List.not_mem_nil, or_false] at hs
    rcases hs with rfl | rfl <;> exact ⟨by decide +kernel, rfl⟩)
  obtain ⟨t, h1, h2⟩ := (hc.1 d' _ h).2.1 [] _ _ rfl (by simp) (by decide +kernel) (by decide +kernel)
  have ht : exDisk.files "b/sat.ini".toList = some "B".toList := by decide +kernel
  exact ⟨d', h, h2.trans (h1.symm.trans ht)⟩

/-- A missing source. -/
example : FileLogger.acts ⟨⟨true, [], []⟩, true, "logs".toList, none⟩ exDisk [.copy "c/sat.ini".toList] = .throws :=
  (C193_missing exDisk ⟨⟨true, [], []⟩, true, "logs".toList, none⟩ exPlain "c/sat.ini".toList "sat.ini".toList (exName "c".toList)).2.1 rfl
    (by decide +kernel) (by decide +kernel) (by decide +kernel)

/-- A logger that is switched off, and enabled later. -/
example : ∃ l, FileLogger.new exDisk "t".toList "default.csv".toList "logs".toList "a/sat.ini".toList true false = .ok (exDisk, l) ∧
    (∃ l', l.acts exDisk [.enable true, .headers true] = .ok (exDisk, l')) ∧
    ∃ d', l.acts exDisk [.copy "a/sat.ini".toList] = .ok (d', l) ∧ d'.files "sat.ini".toList = some "A".toList := by
  obtain ⟨l, h1, h2, -, h3⟩ := C193_disabled exDisk "t".toList "default.csv".toList "logs".toList "a/sat.ini".toList true
  exact ⟨l, h1, C193_silent exDisk l h2 _ (by
      intro o ho src e
      subst e
      simp at ho),
    h3 rfl "a/sat.ini".toList "sat.ini".toList "A".toList (exName "a".toList) (by decide +kernel) (by decide +kernel) (by decide +kernel) rfl⟩

/-- A disk on which nothing can be written. -/
example : FileLogger.new { exDisk with allows := fun _ => false } "t".toList "default.csv".toList "logs".toList "a/sat.ini".toList true true = .throws :=
  (C193_refused { exDisk with allows := fun _ => false } "t".toList "default.csv".toList "logs".toList "a/sat.ini".toList true exPlain (by decide) (by decide)).1
    (by decide +kernel) (.inr rfl)

/-- A disk on which directories can be made, but no CSV files. -/
example : ∃ d' l, FileLogger.new { exDisk with allows := fun p => !(".csv".toList.isSuffixOf p) } "t".toList "default.csv".toList "logs".toList "a/sat.ini".toList false true =
    .ok (d', l) ∧ l.stream = none := by
  obtain ⟨d', l, h1, h2, -⟩ := (C193_refused { exDisk with allows := fun p => !(".csv".toList.isSuffixOf p) } "t".toList "default.csv".toList "logs".toList "a/sat.ini".toList false
    exPlain (by decide) (by decide)).2 (by decide +kernel) (by decide +kernel) (by decide +kernel)
  exact ⟨d', l, h1, h2⟩

def exReader : Reader := ⟨⟨[], [], []⟩, fun _ => 0, fun _ => 0, fun _ => []⟩
def exFile : File := fun _ key => if key = "save_initialize_files".toList then some "ENABLE".toList else some "logs".toList

/-- A case of a Monte Carlo simulation. -/
theorem exCase (base time path : Str) (k : ℕ) :
    caseLog exReader exFile base time (some (⟨10, k, true, true⟩, path)) = .make time ("default".toList ++ dec k ++ ".csv".toList) path base true true :=
  (C193_settings time "logs".toList true exReader exFile base ⟨"logs".toList, by decide +kernel, by decide +kernel⟩
    ⟨"ENABLE".toList, ⟨"ENABLE".toList, by decide +kernel, by decide +kernel⟩, by decide +kernel⟩).2.2.1 ⟨10, k, true, true⟩ path rfl

example (base time path : Str) : caseLog exReader exFile base time (some (⟨10, 3, true, true⟩, path)) = .make time "default3.csv".toList path base true true := by
  rw [exCase, show "default".toList ++ dec 3 ++ ".csv".toList = "default3.csv".toList by decide +kernel]

/-- Two cases in the same second and in the same directory. -/
example : ∃ w1 w2 l1 l2 p1 p2, World.step ⟨exDisk, []⟩ (caseLog exReader exFile "a/sat.ini".toList "t".toList (some (⟨10, 3, true, true⟩, "logs".toList))) = .ok w1 ∧
    w1.step (caseLog exReader exFile "a/sat.ini".toList "t".toList (some (⟨10, 4, true, true⟩, "logs".toList))) = .ok w2 ∧ w1.loggers = [] ++ [l1] ∧
    w2.loggers = w1.loggers ++ [l2] ∧ l1.stream = some p1 ∧ l2.stream = some p2 ∧ p1 ≠ p2 := by
  have e3 : "default".toList ++ dec 3 ++ ".csv".toList = "default3.csv".toList := by decide +kernel
  have e4 : "default".toList ++ dec 4 ++ ".csv".toList = "default4.csv".toList := by decide +kernel
  obtain ⟨w1, l1, h1, h3, h5⟩ : ∃ w1 l1,
      World.step ⟨exDisk, []⟩ (caseLog exReader exFile "a/sat.ini".toList "t".toList (some (⟨10, 3, true, true⟩, "logs".toList))) = .ok w1 ∧ w1.loggers = [] ++ [l1] ∧
      l1.stream = some "logs/logs_t/t_default3.csv".toList := by
    rw [exCase, e3]
    exact ⟨_, ⟨⟨true, [], []⟩, true, "logs/logs_t".toList, some "logs/logs_t/t_default3.csv".toList⟩, rfl, by rfl, rfl⟩
  obtain ⟨w2, l2, h2, h4, h6⟩ : ∃ w2 l2,
      w1.step (caseLog exReader exFile "a/sat.ini".toList "t".toList (some (⟨10, 4, true, true⟩, "logs".toList))) = .ok w2 ∧ w2.loggers = w1.loggers ++ [l2] ∧
      l2.stream = some "logs/logs_t/t_default4.csv".toList := by
    rw [exCase, e3] at h1
    rw [exCase, e4]
    cases h1
    exact ⟨_, ⟨⟨true, [], []⟩, true, "logs/logs_t".toList, some "logs/logs_t/t_default4.csv".toList⟩, rfl, by rfl, rfl⟩
  exact ⟨w1, w2, l1, l2, _, _, h1, h2, h3, h4, h5, h6,
    C193_monte_carlo "t".toList exReader exFile _ _ _ _ _ _ _ rfl rfl (by decide) _ _ _ _ h1 h2 l1 l2 h3 h4 _ _ h5 h6⟩

end S2E.LogFiles
