import Verif.Model.InitGnss
import Verif.Spec.InitGnss
import Verif.Proofs.Settings
import Verif.Props.InitWheel
import Verif.Props.TimeSystem
import Verif.Props.Gnss
import Verif.Props.GnssSat
import Verif.Props.Sp3
/-!
# C190: GNSS satellites made from a settings file and SP3 files
-/
namespace S2E.InitGnss
open Log Ini InitOrbit Settings Time

/-! ## Reading a product -/

/-- The reader after a product. -/
structure ReadAs (p : Product) (r : Sp3.Reader) : Prop where
  header : r.header = p.hd
  epoch : r.epoch = p.epochs.map Sp3.Epoch.time
  size : r.position.length = p.hd.satellites
  column : ∀ j < p.hd.satellites, r.position[j]? = some (p.epochs.flatMap fun e => e.at j)

theorem read_product {c : Sp3.Codec} {p : Product} (ok : p.Ok c) : ∃ r, Sp3.readFile c (some p.text) = .ok (true, r) ∧ ReadAs p r := by
  obtain ⟨h, hd, start, E, R⟩ := p
  obtain ⟨okh, hm, hE, hN, h2, hn, hR, -, -, -, -⟩ := ok
  dsimp only at okh hm hE hN h2 hn hR
  obtain ⟨e, E', rfl⟩ := List.exists_cons_of_ne_nil (show E ≠ [] by rintro rfl; simp at h2)
  set E := e :: E' with hEdef
  have oke := hE e (by simp [hEdef])
  have hmode : hd.mode ≠ .velocity := by rw [okh.mode, if_pos hm]; simp
  obtain ⟨l, hh⟩ := Sp3.header_spec okh e.head (Sp3.prefix_ne oke.first (by decide)) oke.noBreak (e.sats.flatMap Sp3.Sat.lines ++ E'.flatMap Sp3.Epoch.lines) R
  obtain ⟨w', b1, b2, b3, -, b5, -, b7⟩ := Sp3.epochs_spec E hE R hR ⟨⟨Sp3.text (E.flatMap Sp3.Epoch.lines) ++ R, false, false⟩, l, { header := hd }⟩ (fun _ => rfl) hmode rfl
  have hlen : w'.reader.position.length = hd.satellites := by rw [b5 (by simp [hEdef])]; simp
  have hep : w'.reader.epoch = E.map Sp3.Epoch.time := by rw [b3]; rfl
  have hget : ∀ j, w'.reader.position.getD j [] = E.flatMap fun e => e.at j := by intro j; rw [b7]; rfl
  have htouch : Sp3.touch (Sp3.touch w'.reader.position 0) 1 = w'.reader.position := by
    rw [Sp3.touch, Sp3.touch, if_pos (show 0 < _ by omega), if_pos (by omega)]
  refine ⟨{ w'.reader with position := Sp3.touch (Sp3.touch w'.reader.position 0) 1 }, ?_, b2, hep, ?_, ?_⟩
  · have htext : Sp3.text (h.lines ++ E.flatMap Sp3.Epoch.lines) ++ R = Sp3.text (h.lines ++ e.head :: (e.sats.flatMap Sp3.Sat.lines ++ E'.flatMap Sp3.Epoch.lines)) ++ R := by
      simp [hEdef, Sp3.Epoch.lines]
    have htext2 : Sp3.text (E.flatMap Sp3.Epoch.lines) ++ R = Sp3.text (e.head :: (e.sats.flatMap Sp3.Sat.lines ++ E'.flatMap Sp3.Epoch.lines)) ++ R := by
      simp [hEdef, Sp3.Epoch.lines]
    rw [Sp3.readFile]
    dsimp only [Product.text]
    rw [htext, hh, Res.bind]
    simp only [if_true]
    rw [htext2] at b1
    rw [hN, b1, Res.bind]
    simp only [if_true]
    rw [Sp3.finalTouches, if_neg (by rw [hep, List.length_map]; omega), Res.bind]
  · dsimp only; rw [htouch, hlen]
  · intro j hj
    dsimp only
    rw [htouch]
    have := hget j
    rw [List.getD_eq_getElem?_getD, List.getElem?_eq_getElem (by rw [hlen]; exact hj), Option.getD_some] at this
    rw [List.getElem?_eq_getElem (by rw [hlen]; exact hj), this]

/-! ## Dates -/

theorem seconds_ok {d : DateTime ℝ} (h : Possible d) : seconds d = .ok (instant d) := by
  obtain ⟨e, he, hi, -, -⟩ := C38_gregorian d h.date h.years.2 h.hour h.minute h.second.1 h.second.2
  rw [seconds, he, Res.bind]
  dsimp only
  rw [EpochTime.timeWithFraction, hi, instant]

theorem makeAll_ok {α β : Type} {f : α → Res β} {g : α → β} : ∀ {l : List α}, (∀ a ∈ l, f a = .ok (g a)) → InitThermal.makeAll f l = .ok (l.map g)
  | [], _ => rfl
  | a :: l, h => by
    rw [InitThermal.makeAll, h a (by simp), Res.bind, makeAll_ok (fun b hb => h b (by simp [hb])), Res.bind]
    rfl

/-- A product as `Model/GnssSat` needs it. -/
noncomputable def asSp3 (p : Product) : GnssSat.Sp3 ℝ :=
  ⟨instant p.start, p.hd.epochs, p.hd.satellites, p.hd.interval, p.epochs.map fun e => instant e.time,
    (List.range p.hd.satellites).map fun j => (p.epochs.flatMap fun e => e.at j).map fun v => ⟨v.position, v.clock⟩⟩

theorem startSeconds_ok {c : Sp3.Codec} {p : Product} (ok : p.Ok c) {r : Sp3.Reader} (h : ReadAs p r) : startSeconds r = .ok (instant p.start) := by
  rw [startSeconds, h.header, ok.start.1]
  exact seconds_ok ok.start.2

theorem convert_ok {c : Sp3.Codec} {p : Product} (ok : p.Ok c) {r : Sp3.Reader} (h : ReadAs p r) : convert r = .ok (asSp3 p) := by
  rw [convert, makeAll_ok (g := instant), Res.bind, asSp3, startOf, startSeconds_ok ok h, h.header, h.epoch, List.map_map]
  · congr 2
    apply List.ext_getElem?
    intro j
    rw [List.getElem?_map, List.getElem?_map]
    by_cases hj : j < p.hd.satellites
    · rw [h.column j hj, List.getElem?_range hj]; rfl
    · rw [List.getElem?_eq_none (by rw [h.size]; omega), List.getElem?_eq_none (by simpa using hj)]; rfl
  · intro d hd
    rw [h.epoch] at hd
    obtain ⟨e, he, rfl⟩ := List.mem_map.mp hd
    exact seconds_ok (ok.dates e he)

theorem complete {c : Sp3.Codec} {p : Product} (ok : p.Ok c) : GnssSat.Complete (asSp3 p) := by
  refine ⟨by simp [asSp3, ok.count], by simp [asSp3]; have := ok.two; omega, fun l hl => ?_⟩
  simp only [asSp3, List.mem_map, List.mem_range] at hl
  obtain ⟨j, hj, rfl⟩ := hl
  rw [List.length_map, (Sp3.column ok.epochs hj).1]
  simp [asSp3]

/-- The data of an epoch. -/
noncomputable def datum (e : Sp3.Epoch) : ℝ × (ℕ → GnssSat.PositionClock ℝ) := (instant e.time, fun sat => ⟨(saysOf e sat).position, (saysOf e sat).clock⟩)

theorem items_eq {c : Sp3.Codec} {p : Product} (ok : p.Ok c) : GnssSat.items (asSp3 p) = p.epochs.map datum := by
  apply List.ext_getElem
  · simp [GnssSat.items, asSp3]
  · intro j h1 h2
    have hj : j < p.epochs.length := by simpa using h2
    simp only [GnssSat.items, List.getElem_map, List.getElem_range, datum]
    congr 1
    · simp [asSp3, List.getD_eq_getElem?_getD, hj]
    · funext sat
      have hsz := (ok.epochs _ (List.getElem_mem hj)).size
      rw [GnssSat.entry]
      by_cases hs : sat < p.hd.satellites
      · rw [if_pos (by simpa [asSp3] using hs)]
        have h1 : (asSp3 p).positionClock.getD sat [] = (p.epochs.flatMap fun e => e.at sat).map fun v => ⟨v.position, v.clock⟩ := by
          simp [asSp3, List.getD_eq_getElem?_getD, hs]
        rw [h1, List.getD_eq_getElem?_getD, List.getElem?_map, (Sp3.column ok.epochs hs).2 j hj, saysOf, List.getElem?_eq_getElem (by rw [hsz]; exact hs)]
        rfl
      · rw [if_neg (by simpa [asSp3] using hs), saysOf, List.getElem?_eq_none (by rw [hsz]; omega), GnssSat.badPositionClock]
        simp only [Option.map_none, Option.getD_none]
        congr 1
        norm_num

theorem stream_eq {c : Sp3.Codec} {P : List Product} (ok : ∀ p ∈ P, p.Ok c) : GnssSat.stream (P.map asSp3) = (P.flatMap Product.epochs).map datum := by
  induction P with
  | nil => rfl
  | cons p P ih =>
    have := ih fun q hq => ok q (by simp [hq])
    rw [GnssSat.stream] at this ⊢
    rw [List.map_cons, List.flatMap_cons, List.flatMap_cons, List.map_append, items_eq (ok p (by simp)), this]

/-! ## The loop over the days -/

/-- The code of a day. -/
def code (d : ℕ × ℕ) : ℕ := d.1 * 1000 + d.2

theorem code_merge {d : ℕ × ℕ} (h : Gnss.ValidDate d) (hy : d.1 < 10 ^ 15) : Gnss.mergeYearDoy d.1 d.2 = code d := by
  have : d.2 ≤ 366 := h.2.trans (by unfold Gnss.yearLength; split <;> omega)
  rw [Gnss.mergeYearDoy, code, Nat.mod_eq_of_lt (by omega)]

theorem code_next {d : ℕ × ℕ} (h : Gnss.ValidDate d) : code d < code (Gnss.nextDay d) := by
  have : d.2 ≤ 366 := h.2.trans (by unfold Gnss.yearLength; split <;> omega)
  unfold Gnss.nextDay code
  split <;> simp only <;> omega

theorem next_year (d : ℕ × ℕ) : (Gnss.nextDay d).1 ≤ d.1 + 1 := by unfold Gnss.nextDay; split <;> simp

theorem increment {d : ℕ × ℕ} (h : Gnss.ValidDate d) (hy : d.1 + 1 < 10 ^ 15) : Gnss.incrementYearDoy (code d) = code (Gnss.nextDay d) := by
  rw [← code_merge h (by omega), Gnss.C57_increment d h (by omega), code_merge (Gnss.nextDay_valid d h) (by have := next_year d; omega)]

theorem code_iterate {d : ℕ × ℕ} (h : Gnss.ValidDate d) : ∀ k, code d ≤ code (Gnss.nextDay^[k] d) ∧ Gnss.ValidDate (Gnss.nextDay^[k] d)
  | 0 => ⟨le_rfl, h⟩
  | k + 1 => by
    obtain ⟨h1, h2⟩ := code_iterate h k
    rw [Function.iterate_succ_apply']
    exact ⟨h1.trans (code_next h2).le, Gnss.nextDay_valid _ h2⟩

theorem path_eq (s : ProductSheet) (d : ℕ × ℕ) : s.directory ++ Gnss.orbitFileName s.header (code d) s.period "ORB.SP3".toList = s.path d := by
  simp only [Gnss.orbitFileName, ProductSheet.path, code, List.append_assoc]
  rfl

/-- The files of consecutive days. -/
theorem load_ok {c : Sp3.Codec} {read : Str → Option Str} {s : ProductSheet} (hclock : clockName s.period s.footer = .ok ()) (last : ℕ) :
    ∀ (P : List Product) (d : ℕ × ℕ) (_ : Gnss.ValidDate d) (_ : d.1 + P.length + 1 < 10 ^ 15) (_ : ∀ p ∈ P, p.Ok c)
      (_ : ∀ k (h : k < P.length), read (s.path (Gnss.nextDay^[k] d)) = some P[k].text)
      (_ : ∀ k < P.length, code (Gnss.nextDay^[k] d) ≤ last) (_ : last < code (Gnss.nextDay^[P.length] d)) (fuel : ℕ) (_ : P.length ≤ fuel),
      ∃ l, loadFiles c read s.directory s.header s.period s.footer last fuel (code d) = .ok l ∧ List.Forall₂ ReadAs P l := by
  intro P
  induction P with
  | nil =>
    intro d _ _ _ _ _ hl fuel _
    have hl' : ¬code d ≤ last := by simpa using hl
    rcases fuel with _ | fuel
    · exact ⟨[], by rw [loadFiles, if_neg hl'], .nil⟩
    · exact ⟨[], by rw [loadFiles, if_neg hl'], .nil⟩
  | cons p P ih =>
    intro d hd hy hok hfile hle hlt fuel hf
    rcases fuel with _ | fuel
    · simp at hf
    have hy' : d.1 + 1 < 10 ^ 15 := by simp only [List.length_cons] at hy; omega
    obtain ⟨r, hr, hr'⟩ := read_product (hok p (by simp))
    obtain ⟨l, hl, hl'⟩ := ih (Gnss.nextDay d) (Gnss.nextDay_valid d hd) (by have := next_year d; simp only [List.length_cons] at hy; omega)
      (fun q hq => hok q (by simp [hq])) (fun k h => by
        have := hfile (k + 1) (by simp only [List.length_cons]; omega)
        rwa [Function.iterate_succ_apply, List.getElem_cons_succ] at this)
      (fun k h => by
        have := hle (k + 1) (by simp only [List.length_cons]; omega)
        rwa [Function.iterate_succ_apply] at this)
      (by rwa [List.length_cons, Function.iterate_succ_apply] at hlt) fuel (by simp only [List.length_cons] at hf; omega)
    have h0 := hfile 0 (by simp)
    rw [Function.iterate_zero_apply, List.getElem_cons_zero] at h0
    refine ⟨r :: l, ?_, .cons hr' hl'⟩
    rw [loadFiles, if_pos (by simpa using hle 0 (by simp)), path_eq, h0, hr, Res.bind, hclock, Res.bind, increment hd hy', hl, Res.bind]

/-! ## The object -/

theorem scan_ok {c : Sp3.Codec} {P : List Product} {l : List Sp3.Reader} (h : List.Forall₂ ReadAs P l) (ok : ∀ p ∈ P, p.Ok c) (t : ℝ) : scan l t = .ok () := by
  induction h with
  | nil => rfl
  | cons h1 _ ih =>
    rw [scan, startSeconds_ok (ok _ (by simp)) h1, Res.bind]
    split_ifs
    · rfl
    · rfl
    · exact ih fun p hp => ok p (by simp [hp])

theorem convertAll_ok {c : Sp3.Codec} {P : List Product} {l : List Sp3.Reader} (h : List.Forall₂ ReadAs P l) (ok : ∀ p ∈ P, p.Ok c) :
    InitThermal.makeAll convert l = .ok (P.map asSp3) := by
  induction h with
  | nil => rfl
  | cons h1 _ ih => rw [InitThermal.makeAll, convert_ok (ok _ (by simp)) h1, Res.bind, ih fun p hp => ok p (by simp [hp]), Res.bind]; rfl

theorem toU64_nat {n : ℕ} (h : n < 2 ^ 64) : toU64 (n : ℤ) = n := by
  unfold toU64; omega

/-- The beginning of the simulation, as the clock keeps it. -/
def clockDate (d : DateTime ℝ) : Julian.Date := ⟨d.year, d.month, d.day, d.hour, d.minute, d.second⟩

theorem clockDate_seconds {d : DateTime ℝ} (h : Possible d) :
    seconds ⟨toU64 (clockDate d).year, toU64 (clockDate d).month, toU64 (clockDate d).day, toU64 (clockDate d).hour, toU64 (clockDate d).minute, (clockDate d).sec⟩ = .ok (instant d) := by
  have hd : d.day ≤ 31 := h.date.2.2.2.2.trans (by
    have h1 := h.date.2.1; have h2 := h.date.2.2.1
    generalize Calendar.isLeap d.year = b; generalize d.month = m at *; interval_cases m <;> cases b <;> decide)
  have h1 := h.years.2; have h2 := h.date.2.2.1; have h3 := h.hour; have h4 := h.minute
  simp only [clockDate]
  rw [toU64_nat (by omega), toU64_nat (by omega), toU64_nat (by omega), toU64_nat (by omega), toU64_nat (by omega)]
  exact seconds_ok h

/-- The program on a sheet. -/
theorem init_eq {rd : Reader} {c : Sp3.Codec} {read : Str → Option Str} {zero : ℝ} {start : Julian.Date} {file : File} {s : ProductSheet} (h : s.In rd file)
    (h1 : code s.first < 2 ^ 64) (h2 : code s.last < 2 ^ 64) :
    initGnss rd c read zero start file = (loadFiles c read s.directory s.header s.period s.footer (code s.last) (2 ^ 64) (code s.first)).bind fun l =>
      (begin_ zero start l).bind fun st => .ok ⟨true, s.logging, st⟩ := by
  obtain ⟨a1, a2, a3, a4, a5, a6, a7, a8⟩ := h
  unfold initGnss
  dsimp only
  rw [InitWheel.Switch.read a1, InitWheel.Switch.read a2, a3.read, a4.read, a5.read, a6.read, a7.read, a8.read, toU64_nat (n := s.first.1 * 1000 + s.first.2) h1, toU64_nat (n := s.last.1 * 1000 + s.last.2) h2]
  simp only [Bool.true_eq_false, if_false]
  rfl

/-- **C190.** GNSS satellites from settings: the products of all days from the first to the last are read, and the object starts in the product of the day of the simulation start. With `near` the
epoch of that product nearest to the start and `k` its number among all epochs less four (not less than the first epoch of that product), nine epochs from `k` on are the supporting points: there position
and clock error of each satellite are those written in the files, in metres and seconds. If there are fewer epochs from `k` on, the program reads beyond them. -/
theorem C190_settings (rd : Reader) (c : Sp3.Codec) (read : Str → Option Str) (zero : ℝ) (file : File) (s : ProductSheet) (h : s.In rd file)
    (hfooter : s.footer = s.period ++ "_ORB.SP3".toList ∨ 4 ≤ s.footer.length) (hfirst : Gnss.ValidDate s.first) (n : ℕ) (hyear : s.first.1 + n < 10 ^ 6)
    (hlast : s.last = Gnss.nextDay^[n] s.first) (P : List Product) (hP : P.length = n + 1)
    (hfiles : ∀ k (hk : k < P.length), read (s.path (Gnss.nextDay^[k] s.first)) = some P[k].text) (ok : ∀ p ∈ P, p.Ok c)
    (hinc : ((P.flatMap Product.epochs).map fun e => instant e.time).Pairwise (· < ·)) (d : DateTime ℝ) (hd : Possible d) (i : ℕ) (hi : i < P.length)
    (hday : instant P[i].start ≤ instant d ∧ instant d < instant P[i].start + 86400) (hearlier : ∀ j (hj : j < i), instant P[j].start + 86400 ≤ instant d) :
    ∃ near, ∃ hnear : near < P[i].epochs.length,
      (∀ j (hj : j < P[i].epochs.length), |instant d - instant P[i].epochs[near].time| ≤ |instant d - instant P[i].epochs[j].time|) ∧
      ∀ k, k = ((P.take i).flatMap Product.epochs).length + (near - 4) →
        ((hk : k + 9 ≤ (P.flatMap Product.epochs).length) → ∃ m, initGnss rd c read zero (clockDate d) file = .ok m ∧ m.calculation = true ∧ m.logging = s.logging ∧
          m.state.current = instant d ∧ m.state.number = some P[i].hd.satellites ∧
          ∀ sat < P[i].hd.satellites, ∀ j (hj : j < (P.flatMap Product.epochs).length), k ≤ j → j < k + 9 →
            instant (P.flatMap Product.epochs)[j].time - instant (P.flatMap Product.epochs)[k].time ≤ 1000000 →
            GnssSat.getClock m.state sat (some (instant (P.flatMap Product.epochs)[j].time)) = .ok (some ((saysOf (P.flatMap Product.epochs)[j] sat).clock * (1 / 1000000))) ∧
            (instant (P.flatMap Product.epochs)[k + 8].time - instant (P.flatMap Product.epochs)[k].time < 86659.2 →
              GnssSat.getPosition m.state sat (some (instant (P.flatMap Product.epochs)[j].time)) = .ok fun x => some (1000 * (saysOf (P.flatMap Product.epochs)[j] sat).position x))) ∧
        ((P.flatMap Product.epochs).length < k + 9 → initGnss rd c read zero (clockDate d) file = .ub) := by
  set all := P.flatMap Product.epochs with hall
  have hpi : P[i] ∈ P := List.getElem_mem hi
  -- the day codes
  have hcode : ∀ k, code (Gnss.nextDay^[k] s.first) < code (Gnss.nextDay^[k + 1] s.first) := fun k => by
    rw [Function.iterate_succ_apply']; exact code_next (code_iterate hfirst k).2
  have hmono : StrictMono fun k => code (Gnss.nextDay^[k] s.first) := strictMono_nat_of_lt_succ hcode
  have hyk : ∀ k, (Gnss.nextDay^[k] s.first).1 ≤ s.first.1 + k := by
    intro k
    induction k with
    | zero => exact le_rfl
    | succ k ih => rw [Function.iterate_succ_apply']; have := next_year (Gnss.nextDay^[k] s.first); omega
  have hv : ∀ k, (Gnss.nextDay^[k] s.first).2 ≤ 366 := fun k => (code_iterate hfirst k).2.2.trans (by unfold Gnss.yearLength; split <;> omega)
  have hc1 : code s.first < 2 ^ 64 := by have := hv 0; have h' : s.first.2 ≤ 366 := this; unfold code; omega
  have hc2 : code s.last < 2 ^ 64 := by rw [hlast]; have := hv n; have := hyk n; unfold code; omega
  obtain ⟨l, hl, hl'⟩ := load_ok (c := c) (read := read) (s := s)
    (by unfold clockName; rcases hfooter with h' | h'
        · rw [if_pos h']
        · split_ifs with h1 h2
          · rfl
          · omega
          · rfl) (code s.last) P s.first hfirst (by omega) ok hfiles
    (fun k hk => by rw [hlast]; exact hmono.monotone (show k ≤ n by omega)) (by rw [hlast, hP]; exact hcode n) (2 ^ 64) (by omega)
  have hne : l ≠ [] := by
    rintro rfl
    have := hl'.length_eq
    rw [hP] at this
    simp at this
  have hinit : initGnss rd c read zero (clockDate d) file = (GnssSat.initialise zero (P.map asSp3) (instant d)).bind fun st => .ok ⟨true, s.logging, st⟩ := by
    rw [init_eq h hc1 hc2, hl, Res.bind, begin_, if_neg hne, clockDate_seconds hd]
    simp only [Res.bind]
    rw [scan_ok hl' ok, convertAll_ok hl' ok]
  have hi' : i < (P.map asSp3).length := by simpa using hi
  have hgi : (P.map asSp3)[i] = asSp3 P[i] := by simp
  have hcomp : ∀ f ∈ P.map asSp3, GnssSat.Complete f := by
    intro f hf
    obtain ⟨p, hp, rfl⟩ := List.mem_map.mp hf
    exact complete (ok p hp)
  have hcur : GnssSat.getCurrentSp3File (P.map asSp3) 0 (instant d) = some i := by
    rw [GnssSat.C89_file]
    refine ⟨hi', ?_, ?_, fun j hj => ?_⟩
    · rw [hgi]; exact hday.1
    · rw [hgi]; exact hday.2
    · have := hearlier j hj
      rw [List.getElem_map]
      exact this
  have hepi : ∀ j (hj : j < P[i].epochs.length), (asSp3 P[i]).epochs.getD j 0 = instant P[i].epochs[j].time := fun j hj => by
    simp [asSp3, List.getD_eq_getElem?_getD, hj]
  have hli : (asSp3 P[i]).epochs.length = P[i].epochs.length := by simp [asSp3]
  obtain ⟨near, hn1, hn2, hn3⟩ := GnssSat.C89_nearest (asSp3 P[i]) (complete (ok _ hpi)) (ok _ hpi).spacing (fun j hj => by
    rw [hli] at hj
    rw [hepi j hj, hepi 0 (by omega), (ok _ hpi).even j hj]
    rfl) (instant d)
  rw [hli] at hn2
  refine ⟨near, hn2, fun j hj => ?_, fun k hk => ?_⟩
  · have := hn3 j (by rw [hli]; exact hj)
    rwa [hepi near hn2, hepi j hj] at this
  have hstream := stream_eq ok
  rw [← hall] at hstream
  have hsl : (GnssSat.stream (P.map asSp3)).length = all.length := by rw [hstream, List.length_map]
  have hinc' : ((GnssSat.stream (P.map asSp3)).map Prod.fst).Pairwise (· < ·) := by
    rw [hstream, List.map_map]; exact hinc
  have htake : (GnssSat.stream ((P.map asSp3).take i)).length = ((P.take i).flatMap Product.epochs).length := by
    rw [← List.map_take, stream_eq fun p hp => ok p (List.mem_of_mem_take hp), List.length_map]
  obtain ⟨g1, g2⟩ := GnssSat.C89_initialise zero (P.map asSp3) hcomp hinc' (instant d) i hi' hcur near (by rw [hgi]; exact hn1)
    (by rw [hgi, hli]; exact hn2) k (by rw [htake]; exact hk)
  have hT : ∀ j (hj : j < all.length), GnssSat.T (GnssSat.stream (P.map asSp3)) j = instant all[j].time := by
    intro j hj
    rw [hstream]
    simp [GnssSat.T, List.getD_eq_getElem?_getD, hj, datum]
  have hel : ∀ j (hj : j < all.length) (hj' : j < (GnssSat.stream (P.map asSp3)).length), (GnssSat.stream (P.map asSp3))[j].2 = (datum all[j]).2 := by
    intro j hj hj'
    simp [hstream]
  refine ⟨fun hk9 => ?_, fun hk9 => ?_⟩
  · obtain ⟨st, e1, e2, e3, e4⟩ := g1 (by rw [hsl]; exact hk9)
    refine ⟨⟨true, s.logging, st⟩, by rw [hinit, e1]; rfl, rfl, rfl, e2, ?_, fun sat hsat j hj hkj hj9 hlim => ?_⟩
    · have := e4.2.2.2.number
      rw [this, hgi]; rfl
    · rw [hgi] at e4
      have hk9' : k + 9 ≤ all.length := hk9
      have hka : k < all.length := by clear * - hk9'; omega
      have hk8 : k + 8 < all.length := by clear * - hk9'; omega
      have hsat' : sat < (asSp3 P[i]).numberOfSatellites := hsat
      have hpos : 0 ≤ instant all[j].time - GnssSat.T (GnssSat.stream (P.map asSp3)) k := by
        rw [hT k hka]
        rcases Nat.lt_or_eq_of_le hkj with h' | h'
        · have := List.pairwise_iff_getElem.1 hinc k j (by rw [List.length_map]; exact hka) (by rw [List.length_map]; exact hj) h'
          simp only [List.getElem_map] at this
          linarith
        · subst h'; simp
      have hlim' : instant all[j].time - GnssSat.T (GnssSat.stream (P.map asSp3)) k ≤ 1000000 := by rw [hT k hka]; exact hlim
      refine ⟨?_, fun hspan => ?_⟩
      · have := (GnssSat.C89_clock _ hinc' _ _ k st e4 sat (instant all[j].time)).1 hsat' j (by rw [hsl]; exact hj) hkj hj9 (hT j hj).symm hpos hlim'
        rw [this, hel j hj]
        rfl
      · have := (GnssSat.C89_position _ hinc' _ _ k st e4 (by rw [hT (k + 8) hk8, hT k hka]; exact hspan) sat (instant all[j].time)).1 hsat' j (by rw [hsl]; exact hj) hkj hj9
          (hT j hj).symm hpos hlim'
        rw [this, hel j hj]
        rfl
  · rw [hinit, g2 (by rw [hsl]; exact hk9)]; rfl

/-- **C190 (off).** With the calculation off nothing else is read from the settings, logging is off, and no file is opened. -/
theorem C190_disabled (rd : Reader) (c : Sp3.Codec) (read : Str → Option Str) (zero : ℝ) (start : Julian.Date) (file : File)
    (h : Switch rd file "GNSS_SATELLITES".toList "calculation".toList false) :
    ∃ m, initGnss rd c read zero start file = .ok m ∧ m.calculation = false ∧ m.logging = false ∧ m.state.files = [] ∧ m.state.number = none := by
  refine ⟨⟨false, false, GnssSat.newState zero⟩, ?_, rfl, rfl, rfl, rfl⟩
  unfold initGnss
  dsimp only
  rw [InitWheel.Switch.read h, if_pos rfl]

/-- **C190 (reversed).** With the last day before the first no file is read, and the program takes the first of no files: undefined. -/
theorem C190_reversed (rd : Reader) (c : Sp3.Codec) (read : Str → Option Str) (zero : ℝ) (start : Julian.Date) (file : File) (s : ProductSheet) (h : s.In rd file)
    (h1 : s.first.1 * 1000 + s.first.2 < 2 ^ 64) (h2 : s.last.1 * 1000 + s.last.2 < s.first.1 * 1000 + s.first.2) : initGnss rd c read zero start file = .ub := by
  have hl : ∀ fuel, loadFiles c read s.directory s.header s.period s.footer (code s.last) fuel (code s.first) = .ok [] := by
    intro fuel
    have : ¬code s.first ≤ code s.last := by unfold code; omega
    rcases fuel with _ | fuel <;> rw [loadFiles, if_neg this]
  have h2' : code s.last < 2 ^ 64 := lt_trans h2 h1
  rw [init_eq h h1 h2', hl, Res.bind, begin_, if_pos rfl, Res.bind]

/-- The files of consecutive days, read, then the rest of the days. -/
theorem load_prefix {c : Sp3.Codec} {read : Str → Option Str} {s : ProductSheet} (hclock : clockName s.period s.footer = .ok ()) (last : ℕ) :
    ∀ (P : List Product) (d : ℕ × ℕ) (_ : Gnss.ValidDate d) (_ : d.1 + P.length + 1 < 10 ^ 15) (_ : ∀ p ∈ P, p.Ok c)
      (_ : ∀ k (h : k < P.length), read (s.path (Gnss.nextDay^[k] d)) = some P[k].text)
      (_ : ∀ k < P.length, code (Gnss.nextDay^[k] d) ≤ last) (fuel : ℕ),
      ∃ l, List.Forall₂ ReadAs P l ∧ loadFiles c read s.directory s.header s.period s.footer last (P.length + fuel) (code d) =
        (loadFiles c read s.directory s.header s.period s.footer last fuel (code (Gnss.nextDay^[P.length] d))).bind fun r => .ok (l ++ r) := by
  intro P
  induction P with
  | nil =>
    intro d _ _ _ _ _ fuel
    refine ⟨[], .nil, ?_⟩
    rw [List.length_nil, Nat.zero_add, Function.iterate_zero_apply]
    cases loadFiles c read s.directory s.header s.period s.footer last fuel (code d) <;> rfl
  | cons p P ih =>
    intro d hd hy hok hfile hle fuel
    have hy' : d.1 + 1 < 10 ^ 15 := by simp only [List.length_cons] at hy; omega
    obtain ⟨r, hr, hr'⟩ := read_product (hok p (by simp))
    obtain ⟨l, hl', hl⟩ := ih (Gnss.nextDay d) (Gnss.nextDay_valid d hd) (by have := next_year d; simp only [List.length_cons] at hy; omega)
      (fun q hq => hok q (by simp [hq])) (fun k h => by
        have := hfile (k + 1) (by simp only [List.length_cons]; omega)
        rwa [Function.iterate_succ_apply, List.getElem_cons_succ] at this)
      (fun k h => by
        have := hle (k + 1) (by simp only [List.length_cons]; omega)
        rwa [Function.iterate_succ_apply] at this) fuel
    have h0 := hfile 0 (by simp)
    rw [Function.iterate_zero_apply, List.getElem_cons_zero] at h0
    refine ⟨r :: l, .cons hr' hl', ?_⟩
    rw [List.length_cons, show P.length + 1 + fuel = P.length + fuel + 1 by omega, loadFiles, if_pos (by simpa using hle 0 (by simp)), path_eq, h0, hr, Res.bind,
      hclock, Res.bind, increment hd hy', hl, Function.iterate_succ_apply]
    cases loadFiles c read s.directory s.header s.period s.footer last fuel (code (Gnss.nextDay^[P.length] (Gnss.nextDay d))) <;> rfl

theorem scan_missing {c : Sp3.Codec} {P : List Product} {l : List Sp3.Reader} (h : List.Forall₂ ReadAs P l) (ok : ∀ p ∈ P, p.Ok c) (t : ℝ)
    (hlate : ∀ p ∈ P, instant p.start + 86400 ≤ t) (r : List Sp3.Reader) : scan (l ++ {} :: r) t = .ub := by
  induction h with
  | nil => rfl
  | @cons p _ _ _ h1 _ ih =>
    have := hlate p (by simp)
    rw [List.cons_append, scan, startSeconds_ok (ok _ (by simp)) h1, Res.bind, if_neg (by linarith), if_neg (by linarith)]
    exact ih (fun p hp => ok p (by simp [hp])) fun p hp => hlate p (by simp [hp])

/-- **C190 (missing).** The products of the first days exist and all end before the simulation starts, and the product of the next day, not after the last day, cannot be opened: whatever the
other files are, the program does not come to a defined end — the time it looks at is indeterminate (if reading the later files ends at all). -/
theorem C190_missing (rd : Reader) (c : Sp3.Codec) (read : Str → Option Str) (zero : ℝ) (file : File) (s : ProductSheet) (h : s.In rd file)
    (hfooter : s.footer = s.period ++ "_ORB.SP3".toList ∨ 4 ≤ s.footer.length) (hfirst : Gnss.ValidDate s.first) (P : List Product) (hyear : s.first.1 + P.length < 10 ^ 6)
    (hlast : s.last.1 * 1000 + s.last.2 < 2 ^ 64)
    (hfiles : ∀ k (hk : k < P.length), read (s.path (Gnss.nextDay^[k] s.first)) = some P[k].text) (ok : ∀ p ∈ P, p.Ok c)
    (hnone : read (s.path (Gnss.nextDay^[P.length] s.first)) = none) (hin : code (Gnss.nextDay^[P.length] s.first) ≤ s.last.1 * 1000 + s.last.2)
    (d : DateTime ℝ) (hd : Possible d) (hlate : ∀ p ∈ P, instant p.start + 86400 ≤ instant d) : ∀ m, initGnss rd c read zero (clockDate d) file ≠ .ok m := by
  intro m
  have hclock : clockName s.period s.footer = .ok () := by
    unfold clockName
    rcases hfooter with h' | h'
    · rw [if_pos h']
    · split_ifs with h1 h2
      · rfl
      · omega
      · rfl
  have hcode : ∀ k, code (Gnss.nextDay^[k] s.first) < code (Gnss.nextDay^[k + 1] s.first) := fun k => by
    rw [Function.iterate_succ_apply']; exact code_next (code_iterate hfirst k).2
  have hmono : StrictMono fun k => code (Gnss.nextDay^[k] s.first) := strictMono_nat_of_lt_succ hcode
  have hc1 : code s.first < 2 ^ 64 := lt_of_le_of_lt ((code_iterate hfirst P.length).1.trans hin) hlast
  obtain ⟨fuel, hfuel⟩ : ∃ fuel, (2 : ℕ) ^ 64 = P.length + (fuel + 1) := ⟨2 ^ 64 - P.length - 1, by omega⟩
  obtain ⟨l, hl', hl⟩ := load_prefix (c := c) (read := read) (s := s) hclock (code s.last) P s.first hfirst (by omega) ok hfiles
    (fun k hk => (hmono hk).le.trans hin) (fuel + 1)
  have hin' : code (Gnss.nextDay^[P.length] s.first) ≤ code s.last := hin
  rw [init_eq h hc1 hlast, hfuel, hl, loadFiles, if_pos hin', path_eq, hnone, Sp3.readFile, Res.bind, hclock, Res.bind]
  rcases loadFiles c read s.directory s.header s.period s.footer (code s.last) fuel (Gnss.incrementYearDoy (code (Gnss.nextDay^[P.length] s.first))) with r | _ | _ | _
  · simp only [Res.bind]
    rw [begin_, if_neg (by simp), clockDate_seconds hd, Res.bind, scan_missing hl' ok _ hlate]
    simp [Res.bind]
  all_goals simp [Res.bind]

/-- **C190 (short name).** A text for the clock products of fewer than four characters that is not the one of the orbit products: an exception as soon as the first product is read. -/
theorem C190_footer (rd : Reader) (c : Sp3.Codec) (read : Str → Option Str) (zero : ℝ) (start : Julian.Date) (file : File) (s : ProductSheet) (h : s.In rd file)
    (hfooter : s.footer.length < 4) (h1 : s.last.1 * 1000 + s.last.2 < 2 ^ 64) (h2 : s.first.1 * 1000 + s.first.2 ≤ s.last.1 * 1000 + s.last.2)
    (hread : (∃ p : Product, p.Ok c ∧ read (s.path s.first) = some p.text) ∨ read (s.path s.first) = none) : initGnss rd c read zero start file = .throws := by
  have hclock : clockName s.period s.footer = .throws := by
    unfold clockName
    rw [if_neg (by intro h'; rw [h'] at hfooter; simp at hfooter; omega), if_pos hfooter]
  have hr : ∃ x, Sp3.readFile c (read (s.path s.first)) = .ok x := by
    rcases hread with ⟨p, ok, hp⟩ | hp
    · obtain ⟨r, hr, -⟩ := read_product ok
      exact ⟨_, by rw [hp, hr]⟩
    · exact ⟨_, by rw [hp]; rfl⟩
  obtain ⟨x, hx⟩ := hr
  obtain ⟨fuel, hfuel⟩ : ∃ fuel, (2 : ℕ) ^ 64 = fuel + 1 := ⟨2 ^ 64 - 1, by omega⟩
  have h2' : code s.first ≤ code s.last := h2
  have h3' : code s.first < 2 ^ 64 := lt_of_le_of_lt h2 h1
  rw [init_eq h h3' h1, hfuel, loadFiles, if_pos h2', path_eq, hx, Res.bind, hclock]
  rfl

theorem increment_lt (d : ℕ) : Gnss.incrementYearDoy d < 2 ^ 64 := by
  unfold Gnss.incrementYearDoy Gnss.mergeYearDoy
  dsimp only
  split_ifs <;> exact Nat.mod_lt _ (by norm_num)

/-- **C190 (endless).** `-1` as the last day: every day is before it, and the program never comes to an end. -/
theorem C190_endless (rd : Reader) (c : Sp3.Codec) (read : Str → Option Str) (zero : ℝ) (start : Julian.Date) (file : File)
    (h1 : Switch rd file "GNSS_SATELLITES".toList "calculation".toList true) (h2 : Integer rd file "GNSS_SATELLITES".toList "end_date".toList (-1)) :
    ∀ m, initGnss rd c read zero start file ≠ .ok m := by
  have key : ∀ dir header period footer fuel date, date < 2 ^ 64 → ∀ l, loadFiles c read dir header period footer (2 ^ 64 - 1) fuel date ≠ .ok l := by
    intro dir header period footer fuel
    induction fuel with
    | zero => intro date hd l; rw [loadFiles, if_pos (by omega)]; simp
    | succ fuel ih =>
      intro date hd l
      rw [loadFiles, if_pos (by omega)]
      rcases Sp3.readFile c (read (dir ++ Gnss.orbitFileName header date period "ORB.SP3".toList)) with r | _ | _ | _ <;> simp only [Res.bind, ne_eq, reduceCtorEq, not_false_eq_true]
      rcases clockName period footer with _ | _ | _ | _ <;> simp only [reduceCtorEq, not_false_eq_true]
      have := ih (Gnss.incrementYearDoy date) (increment_lt date)
      rcases hx : loadFiles c read dir header period footer (2 ^ 64 - 1) fuel (Gnss.incrementYearDoy date) with v | _ | _ | _ <;> simp only [reduceCtorEq, not_false_eq_true]
      exact absurd hx (this v)
  intro m
  unfold initGnss
  dsimp only
  rw [InitWheel.Switch.read h1, h2.read, show toU64 (-1) = 2 ^ 64 - 1 by decide]
  simp only [Bool.true_eq_false, if_false]
  rcases hx : loadFiles c read (readString rd.paths (file "GNSS_SATELLITES".toList) "directory_path".toList) (readString rd.paths (file "GNSS_SATELLITES".toList) "file_name_header".toList)
      (readString rd.paths (file "GNSS_SATELLITES".toList) "orbit_data_period".toList) (readString rd.paths (file "GNSS_SATELLITES".toList) "clock_file_name_footer".toList) (2 ^ 64 - 1) (2 ^ 64)
      (toU64 (rd.int (file "GNSS_SATELLITES".toList) "start_date".toList)) with v | _ | _ | _
  · exact absurd hx (key _ _ _ _ _ _ (by unfold toU64; omega) v)
  all_goals simp [Res.bind]

/-! ## An example -/

/-- Dates of the example: `1s`, `2s` are the starts of 1 and 2 January 2024, `1a` … `1e` are 23:00, 23:12, … on 1 January, `2a` … `2e` are 0:00, 0:12, … on 2 January. -/
noncomputable def exDate (day : Char) (letter : ℕ) : DateTime ℝ :=
  if day = '1' then (if letter = 18 then ⟨2024, 1, 1, 0, 0, 0⟩ else ⟨2024, 1, 1, 23, 12 * letter, 0⟩)
  else (if letter = 18 then ⟨2024, 1, 2, 0, 0, 0⟩ else ⟨2024, 1, 2, 0, 12 * letter, 0⟩)

/-- Every integer is 5, every real number is 7000 if it begins with `7`, else 720. -/
noncomputable def exCodec : Sp3.Codec :=
  ⟨fun _ => some 5, fun f => some (if f.head? = some '7' then 7000 else 720), fun f => some (exDate (f.getD 0 ' ') ((f.getD 1 ' ').toNat - 97))⟩

theorem exReal (f : Str) (h : f.head? ≠ some '7') : exCodec.stod f = some 720 := by
  simp only [exCodec, if_neg h]

def exHead (day : Char) (letter : Char) : Str := ['*', ' ', ' ', day, letter] ++ List.replicate 26 ' '

def exLines (day : String) : Sp3.HeaderLines := Sp3.exampleLines ("#dP" ++ day ++ "s")

noncomputable def exHd (day : Char) : Sp3.Header where
  mode := .position
  start := some (exDate day 18)
  epochs := 5
  usedData := List.replicate 5 ' '
  coordinates := List.replicate 5 ' '
  agency := List.replicate 4 ' '
  gpsWeek := 5
  gpsSecond := 720
  interval := 720
  mjd := 5
  mjdFraction := 720
  satellites := 5
  ids := List.replicate 5 (List.replicate 3 ' ')
  accuracy := List.replicate 5 5
  fileType := List.replicate 2 ' '
  timeSystem := List.replicate 3 ' '
  basePosition := 720
  baseClock := 720

noncomputable def exSat : Sp3.Sat where
  p := Sp3.padded "PG017" 80
  ep := none
  value := { id := "G01".toList, position := ![7000, 720, 720], clock := 720, positionDeviation := ![720, 720, 720], clockDeviation := 720 }

theorem exSat_ok : Sp3.SatOk exCodec exSat where
  noBreak := by simp only [exSat, Sp3.Sat.lines]; decide +kernel
  first := by simp only [exSat]; decide +kernel
  length := Or.inr (Or.inr (by simp only [exSat]; decide +kernel))
  data := by
    have h7 : exCodec.stod (Sp3.cols exSat.p 4 14) = some 7000 := by
      have : (Sp3.cols exSat.p 4 14).head? = some '7' := by simp only [exSat]; decide +kernel
      simp only [exCodec, if_pos this]
    refine ⟨by simp only [exSat]; decide +kernel, h7, exReal _ (by simp only [exSat]; decide +kernel), exReal _ (by simp only [exSat]; decide +kernel),
      exReal _ (by simp only [exSat]; decide +kernel), ?_, ?_, ?_, ?_, ?_, ?_⟩
    · rw [if_pos (by simp only [exSat]; decide +kernel), exReal _ (by simp only [exSat]; decide +kernel), exReal _ (by simp only [exSat]; decide +kernel),
        exReal _ (by simp only [exSat]; decide +kernel)]; rfl
    · rw [if_pos (by simp only [exSat]; decide +kernel), exReal _ (by simp only [exSat]; decide +kernel)]; rfl
    all_goals simp only [exSat]; decide +kernel
  correlation := by
    intro l hl
    simp [exSat] at hl

noncomputable def exEpoch (day : Char) (k : Char) : Sp3.Epoch := ⟨exHead day k, exDate day (k.toNat - 97), List.replicate 5 exSat⟩

theorem exEpoch_ok (day k : Char) (h1 : day = '1' ∨ day = '2') (h2 : k ∈ ['a', 'b', 'c', 'd', 'e']) : Sp3.EpochOk exCodec 5 (exEpoch day k) where
  noBreak := by
    simp only [exEpoch]
    have : ∀ day ∈ ['1', '2'], ∀ k ∈ ['a', 'b', 'c', 'd', 'e'], '\n' ∉ exHead day k := by decide +kernel
    exact this day (by simpa using h1) k h2
  first := ⟨_, rfl⟩
  length := by simp [exEpoch, exHead]
  time := rfl
  size := rfl
  sats := by
    intro s hs
    rw [List.eq_of_mem_replicate hs]; exact exSat_ok

noncomputable def exProduct (day : Char) (name : String) : Product where
  header := exLines name
  hd := exHd day
  start := exDate day 18
  epochs := ['a', 'b', 'c', 'd', 'e'].map (exEpoch day)
  rest := "EOF\n".toList

theorem day1 : Calendar.daysSince1970 Calendar.isLeap 2024 1 1 = 19723 := by decide +kernel
theorem day2 : Calendar.daysSince1970 Calendar.isLeap 2024 1 2 = 19724 := by decide +kernel

theorem exPossible (day : Char) (k : ℕ) (h : k < 5 ∨ k = 18) : Possible (exDate day k) := by
  have v1 : Calendar.ValidDate Calendar.isLeap 2024 1 1 := by unfold Calendar.ValidDate; decide +kernel
  have v2 : Calendar.ValidDate Calendar.isLeap 2024 1 2 := by unfold Calendar.ValidDate; decide +kernel
  unfold exDate
  split_ifs
  · exact ⟨v1, ⟨by norm_num, by norm_num⟩, by norm_num, by norm_num, ⟨le_rfl, by norm_num⟩⟩
  · exact ⟨v1, ⟨by norm_num, by norm_num⟩, by norm_num, by dsimp only; omega, ⟨le_rfl, by norm_num⟩⟩
  · exact ⟨v2, ⟨by norm_num, by norm_num⟩, by norm_num, by norm_num, ⟨le_rfl, by norm_num⟩⟩
  · exact ⟨v2, ⟨by norm_num, by norm_num⟩, by norm_num, by dsimp only; omega, ⟨le_rfl, by norm_num⟩⟩

theorem exInstant1 (k : ℕ) (h : k < 5) : instant (exDate '1' k) = 1704150000 + 720 * k := by
  rw [exDate, if_pos rfl, if_neg (by omega), instant]
  dsimp only
  rw [day1]; push_cast; ring

theorem exInstant2 (k : ℕ) (h : k < 5) : instant (exDate '2' k) = 1704153600 + 720 * k := by
  rw [exDate, if_neg (by decide), if_neg (by omega), instant]
  dsimp only
  rw [day2]; push_cast; ring

theorem exStart1 : instant (exDate '1' 18) = 1704067200 := by
  rw [exDate, if_pos rfl, if_pos rfl, instant]
  dsimp only
  rw [day1]; norm_num

theorem exHeader_ok (day : Char) (name : String) (h : (day, name) = ('1', "1") ∨ (day, name) = ('2', "2")) : Sp3.HeaderOk exCodec (exLines name) (exHd day) := by
  rcases h with h | h <;> obtain ⟨rfl, rfl⟩ := Prod.mk.inj h
  · have hst : (exHd '1').start = some (exDate ((Sp3.cols (exLines "1").first 3 28).getD 0 ' ') (((Sp3.cols (exLines "1").first 3 28).getD 1 ' ').toNat - 97)) := by
      rw [show (Sp3.cols (exLines "1").first 3 28).getD 0 ' ' = '1' by decide +kernel, show ((Sp3.cols (exLines "1").first 3 28).getD 1 ' ').toNat - 97 = 18 by decide +kernel]
      rfl
    refine ⟨by decide +kernel, by decide +kernel, by decide +kernel, ⟨_, rfl, hst⟩, ⟨rfl, by decide⟩, by decide +kernel, by decide +kernel, by decide +kernel, by decide +kernel,
      by decide +kernel, rfl, exReal _ (by decide +kernel), exReal _ (by decide +kernel), rfl, exReal _ (by decide +kernel), by decide +kernel, ⟨_, _, rfl, rfl, by decide⟩, by decide,
      by decide +kernel, by decide +kernel, by decide, ?_, by decide +kernel, by decide +kernel,
      by decide +kernel, by decide +kernel, exReal _ (by decide +kernel), exReal _ (by decide +kernel), by decide +kernel, by decide +kernel⟩
    have : (((exLines "1").accs.flatMap Sp3.fields).take 5) = List.replicate 5 (List.replicate 3 ' ') := by decide +kernel
    exact this ▸ .cons ⟨rfl, by decide⟩ (.cons ⟨rfl, by decide⟩ (.cons ⟨rfl, by decide⟩ (.cons ⟨rfl, by decide⟩ (.cons ⟨rfl, by decide⟩ .nil))))
  · have hst : (exHd '2').start = some (exDate ((Sp3.cols (exLines "2").first 3 28).getD 0 ' ') (((Sp3.cols (exLines "2").first 3 28).getD 1 ' ').toNat - 97)) := by
      rw [show (Sp3.cols (exLines "2").first 3 28).getD 0 ' ' = '2' by decide +kernel, show ((Sp3.cols (exLines "2").first 3 28).getD 1 ' ').toNat - 97 = 18 by decide +kernel]
      rfl
    refine ⟨by decide +kernel, by decide +kernel, by decide +kernel, ⟨_, rfl, hst⟩, ⟨rfl, by decide⟩, by decide +kernel, by decide +kernel, by decide +kernel, by decide +kernel,
      by decide +kernel, rfl, exReal _ (by decide +kernel), exReal _ (by decide +kernel), rfl, exReal _ (by decide +kernel), by decide +kernel, ⟨_, _, rfl, rfl, by decide⟩, by decide,
      by decide +kernel, by decide +kernel, by decide, ?_, by decide +kernel, by decide +kernel,
      by decide +kernel, by decide +kernel, exReal _ (by decide +kernel), exReal _ (by decide +kernel), by decide +kernel, by decide +kernel⟩
    have : (((exLines "2").accs.flatMap Sp3.fields).take 5) = List.replicate 5 (List.replicate 3 ' ') := by decide +kernel
    exact this ▸ .cons ⟨rfl, by decide⟩ (.cons ⟨rfl, by decide⟩ (.cons ⟨rfl, by decide⟩ (.cons ⟨rfl, by decide⟩ (.cons ⟨rfl, by decide⟩ .nil))))

theorem exProduct_ok (day : Char) (name : String) (h : (day, name) = ('1', "1") ∨ (day, name) = ('2', "2")) : (exProduct day name).Ok exCodec where
  header := exHeader_ok day name h
  positions := by
    rcases h with h | h <;> obtain ⟨rfl, rfl⟩ := Prod.mk.inj h <;> simp only [exProduct] <;> decide +kernel
  epochs := by
    intro e he
    obtain ⟨k, hk, rfl⟩ := List.mem_map.mp he
    refine exEpoch_ok day k ?_ hk
    rcases h with h | h
    · exact .inl (Prod.mk.inj h).1
    · exact .inr (Prod.mk.inj h).1
  count := rfl
  two := by simp [exProduct]
  satellites := by simp [exProduct, exHd]
  rest := by simp only [exProduct]; decide +kernel
  dates := by
    intro e he
    obtain ⟨k, hk, rfl⟩ := List.mem_map.mp he
    have : ∀ k ∈ ['a', 'b', 'c', 'd', 'e'], k.toNat - 97 < 5 := by decide +kernel
    exact exPossible day _ (.inl (this k hk))
  start := ⟨rfl, exPossible day 18 (.inr rfl)⟩
  spacing := by norm_num [exProduct, exHd]
  even := by
    have hc : ∀ j (hj : j < 5), (['a', 'b', 'c', 'd', 'e'][j]'hj).toNat - 97 = j := by decide +kernel
    have hlen : (exProduct day name).epochs.length = 5 := rfl
    intro j hj
    have hj' : j < 5 := lt_of_lt_of_eq hj hlen
    have e1 : ∀ j (hj : j < (exProduct day name).epochs.length) (hj' : j < 5), ((exProduct day name).epochs[j]).time = exDate day j := by
      intro j hj hj'
      simp only [exProduct, List.getElem_map, exEpoch]
      rw [hc j hj']
    have hi : (exProduct day name).hd.interval = 720 := rfl
    refine (congrArg instant (e1 j hj hj')).trans (Eq.trans ?_ (congrArg (fun x => instant x + j * (720 : ℝ)) (e1 0 (by omega) (by omega))).symm)
    rcases h with h | h <;> obtain ⟨rfl, rfl⟩ := Prod.mk.inj h
    · rw [exInstant1 j hj', exInstant1 0 (by omega)]; push_cast; ring
    · rw [exInstant2 j hj', exInstant2 0 (by omega)]; push_cast; ring

/-- Settings of the example: the products of 1 and 2 January 2024. -/
def exFile : File := fun _ key =>
  if key = "directory_path".toList then some "sp3/".toList else if key = "file_name_header".toList then some "IGS0OPSFIN".toList
  else if key = "orbit_data_period".toList then some "15M".toList else if key = "clock_file_name_footer".toList then some "15M_ORB.SP3".toList
  else if key = "start_date".toList then some "2024001".toList else if key = "end_date".toList then some "2024002".toList else some "ENABLE".toList

noncomputable def exReader : Reader := ⟨⟨[], [], []⟩, fun _ => 1, fun t => if t = "2024001".toList then 2024001 else 2024002, fun _ => []⟩

def exSheet : ProductSheet := ⟨"sp3/".toList, "IGS0OPSFIN".toList, "15M".toList, "15M_ORB.SP3".toList, (2024, 1), (2024, 2), true⟩

theorem exText (key w : Str) (h : exFile "GNSS_SATELLITES".toList key = some w) (hw : Ini.process ⟨[], [], []⟩ w = w) : Text exReader exFile "GNSS_SATELLITES".toList key w := ⟨w, h, hw⟩

theorem exIn : exSheet.In exReader exFile := by
  have e : Text exReader exFile "GNSS_SATELLITES".toList "calculation".toList "ENABLE".toList := exText _ _ (by decide +kernel) (by decide +kernel)
  have e' : Text exReader exFile "GNSS_SATELLITES".toList "logging".toList "ENABLE".toList := exText _ _ (by decide +kernel) (by decide +kernel)
  exact ⟨⟨_, e, by simp⟩, ⟨_, e', by simp [exSheet]⟩, exText _ _ (by decide +kernel) (by decide +kernel), exText _ _ (by decide +kernel) (by decide +kernel),
    exText _ _ (by decide +kernel) (by decide +kernel), exText _ _ (by decide +kernel) (by decide +kernel), ⟨"2024001".toList, by decide +kernel, by decide +kernel⟩,
    ⟨"2024002".toList, by decide +kernel, by decide +kernel⟩⟩

noncomputable def exRead : Str → Option Str := fun p =>
  if p = exSheet.path (2024, 1) then some (exProduct '1' "1").text else if p = exSheet.path (2024, 2) then some (exProduct '2' "2").text else none

/-- The start of the simulation: 1 January 2024, 23:13. -/
noncomputable def exBegin : DateTime ℝ := ⟨2024, 1, 1, 23, 13, 0⟩

theorem exBegin_instant : instant exBegin = 1704150780 := by
  rw [instant, exBegin]; dsimp only; rw [day1]; norm_num

theorem exBegin_possible : Possible exBegin :=
  ⟨by unfold Calendar.ValidDate; simp only [exBegin]; decide +kernel, ⟨by norm_num [exBegin], by norm_num [exBegin]⟩, by norm_num [exBegin], by norm_num [exBegin], ⟨le_rfl, by norm_num [exBegin]⟩⟩

theorem exAll : ([exProduct '1' "1", exProduct '2' "2"].flatMap Product.epochs) =
    ['a', 'b', 'c', 'd', 'e'].map (exEpoch '1') ++ ['a', 'b', 'c', 'd', 'e'].map (exEpoch '2') := rfl

/-- All hypotheses hold; for example, at 23:12 (the second epoch of the first product) satellite 0 is at 7000 km, 720 km, 720 km and its clock is 720 µs off. -/
example (zero : ℝ) : ∃ m, initGnss exReader exCodec exRead zero (clockDate exBegin) exFile = .ok m ∧ m.logging = true ∧
    GnssSat.getPosition m.state 0 (some 1704150720) = .ok (fun x => some (1000 * ![7000, 720, 720] x)) ∧ GnssSat.getClock m.state 0 (some 1704150720) = .ok (some (720 * (1 / 1000000))) := by
  have t1 : ∀ k : Char, ∀ n, k.toNat - 97 = n → n < 5 → instant (exEpoch '1' k).time = 1704150000 + 720 * n := fun k n h1 h2 => by
    simp only [exEpoch]; rw [h1, exInstant1 n h2]
  have t2 : ∀ k : Char, ∀ n, k.toNat - 97 = n → n < 5 → instant (exEpoch '2' k).time = 1704153600 + 720 * n := fun k n h1 h2 => by
    simp only [exEpoch]; rw [h1, exInstant2 n h2]
  have hinc : (([exProduct '1' "1", exProduct '2' "2"].flatMap Product.epochs).map fun e => instant e.time).Pairwise (· < ·) := by
    rw [exAll]
    simp only [List.map_append, List.map_map, List.map_cons, List.map_nil, Function.comp_apply, List.cons_append, List.nil_append,
      t1 'a' 0 (by decide) (by norm_num), t1 'b' 1 (by decide) (by norm_num), t1 'c' 2 (by decide) (by norm_num), t1 'd' 3 (by decide) (by norm_num), t1 'e' 4 (by decide) (by norm_num),
      t2 'a' 0 (by decide) (by norm_num), t2 'b' 1 (by decide) (by norm_num), t2 'c' 2 (by decide) (by norm_num), t2 'd' 3 (by decide) (by norm_num), t2 'e' 4 (by decide) (by norm_num)]
    norm_num
  obtain ⟨near, h1, -, h3⟩ := C190_settings exReader exCodec exRead zero exFile exSheet exIn (.inl (by decide +kernel)) (by unfold Gnss.ValidDate Gnss.yearLength; decide) 1 (by decide)
    (by decide +kernel) [exProduct '1' "1", exProduct '2' "2"] rfl
    (fun k hk => by
      rcases k with _ | _ | k
      · exact if_pos rfl
      · have : Gnss.nextDay^[1] exSheet.first = (2024, 2) := by decide +kernel
        exact (congrArg (fun d => exRead (exSheet.path d)) this).trans ((if_neg (by decide +kernel)).trans (if_pos rfl))
      · simp at hk)
    (fun p hp => by
      simp only [List.mem_cons, List.not_mem_nil, or_false] at hp
      rcases hp with rfl | rfl
      · exact exProduct_ok _ _ (.inl rfl)
      · exact exProduct_ok _ _ (.inr rfl)) hinc exBegin exBegin_possible 0 (by simp)
    (by
      have : ([exProduct '1' "1", exProduct '2' "2"][0]).start = exDate '1' 18 := rfl
      rw [this, exStart1, exBegin_instant]; norm_num) (fun j hj => absurd hj (by omega))
  have hn : near < 5 := h1
  obtain ⟨m, a1, -, a3, -, -, a6⟩ := (h3 0 (by simp; omega)).1 (by rw [exAll]; simp)
  have a7 := a6 0 (by decide) 1 (by rw [exAll]; simp) (by omega) (by omega)
  have e0 : instant (([exProduct '1' "1", exProduct '2' "2"].flatMap Product.epochs)[0]'(by rw [exAll]; simp)).time = 1704150000 := by
    have := t1 'a' 0 (by decide) (by norm_num)
    norm_num at this
    exact this
  have e1 : instant (([exProduct '1' "1", exProduct '2' "2"].flatMap Product.epochs)[1]'(by rw [exAll]; simp)).time = 1704150720 := by
    have := t1 'b' 1 (by decide) (by norm_num)
    norm_num at this
    exact this
  have e8 : instant (([exProduct '1' "1", exProduct '2' "2"].flatMap Product.epochs)[0 + 8]'(by rw [exAll]; simp)).time = 1704155760 := by
    have := t2 'd' 3 (by decide) (by norm_num)
    norm_num at this
    exact this
  rw [e0, e1, e8] at a7
  obtain ⟨c1, c2⟩ := a7 (by norm_num)
  exact ⟨m, a1, a3, c2 (by norm_num), c1⟩

/-- Without the first product. -/
example (zero : ℝ) (m : Made) : initGnss exReader exCodec (fun _ => none) zero (clockDate exBegin) exFile ≠ .ok m :=
  C190_missing exReader exCodec (fun _ => none) zero exFile exSheet exIn (.inl (by decide +kernel)) (by unfold Gnss.ValidDate Gnss.yearLength; decide) [] (by decide) (by decide)
    (fun k hk => by simp at hk) (fun p hp => by simp at hp) rfl (by decide +kernel) exBegin exBegin_possible (fun p hp => by simp at hp) m

def exFile2 : File := fun sec key => if key = "clock_file_name_footer".toList then some "15M".toList else exFile sec key

/-- With `15M` as the text for the clock products an exception ends the program. -/
example (zero : ℝ) (start : Julian.Date) : initGnss exReader exCodec exRead zero start exFile2 = .throws := by
  refine C190_footer exReader exCodec exRead zero start exFile2 { exSheet with footer := "15M".toList } ?_ (by decide) (by decide) (by decide)
    (.inl ⟨exProduct '1' "1", exProduct_ok _ _ (.inl rfl), if_pos rfl⟩)
  refine ⟨⟨"ENABLE".toList, ⟨"ENABLE".toList, by decide +kernel, by decide +kernel⟩, by simp⟩, ⟨"ENABLE".toList, ⟨"ENABLE".toList, by decide +kernel, by decide +kernel⟩, by simp [exSheet]⟩,
    ⟨"sp3/".toList, by decide +kernel, by decide +kernel⟩, ⟨"IGS0OPSFIN".toList, by decide +kernel, by decide +kernel⟩, ⟨"15M".toList, by decide +kernel, by decide +kernel⟩,
    ⟨"15M".toList, by decide +kernel, by decide +kernel⟩, ⟨"2024001".toList, by decide +kernel, by decide +kernel⟩, ⟨"2024002".toList, by decide +kernel, by decide +kernel⟩⟩

noncomputable def exReader2 : Reader := { exReader with getInteger := fun t => if t = "2024001".toList then 2024002 else 2024001 }

/-- From the second day to the first. -/
example (zero : ℝ) (start : Julian.Date) : initGnss exReader2 exCodec exRead zero start exFile = .ub := by
  refine C190_reversed exReader2 exCodec exRead zero start exFile { exSheet with first := (2024, 2), last := (2024, 1) } ?_ (by decide) (by decide)
  refine ⟨⟨"ENABLE".toList, ⟨"ENABLE".toList, by decide +kernel, by decide +kernel⟩, by simp⟩, ⟨"ENABLE".toList, ⟨"ENABLE".toList, by decide +kernel, by decide +kernel⟩, by simp [exSheet]⟩,
    ⟨"sp3/".toList, by decide +kernel, by decide +kernel⟩, ⟨"IGS0OPSFIN".toList, by decide +kernel, by decide +kernel⟩, ⟨"15M".toList, by decide +kernel, by decide +kernel⟩,
    ⟨"15M_ORB.SP3".toList, by decide +kernel, by decide +kernel⟩, ⟨"2024001".toList, by decide +kernel, by decide +kernel⟩, ⟨"2024002".toList, by decide +kernel, by decide +kernel⟩⟩

/-- Hypotheses of the other theorems. -/
example : Switch ⟨⟨[], [], []⟩, fun _ => 1, fun _ => -1, fun _ => []⟩ (fun _ _ => some "ENABLE".toList) "GNSS_SATELLITES".toList "calculation".toList true ∧
    Integer ⟨⟨[], [], []⟩, fun _ => 1, fun _ => -1, fun _ => []⟩ (fun _ _ => some "ENABLE".toList) "GNSS_SATELLITES".toList "end_date".toList (-1) ∧
    Switch exReader (fun _ _ => some "DISABLE".toList) "GNSS_SATELLITES".toList "calculation".toList false :=
  ⟨⟨"ENABLE".toList, ⟨_, rfl, by decide +kernel⟩, by simp⟩, ⟨_, rfl, rfl⟩, ⟨"DISABLE".toList, ⟨_, rfl, by decide +kernel⟩, by decide +kernel⟩⟩

end S2E.InitGnss
