import Verif.Spec.InitTime
import Verif.Model.InitTime
import Verif.Proofs.Settings
import Verif.Proofs.Tle
import Verif.Props.SimTime
import Verif.Props.Julian
/-!
# C187: the simulation clock made from a settings file
-/
namespace S2E.InitTime
open Settings Log InitOrbit Julian Tle

/-! ## `sscanf` -/

theorem takeDigits_suffix : ∀ (w : ℕ) (s : Str), (takeDigits w s).2 <:+ s
  | 0, s => by rw [takeDigits]; intro _ _ _ h; cases h
  | w + 1, [] => by simp [takeDigits]
  | w + 1, c :: s => by
    rw [takeDigits]
    split
    · exact (takeDigits_suffix w s).trans (List.suffix_cons c s)
    · exact List.suffix_rfl

theorem sign_suffix (w : ℕ) (s : Str) : (sign w s).2.2 <:+ s := by
  unfold sign
  split
  · exact List.suffix_cons _ _
  · exact List.suffix_cons _ _
  · exact List.suffix_rfl

theorem skip_suffix (s : Str) : skip s <:+ s := List.dropWhile_suffix _

theorem readInt_suffix {s : Str} {r : ℤ × Str} (h : readInt s = .ok r) : r.2 <:+ s := by
  unfold readInt at h
  rcases h1 : scanInt s.length s with _ | x <;> rw [h1] at h <;> simp only [reduceCtorEq] at h
  split at h
  · cases h
    unfold scanInt at h1
    dsimp only at h1
    split at h1
    · cases h1
    · cases h1
      exact (takeDigits_suffix _ _).trans ((sign_suffix _ _).trans (skip_suffix s))
  · cases h

theorem expect_mem {c : Char} {s t : Str} (h : expect c s = .ok t) : c ∈ s ∧ t <:+ s := by
  rcases s with _ | ⟨d, s⟩
  · cases h
  · rw [expect] at h
    split at h
    · rename_i e
      cases h
      exact ⟨e ▸ List.mem_cons_self, List.suffix_cons _ _⟩
    · cases h

theorem expect_self (c : Char) (s : Str) : expect c (c :: s) = .ok s := if_pos rfl

theorem readInt_cases (s : Str) : readInt s = .ub ∨ ∃ r, readInt s = .ok r ∧ r.2 <:+ s := by
  rcases h : readInt s with r | _ | _ | _
  · exact .inr ⟨r, rfl, readInt_suffix h⟩
  · exact .inl rfl
  all_goals
    exfalso
    unfold readInt at h
    split at h
    · cases h
    · split at h <;> cases h

theorem expect_cases (c : Char) (s : Str) : expect c s = .ub ∨ ∃ t, expect c s = .ok t ∧ c ∈ s ∧ t <:+ s := by
  rcases h : expect c s with r | _ | _ | _
  · exact .inr ⟨r, rfl, expect_mem h⟩
  · exact .inl rfl
  all_goals
    exfalso
    unfold expect at h
    split at h
    · cases h
    · split at h <;> cases h

/-- A text without a slash or without a colon is not a start time. -/
theorem scanStart_incomplete {s : Str} (h : '/' ∉ s ∨ ':' ∉ s) : scanStart s = .ub := by
  unfold scanStart
  rcases readInt_cases s with e | ⟨y, e, hy⟩ <;> rw [e]
  · rfl
  simp only [Res.bind]
  rcases expect_cases '/' y.2 with e | ⟨s1, e, m1, h1⟩ <;> rw [e]
  have hslash : '/' ∈ s := hy.subset m1
  have hcolon : ':' ∉ s := by
    rcases h with h | h
    exacts [absurd hslash h, h]
  simp only
  rcases readInt_cases s1 with e | ⟨mo, e, hmo⟩ <;> rw [e]
  simp only
  rcases expect_cases '/' mo.2 with e | ⟨s2, e, -, h2⟩ <;> rw [e]
  simp only
  rcases readInt_cases s2 with e | ⟨d, e, hd⟩ <;> rw [e]
  simp only
  rcases readInt_cases (skip d.2) with e | ⟨h', e, hh⟩ <;> rw [e]
  simp only
  rcases expect_cases ':' h'.2 with e | ⟨s3, e, m3, -⟩ <;> rw [e]
  exact absurd ((hh.trans ((skip_suffix _).trans (hd.trans (h2.trans (hmo.trans (h1.trans hy)))))).subset m3) hcolon

theorem readInt_digits {ds rest : Str} (hd : Digits ds) (hn : ds ≠ []) (hs : Stops rest) (hb : numeral ds < 2 ^ 31) :
    readInt (ds ++ rest) = .ok ((numeral ds : ℤ), rest) := by
  unfold readInt
  have := scanInt_eq (sg := []) (ds := ds) (rest := rest) (w := (ds ++ rest).length) (.inl ⟨rfl, rfl⟩) hd hn (by simp) (.inr hs)
  rw [List.nil_append] at this
  rw [this]
  simp only [Bool.false_eq_true, if_false]
  rw [if_pos ⟨by omega, by exact_mod_cast hb⟩]

theorem skip_digits {ds rest : Str} (hd : Digits ds) (hn : ds ≠ []) : skip (ds ++ rest) = ds ++ rest := by
  rcases ds with _ | ⟨c, ds⟩
  · exact absurd rfl hn
  · exact skip_none (digit_facts c (hd c List.mem_cons_self)).2.1 _

theorem numeral_split (ds fs : Str) : numeral (ds ++ fs) = numeral ds * 10 ^ fs.length + numeral fs := by
  unfold numeral
  rw [List.reverse_append, List.map_append, Nat.ofDigits_append]
  simp only [List.length_map, List.length_reverse]
  ring

theorem readReal_digits {ss fs : Str} {x : ℝ} (hd : Digits ss) (hn : ss ≠ [])
    (h : fs = [] ∧ x = numeral ss ∨ ∃ f, fs = '.' :: f ∧ Digits f ∧ f ≠ [] ∧ x = numeral ss + numeral f / 10 ^ f.length) : readReal (ss ++ fs) = .ok (x, []) := by
  unfold readReal
  rcases h with ⟨rfl, rfl⟩ | ⟨f, rfl, hf, hfn, rfl⟩
  · rw [List.append_nil]
    have : scanReal ss.length ss = some ((numeral ss : ℚ), []) := by
      unfold scanReal
      dsimp only
      have e0 : skip ss = ss := by simpa using skip_digits (rest := []) hd hn
      have e1 := sign_eq (sg := []) (minus := false) (.inl ⟨rfl, rfl⟩) (s := ss) (w := ss.length)
        (by simpa using digits_nosign (s := []) hd (.inl hn)) (by simp)
      rw [List.nil_append] at e1
      rw [e0, e1]
      dsimp only
      have e2 := takeDigits_eq hd ss.length [] le_rfl (.inl rfl)
      rw [List.append_nil] at e2
      simp only [List.length_nil, Nat.sub_zero]
      rw [e2]
      dsimp only
      rw [Nat.sub_self]
      have e3 : fraction 0 [] = ([], 0, []) := by unfold fraction; rfl
      rw [e3]
      dsimp only
      rw [exponent_none (.inl rfl), List.append_nil, natOf_eq hd]
      have : ss.isEmpty = false := by simpa using hn
      rw [this]
      simp
    rw [this]
    simp
  · have := scanReal_eq (sg := []) (ds := ss) (fs := f) (rest := []) (w := (ss ++ '.' :: f).length) (.inl ⟨rfl, rfl⟩) hd hf hfn (by simp; omega) (.inl (by simp; omega))
    rw [List.append_nil, List.nil_append] at this
    rw [this]
    simp only [Bool.false_eq_true, if_false]
    rw [numeral_split]
    congr 2
    push_cast
    field_simp

theorem stops_slash (r : Str) : Stops ('/' :: r) := stops_cons (by decide)
theorem stops_colon (r : Str) : Stops (':' :: r) := stops_cons (by decide)

theorem scanStart_eq {text : Str} {y m d h mi : ℕ} {s : ℝ} (ht : StartText text y m d h mi s) (hb : ∀ n ∈ [y, 275 * m, d, h, mi], n < 2 ^ 31) :
    scanStart text = .ok ⟨y, m, d, h, mi, s⟩ := by
  obtain ⟨ys, ms, ds, hs, mis, ss, fs, k, rfl, hd, rfl, rfl, rfl, rfl, rfl, hfs⟩ := ht
  simp only [List.mem_cons, List.not_mem_nil, or_false, forall_eq_or_imp, forall_eq] at hd hb
  obtain ⟨⟨y1, y2⟩, ⟨m1, m2⟩, ⟨d1, d2⟩, ⟨h1, h2⟩, ⟨i1, i2⟩, s1, s2⟩ := hd
  obtain ⟨by', bm, bd, bh, bi⟩ := hb
  have e : ys ++ "/".toList ++ ms ++ "/".toList ++ ds ++ List.replicate (k + 1) ' ' ++ hs ++ ":".toList ++ mis ++ ":".toList ++ ss ++ fs =
      ys ++ '/' :: (ms ++ '/' :: (ds ++ ' ' :: (List.replicate k ' ' ++ (hs ++ ':' :: (mis ++ ':' :: (ss ++ fs)))))) := by
    simp [List.replicate_succ]
  rw [e]
  unfold scanStart
  rw [readInt_digits y1 y2 (stops_slash _) by']
  simp only [Res.bind]
  rw [expect_self]
  simp only
  rw [readInt_digits m1 m2 (stops_slash _) (by omega)]
  simp only
  rw [expect_self]
  simp only
  rw [readInt_digits d1 d2 (stops_blank _) bd]
  simp only
  have e2 : skip (' ' :: (List.replicate k ' ' ++ (hs ++ ':' :: (mis ++ ':' :: (ss ++ fs))))) = hs ++ ':' :: (mis ++ ':' :: (ss ++ fs)) := by
    have := skip_blanks (k + 1) (hs ++ ':' :: (mis ++ ':' :: (ss ++ fs)))
    rw [skip_digits h1 h2, List.replicate_succ] at this
    exact this
  rw [e2, readInt_digits h1 h2 (stops_colon _) bh]
  simp only
  rw [expect_self]
  simp only
  rw [readInt_digits i1 i2 (stops_colon _) bi]
  simp only
  rw [expect_self]
  simp only
  rw [readReal_digits s1 s2 hfs]
  simp only
  rw [if_pos ⟨by omega, by exact_mod_cast bm⟩]

/-! ## The clock -/

variable (rd : Reader) (et : ℝ → ℝ) (file : File)

/-- The constants of the clock that a sheet and a start describe. -/
noncomputable def cfgOf (t : TimeSheet) (jd et : ℝ) : TimeCfg ℝ := ⟨t.duration, t.step, t.attitude, t.orbit, t.thermal, t.component, t.log, jd, et, t.speed, 1⟩

theorem assertSteps_iff (t : TimeSheet) (f : ℤ) (jd et sid dec : ℝ) (d u : Date) :
    (t.Consistent → assertSteps ⟨cfgOf t jd et, t.attitudeIntegral, t.orbitIntegral, t.thermalIntegral, f, d, u, sid, dec⟩ =
      .ok ⟨cfgOf t jd et, t.attitudeIntegral, t.orbitIntegral, t.thermalIntegral, f, d, u, sid, dec⟩) ∧
    (¬t.Consistent → assertSteps ⟨cfgOf t jd et, t.attitudeIntegral, t.orbitIntegral, t.thermalIntegral, f, d, u, sid, dec⟩ = .throws) := by
  have e : t.Consistent ↔ t.attitudeIntegral ≤ t.attitude ∧ t.orbitIntegral ≤ t.orbit ∧ t.thermalIntegral ≤ t.thermal ∧ t.step ≤ t.attitude ∧ t.step ≤ t.orbit ∧
      t.step ≤ t.thermal ∧ t.step ≤ t.component ∧ t.step ≤ t.log := by
    unfold TimeSheet.Consistent
    simp only [List.mem_cons, List.not_mem_nil, or_false, forall_eq_or_imp, forall_eq]
    tauto
  unfold assertSteps cfgOf
  dsimp only
  exact ⟨fun h => if_pos (e.1 h), fun h => if_neg fun h' => h (e.2 h')⟩

theorem initTime_eq {t : TimeSheet} (ht : t.In rd file) {text : Str} (hs : Text rd file "TIME".toList "simulation_start_time_utc".toList text) :
    initTime rd et file = newClock et t.duration t.step t.attitude t.attitudeIntegral t.orbit t.orbitIntegral t.thermal t.thermalIntegral t.component t.log text
      t.speed := by
  obtain ⟨h1, h2, h3, h4, h5, h6, h7, h8, h9, h10, h11⟩ := ht
  unfold initTime
  dsimp only
  rw [h1.read, h2.read, h3.read, h4.read, h5.read, h6.read, h7.read, h8.read, h9.read, h10.read, h11.read, hs.read]

theorem frequencyOf_ok {x : ℝ} (h : 1 / 2 ^ 31 < x) : frequencyOf x = .ok ⌊1 / x⌋ := by
  have h0 : 0 < x := lt_trans (by norm_num) h
  have hb : 1 / x < 2 ^ 31 := by
    rw [div_lt_iff₀ h0]
    rw [div_lt_iff₀ (by norm_num)] at h
    linarith
  have hp : 0 ≤ 1 / x := by positivity
  have hf : ⌊1 / x⌋ < 2 ^ 31 := by
    have := Int.floor_le (1 / x)
    have h' : ((⌊1 / x⌋ : ℤ) : ℝ) < 2 ^ 31 := lt_of_le_of_lt this hb
    exact_mod_cast h'
  have hf0 : 0 ≤ ⌊1 / x⌋ := Int.floor_nonneg.2 hp
  unfold frequencyOf
  rw [if_neg h0.ne']
  unfold toInt32 truncZ
  rw [if_pos hp, if_pos ⟨by omega, by omega⟩]

/-- **C187 (settings).** The clock has the written duration, step, periods and integration steps, the components run at the whole number of Hz in their period,
and the clock starts at the Julian date of the written date and time — when no integration step is longer than its period and no period is shorter than the step;
otherwise the program stops at an assertion. -/
theorem C187_settings (t : TimeSheet) (ht : t.In rd file) (text : Str) (hs : Text rd file "TIME".toList "simulation_start_time_utc".toList text)
    (y m d h mi : ℕ) (s : ℝ) (hst : StartText text y m d h mi s) (hv : Valid y m d) (hh : h < 24) (hm : mi < 60) (hc : 1 / 2 ^ 31 < t.component) :
    (t.Consistent → ∃ k, initTime rd et file = .ok k ∧
      k.cfg.endSec = t.duration ∧ k.cfg.step = t.step ∧ k.cfg.attitude = t.attitude ∧ k.cfg.orbit = t.orbit ∧ k.cfg.thermal = t.thermal ∧
      k.cfg.component = t.component ∧ k.cfg.log = t.log ∧ k.cfg.speed = t.speed ∧ k.attitudeRk = t.attitudeIntegral ∧ k.orbitRk = t.orbitIntegral ∧
      k.thermalRk = t.thermalIntegral ∧ k.frequency = ⌊1 / t.component⌋ ∧ k.start = ⟨y, m, d, h, mi, s⟩ ∧
      k.cfg.startJd = julianDate (instant y m d h mi s) ∧ k.cfg.startEt = et (julianDate (instant y m d h mi s)) ∧
      k.sidereal = gstime (julianDate (instant y m d h mi s)) ∧ k.decimalYear = jdToDecyear (julianDate (instant y m d h mi s)) ∧
      k.utc = invjday (julianDate (instant y m d h mi s))) ∧
    (¬t.Consistent → initTime rd et file = .throws) := by
  have hd31 : d ≤ 31 := by
    have : ∀ b : Bool, ∀ m ∈ Finset.Icc 1 12, Calendar.monthLen b m ≤ 31 := by decide
    exact hv.2.2.2.1.trans (this _ m (Finset.mem_Icc.2 ⟨hv.1, hv.2.1⟩))
  have hb : ∀ n ∈ [y, 275 * m, d, h, mi], n < 2 ^ 31 := by
    have hv2 := hv.2.1
    have hvy := hv.2.2.2.2.2
    simp only [List.mem_cons, List.not_mem_nil, or_false, forall_eq_or_imp, forall_eq]
    omega
  have hj := C151_jday y m d hv h mi s
  have e : initTime rd et file = assertSteps ⟨cfgOf t (jday ⟨y, m, d, h, mi, s⟩) (et (jday ⟨y, m, d, h, mi, s⟩)), t.attitudeIntegral, t.orbitIntegral,
      t.thermalIntegral, ⌊1 / t.component⌋, ⟨y, m, d, h, mi, s⟩, invjday (jday ⟨y, m, d, h, mi, s⟩), gstime (jday ⟨y, m, d, h, mi, s⟩),
      jdToDecyear (jday ⟨y, m, d, h, mi, s⟩)⟩ := by
    rw [initTime_eq rd et file ht hs]
    unfold newClock
    rw [frequencyOf_ok hc, scanStart_eq hst hb]
    rfl
  rw [e]
  have a := assertSteps_iff t ⌊1 / t.component⌋ (jday ⟨y, m, d, h, mi, s⟩) (et (jday ⟨y, m, d, h, mi, s⟩)) (gstime (jday ⟨y, m, d, h, mi, s⟩))
    (jdToDecyear (jday ⟨y, m, d, h, mi, s⟩)) ⟨y, m, d, h, mi, s⟩ (invjday (jday ⟨y, m, d, h, mi, s⟩))
  refine ⟨fun hcons => ⟨_, a.1 hcons, rfl, rfl, rfl, rfl, rfl, rfl, rfl, rfl, rfl, rfl, rfl, rfl, rfl, ?_⟩, a.2⟩
  dsimp only [cfgOf]
  rw [hj]
  exact ⟨rfl, rfl, rfl, rfl, rfl⟩

/-- **C187 (time).** In a run without pacing the calendar after `n` updates shows the date and time that is `n` steps after the written one, whenever its
seconds are not in the last microsecond of a minute and it is not in the last hours of a year (C151). -/
theorem C187_time (t : TimeSheet) (ht : t.In rd file) (text : Str) (hs : Text rd file "TIME".toList "simulation_start_time_utc".toList text)
    (y m d h mi : ℕ) (s : ℝ) (hst : StartText text y m d h mi s) (hv : Valid y m d) (hh : h < 24) (hm : mi < 60) (hc : 1 / 2 ^ 31 < t.component)
    (hcons : t.Consistent) (hsp : t.speed ≤ 0) (hstep : 0 < t.step) (hdur : 0 ≤ t.duration) (hdisp : t.duration / t.step / 100 < 2 ^ 31)
    (clk : ℤ) (r : ℕ → ClockReads) (n : ℕ) (y' m' d' : ℕ) (hv' : Valid y' m' d') (h' mi' : ℤ) (s' : ℝ) (hh' : 0 ≤ h' ∧ h' < 24) (hm' : 0 ≤ mi' ∧ mi' < 60)
    (hs' : 0 ≤ s' ∧ s' < 60 - 8.64e-7) (hl : ¬Late y' m' d' h' mi' s') (he : instant y' m' d' h' mi' s' = instant y m d h mi s + n * t.step) :
    ∃ k st, initTime rd et file = .ok k ∧ (TimeSt.init k.cfg clk).steps Arith.exact k.cfg r n = .ok st ∧ st.elapsed = n * t.step ∧
      invjday st.jd = ⟨y', m', d', h', mi', s'⟩ := by
  obtain ⟨k, e, c1, c2, -, -, -, -, -, c8, -, -, -, -, -, c14, -⟩ := (C187_settings rd et file t ht text hs y m d h mi s hst hv hh hm hc).1 hcons
  have hp : k.cfg.Plain := ⟨by rw [c8]; exact hsp, by rw [c2]; exact hstep, by rw [c1]; exact hdur, by unfold TimeCfg.displayPeriod; rw [c1, c2]; exact hdisp⟩
  obtain ⟨st, s1, s2, s3, -⟩ := C29_uniform_clocks k.cfg hp clk r n
  refine ⟨k, st, e, s1, by rw [s2, c2], ?_⟩
  rw [s3, c14, c2, ← C151_jday y m d hv h mi s]
  have := C151_utc y m d hv h mi s (n * t.step) y' m' d' hv' h' mi' s' hh' hm' hs' hl he
  norm_num at this ⊢
  exact this

/-- **C187 (log).** A complete run without pacing writes one row for each whole number of log periods that the duration contains, and one at the beginning: the
number of steps in the duration over the number of steps in a log period, rounded down, and one. -/
theorem C187_log {W R : Type} (t : TimeSheet) (ht : t.In rd file) (text : Str) (hs : Text rd file "TIME".toList "simulation_start_time_utc".toList text)
    (y m d h mi : ℕ) (s : ℝ) (hst : StartText text y m d h mi s) (hv : Valid y m d) (hh : h < 24) (hm : mi < 60) (hc : 1 / 2 ^ 31 < t.component)
    (hcons : t.Consistent) (hsp : t.speed ≤ 0) (hstep : 0 < t.step) (hdur : 0 ≤ t.duration) (hdisp : t.duration / t.step / 100 < 2 ^ 31)
    (clk : ℤ) (r : ℕ → ClockReads) (world : TimeSt ℝ → W → W) (row : TimeSt ℝ → W → R) (w0 : W) :
    ∃ k n tm w ev, initTime rd et file = .ok k ∧
      caseRun Arith.exact k.cfg clk r world row (⌊t.duration / t.step⌋₊ + 2) w0 = .ok (n, tm, w, .header :: ev) ∧
      (ev.filterMap CaseEvent.rowOf).length = ⌊t.duration / t.step⌋₊ / ⌈t.log / t.step⌉₊ + 1 := by
  obtain ⟨k, e, c1, c2, -, -, -, -, c7, c8, -⟩ := (C187_settings rd et file t ht text hs y m d h mi s hst hv hh hm hc).1 hcons
  have hp : k.cfg.Plain := ⟨by rw [c8]; exact hsp, by rw [c2]; exact hstep, by rw [c1]; exact hdur, by unfold TimeCfg.displayPeriod; rw [c1, c2]; exact hdisp⟩
  have hlog : t.step ≤ t.log := hcons.2 t.log (by simp)
  have hk : LeastCount (fun n => (n : ℝ) * k.cfg.step) k.cfg.log ⌈t.log / t.step⌉₊ := by
    rw [c2, c7]
    refine ⟨Nat.ceil_pos.2 (div_pos (hstep.trans_le hlog) hstep), ?_, ?_⟩
    · exact (div_le_iff₀ hstep).1 (Nat.le_ceil _)
    · intro j _ hj
      exact (lt_div_iff₀ hstep).1 (Nat.lt_ceil.1 hj)
  obtain ⟨T, -, -, -, n, tm, w, ev, r1, -, r3⟩ := C30_log_rows k.cfg hp _ hk clk r world row w0 (⌊t.duration / t.step⌋₊ + 2) (by rw [c1, c2]; omega)
  refine ⟨k, n, tm, w, ev, e, r1, ?_⟩
  rw [r3, List.length_map, List.length_range, c1, c2]

/-- **C187 (incomplete start).** A start without a slash or without a colon — a date alone, another separator, no entry — leaves members of the clock without a
value, and the Julian date is made of them: undefined. -/
theorem C187_incomplete (text : Str) (hs : Text rd file "TIME".toList "simulation_start_time_utc".toList text) (h : '/' ∉ text ∨ ':' ∉ text) :
    initTime rd et file = .ub := by
  unfold initTime newClock
  dsimp only
  rw [hs.read, scanStart_incomplete h]
  rcases hf : frequencyOf (Ini.readDouble rd.getReal (file "TIME".toList) "component_update_period_s".toList) with f | _ | _ | _
  · rfl
  · rfl
  all_goals
    exfalso
    unfold frequencyOf toInt32 at hf
    split at hf
    · cases hf
    · split at hf <;> cases hf

/-- **C187 (no component period).** Without `component_update_period_s`, or with the number zero there, the frequency of the components is the conversion of an
infinite number: undefined. -/
theorem C187_no_component_period (h : file "TIME".toList "component_update_period_s".toList = none ∨
    Number rd file "TIME".toList "component_update_period_s".toList 0) : initTime rd et file = .ub := by
  have : Ini.readDouble rd.getReal (file "TIME".toList) "component_update_period_s".toList = 0 := by
    rcases h with h | h
    · unfold Ini.readDouble; rw [h]
    · exact h.read
  unfold initTime newClock
  dsimp only
  rw [this]
  unfold frequencyOf
  rw [if_pos rfl]
  rfl

/-- **C187 (independence).** Only the section `TIME` matters. -/
theorem C187_independent (file' : File) (h : file "TIME".toList = file' "TIME".toList) : initTime rd et file = initTime rd et file' := by
  unfold initTime
  rw [h]

/-! ## A concrete clock -/

/-- Every entry is its own key, but the start, which is a time, and the integration steps. -/
def exFile : File := fun _ key => if key = "simulation_start_time_utc".toList then some "2020/01/01 11:05:7.5".toList else some key
/-- Ten seconds of one-second steps. -/
noncomputable def exReader : Reader :=
  ⟨⟨[], [], []⟩, fun s => if s = "simulation_duration_s".toList then 10 else if s = "simulation_speed_setting".toList then 0 else
    if s = "log_output_period_s".toList then 5 / 2 else 1, fun _ => 0, fun _ => []⟩
noncomputable def exSheet : TimeSheet := ⟨10, 1, 1, 1, 1, 1, 1, 1, 1, 5 / 2, 0⟩

theorem exOne (key : Str) (h : key ≠ "simulation_start_time_utc".toList) (h1 : key ≠ "simulation_duration_s".toList) (h2 : key ≠ "simulation_speed_setting".toList)
    (h3 : key ≠ "log_output_period_s".toList) : Number exReader exFile "TIME".toList key 1 :=
  ⟨key, if_neg h, by simp only [exReader]; rw [if_neg h1, if_neg h2, if_neg h3]⟩

theorem exSheet_in : exSheet.In exReader exFile :=
  ⟨⟨_, if_neg (by decide +kernel), by simp only [exReader, if_true, exSheet]⟩, exOne _ (by decide +kernel) (by decide +kernel) (by decide +kernel) (by decide +kernel),
    exOne _ (by decide +kernel) (by decide +kernel) (by decide +kernel) (by decide +kernel),
    exOne _ (by decide +kernel) (by decide +kernel) (by decide +kernel) (by decide +kernel),
    exOne _ (by decide +kernel) (by decide +kernel) (by decide +kernel) (by decide +kernel),
    exOne _ (by decide +kernel) (by decide +kernel) (by decide +kernel) (by decide +kernel),
    exOne _ (by decide +kernel) (by decide +kernel) (by decide +kernel) (by decide +kernel),
    exOne _ (by decide +kernel) (by decide +kernel) (by decide +kernel) (by decide +kernel),
    exOne _ (by decide +kernel) (by decide +kernel) (by decide +kernel) (by decide +kernel),
    ⟨_, if_neg (by decide +kernel), by
      simp only [exReader, exSheet]; rw [if_neg (by decide +kernel), if_neg (by decide +kernel), if_true]⟩,
    ⟨_, if_neg (by decide +kernel), by
      simp only [exReader, exSheet]; rw [if_neg (by decide +kernel), if_true]⟩⟩

theorem exText : Text exReader exFile "TIME".toList "simulation_start_time_utc".toList "2020/01/01 11:05:7.5".toList :=
  ⟨_, if_pos rfl, by show Ini.process ⟨[], [], []⟩ _ = _; decide +kernel⟩

theorem exDigits {s : Str} (h : ∀ c ∈ s, c ∈ "0123456789".toList) : Digits s := h

theorem exStart : StartText "2020/01/01 11:05:7.5".toList 2020 1 1 11 5 7.5 := by
  refine ⟨"2020".toList, "01".toList, "01".toList, "11".toList, "05".toList, "7".toList, ".5".toList, 0, by decide +kernel, ?_, by decide +kernel, by decide +kernel,
    by decide +kernel, by decide +kernel, by decide +kernel, .inr ⟨"5".toList, by decide +kernel, fun c hc => by revert c; decide +kernel, by decide +kernel, ?_⟩⟩
  · intro t ht
    simp only [List.mem_cons, List.not_mem_nil, or_false] at ht
    rcases ht with rfl | rfl | rfl | rfl | rfl | rfl <;> exact ⟨fun c hc => by revert c; decide +kernel, by decide +kernel⟩
  · have h1 : numeral "7".toList = 7 := by decide +kernel
    have h2 : numeral "5".toList = 5 := by decide +kernel
    have h3 : "5".toList.length = 1 := by decide +kernel
    rw [h1, h2, h3]
    norm_num

theorem exConsistent : exSheet.Consistent := by
  unfold TimeSheet.Consistent exSheet
  norm_num

theorem exValid : Valid 2020 1 1 := by unfold Valid; decide

/-- Ten steps after 11:05:07.5 it is 11:05:17.5. -/
example (et : ℝ → ℝ) (r : ℕ → ClockReads) : ∃ k st, initTime exReader et exFile = .ok k ∧ (TimeSt.init k.cfg 0).steps Arith.exact k.cfg r 10 = .ok st ∧
    st.elapsed = (10 : ℕ) * exSheet.step ∧ invjday st.jd = ⟨(2020 : ℕ), (1 : ℕ), (1 : ℕ), 11, 5, 17.5⟩ :=
  C187_time exReader et exFile exSheet exSheet_in _ exText 2020 1 1 11 5 7.5 exStart exValid (by norm_num) (by norm_num) (by norm_num [exSheet]) exConsistent
    (by norm_num [exSheet]) (by norm_num [exSheet]) (by norm_num [exSheet]) (by norm_num [exSheet]) 0 r 10 2020 1 1 exValid 11 5 17.5 (by norm_num) (by norm_num)
    (by norm_num) (by unfold Late; norm_num) (by
      unfold instant; generalize (dayNumber 2020 1 1 : ℝ) = D; simp only [exSheet]; push_cast; ring)

/-- Ten seconds with a row every 2.5 s — every third step — give four rows. -/
example (et : ℝ → ℝ) (r : ℕ → ClockReads) : ∃ k n tm w ev, initTime exReader et exFile = .ok k ∧
    caseRun Arith.exact k.cfg 0 r (fun _ (w : ℕ) => w + 1) (fun _ w => w) (⌊exSheet.duration / exSheet.step⌋₊ + 2) 0 = .ok (n, tm, w, .header :: ev) ∧
    (ev.filterMap CaseEvent.rowOf).length = 4 := by
  obtain ⟨k, n, tm, w, ev, h1, h2, h3⟩ := C187_log exReader et exFile exSheet exSheet_in _ exText 2020 1 1 11 5 7.5 exStart exValid (by norm_num) (by norm_num)
    (by norm_num [exSheet]) exConsistent (by norm_num [exSheet]) (by norm_num [exSheet]) (by norm_num [exSheet]) (by norm_num [exSheet]) 0 r
    (fun _ (w : ℕ) => w + 1) (fun _ w => w) 0
  refine ⟨k, n, tm, w, ev, h1, h2, ?_⟩
  have e1 : ⌊exSheet.duration / exSheet.step⌋₊ = 10 := by
    have : exSheet.duration / exSheet.step = (10 : ℕ) := by norm_num [exSheet]
    rw [this, Nat.floor_natCast]
  have e2 : ⌈exSheet.log / exSheet.step⌉₊ = 3 := by
    rw [Nat.ceil_eq_iff (by norm_num)]
    norm_num [exSheet]
  rw [h3, e1, e2]

/-- A date alone. -/
example (rd : Reader) (hp : rd.paths = ⟨[], [], []⟩) (et : ℝ → ℝ) : initTime rd et (fun _ _ => some "2020/01/01".toList) = .ub :=
  C187_incomplete rd et _ "2020/01/01".toList ⟨_, rfl, by rw [hp]; decide +kernel⟩ (.inr (by decide))

/-- A log period of half a step is refused. -/
example (et : ℝ → ℝ) : initTime ⟨⟨[], [], []⟩, fun s => if s = "log_output_period_s".toList then 1 / 2 else 1, fun _ => 0, fun _ => []⟩ et exFile = .throws := by
  have hN : ∀ key : Str, key ≠ "simulation_start_time_utc".toList → key ≠ "log_output_period_s".toList →
      Number ⟨⟨[], [], []⟩, fun s => if s = "log_output_period_s".toList then 1 / 2 else 1, fun _ => 0, fun _ => []⟩ exFile "TIME".toList key 1 :=
    fun key h1 h2 => ⟨key, if_neg h1, if_neg h2⟩
  refine (C187_settings _ et exFile ⟨1, 1, 1, 1, 1, 1, 1, 1, 1, 1 / 2, 1⟩ ⟨hN _ ?_ ?_, hN _ ?_ ?_, hN _ ?_ ?_, hN _ ?_ ?_, hN _ ?_ ?_, hN _ ?_ ?_, hN _ ?_ ?_, hN _ ?_ ?_,
    hN _ ?_ ?_, ⟨_, if_neg ?_, by simp only [if_true]⟩, hN _ ?_ ?_⟩ _ ⟨_, if_pos rfl, ?_⟩ 2020 1 1 11 5 7.5 exStart exValid (by norm_num) (by norm_num) (by norm_num)).2 ?_
  all_goals first | (decide +kernel) | skip
  unfold TimeSheet.Consistent
  norm_num

end S2E.InitTime
