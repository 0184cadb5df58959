import Verif.Proofs.Sp3
import Mathlib.Tactic.NormNum
/-!
# C150: reading SP3 files
-/
namespace S2E.Sp3
open S2E.Log S2E.Time

/-! ## Header -/

theorem toU64_nat {n : ℕ} (h : n < 2 ^ 31) : toU64 (n : ℤ) = n := by
  rw [toU64, Int.emod_eq_of_lt (by omega) (by norm_num at h ⊢; omega)]
  simp

theorem charAt_ok {l : Str} {i : ℕ} (h : i < l.length) : charAt l i = .ok l[i] := dif_pos h

theorem first_spec {c : Codec} {h : HeaderLines} {hd : Header} (ok : HeaderOk c h hd) (L : List Str) (R x : Str) :
    readFirst c ⟨⟨text (h.first :: L) ++ R, false, false⟩, x, {}⟩ = .ok (true, ⟨⟨text L ++ R, false, false⟩, h.first, { header := {
      mode := hd.mode, start := hd.start, epochs := hd.epochs, usedData := hd.usedData, coordinates := hd.coordinates, orbitType := hd.orbitType, agency := hd.agency } }⟩) := by
  have hl := ok.firstLength
  have hnb := ok.noBreak h.first (by simp [HeaderLines.lines])
  obtain ⟨t, t1, t2⟩ := ok.start
  obtain ⟨e1, e2⟩ := ok.epochs
  rw [readFirst, work_getline hnb]
  dsimp only
  rw [charAt_ok (show 2 < h.first.length by omega), charAt_ok (show 3 < h.first.length by omega), date_ok (by omega) t1, int_ok (by omega) e1, substr_ok (by omega),
    substr_ok (by omega), substr_ok (by omega), substr_ok (by omega)]
  have hm := ok.mode
  rw [List.getElem?_eq_getElem (show 2 < h.first.length by omega), List.getElem?_eq_getElem (show 3 < h.first.length by omega)] at hm
  simp only [Option.some.injEq] at hm
  simp only [Res.bind, toU64_nat e2, ok.usedData, ok.coordinates, ok.orbitType, ok.agency, t2, hm]
  split_ifs <;> rfl

theorem second_spec {c : Codec} {h : HeaderLines} {hd : Header} (ok : HeaderOk c h hd) (L : List Str) (R x : Str) (r : Reader) :
    readSecond c ⟨⟨text (h.second :: L) ++ R, false, false⟩, x, r⟩ = .ok (true, ⟨⟨text L ++ R, false, false⟩, h.second, { r with header := { r.header with
      gpsWeek := hd.gpsWeek, gpsSecond := hd.gpsSecond, interval := hd.interval, mjd := hd.mjd, mjdFraction := hd.mjdFraction } }⟩) := by
  have hnb := ok.noBreak h.second (by simp [HeaderLines.lines])
  obtain ⟨p1, p2⟩ := ok.secondLine
  rw [readSecond, work_getline hnb]
  dsimp only
  rw [starts_iff.mpr p1, int_ok (by omega) ok.gpsWeek, real_ok (by omega) ok.gpsSecond, real_ok (by omega) ok.interval, int_ok (by omega) ok.mjd, real_ok (by omega) ok.mjdFraction]
  rfl

theorem length_fields (L : List Str) : (L.flatMap fields).length = 17 * L.length := by
  induction L with
  | nil => rfl
  | cons a L ih => rw [List.flatMap_cons, List.length_append, ih]; simp [fields]; ring

theorem ids_spec {c : Codec} {h : HeaderLines} {hd : Header} (ok : HeaderOk c h hd) (next : Str) (hn : ['+', '+'] <+: next) (hnb : '\n' ∉ next) (M : List Str) (R x : Str) (r : Reader)
    (hr : r.header.ids = []) :
    readIds c ⟨⟨text (h.ids ++ next :: M) ++ R, false, false⟩, x, r⟩ = .ok (true, ⟨⟨text M ++ R, false, false⟩, next, { r with header := { r.header with
      satellites := hd.satellites, ids := hd.ids } }⟩) := by
  obtain ⟨l, ls, e1, e2, e3⟩ := ok.satellites
  have hlines := ok.idLines
  have hnbs : ∀ l ∈ h.ids, '\n' ∉ l := fun l hl => ok.noBreak l (by simp [HeaderLines.lines, hl])
  have hsize := ok.idsSize
  have hids := ok.ids
  rw [e1] at hlines hnbs hsize hids ⊢
  rw [readIds, List.cons_append, work_getline (hnbs l (by simp))]
  dsimp only
  have hl := hlines l (by simp)
  rw [starts_iff.mpr hl.1, int_ok (by omega) e2]
  simp only [Bool.not_true, Bool.false_eq_true, if_false, Res.bind, toU64_nat e3, hr]
  rw [lineLoop_spec (fun f => .ok f) id ['+', ' '] hd.satellites next (prefix_ne2 hn (by decide)) hnb M R ls l [] hlines (fun y hy => hnbs y (by simp [hy])) (fun _ _ => rfl)]
  simp only [List.length_nil, Nat.sub_zero, List.nil_append, List.map_id, ← hids]
  have : hd.ids.length = hd.satellites := by
    rw [hids, List.length_take, length_fields]
    omega
  rw [this]
  simp

theorem accuracy_spec {c : Codec} {h : HeaderLines} {hd : Header} (ok : HeaderOk c h hd) (l : Str) (ls : List Str) (e1 : h.accs = l :: ls) (next : Str) (hn : ¬['+', '+'] <+: next)
    (hnb : '\n' ∉ next) (M : List Str) (R : Str) (r : Reader) (hr : r.header.accuracy = []) (hs : r.header.satellites = hd.satellites) :
    readAccuracy c ⟨⟨text (ls ++ next :: M) ++ R, false, false⟩, l, r⟩ = .ok (true, ⟨⟨text M ++ R, false, false⟩, next, { r with header := { r.header with accuracy := hd.accuracy } }⟩) := by
  have hlines := ok.accLines.2
  have hnbs : ∀ l ∈ h.accs, '\n' ∉ l := fun l hl => ok.noBreak l (by simp [HeaderLines.lines, hl])
  have hsize := ok.accSize
  have hacc := ok.accuracy
  rw [e1] at hlines hnbs hsize hacc
  have hdec : ∀ f ∈ ((l :: ls).flatMap fields).take hd.satellites, c.accuracy f = .ok ((c.stoi f).getD 0 % 256).toNat := by
    intro f hf
    obtain ⟨hlen, hget⟩ := List.forall₂_iff_get.mp hacc
    obtain ⟨i, hi, rfl⟩ := List.mem_iff_getElem.mp hf
    have h1 := (hget i hi (by rw [← hlen]; exact hi)).1
    simp only [List.get_eq_getElem] at h1
    rw [Codec.accuracy, h1]
    rfl
  have hval : ∀ (L : List Str) (A : List ℕ), List.Forall₂ (fun f (a : ℕ) => c.stoi f = some (a : ℤ) ∧ a < 256) L A →
      L.map (fun f => ((c.stoi f).getD 0 % 256).toNat) = A := by
    intro L A hLA
    induction hLA with
    | nil => rfl
    | cons hab _ ih =>
      rw [List.map_cons, ih, hab.1]
      congr 1
      have := hab.2
      simp only [Option.getD_some]
      omega
  rw [readAccuracy]
  dsimp only
  rw [starts_iff.mpr (hlines l (by simp)).1, hr, hs]
  simp only [Bool.not_true, Bool.false_eq_true, if_false]
  rw [lineLoop_spec c.accuracy (fun f => ((c.stoi f).getD 0 % 256).toNat) ['+', '+'] hd.satellites next hn hnb M R ls l [] hlines (fun y hy => hnbs y (by simp [hy]))
    (by simpa using hdec)]
  simp only [List.length_nil, Nat.sub_zero, List.nil_append, hval _ _ hacc, Res.bind]
  have : hd.accuracy.length = hd.satellites := by
    rw [← hacc.length_eq, List.length_take, length_fields]
    omega
  rw [this]
  simp

theorem additional_spec {c : Codec} {h : HeaderLines} {hd : Header} (ok : HeaderOk c h hd) (L : List Str) (R : Str) (r : Reader) :
    readAdditional c ⟨⟨text (h.c2 :: h.f1 :: h.f2 :: h.i1 :: h.i2 :: L) ++ R, false, false⟩, h.c1, r⟩ = .ok (true, ⟨⟨text L ++ R, false, false⟩, h.i2, { r with header := { r.header with
      fileType := hd.fileType, timeSystem := hd.timeSystem, basePosition := hd.basePosition, baseClock := hd.baseClock } }⟩) := by
  have hnb : ∀ l ∈ [h.c1, h.c2, h.f1, h.f2, h.i1, h.i2], '\n' ∉ l := fun l hl => ok.noBreak l (by simp [HeaderLines.lines] at hl ⊢; tauto)
  obtain ⟨c1, c2, c3⟩ := ok.cLines
  obtain ⟨f1, f2, f3⟩ := ok.fLines
  obtain ⟨i1, i2⟩ := ok.iLines
  rw [readAdditional]
  dsimp only
  rw [starts_iff.mpr c1, substr_ok (by omega), substr_ok (by omega)]
  simp only [Bool.not_true, Bool.false_eq_true, if_false, Res.bind]
  rw [work_getline (hnb h.c2 (by simp))]
  dsimp only
  rw [starts_iff.mpr c2]
  simp only [Bool.not_true, Bool.false_eq_true, if_false]
  rw [work_getline (hnb h.f1 (by simp))]
  dsimp only
  rw [starts_iff.mpr f1, real_ok (by omega) ok.basePosition, real_ok (by omega) ok.baseClock]
  simp only [Bool.not_true, Bool.false_eq_true, if_false]
  rw [work_getline (hnb h.f2 (by simp))]
  dsimp only
  rw [starts_iff.mpr f2]
  simp only [Bool.not_true, Bool.false_eq_true, if_false]
  rw [work_getline (hnb h.i1 (by simp))]
  dsimp only
  rw [starts_iff.mpr i1]
  simp only [Bool.not_true, Bool.false_eq_true, if_false]
  rw [work_getline (hnb h.i2 (by simp))]
  dsimp only
  rw [starts_iff.mpr i2, ok.fileType, ok.timeSystem]

/-- The header of a file that goes on with the line `next`. -/
theorem header_spec {c : Codec} {h : HeaderLines} {hd : Header} (ok : HeaderOk c h hd) (next : Str) (hnext : ¬['/', '*'] <+: next) (hnb : '\n' ∉ next) (M : List Str) (R : Str) :
    ∃ l, readHeader c ⟨⟨text (h.lines ++ next :: M) ++ R, false, false⟩, [], {}⟩ = .ok (true, ⟨⟨text (next :: M) ++ R, false, false⟩, l, { header := hd }⟩) := by
  obtain ⟨l, ls, e1⟩ := List.exists_cons_of_ne_nil ok.accLines.1
  have hnbs : ∀ l ∈ h.lines, '\n' ∉ l := ok.noBreak
  have hl : ['+', '+'] <+: l := (ok.accLines.2 l (by simp [e1])).1
  refine ⟨h.i2, ?_⟩
  have hlines : h.lines ++ next :: M =
      h.first :: h.second :: (h.ids ++ l :: (ls ++ h.c1 :: (h.c2 :: h.f1 :: h.f2 :: h.i1 :: h.i2 :: (h.comments ++ next :: M)))) := by
    simp [HeaderLines.lines, e1]
  rw [hlines, readHeader]
  simp only [andThen, first_spec ok, Res.bind, if_true]
  simp only [second_spec ok, if_true]
  rw [ids_spec ok l hl (hnbs l (by simp [HeaderLines.lines, e1]))]
  · simp only [if_true]
    rw [accuracy_spec ok l ls e1 h.c1 (prefix_ne ok.cLines.1 (by decide)) (hnbs h.c1 (by simp [HeaderLines.lines]))]
    · simp only [if_true]
      rw [additional_spec ok]
      simp only [if_true]
      rw [commentLoop_spec next hnext hnb M R h.comments h.i2 (fun y hy => ⟨ok.commentLines y hy, hnbs y (by simp [HeaderLines.lines, hy])⟩)]
    · rfl
    · rfl
  · rfl

/-! ## Epochs -/

theorem mem_getD {m : List (List PositionClock)} {i : ℕ} : m.length ≤ i → m.getD i [] = [] := by
  intro h; simp [List.getElem?_eq_none h]

theorem length_pushAt {m : List (List PositionClock)} {i : ℕ} {a : PositionClock} (h : i ≤ m.length) : (pushAt m i a).length = max m.length (i + 1) := by
  rw [pushAt]
  split_ifs with hi
  · rw [List.length_modify]; omega
  · simp; omega

theorem getD_pushAt {m : List (List PositionClock)} {i : ℕ} {a : PositionClock} (h : i ≤ m.length) (j : ℕ) :
    (pushAt m i a).getD j [] = if j = i then m.getD i [] ++ [a] else m.getD j [] := by
  rw [pushAt]
  split_ifs with hi hj hj
  · subst hj
    simp [List.getElem?_eq_getElem hi]
  · rw [List.getD_eq_getElem?_getD, List.getElem?_modify]
    simp [show i ≠ j by omega]
  · subst hj
    have : m.length = j := by omega
    subst this
    simp
  · have hm : m.length = i := by omega
    rw [List.getD_eq_getElem?_getD, List.getD_eq_getElem?_getD, List.getElem?_append]
    split_ifs with hlt
    · rfl
    · have : j - m.length ≠ 0 := by omega
      rw [List.getElem?_eq_none (show m.length ≤ j by omega)]
      obtain ⟨k, hk⟩ := Nat.exists_eq_succ_of_ne_zero this
      rw [hk]
      simp

/-- A prefix without end of line, of the first line and of the rest of the file. -/
theorem prefix_takeWhile {p R : Str} (h : p <+: R.takeWhile (· ≠ '\n')) : p <+: R := h.trans (List.takeWhile_prefix _)

/-- The look-ahead on a line that is put back, or at the end of the file. -/
theorem lookAhead_back {c : Codec} {a : Char} {p R x : Str} {r : Reader} (hn : ¬(a :: p) <+: R) :
    ∃ w, lookAhead c (a :: p) ⟨⟨R, false, false⟩, x, r⟩ = .ok w ∧ w.reader = r ∧ (R ≠ [] → w.stream = ⟨R, false, false⟩) := by
  have hs : starts (a :: p) (R.takeWhile (· ≠ '\n')) = false := starts_false.mpr fun h => hn (prefix_takeWhile h)
  rw [lookAhead]
  simp only [Stream.tellg, Stream.good, Bool.not_false, Bool.and_self, if_true, Work.getline, Stream.getline]
  rcases hd : R.dropWhile (· ≠ '\n') with _ | ⟨y, t⟩
  · simp only [hs, Bool.false_eq_true, if_false]
    refine ⟨_, rfl, rfl, fun hR => ?_⟩
    obtain ⟨y, t, rfl⟩ := List.exists_cons_of_ne_nil hR
    simp [Stream.seekg]
  · simp only [hs, Bool.false_eq_true, if_false]
    exact ⟨_, rfl, rfl, fun hR => by simp [Stream.seekg]⟩

theorem prefix_text {p l : Str} (h : p <+: l) (L : List Str) (R : Str) : p <+: text (l :: L) ++ R := by
  rw [text_cons, List.append_assoc]
  exact h.trans (List.prefix_append _ _)

/-- One satellite of a file without velocities. -/
theorem sat_spec {c : Codec} {s : Sat} (ok : SatOk c s) (i : ℕ) (R : Str) (hR : ¬['E', 'P'] <+: R) (x : Str) (r : Reader) (hr : r.header.mode ≠ .velocity) :
    ∃ w, readSatellite c i ⟨⟨text s.lines ++ R, false, false⟩, x, r⟩ = .ok (true, w) ∧ w.reader = { r with position := pushAt r.position i s.value } ∧
      (R ≠ [] → w.stream = ⟨R, false, false⟩) := by
  have hnb := ok.noBreak s.p (by simp [Sat.lines])
  rw [readSatellite, Sat.lines, work_getline hnb]
  dsimp only
  rw [starts_iff.mpr ok.first, decode_ok c s.p s.value ok.length ok.data]
  simp only [Bool.not_true, Bool.false_eq_true, if_false, Res.bind]
  have hv : ∀ w : Work, w.reader.header = r.header → readVelocity c w = .ok (true, w) := by
    intro w hw
    rw [readVelocity, if_neg (by rw [hw]; exact hr)]
  rcases hep : s.ep with _ | l
  · simp only [Option.toList_none]
    obtain ⟨w, w1, w2, w3⟩ := lookAhead_back (c := c) (x := s.p) (r := { r with position := pushAt r.position i s.value }) hR
    have : text [] ++ R = R := rfl
    rw [this, w1]
    dsimp only
    rw [hv _ (by rw [w2])]
    exact ⟨_, rfl, w2, w3⟩
  · obtain ⟨e1, e2, e3⟩ := ok.correlation l hep
    have hnb2 := ok.noBreak l (by simp [Sat.lines, hep])
    simp only [Option.toList_some, lookAhead, Stream.tellg, Stream.good, Bool.not_false, Bool.and_self, if_true, work_getline hnb2, starts_iff.mpr e1,
      correlation_ok c l e2 e3, Res.bind]
    rw [hv _ rfl]
    exact ⟨_, rfl, rfl, fun _ => rfl⟩

/-- A run of satellites. -/
theorem sats_spec {c : Codec} : ∀ (S : List Sat) (_ : ∀ s ∈ S, SatOk c s) (i : ℕ) (R : Str) (_ : ¬['E', 'P'] <+: R) (w : Work)
    (_ : S ≠ [] ∨ R ≠ [] → w.stream = ⟨text (S.flatMap Sat.lines) ++ R, false, false⟩) (_ : w.reader.header.mode ≠ .velocity) (_ : i ≤ w.reader.position.length),
    ∃ w', satelliteLoop c S.length i w = .ok (true, w') ∧ w'.reader.header = w.reader.header ∧ w'.reader.epoch = w.reader.epoch ∧
      (R ≠ [] → w'.stream = ⟨R, false, false⟩) ∧ w'.reader.position.length = max w.reader.position.length (i + S.length) ∧
      ∀ j, w'.reader.position.getD j [] = if h : i ≤ j ∧ j - i < S.length then w.reader.position.getD j [] ++ [(S[j - i]'h.2).value] else w.reader.position.getD j [] := by
  intro S
  induction S with
  | nil =>
    intro _ i R _ w hw _ hi
    refine ⟨w, rfl, rfl, rfl, fun h => by simpa [text] using hw (Or.inr h), by simp [hi], fun j => by simp⟩
  | cons s S ih =>
    intro hS i R hR w hw hm hi
    obtain ⟨st, ln, r⟩ := w
    dsimp only at hw hm hi
    obtain rfl := hw (Or.inl (by simp))
    have hhead : ¬['E', 'P'] <+: text (S.flatMap Sat.lines) ++ R := by
      rcases S with _ | ⟨s2, S⟩
      · simpa [text] using hR
      · exact prefix_ne (prefix_text (hS s2 (by simp)).first _ _) (by decide)
    obtain ⟨w1, a1, a2, a3⟩ := sat_spec (hS s (by simp)) i (text (S.flatMap Sat.lines) ++ R) hhead ln r hm
    have hpos : (pushAt r.position i s.value).length = max r.position.length (i + 1) := length_pushAt hi
    obtain ⟨w', b1, b2, b3, b4, b5, b6⟩ := ih (fun x hx => hS x (by simp [hx])) (i + 1) R hR w1
      (fun h => a3 (by
        rcases h with h | h
        · obtain ⟨s2, S2, rfl⟩ := List.exists_cons_of_ne_nil h
          simp [Sat.lines, text]
        · simp [h]))
      (by rw [a2]; exact hm) (by rw [a2]; dsimp only; rw [hpos]; omega)
    refine ⟨w', ?_, by rw [b2, a2], by rw [b3, a2], b4, ?_, ?_⟩
    · rw [List.length_cons, satelliteLoop, List.flatMap_cons, text_append, List.append_assoc, a1, Res.bind]
      simp only [if_true]
      exact b1
    · rw [b5, a2]
      dsimp only
      rw [hpos, List.length_cons]
      omega
    · intro j
      rw [b6 j, a2]
      dsimp only
      rw [getD_pushAt hi]
      by_cases hj : j = i
      · subst hj
        simp
      · simp only [if_neg hj]
        by_cases h2 : i + 1 ≤ j ∧ j - (i + 1) < S.length
        · have h3 : i ≤ j ∧ j - i < (s :: S).length := ⟨by omega, by simp; omega⟩
          rw [dif_pos h2, dif_pos h3]
          have : j - i = (j - (i + 1)) + 1 := by omega
          simp only [this, List.getElem_cons_succ]
        · rw [dif_neg h2, dif_neg (by simp; omega)]

/-- The value of satellite `j` in an epoch, if it has that many satellites. -/
def Epoch.at (e : Epoch) (j : ℕ) : List PositionClock := ((e.sats[j]?).map Sat.value).toList

/-- One epoch. -/
theorem epoch_spec {c : Codec} {n : ℕ} {e : Epoch} (ok : EpochOk c n e) (R : Str) (hR : ¬['E', 'P'] <+: R) (w : Work)
    (hw : w.stream = ⟨text e.lines ++ R, false, false⟩) (hm : w.reader.header.mode ≠ .velocity) (hn : w.reader.header.satellites = n) :
    ∃ w', readEpoch c w = .ok (true, w') ∧ w'.reader.header = w.reader.header ∧ w'.reader.epoch = w.reader.epoch ++ [e.time] ∧
      (R ≠ [] → w'.stream = ⟨R, false, false⟩) ∧ w'.reader.position.length = max w.reader.position.length n ∧
      ∀ j, w'.reader.position.getD j [] = w.reader.position.getD j [] ++ e.at j := by
  obtain ⟨st, ln, r⟩ := w
  dsimp only at hw hm hn
  subst hw
  obtain ⟨w', b1, b2, b3, b4, b5, b6⟩ := sats_spec e.sats ok.sats 0 R hR ⟨⟨text (e.sats.flatMap Sat.lines) ++ R, false, false⟩, e.head, { r with epoch := r.epoch ++ [e.time] }⟩
    (fun _ => rfl) hm (by omega)
  refine ⟨w', ?_, b2, b3, b4, by rw [b5, ok.size]; simp, fun j => ?_⟩
  · rw [readEpoch, Epoch.lines]
    dsimp only
    rw [work_getline ok.noBreak]
    dsimp only
    rw [starts_iff.mpr ok.first, date_ok ok.length ok.time, hn, ← ok.size]
    exact b1
  · rw [b6 j, Epoch.at]
    by_cases h : j < e.sats.length
    · rw [dif_pos ⟨by omega, by simpa using h⟩, List.getElem?_eq_getElem h]
      simp
    · rw [dif_neg (by omega), List.getElem?_eq_none (by omega)]
      simp

/-- All epochs. -/
theorem epochs_spec {c : Codec} {n : ℕ} : ∀ (E : List Epoch) (_ : ∀ e ∈ E, EpochOk c n e) (R : Str) (_ : ¬['E', 'P'] <+: R) (w : Work)
    (_ : E ≠ [] ∨ R ≠ [] → w.stream = ⟨text (E.flatMap Epoch.lines) ++ R, false, false⟩) (_ : w.reader.header.mode ≠ .velocity) (_ : w.reader.header.satellites = n),
    ∃ w', epochLoop c E.length w = .ok (true, w') ∧ w'.reader.header = w.reader.header ∧ w'.reader.epoch = w.reader.epoch ++ E.map Epoch.time ∧
      (R ≠ [] → w'.stream = ⟨R, false, false⟩) ∧ (E ≠ [] → w'.reader.position.length = max w.reader.position.length n) ∧
      (E = [] → w'.reader.position = w.reader.position) ∧
      ∀ j, w'.reader.position.getD j [] = w.reader.position.getD j [] ++ E.flatMap (fun e => e.at j) := by
  intro E
  induction E with
  | nil => intro _ R _ w hw _ _; exact ⟨w, rfl, rfl, by simp, fun h => by simpa [text] using hw (Or.inr h), fun h => absurd rfl h, fun _ => rfl, by simp⟩
  | cons e E ih =>
    intro hE R hR w hw hm hn
    have hhead : ¬['E', 'P'] <+: text (E.flatMap Epoch.lines) ++ R := by
      rcases E with _ | ⟨e2, E⟩
      · simpa [text] using hR
      · exact prefix_ne (prefix_text (hE e2 (by simp)).first _ _) (by decide)
    obtain ⟨w1, a1, a2, a3, a4, a5, a6⟩ := epoch_spec (hE e (by simp)) (text (E.flatMap Epoch.lines) ++ R) hhead w
      (by rw [hw (Or.inl (by simp)), List.flatMap_cons, text_append, List.append_assoc]) hm hn
    obtain ⟨w', b1, b2, b3, b4, b5, b6, b7⟩ := ih (fun x hx => hE x (by simp [hx])) R hR w1
      (fun h => a4 (by
        rcases h with h | h
        · obtain ⟨e2, E2, rfl⟩ := List.exists_cons_of_ne_nil h
          simp [Epoch.lines, text]
        · simp [h])) (by rw [a2]; exact hm) (by rw [a2]; exact hn)
    refine ⟨w', ?_, b2.trans a2, by rw [b3, a3]; simp, b4, fun _ => ?_, fun h => by simp at h, fun j => by rw [b7, a6]; simp⟩
    · rw [List.length_cons, epochLoop, a1, Res.bind]
      simp only [if_true]
      exact b1
    · by_cases hE2 : E = []
      · rw [b6 hE2, a5]
      · rw [b5 hE2, a5]
        omega

/-! ## Files -/

theorem at_some {c : Codec} {n : ℕ} {e : Epoch} (ok : EpochOk c n e) {j : ℕ} (hj : j < n) : e.at j = [(e.sats[j]'(by rw [ok.size]; exact hj)).value] := by
  rw [Epoch.at, List.getElem?_eq_getElem (by rw [ok.size]; exact hj)]; rfl

theorem at_none {c : Codec} {n : ℕ} {e : Epoch} (ok : EpochOk c n e) {j : ℕ} (hj : n ≤ j) : e.at j = [] := by
  rw [Epoch.at, List.getElem?_eq_none (by rw [ok.size]; exact hj)]; rfl

/-- What one satellite says in each of the epochs. -/
theorem column {c : Codec} {n : ℕ} {E : List Epoch} (hE : ∀ e ∈ E, EpochOk c n e) {j : ℕ} (hj : j < n) :
    (E.flatMap fun e => e.at j).length = E.length ∧ ∀ i (hi : i < E.length), (E.flatMap fun e => e.at j)[i]? =
      some ((E[i].sats[j]'(by rw [(hE _ (List.getElem_mem hi)).size]; exact hj)).value) := by
  induction E with
  | nil => exact ⟨rfl, fun i hi => by simp at hi⟩
  | cons e E ih =>
    obtain ⟨h1, h2⟩ := ih fun x hx => hE x (by simp [hx])
    rw [List.flatMap_cons, at_some (hE e (by simp)) hj]
    refine ⟨by simp [h1], fun i hi => ?_⟩
    rcases i with _ | i
    · rfl
    · simpa using h2 i (by simpa using hi)

/-- **C150 (read).** A file of SP3-d layout with positions, at least two epochs and any lines after the last: everything is read. Epoch `i` has the time of its line, satellite `j` of epoch `i`
what the `j`-th position line of that epoch says (whatever identifier the line has). -/
theorem C150_read (c : Codec) (h : HeaderLines) (hd : Header) (ok : HeaderOk c h hd) (hm : h.first[2]? = some 'P') (E : List Epoch) (hE : ∀ e ∈ E, EpochOk c hd.satellites e)
    (hN : hd.epochs = E.length) (h2 : 2 ≤ E.length) (R : Str) (hR : ¬['E', 'P'] <+: R) :
    ∃ r, readFile c (some (text (h.lines ++ E.flatMap Epoch.lines) ++ R)) = .ok (true, r) ∧ r.header = hd ∧
      (∀ i (hi : i < E.length), getEpochData r i = .ok (some E[i].time)) ∧
      (∀ i (hi : i < E.length) j (hj : j < E[i].sats.length), getPositionClock r i j = .ok E[i].sats[j].value) ∧
      (∀ i j, E.length ≤ i ∨ max hd.satellites 2 ≤ j → getPositionClock r i j = .ok {}) ∧ (∀ i, E.length < i → getEpochData r i = .ok none) ∧
      getEpochData r E.length = .ub ∧ (∀ i < E.length, ∀ j, hd.satellites ≤ j → j < 2 → getPositionClock r i j = .ub) := by
  obtain ⟨e, E', rfl⟩ := List.exists_cons_of_ne_nil (show E ≠ [] by rintro rfl; simp at h2)
  set E := e :: E' with hEdef
  have oke := hE e (by simp [hEdef])
  have hmode : hd.mode ≠ .velocity := by rw [ok.mode, if_pos hm]; simp
  obtain ⟨l, hh⟩ := header_spec ok e.head (prefix_ne oke.first (by decide)) oke.noBreak (e.sats.flatMap Sat.lines ++ E'.flatMap Epoch.lines) R
  obtain ⟨w', b1, b2, b3, -, b5, -, b7⟩ := epochs_spec E hE R hR ⟨⟨text (E.flatMap Epoch.lines) ++ R, false, false⟩, l, { header := hd }⟩ (fun _ => rfl) hmode rfl
  have hlen : w'.reader.position.length = hd.satellites := by rw [b5 (by simp [hEdef])]; simp
  have hep : w'.reader.epoch = E.map Epoch.time := by rw [b3]; rfl
  have hget : ∀ j, w'.reader.position.getD j [] = E.flatMap fun e => e.at j := by intro j; rw [b7]; rfl
  refine ⟨{ w'.reader with position := touch (touch w'.reader.position 0) 1 }, ?_, b2, ?_, ?_, ?_, ?_, ?_, ?_⟩
  · have htext : text (h.lines ++ E.flatMap Epoch.lines) ++ R = text (h.lines ++ e.head :: (e.sats.flatMap Sat.lines ++ E'.flatMap Epoch.lines)) ++ R := by
      simp [hEdef, Epoch.lines]
    have htext2 : text (E.flatMap Epoch.lines) ++ R = text (e.head :: (e.sats.flatMap Sat.lines ++ E'.flatMap Epoch.lines)) ++ R := by
      simp [hEdef, Epoch.lines]
    rw [readFile]
    dsimp only
    rw [htext, hh, Res.bind]
    simp only [if_true]
    rw [htext2] at b1
    rw [hN, b1, Res.bind]
    simp only [if_true]
    rw [finalTouches, if_neg (by rw [hep, List.length_map]; omega), Res.bind]
  · intro i hi
    rw [getEpochData, hep, if_neg (by rw [List.length_map]; omega)]
    simp [List.getElem?_eq_getElem hi]
  · intro i hi j hj
    have hjn : j < hd.satellites := by rw [← (hE _ (List.getElem_mem hi)).size]; exact hj
    rw [getPositionClock, hep, if_neg (by rw [List.length_map]; omega)]
    have hpos : (touch (touch w'.reader.position 0) 1)[j]? = some (E.flatMap fun e => e.at j) := by
      have h0 : w'.reader.position[j]? = some (E.flatMap fun e => e.at j) := by
        have := hget j
        rw [List.getD_eq_getElem?_getD, List.getElem?_eq_getElem (by rw [hlen]; exact hjn), Option.getD_some] at this
        rw [List.getElem?_eq_getElem (by rw [hlen]; exact hjn), this]
      have ht : ∀ (m : List (List PositionClock)) k v, m[j]? = some v → (touch m k)[j]? = some v := by
        intro m k v hv
        rw [touch]
        split_ifs
        · exact hv
        · rw [List.getElem?_append_left (List.getElem?_eq_some_iff.mp hv).1]; exact hv
      exact ht _ _ _ (ht _ _ _ h0)
    simp only [hpos, (column hE hjn).2 i hi]
  · intro i j hij
    rw [getPositionClock, hep, List.length_map]
    split_ifs with hi
    · rfl
    · have hlen2 : (touch (touch w'.reader.position 0) 1).length = max hd.satellites 2 := by
        rw [← hlen]
        unfold touch
        split_ifs <;> simp_all <;> omega
      have : (touch (touch w'.reader.position 0) 1)[j]? = none := List.getElem?_eq_none (by rw [hlen2]; omega)
      simp only [this]
  · intro i hi
    rw [getEpochData, hep, List.length_map, if_pos hi]
  · rw [getEpochData, hep, List.length_map, if_neg (by omega), List.getElem?_eq_none (by simp)]
  · intro i hi j hj1 hj2
    rw [getPositionClock, hep, List.length_map, if_neg (by omega)]
    have : (touch (touch w'.reader.position 0) 1)[j]? = some [] := by
      rcases hm : w'.reader.position with _ | ⟨a, _ | ⟨b, m⟩⟩
      · have : j = 0 ∨ j = 1 := by omega
        rcases this with rfl | rfl <;> simp [touch]
      · rw [hm] at hlen
        have : j = 1 := by simp at hlen; omega
        subst this
        simp [touch]
      · rw [hm] at hlen
        simp at hlen
        omega
    simp only [this, List.getElem?_nil]

/-- **C150 (position line).** A position line of length 46–61, 70–73 or at least 79 (80 columns are the full record) is read as it says; for every other length an exception leaves the reader. -/
theorem C150_position_line (c : Codec) (l : Str) : (∀ v, GoodLength l.length → Says c l v → decodePosition c l = .ok v) ∧ (¬GoodLength l.length → decodePosition c l = .throws) :=
  ⟨fun v h1 h2 => decode_ok c l v h1 h2, decode_throws c l⟩

/-- **C150 (one epoch).** A file with a single epoch: the reader accesses the second epoch, which does not exist. -/
theorem C150_one_epoch (c : Codec) (h : HeaderLines) (hd : Header) (ok : HeaderOk c h hd) (hm : h.first[2]? = some 'P') (e : Epoch) (he : EpochOk c hd.satellites e)
    (hN : hd.epochs = 1) (R : Str) (hR : ¬['E', 'P'] <+: R) : readFile c (some (text (h.lines ++ e.lines) ++ R)) = .ub := by
  have hmode : hd.mode ≠ .velocity := by rw [ok.mode, if_pos hm]; simp
  obtain ⟨l, hh⟩ := header_spec ok e.head (prefix_ne he.first (by decide)) he.noBreak (e.sats.flatMap Sat.lines) R
  obtain ⟨w', b1, b2, b3, -⟩ := epochs_spec [e] (by simpa using he) R hR ⟨⟨text e.lines ++ R, false, false⟩, l, { header := hd }⟩ (fun _ => by simp) hmode rfl
  rw [readFile]
  try dsimp only
  rw [Epoch.lines, hh, Res.bind]
  simp only [if_true]
  rw [Epoch.lines, List.length_singleton] at b1
  rw [hN, b1, Res.bind]
  simp only [if_true]
  rw [finalTouches, if_pos (by rw [b3]; simp), Res.bind]

theorem satelliteLoop_add (c : Codec) : ∀ (a b i : ℕ) (w : Work),
    satelliteLoop c (a + b) i w = (satelliteLoop c a i w).bind fun x => if x.1 then satelliteLoop c b (i + a) x.2 else .ok (false, x.2) := by
  intro a
  induction a with
  | zero => intro b i w; simp [satelliteLoop, Res.bind]
  | succ a ih =>
    intro b i w
    rw [show a + 1 + b = (a + b) + 1 by omega, satelliteLoop, satelliteLoop]
    rcases readSatellite c i w with ⟨x, w'⟩ | _ | _ | _
    · simp only [Res.bind]
      rcases x
      · simp
      · simp only [if_true]
        rw [ih b (i + 1) w', show i + 1 + a = i + (a + 1) by omega]
        rfl
    all_goals rfl

theorem epochLoop_add (c : Codec) : ∀ (a b : ℕ) (w : Work),
    epochLoop c (a + b) w = (epochLoop c a w).bind fun x => if x.1 then epochLoop c b x.2 else .ok (false, x.2) := by
  intro a
  induction a with
  | zero => intro b w; simp [epochLoop, Res.bind]
  | succ a ih =>
    intro b w
    rw [show a + 1 + b = (a + b) + 1 by omega, epochLoop, epochLoop]
    rcases readEpoch c w with ⟨x, w'⟩ | _ | _ | _
    · simp only [Res.bind]
      rcases x
      · simp
      · simp only [if_true]
        rw [ih b w']
        rfl
    all_goals rfl

/-- **C150 (velocity).** A file whose third character is not `P` and whose fourth is not `V` (in the format the mode letter is the third character, the year begins with the fourth) and in which velocity
lines follow the position lines: reading fails after the first position line, which is all that the reader then has. -/
theorem C150_velocity (c : Codec) (h : HeaderLines) (hd : Header) (ok : HeaderOk c h hd) (hm : h.first[2]? = some 'V') (hm3 : h.first[3]? ≠ some 'V') (e : Str) (t : DateTime ℝ)
    (he : ['*', ' '] <+: e ∧ '\n' ∉ e ∧ 3 ≤ e.length ∧ c.scan (cols e 3 28) = some t) (s : Sat) (hs : SatOk c s) (v : Str) (hv : ['V'] <+: v ∧ '\n' ∉ v) (L : List Str)
    (hn : 2 ≤ hd.satellites ∧ 1 ≤ hd.epochs ∨ hd.satellites = 1 ∧ 2 ≤ hd.epochs) :
    ∃ r, readFile c (some (text (h.lines ++ e :: (s.lines ++ v :: L)))) = .ok (false, r) ∧ r.header = hd ∧ r.epoch = [t] ∧ r.position = [[s.value]] := by
  have hmode : hd.mode ≠ .velocity := by
    rw [ok.mode, if_neg (by rw [hm]; decide), if_neg hm3]
    simp
  obtain ⟨he1, he2, he3, he4⟩ := he
  obtain ⟨l, hh⟩ := header_spec ok e (prefix_ne he1 (by decide)) he2 (s.lines ++ v :: L) []
  rw [List.append_nil, List.append_nil] at hh
  have hvn : ¬['E', 'P'] <+: text (v :: L) := by
    have := prefix_text hv.1 L []
    rw [List.append_nil] at this
    exact prefix_ne this (by decide)
  obtain ⟨w1, a1, a2, a3⟩ := sat_spec hs 0 (text (v :: L)) hvn e { header := hd, epoch := [t] } hmode
  replace a3 := a3 (by simp [text])
  have hgl : ∀ x, (⟨text (v :: L), false, false⟩ : Stream).getline x = (⟨text L, false, false⟩, v) := by
    intro x
    have := getline_text (x := x) (R := []) (L := L) hv.2
    simpa using this
  rw [← text_append] at a1
  have hpn : starts ['P'] v = false := starts_false.mpr (prefix_ne hv.1 (by decide))
  have hen : starts ['*', ' '] v = false := starts_false.mpr (prefix_ne hv.1 (by decide))
  have hnl : (⟨text (e :: (s.lines ++ v :: L)), false, false⟩ : Stream).getline [] = (⟨text (s.lines ++ v :: L), false, false⟩, e) := by
    have := getline_text (x := []) (R := []) (L := s.lines ++ v :: L) he2
    simpa using this
  have hep : ∀ l, readEpoch c ⟨⟨text (e :: (s.lines ++ v :: L)), false, false⟩, l, { header := hd }⟩ =
      satelliteLoop c hd.satellites 0 ⟨⟨text (s.lines ++ v :: L), false, false⟩, e, { header := hd, epoch := [t] }⟩ := by
    intro l
    rw [readEpoch]
    simp only [Work.getline, hnl, starts_iff.mpr he1, date_ok he3 he4, Bool.not_true, Bool.false_eq_true, if_false, Res.bind, List.nil_append]
  rw [readFile]
  try dsimp only
  rw [hh, Res.bind]
  simp only [if_true]
  have hpos : ({ header := hd, epoch := [t], position := pushAt [] 0 s.value } : Reader).position = [[s.value]] := rfl
  rcases hn with ⟨n1, n2⟩ | ⟨n1, n2⟩
  · obtain ⟨n, hn⟩ : ∃ n, hd.satellites = n + 2 := ⟨hd.satellites - 2, by omega⟩
    obtain ⟨m, hm'⟩ : ∃ m, hd.epochs = m + 1 := ⟨hd.epochs - 1, by omega⟩
    have hloop : satelliteLoop c (n + 2) 0 ⟨⟨text (s.lines ++ v :: L), false, false⟩, e, { header := hd, epoch := [t] }⟩ = .ok (false, w1.getline) := by
      rw [satelliteLoop, a1, Res.bind]
      simp only [if_true]
      rw [satelliteLoop, readSatellite]
      simp only [Work.getline, a3, hgl, hpn, Bool.not_false, if_true, Res.bind, Bool.false_eq_true, if_false]
    rw [hm', epochLoop, hep, hn, hloop]
    simp only [Res.bind, Bool.false_eq_true, if_false]
    refine ⟨_, rfl, ?_, ?_, ?_⟩
    · show w1.reader.header = hd
      rw [a2]
    · show w1.reader.epoch = [t]
      rw [a2]
    · show w1.reader.position = _
      rw [a2]; rfl
  · obtain ⟨m, hm'⟩ : ∃ m, hd.epochs = m + 2 := ⟨hd.epochs - 2, by omega⟩
    have hloop : satelliteLoop c 1 0 ⟨⟨text (s.lines ++ v :: L), false, false⟩, e, { header := hd, epoch := [t] }⟩ = .ok (true, w1) := by
      rw [satelliteLoop, a1, Res.bind]
      simp only [if_true]
      rw [satelliteLoop]
    rw [hm', epochLoop, hep, n1, hloop]
    simp only [Res.bind, if_true]
    rw [epochLoop, readEpoch]
    simp only [Work.getline, a3, hgl, hen, Bool.not_false, if_true, Res.bind, Bool.false_eq_true, if_false]
    refine ⟨_, rfl, ?_, ?_, ?_⟩
    · rw [a2]
    · rw [a2]
    · rw [a2]; rfl

theorem takeWhile_all {q : Char → Bool} {l : Str} (h : ∀ a ∈ l, q a = true) : l.takeWhile q = l := by
  induction l with
  | nil => rfl
  | cons a l ih => rw [List.takeWhile_cons_of_pos (h a (by simp)), ih fun b hb => h b (by simp [hb])]

theorem dropWhile_all {q : Char → Bool} {l : Str} (h : ∀ a ∈ l, q a = true) : l.dropWhile q = [] := by
  induction l with
  | nil => rfl
  | cons a l ih => rw [List.dropWhile_cons_of_pos (h a (by simp)), ih fun b hb => h b (by simp [hb])]

theorem lookAhead_stale {c : Codec} {q : Str} {u : Work} (h : u.stream.good = false) (hn : starts q u.line = false) :
    lookAhead c q u = .ok { u with stream := ⟨u.stream.rest, false, true⟩ } := by
  obtain ⟨⟨a, b, d⟩, l, r⟩ := u
  have hb : Stream.good ⟨a, b, true⟩ = false := by simp [Stream.good]
  dsimp only at h hn
  simp only [lookAhead, Stream.tellg, h, Bool.false_eq_true, if_false, Work.getline, Stream.getline, hb, hn, Stream.seekg, if_true]

/-- On a stream at its end the last line is read again for every further satellite. -/
theorem stale_spec {c : Codec} {p : Str} {v : PositionClock} (hp : ['P'] <+: p) (hl : GoodLength p.length) (hv : Says c p v) : ∀ (k i : ℕ) (w : Work),
    (w.stream.good = false ∧ w.line = p ∨ w.stream = ⟨p, false, false⟩ ∧ '\n' ∉ p) → w.reader.header.mode ≠ .velocity → i ≤ w.reader.position.length →
    ∃ w', satelliteLoop c k i w = .ok (true, w') ∧ w'.reader.header = w.reader.header ∧ w'.reader.epoch = w.reader.epoch ∧
      w'.reader.position.length = max w.reader.position.length (i + k) ∧
      ∀ j, w'.reader.position.getD j [] = if i ≤ j ∧ j < i + k then w.reader.position.getD j [] ++ [v] else w.reader.position.getD j [] := by
  intro k
  induction k with
  | zero =>
    intro i w _ _ hi
    exact ⟨w, rfl, rfl, rfl, by simp [hi], fun j => by rw [if_neg (by omega)]⟩
  | succ k ih =>
    intro i w hw hm hi
    have hg : w.getline.stream.good = false ∧ w.getline.line = p ∧ w.getline.reader = w.reader := by
      rcases hw with ⟨h1, h2⟩ | ⟨h1, h2⟩
      · simp only [Work.getline, Stream.getline, h1, Bool.false_eq_true, if_false, h2]
        simp [Stream.good]
      · have e1 : p.takeWhile (· ≠ '\n') = p := by
          apply takeWhile_all
          intro a ha
          have : a ≠ '\n' := fun e => h2 (e ▸ ha)
          simpa using this
        have e2 : p.dropWhile (· ≠ '\n') = [] := by
          apply dropWhile_all
          intro a ha
          have : a ≠ '\n' := fun e => h2 (e ▸ ha)
          simpa using this
        simp only [Work.getline, Stream.getline, h1, e2]
        refine ⟨rfl, ?_⟩
        simpa [Stream.good] using e1
    obtain ⟨g1, g2, g3⟩ := hg
    have hne : starts ['E', 'P'] p = false := starts_false.mpr (prefix_ne hp (by decide))
    have hone : ∃ w1, readSatellite c i w = .ok (true, w1) ∧ w1.stream.good = false ∧ w1.line = p ∧ w1.reader = { w.reader with position := pushAt w.reader.position i v } := by
      rw [readSatellite]
      generalize w.getline = u at g1 g2 g3 ⊢
      dsimp only
      rw [g2, starts_iff.mpr hp, decode_ok c p v hl hv]
      simp only [Bool.not_true, Bool.false_eq_true, if_false, Res.bind]
      rw [lookAhead_stale (u := ⟨u.stream, p, _⟩) g1 hne]
      simp only [readVelocity]
      rw [g3, if_neg hm]
      exact ⟨_, rfl, by simp [Stream.good], rfl, rfl⟩
    obtain ⟨w1, a1, a2, a3, a4⟩ := hone
    have hpos : (pushAt w.reader.position i v).length = max w.reader.position.length (i + 1) := length_pushAt hi
    obtain ⟨w', b1, b2, b3, b4, b5⟩ := ih (i + 1) w1 (Or.inl ⟨a2, a3⟩) (by rw [a4]; exact hm) (by rw [a4]; dsimp only; rw [hpos]; omega)
    refine ⟨w', ?_, by rw [b2, a4], by rw [b3, a4], ?_, ?_⟩
    · rw [satelliteLoop, a1, Res.bind]
      simp only [if_true]
      exact b1
    · rw [b4, a4]; dsimp only; rw [hpos]; omega
    · intro j
      rw [b5 j, a4]
      dsimp only
      rw [getD_pushAt hi]
      by_cases hj : j = i
      · subst hj
        rw [if_neg (by omega), if_pos rfl, if_pos (by omega)]
      · rw [if_neg hj]
        split_ifs <;> first | rfl | omega

/-- **C150 (truncated).** A file that ends, without an end of line, with a position line in the last epoch, before all satellites are there: reading succeeds, and all missing satellites have the data of
that line in that epoch. -/
theorem C150_truncated (c : Codec) (h : HeaderLines) (hd : Header) (ok : HeaderOk c h hd) (hm : h.first[2]? = some 'P') (E : List Epoch) (hE : ∀ e ∈ E, EpochOk c hd.satellites e)
    (hN : hd.epochs = E.length + 1) (hE1 : E ≠ []) (e : Str) (t : DateTime ℝ) (he : ['*', ' '] <+: e ∧ '\n' ∉ e ∧ 3 ≤ e.length ∧ c.scan (cols e 3 28) = some t)
    (S : List Sat) (hS : ∀ s ∈ S, SatOk c s) (hk : S.length < hd.satellites) (p : Str) (v : PositionClock) (hp : ['P'] <+: p ∧ '\n' ∉ p) (hl : GoodLength p.length) (hv : Says c p v) :
    ∃ r, readFile c (some (text (h.lines ++ (E.flatMap Epoch.lines ++ e :: S.flatMap Sat.lines)) ++ p)) = .ok (true, r) ∧
      (∀ j (hj : j < S.length), getPositionClock r E.length j = .ok S[j].value) ∧
      ∀ j, S.length ≤ j → j < hd.satellites → getPositionClock r E.length j = .ok v := by
  obtain ⟨he1, he2, he3, he4⟩ := he
  obtain ⟨e0, E', rfl⟩ := List.exists_cons_of_ne_nil hE1
  set E := e0 :: E' with hEdef
  have oke := hE e0 (by simp [hEdef])
  have hmode : hd.mode ≠ .velocity := by rw [ok.mode, if_pos hm]; simp
  have hpe : p ≠ [] := by rintro rfl; simpa using hp.1
  set R := text (e :: S.flatMap Sat.lines) ++ p with hRdef
  have hR : ¬['E', 'P'] <+: R := prefix_ne (prefix_text he1 _ _) (by decide)
  obtain ⟨l, hh⟩ := header_spec ok e0.head (prefix_ne oke.first (by decide)) oke.noBreak (e0.sats.flatMap Sat.lines ++ E'.flatMap Epoch.lines) R
  obtain ⟨w1, a1, a2, a3, a4, a5, -, a7⟩ := epochs_spec E hE R hR ⟨⟨text (E.flatMap Epoch.lines) ++ R, false, false⟩, l, { header := hd }⟩ (fun _ => rfl) hmode rfl
  replace a4 := a4 (by simp [hRdef, hpe])
  have hlen1 : w1.reader.position.length = hd.satellites := by rw [a5 (by simp [hEdef])]; simp
  have hpn : ¬['E', 'P'] <+: p := prefix_ne hp.1 (by decide)
  obtain ⟨w2, b1, b2, b3, b4, b5, b6⟩ := sats_spec S hS 0 p hpn ⟨⟨text (S.flatMap Sat.lines) ++ p, false, false⟩, e, { w1.reader with epoch := w1.reader.epoch ++ [t] }⟩
    (fun _ => rfl) (by dsimp only; rw [a2]; exact hmode) (by omega)
  dsimp only at b2 b3 b5 b6
  obtain ⟨w3, c1, c2, c3, c4, c5⟩ := stale_spec hp.1 hl hv (hd.satellites - S.length) S.length w2 (Or.inr ⟨b4 hpe, hp.2⟩) (by rw [b2, a2]; exact hmode) (by rw [b5]; omega)
  have hep : w3.reader.epoch = E.map Epoch.time ++ [t] := by rw [c3, b3, a3]; rfl
  have hlen3 : w3.reader.position.length = hd.satellites := by rw [c4, b5, hlen1]; omega
  have hgo : epochLoop c hd.epochs ⟨⟨text (E.flatMap Epoch.lines) ++ R, false, false⟩, l, { header := hd }⟩ = .ok (true, w3) := by
    rw [hN, epochLoop_add, a1, Res.bind]
    simp only [if_true]
    rw [epochLoop, readEpoch]
    have hst : ({ w1 with line := [] } : Work) = ⟨⟨text (e :: S.flatMap Sat.lines) ++ p, false, false⟩, [], w1.reader⟩ := by
      rw [a4]
    rw [hst, work_getline he2]
    dsimp only
    rw [starts_iff.mpr he1, date_ok he3 he4, a2]
    simp only [Bool.not_true, Bool.false_eq_true, if_false, Res.bind]
    rw [show hd.satellites = S.length + (hd.satellites - S.length) by omega, satelliteLoop_add]
    have a2' : w1.reader.header = hd := a2
    simp only [a2'] at b1
    rw [b1]
    simp only [Res.bind, if_true, Nat.zero_add]
    rw [c1]
    rfl
  have hval : ∀ j < hd.satellites, ∀ x, w3.reader.position.getD j [] = (E.flatMap fun e => e.at j) ++ [x] →
      getPositionClock { w3.reader with position := touch (touch w3.reader.position 0) 1 } E.length j = .ok x := by
    intro j hj x hx
    rw [getPositionClock, hep, if_neg (by simp)]
    have h0 : w3.reader.position[j]? = some ((E.flatMap fun e => e.at j) ++ [x]) := by
      rw [List.getD_eq_getElem?_getD, List.getElem?_eq_getElem (by rw [hlen3]; exact hj), Option.getD_some] at hx
      rw [List.getElem?_eq_getElem (by rw [hlen3]; exact hj), hx]
    have ht : ∀ (m : List (List PositionClock)) k v, m[j]? = some v → (touch m k)[j]? = some v := by
      intro m k v hv
      rw [touch]
      split_ifs
      · exact hv
      · rw [List.getElem?_append_left (List.getElem?_eq_some_iff.mp hv).1]; exact hv
    simp only [ht _ _ _ (ht _ _ _ h0)]
    rw [← (column hE hj).1]
    simp
  have hold : ∀ j, w1.reader.position.getD j [] = E.flatMap fun e => e.at j := by intro j; rw [a7]; rfl
  refine ⟨{ w3.reader with position := touch (touch w3.reader.position 0) 1 }, ?_, ?_, ?_⟩
  · have htext : text (h.lines ++ (E.flatMap Epoch.lines ++ e :: S.flatMap Sat.lines)) ++ p =
        text (h.lines ++ e0.head :: (e0.sats.flatMap Sat.lines ++ E'.flatMap Epoch.lines)) ++ R := by
      simp [hEdef, hRdef, Epoch.lines, text]
    have htext2 : text (E.flatMap Epoch.lines) ++ R = text (e0.head :: (e0.sats.flatMap Sat.lines ++ E'.flatMap Epoch.lines)) ++ R := by
      simp [hEdef, Epoch.lines]
    rw [readFile]
    try dsimp only
    rw [htext, hh, Res.bind]
    simp only [if_true]
    rw [← htext2, hgo, Res.bind]
    simp only [if_true]
    rw [finalTouches, if_neg (by rw [hep]; simp [hEdef]), Res.bind]
  · intro j hj
    apply hval j (by omega)
    rw [c5 j, if_neg (by omega), b6 j, dif_pos ⟨by omega, by simpa using hj⟩, hold]
    simp
  · intro j hj hj2
    apply hval j hj2
    rw [c5 j, if_pos (by omega), b6 j, dif_neg (by omega), hold]

/-! ## An example -/

/-- A line padded with blanks. -/
def padded (s : String) (n : ℕ) : Str := s.toList ++ List.replicate (n - s.toList.length) ' '

/-- A codec for the example: every integer is 2, every real number is 1. -/
noncomputable def exampleCodec : Codec := ⟨fun _ => some 2, fun _ => some 1, fun _ => some ⟨2024, 1, 1, 0, 0, 0⟩⟩

/-- Header lines of the example. -/
def exampleLines (m : String) : HeaderLines :=
  ⟨padded m 80, padded "##" 80, [padded "+ " 80], [padded "++" 80], padded "%c" 80, padded "%c" 80, padded "%f" 80, padded "%f" 80, padded "%i" 80, padded "%i" 80, [padded "/*" 80]⟩

/-- What they say. -/
noncomputable def exampleHeader (m : Mode) : Header where
  mode := m
  start := some ⟨2024, 1, 1, 0, 0, 0⟩
  epochs := 2
  usedData := List.replicate 5 ' '
  coordinates := List.replicate 5 ' '
  agency := List.replicate 4 ' '
  gpsWeek := 2
  gpsSecond := 1
  interval := 1
  mjd := 2
  mjdFraction := 1
  satellites := 2
  ids := [List.replicate 3 ' ', List.replicate 3 ' ']
  accuracy := [2, 2]
  fileType := List.replicate 2 ' '
  timeSystem := List.replicate 3 ' '
  basePosition := 1
  baseClock := 1

theorem example_ok (m : String) (k : Mode) (hmk : (m, k) = ("#dP2024", .position) ∨ (m, k) = ("#dV2024", .other)) : HeaderOk exampleCodec (exampleLines m) (exampleHeader k) := by
  rcases hmk with h | h <;> obtain ⟨rfl, rfl⟩ := Prod.mk.inj h
  all_goals
    refine ⟨by decide +kernel, by decide +kernel, by decide +kernel, ⟨_, rfl, rfl⟩, ⟨rfl, by decide⟩, by decide +kernel, by decide +kernel, by decide +kernel, by decide +kernel, by decide +kernel,
      rfl, rfl, rfl, rfl, rfl, by decide +kernel, ⟨_, _, rfl, rfl, by decide⟩, by decide, by decide +kernel, by decide +kernel, by decide, ?_, by decide +kernel, by decide +kernel,
      by decide +kernel, by decide +kernel, rfl, rfl, by decide +kernel, by decide +kernel⟩
    have : (([padded "++" 80].flatMap fields).take 2) = [List.replicate 3 ' ', List.replicate 3 ' '] := by decide +kernel
    exact this ▸ .cons ⟨rfl, by decide⟩ (.cons ⟨rfl, by decide⟩ .nil)

/-- A satellite of the example. -/
noncomputable def exampleSat : Sat where
  p := padded "PG01" 80
  ep := some (padded "EP" 80)
  value := { id := "G01".toList, position := ![1, 1, 1], clock := 1, positionDeviation := ![1, 1, 1], clockDeviation := 1 }

theorem exampleSat_ok : SatOk exampleCodec exampleSat where
  noBreak := by simp only [exampleSat, Sat.lines]; decide +kernel
  first := by simp only [exampleSat]; decide +kernel
  length := Or.inr (Or.inr (by simp only [exampleSat]; decide +kernel))
  data := by
    refine ⟨by simp only [exampleSat]; decide +kernel, rfl, rfl, rfl, rfl, ?_, ?_, ?_, ?_, ?_, ?_⟩
    · rw [if_pos (by simp only [exampleSat]; decide +kernel)]; rfl
    · rw [if_pos (by simp only [exampleSat]; decide +kernel)]; rfl
    all_goals simp only [exampleSat]; decide +kernel
  correlation := by
    intro l hl
    obtain rfl := Option.some.inj hl
    exact ⟨by decide +kernel, by decide +kernel, fun f _ => ⟨2, rfl⟩⟩

/-- An epoch of the example. -/
noncomputable def exampleEpoch : Epoch := ⟨padded "*  2024" 31, ⟨2024, 1, 1, 0, 0, 0⟩, [exampleSat, exampleSat]⟩

theorem exampleEpoch_ok : EpochOk exampleCodec 2 exampleEpoch where
  noBreak := by simp only [exampleEpoch]; decide +kernel
  first := by simp only [exampleEpoch]; decide +kernel
  length := by simp only [exampleEpoch]; decide +kernel
  time := rfl
  size := rfl
  sats := by
    intro s hs
    simp only [exampleEpoch, List.mem_cons, List.not_mem_nil, or_false, or_self] at hs
    rw [hs]; exact exampleSat_ok

/-- The hypotheses of the theorems hold for a file of two epochs with two satellites. -/
example : HeaderOk exampleCodec (exampleLines "#dP2024") (exampleHeader .position) ∧ (exampleLines "#dP2024").first[2]? = some 'P' ∧
    (∀ e ∈ [exampleEpoch, exampleEpoch], EpochOk exampleCodec (exampleHeader .position).satellites e) ∧ (exampleHeader .position).epochs = [exampleEpoch, exampleEpoch].length ∧
    ¬['E', 'P'] <+: "EOF\n".toList :=
  ⟨example_ok _ _ (Or.inl rfl), by decide +kernel, fun e he => by
    simp only [List.mem_cons, List.not_mem_nil, or_false, or_self] at he
    rw [he]; exact exampleEpoch_ok, rfl, by decide⟩

/-- Those of the theorem about velocity files. -/
example : HeaderOk exampleCodec (exampleLines "#dV2024") (exampleHeader .other) ∧ (exampleLines "#dV2024").first[2]? = some 'V' ∧ (exampleLines "#dV2024").first[3]? ≠ some 'V' ∧
    2 ≤ (exampleHeader .other).satellites ∧ 1 ≤ (exampleHeader .other).epochs ∧ ['V'] <+: padded "VG01" 80 ∧ '\n' ∉ padded "VG01" 80 :=
  ⟨example_ok _ _ (Or.inr rfl), by decide +kernel, by decide +kernel, by decide, by decide, by decide +kernel, by decide +kernel⟩

/-- Those of the theorem about truncated files: the first satellite's line of the second epoch is the unfinished last line. -/
example : (exampleHeader .position).epochs = [exampleEpoch].length + 1 ∧ ([] : List Sat).length < (exampleHeader .position).satellites ∧ ['P'] <+: exampleSat.p ∧ '\n' ∉ exampleSat.p ∧
    GoodLength exampleSat.p.length ∧ Says exampleCodec exampleSat.p exampleSat.value :=
  ⟨rfl, by decide, exampleSat_ok.first, exampleSat_ok.noBreak _ (by simp [Sat.lines]), exampleSat_ok.length, exampleSat_ok.data⟩

end S2E.Sp3
