import Verif.Model.GnssSat
import Verif.Props.InterpolationWindow
import Mathlib.Tactic.Linarith

/-!
# C89: GNSS satellite ephemeris from SP3 files

Specification: the files are one stream of epochs; the object holds nine consecutive epochs of it.
-/
namespace S2E.GnssSat
open S2E.Interp

section
variable {K : Type} [Field K] [LinearOrder K]

/-- A completely read file: as many epochs as announced (at least one) and one entry per epoch for every satellite. -/
def Complete (f : Sp3 K) : Prop :=
  f.numberOfEpoch = f.epochs.length ∧ 0 < f.epochs.length ∧ ∀ l ∈ f.positionClock, l.length = f.epochs.length

/-- Position and clock of a satellite at an epoch of a file (the bad value markers for a satellite the file does not have). -/
def entry (f : Sp3 K) (epoch sat : ℕ) : PositionClock K :=
  if sat < f.positionClock.length then (f.positionClock.getD sat []).getD epoch badPositionClock else badPositionClock

/-- The epochs of a file with their data. -/
def items (f : Sp3 K) : List (K × (ℕ → PositionClock K)) :=
  (List.range f.epochs.length).map fun j => (f.epochs.getD j 0, entry f j)

/-- All files as one stream of epochs. -/
def stream (files : List (Sp3 K)) : List (K × (ℕ → PositionClock K)) := files.flatMap items

theorem getEpochData_ok (z : K) {f : Sp3 K} {id : ℕ} (h : id < f.epochs.length) : getEpochData z f id = .ok (f.epochs.getD id 0) := by
  unfold getEpochData
  rw [if_neg (by omega), List.getElem?_eq_getElem h]
  simp [List.getD_eq_getElem?_getD, h]

theorem getPositionClock_ok {f : Sp3 K} (hf : Complete f) {id : ℕ} (h : id < f.epochs.length) (sat : ℕ) :
    getPositionClock f id sat = .ok (entry f id sat) := by
  unfold getPositionClock entry
  rw [if_neg (by omega)]
  by_cases hs : sat < f.positionClock.length
  · rw [if_neg (by omega), if_pos hs]
    have hmem : f.positionClock.getD sat [] ∈ f.positionClock := by
      simp [List.getD_eq_getElem?_getD, hs]
    have := hf.2.2 _ hmem
    clear hmem
    generalize f.positionClock.getD sat [] = l at this ⊢
    rw [List.getElem?_eq_getElem (by omega)]
    simp [List.getD_eq_getElem?_getD, this, h]
  · rw [if_pos (by omega), if_neg hs]

/-- The interpolation objects of satellite `sat` hold the points of the window `W` (times relative to the reference time). -/
structure Holds (W : List (K × (ℕ → PositionClock K))) (sat : ℕ) (p : Orbit K × Interpolation K) : Prop where
  inv : OrbitInv 9 p.1
  times : timeList p.1 = W.map Prod.fst
  position : ∀ i, (p.1.axis i).ys = W.map fun q => 1000 * (q.2 sat).positionKm i
  wf : WellFormed p.2
  deg : p.2.degree = 9
  ctimes : p.2.xs = W.map Prod.fst
  clock : p.2.ys = W.map fun q => (q.2 sat).clockUs

/-- The window after a new point is offered. -/
def slide (W : List (K × (ℕ → PositionClock K))) (p : K × (ℕ → PositionClock K)) : List (K × (ℕ → PositionClock K)) :=
  match W.getLast? with
  | none => W
  | some q => if q.1 < p.1 then W.tail ++ [p] else W

theorem push_holds {W : List (K × (ℕ → PositionClock K))} {sat : ℕ} {p : Orbit K × Interpolation K} (h : Holds W sat p)
    (t : K) (d : ℕ → PositionClock K) :
    ∃ b o b' c, pushAndPopOrbit p.1 t (fun i => 1000 * (d sat).positionKm i) = .ok (b, o) ∧
      pushAndPop p.2 t (d sat).clockUs = .ok (b', c) ∧ Holds (slide W (t, d)) sat (o, c) := by
  obtain ⟨hinv, ht, hp, hwf, hdeg, hct, hc⟩ := h
  obtain ⟨last, hlast, h1, h2⟩ := C88_orbit_push 9 (by omega) p.1 hinv t fun i => 1000 * (d sat).positionKm i
  have hne : p.2.xs ≠ [] := fun h0 => by have := hwf.1; simp [h0] at this; omega
  have hWlen : W.length = 9 := by have := hwf.1; rw [hct, hdeg] at this; simpa using this
  obtain ⟨q, hq⟩ : ∃ q, W.getLast? = some q := by
    rcases hW : W.getLast? with _ | q
    · rw [List.getLast?_eq_none_iff] at hW; simp [hW] at hWlen
    · exact ⟨q, rfl⟩
  have hql : q.1 = last := by
    rw [ht, List.getLast?_map, hq] at hlast
    simpa using hlast
  obtain ⟨c1, c2⟩ := C88_push p.2 hwf (by omega) t (d sat).clockUs
  have hcl : p.2.xs.getLast hne = last := by
    have h0 := List.getLast?_eq_some_getLast hne
    have h1 : p.2.xs.getLast? = some q.1 := by rw [hct, List.getLast?_map, hq]; rfl
    rw [h1] at h0
    rw [← hql]; exact (Option.some.inj h0).symm
  have hslide : slide W (t, d) = if last < t then W.tail ++ [(t, d)] else W := by
    unfold slide; rw [hq]; simp only [hql]
  rcases le_or_gt t last with hle | hgt
  · refine ⟨_, _, _, _, h1 hle, c1 (by rw [hcl]; exact hle), ?_⟩
    rw [hslide, if_neg (not_lt.2 hle)]
    exact ⟨hinv, ht, hp, hwf, hdeg, hct, hc⟩
  · obtain ⟨o, eo, oi, ot, oy⟩ := h2 hgt
    obtain ⟨c, ec, cw, cd, cx, cy⟩ := c2 (by rw [hcl]; exact hgt)
    have hWne : W ≠ [] := fun h0 => by simp [h0] at hWlen
    have hdrop : ∀ {α : Type} (g : (K × (ℕ → PositionClock K)) → α), (W.map g ++ [g (t, d)]).drop 1 = (W.tail ++ [(t, d)]).map g := by
      intro α g
      cases W with
      | nil => exact absurd rfl hWne
      | cons a l => simp
    refine ⟨_, _, _, _, eo, ec, ?_⟩
    rw [hslide, if_pos hgt]
    refine ⟨oi, ?_, fun i => ?_, cw, cd.trans hdeg, ?_, ?_⟩
    · rw [ot, ht]; exact hdrop Prod.fst
    · rw [oy, hp]; exact hdrop fun q => 1000 * (q.2 sat).positionKm i
    · rw [cx, hct]; exact hdrop Prod.fst
    · rw [cy, hc]; exact hdrop fun q => (q.2 sat).clockUs

theorem updateSatellites_ok (z : K) {f : Sp3 K} (hf : Complete f) (ref : K) {id : ℕ} (hid : id < f.epochs.length)
    (W : List (K × (ℕ → PositionClock K))) (sat : ℕ) (l : List (Orbit K × Interpolation K))
    (h : ∀ j p, l[j]? = some p → Holds W (sat + j) p) :
    ∃ l', updateSatellites z f ref id sat l = .ok l' ∧ l'.length = l.length ∧
      ∀ j p, l'[j]? = some p → Holds (slide W (f.epochs.getD id 0 - ref, entry f id)) (sat + j) p := by
  induction l generalizing sat with
  | nil => exact ⟨[], rfl, rfl, fun j p hp => by simp at hp⟩
  | cons a l ih =>
    obtain ⟨b, o, b', c, e1, e2, e3⟩ := push_holds (h 0 a rfl) (f.epochs.getD id 0 - ref) (entry f id)
    obtain ⟨l', el, hlen, hl⟩ := ih (sat + 1) fun j p hp => by
      have := h (j + 1) p (by simpa using hp)
      rwa [show sat + (j + 1) = sat + 1 + j by omega] at this
    refine ⟨(o, c) :: l', ?_, by simp [hlen], ?_⟩
    · obtain ⟨a1, a2⟩ := a
      simp only [updateSatellites, getEpochData_ok z hid, getPositionClock_ok hf hid, Res.bind_ok]
      simp only [Nat.add_zero] at e1 e2
      simp only [e1, e2, Res.bind_ok, el]
    · intro j p hp
      cases j with
      | zero => simp only [List.getElem?_cons_zero, Option.some.injEq] at hp; subst hp; exact e3
      | succ j =>
        have := hl j p (by simpa using hp)
        rwa [show sat + 1 + j = sat + (j + 1) by omega] at this

/-- The part of the stream that has not been used yet. -/
def rest (s : State K) : List (K × (ℕ → PositionClock K)) := (stream (s.files.drop s.fileId)).drop s.referenceId

/-- Invariant of an initialised object for `n` satellites: complete files, a reading position inside a file or behind the last one,
and interpolation objects of all satellites holding the window `W`. -/
structure Inv (n : ℕ) (W : List (K × (ℕ → PositionClock K))) (s : State K) : Prop where
  complete : ∀ f ∈ s.files, Complete f
  place : (∃ f, s.files[s.fileId]? = some f ∧ s.referenceId < f.epochs.length) ∨ (s.files.length ≤ s.fileId ∧ s.referenceId = 0)
  number : s.number = some n
  orbits : s.orbit.length = n
  clocks : s.clock.length = n
  holds : ∀ j p, (s.orbit.zip s.clock)[j]? = some p → Holds W j p

theorem items_length (f : Sp3 K) : (items f).length = f.epochs.length := by simp [items]

theorem items_drop (f : Sp3 K) {id : ℕ} (h : id < f.epochs.length) :
    (items f).drop id = (f.epochs.getD id 0, entry f id) :: (items f).drop (id + 1) := by
  rw [List.drop_eq_getElem_cons (by rw [items_length]; exact h)]
  simp [items]

/-- One step consumes one epoch of the stream; behind the end of the last file it reads out of range. -/
theorem step {n : ℕ} {W : List (K × (ℕ → PositionClock K))} {s : State K} (z : K) (h : Inv n W s) :
    (rest s = [] → updateInterpolation z s = .ub) ∧
    (∀ t d r, rest s = (t, d) :: r → ∃ b s', updateInterpolation z s = .ok (b, s') ∧ Inv n (slide W (t - s.referenceTime, d)) s' ∧
      rest s' = r ∧ s'.referenceTime = s.referenceTime ∧ s'.current = s.current ∧ s'.files = s.files) := by
  obtain ⟨hcomp, hplace, hn, ho, hc, hh⟩ := h
  rcases hplace with ⟨f, hf, hid⟩ | ⟨hlen, hid⟩
  · have hlt : s.fileId < s.files.length := by
      by_contra hge
      rw [List.getElem?_eq_none (by omega)] at hf
      simp at hf
    have hfe : s.files[s.fileId] = f := by rw [List.getElem?_eq_getElem hlt] at hf; exact Option.some.inj hf
    have hfc := hcomp f (hfe ▸ List.getElem_mem hlt)
    have hrest : rest s = (f.epochs.getD s.referenceId 0, entry f s.referenceId) ::
        ((items f).drop (s.referenceId + 1) ++ stream (s.files.drop (s.fileId + 1))) := by
      unfold rest
      rw [List.drop_eq_getElem_cons hlt, hfe]
      simp only [stream, List.flatMap_cons]
      rw [List.drop_append_of_le_length (by rw [items_length]; omega), items_drop f hid]
      rfl
    refine ⟨fun h0 => by rw [hrest] at h0; simp at h0, fun t d r hr => ?_⟩
    rw [hrest] at hr
    obtain ⟨⟨rfl, rfl⟩, rfl⟩ : ((f.epochs.getD s.referenceId 0 = t) ∧ (entry f s.referenceId = d)) ∧
        ((items f).drop (s.referenceId + 1) ++ stream (s.files.drop (s.fileId + 1))) = r := by
      rw [List.cons.injEq, Prod.mk.injEq] at hr; exact hr
    obtain ⟨l', el, hll, hl⟩ := updateSatellites_ok z hfc s.referenceTime hid W 0 (s.orbit.zip s.clock)
      fun j p hp => by simpa using hh j p hp
    have hlen' : l'.length = n := by rw [hll]; simp [ho, hc]
    have hzip : (l'.map Prod.fst).zip (l'.map Prod.snd) = l' := (List.zip_of_prod rfl rfl).symm
    unfold updateInterpolation
    rw [hf]
    simp only [el, Res.bind_ok]
    by_cases hend : s.referenceId + 1 ≥ f.numberOfEpoch
    · rw [if_pos hend]
      refine ⟨_, _, rfl, ⟨hcomp, ?_, hn, by simp [hlen'], by simp [hlen'], ?_⟩, ?_, rfl, rfl, rfl⟩
      · rcases Nat.lt_or_ge (s.fileId + 1) s.files.length with hl2 | hl2
        · exact .inl ⟨s.files[s.fileId + 1], List.getElem?_eq_getElem hl2, (hcomp _ (List.getElem_mem hl2)).2.1⟩
        · exact .inr ⟨hl2, rfl⟩
      · intro j p hp
        simp only [hzip] at hp
        simpa using hl j p hp
      · simp only [rest, List.drop_zero]
        rw [show (items f).drop (s.referenceId + 1) = [] from
          List.drop_eq_nil_of_le (by rw [items_length]; rw [hfc.1] at hend; omega), List.nil_append]
    · rw [if_neg hend]
      refine ⟨_, _, rfl, ⟨hcomp, .inl ⟨f, hf, ?_⟩, hn, by simp [hlen'], by simp [hlen'], ?_⟩, ?_, rfl, rfl, rfl⟩
      · have := hfc.1; simp only; omega
      · intro j p hp
        simp only [hzip] at hp
        simpa using hl j p hp
      · unfold rest
        simp only
        rw [List.drop_eq_getElem_cons hlt, hfe]
        simp only [stream, List.flatMap_cons]
        rw [List.drop_append_of_le_length (by rw [items_length]; omega)]
  · have hnone : s.files[s.fileId]? = none := List.getElem?_eq_none hlen
    constructor
    · intro _; unfold updateInterpolation; rw [hnone]
    · intro t d r hr
      simp [rest, List.drop_eq_nil_of_le hlen, stream] at hr

theorem steps {n : ℕ} (z : K) (k : ℕ) {W : List (K × (ℕ → PositionClock K))} {s : State K} (h : Inv n W s) :
    ((rest s).length < k → updateTimes z k s = .ub) ∧
    (k ≤ (rest s).length → ∃ s', updateTimes z k s = .ok s' ∧
      Inv n (((rest s).take k).foldl (fun W p => slide W (p.1 - s.referenceTime, p.2)) W) s' ∧
      rest s' = (rest s).drop k ∧ s'.referenceTime = s.referenceTime ∧ s'.current = s.current ∧ s'.files = s.files) := by
  induction k generalizing W s with
  | zero => exact ⟨fun h0 => by omega, fun _ => ⟨s, rfl, by simpa using h, rfl, rfl, rfl, rfl⟩⟩
  | succ k ih =>
    obtain ⟨h1, h2⟩ := step z h
    rcases hr : rest s with _ | ⟨⟨t, d⟩, r⟩
    · refine ⟨fun _ => ?_, fun h0 => by simp at h0⟩
      simp only [updateTimes, h1 hr, Res.bind_ub]
    · obtain ⟨b, s1, e1, i1, r1, t1, c1, f1⟩ := h2 t d r hr
      obtain ⟨g1, g2⟩ := ih i1
      rw [r1] at g1 g2
      refine ⟨fun h0 => ?_, fun h0 => ?_⟩
      · simp only [updateTimes, e1, Res.bind_ok]
        exact g1 (by simpa using h0)
      · obtain ⟨s', e', i', r', t', c', f'⟩ := g2 (by simpa using h0)
        refine ⟨s', by simp only [updateTimes, e1, Res.bind_ok, e'], ?_, by simpa using r', t'.trans t1, c'.trans c1, f'.trans f1⟩
        rw [t1] at i'
        simpa using i'

/-! ## windows of an increasing stream -/

/-- Nine consecutive epochs of the stream starting with number `k`, with times relative to `ref`. -/
def window (all : List (K × (ℕ → PositionClock K))) (ref : K) (k : ℕ) : List (K × (ℕ → PositionClock K)) :=
  ((all.drop k).take 9).map fun p => (p.1 - ref, p.2)

/-- Time of epoch number `j` of the stream. -/
def T (all : List (K × (ℕ → PositionClock K))) (j : ℕ) : K := (all.map Prod.fst).getD j 0

/-- The object holds epochs `k, ..., k + 8` of the stream `all`, for `n` satellites. -/
def At (all : List (K × (ℕ → PositionClock K))) (ref : K) (n k : ℕ) (s : State K) : Prop :=
  s.referenceTime = ref ∧ k + 9 ≤ all.length ∧ rest s = all.drop (k + 9) ∧ Inv n (window all ref k) s

end

section
variable {K : Type} [Field K] [LinearOrder K] [IsStrictOrderedRing K]

theorem window_succ {all : List (K × (ℕ → PositionClock K))} {ref : K} {k : ℕ} (hk : k + 9 < all.length)
    (hinc : (all.map Prod.fst).Pairwise (· < ·)) :
    slide (window all ref k) (all[k + 9].1 - ref, all[k + 9].2) = window all ref (k + 1) := by
  have hlast : (window all ref k).getLast? = some (all[k + 8].1 - ref, all[k + 8].2) := by
    unfold window
    rw [List.getLast?_eq_getElem?]
    simp [List.getElem?_take, show k + 8 < all.length by omega]
    have : min 9 (all.length - k) - 1 = 8 := by omega
    rw [this]
    simp [show k + 8 < all.length by omega]
  have hlt : all[k + 8].1 - ref < all[k + 9].1 - ref := by
    have := List.pairwise_iff_getElem.1 hinc (k + 8) (k + 9) (by simp; omega) (by simp; omega) (by omega)
    simp only [List.getElem_map] at this
    linarith
  unfold slide
  rw [hlast]
  simp only [if_pos hlt]
  unfold window
  rw [List.drop_eq_getElem_cons (show k < all.length by omega), List.take_succ_cons, List.map_cons, List.tail_cons,
    List.take_succ (i := 8), List.map_append]
  simp [show k + 1 + 8 < all.length by omega]

theorem slide_list (W l : List (K × (ℕ → PositionClock K))) (q : K × (ℕ → PositionClock K)) (hq : W.getLast? = some q)
    (h : (q.1 :: l.map Prod.fst).Pairwise (· < ·)) : l.foldl slide W = (W ++ l).drop l.length := by
  induction l generalizing W q with
  | nil => simp
  | cons p l ih =>
    have hW : W ≠ [] := fun h0 => by simp [h0] at hq
    have hlt : q.1 < p.1 := (List.pairwise_cons.1 h).1 p.1 (by simp)
    have hs : slide W p = W.tail ++ [p] := by unfold slide; rw [hq]; simp only [if_pos hlt]
    rw [List.foldl_cons, hs, ih _ p (by simp) (List.pairwise_cons.1 h).2]
    cases W with
    | nil => exact absurd rfl hW
    | cons a W => simp

/-! ## C89 -/

/-- The file chosen is the first one whose day contains the time. -/
theorem C89_file (files : List (Sp3 K)) (time : K) (i : ℕ) :
    getCurrentSp3File files 0 time = some i ↔
      ∃ h : i < files.length, files[i].start ≤ time ∧ time < files[i].start + 86400 ∧
        ∀ j (hj : j < i), files[j].start + 86400 ≤ time := by
  have key : ∀ (files : List (Sp3 K)) (b : ℕ), getCurrentSp3File files b time = some (b + i) ↔
      ∃ h : i < files.length, files[i].start ≤ time ∧ time < files[i].start + 86400 ∧
        ∀ j (hj : j < i), files[j].start + 86400 ≤ time := by
    induction i with
    | zero =>
      intro files b
      cases files with
      | nil => simp [getCurrentSp3File]
      | cons f l =>
        have hne : ∀ (l : List (Sp3 K)) (c : ℕ), b < c → getCurrentSp3File l c time ≠ some b := by
          intro l
          induction l with
          | nil => simp [getCurrentSp3File]
          | cons g l ih =>
            intro c hc
            simp only [getCurrentSp3File]
            split
            · simp
            · split
              · simp; omega
              · exact ih (c + 1) (by omega)
        simp only [getCurrentSp3File, Nat.add_zero, List.length_cons, Nat.zero_lt_succ, List.getElem_cons_zero, exists_true_left]
        split
        · rename_i h; simp; intro h'; linarith
        · rename_i h
          split
          · rename_i h'
            simp only [true_iff]
            exact ⟨by linarith, by norm_num at h'; linarith, fun j hj => absurd hj (by omega)⟩
          · rename_i h'
            constructor
            · intro h0; exact absurd h0 (hne _ _ (by omega))
            · rintro ⟨-, h2, -⟩; norm_num at h'; linarith
    | succ i ih =>
      intro files b
      cases files with
      | nil => simp [getCurrentSp3File]
      | cons f l =>
        have := ih l (b + 1)
        rw [show b + 1 + i = b + (i + 1) by omega] at this
        simp only [getCurrentSp3File]
        split
        · rename_i h
          refine ⟨fun h0 => by simp at h0, fun ⟨_, _, _, h3⟩ => ?_⟩
          have := h3 0 (by omega)
          simp only [List.getElem_cons_zero] at this
          linarith
        · rename_i h
          split
          · rename_i h'
            refine ⟨fun h0 => by simp at h0, fun ⟨_, _, _, h3⟩ => ?_⟩
            have := h3 0 (by omega)
            simp only [List.getElem_cons_zero] at this
            norm_num at h'
            linarith
          · rename_i h'
            rw [this]
            constructor
            · rintro ⟨a, b, c, d⟩
              refine ⟨by simpa using a, by simpa using b, by simpa using c, fun j hj => ?_⟩
              cases j with
              | zero => simp only [List.getElem_cons_zero]; norm_num at h'; linarith
              | succ j => simpa using d j (by omega)
            · rintro ⟨a, b, c, d⟩
              refine ⟨by simpa using a, by simpa using b, by simpa using c, fun j hj => ?_⟩
              have := d (j + 1) (by omega)
              simpa using this
  have := key files 0
  rwa [Nat.zero_add] at this

/-- In a complete file with equidistant epochs the epoch found is a nearest one. -/
theorem C89_nearest [FloorSemiring K] (f : Sp3 K) (hf : Complete f) (hint : 0 < f.interval)
    (hu : ∀ j < f.epochs.length, f.epochs.getD j 0 = f.epochs.getD 0 0 + j * f.interval) (time : K) :
    ∃ near, searchNearestEpochId f time = .ok near ∧ near < f.epochs.length ∧
      ∀ j < f.epochs.length, |time - f.epochs.getD near 0| ≤ |time - f.epochs.getD j 0| := by
  obtain ⟨hn, hpos, -⟩ := hf
  have h0 : f.epochs[0]? = some (f.epochs.getD 0 0) := by simp [List.getD_eq_getElem?_getD, hpos]
  have hl : f.epochs[f.numberOfEpoch - 1]? = some (f.epochs.getD (f.epochs.length - 1) 0) := by
    rw [hn]; simp [List.getD_eq_getElem?_getD, hpos]
  unfold searchNearestEpochId
  rw [h0, hl]
  simp only
  generalize f.epochs.getD 0 0 = a at *
  by_cases h1 : a > time
  · refine ⟨0, by rw [if_pos h1], hpos, fun j hj => ?_⟩
    rw [hu 0 hpos, hu j hj]
    have hj0 : (0 : K) ≤ j * f.interval := mul_nonneg (Nat.cast_nonneg j) hint.le
    simp only [Nat.cast_zero, zero_mul, add_zero]
    rw [abs_of_nonpos (by linarith), abs_of_nonpos (by linarith)]
    linarith
  · rw [if_neg h1]
    by_cases h2 : f.epochs.getD (f.epochs.length - 1) 0 < time
    · refine ⟨f.numberOfEpoch - 1, by rw [if_pos h2], by omega, fun j hj => ?_⟩
      rw [hn]
      rw [hu _ (by omega)] at h2 ⊢
      rw [hu j hj]
      have hle : (j : K) * f.interval ≤ ((f.epochs.length - 1 : ℕ) : K) * f.interval :=
        mul_le_mul_of_nonneg_right (by exact_mod_cast (by omega : j ≤ f.epochs.length - 1)) hint.le
      rw [abs_of_nonneg (by linarith), abs_of_nonneg (by linarith)]
      linarith
    · rw [if_neg h2]
      rw [hu _ (by omega)] at h2
      have h1' : 0 ≤ time - a := by linarith
      have hd : 0 ≤ (time - a) / f.interval + 1 / 2 := by have := div_nonneg h1' hint.le; linarith
      have hfl := Nat.floor_le hd
      have hfu := Nat.lt_floor_add_one ((time - a) / f.interval + 1 / 2)
      have heq : (time - a) / f.interval * f.interval = time - a := div_mul_cancel₀ _ hint.ne'
      generalize hr : ⌊(time - a) / f.interval + 1 / 2⌋₊ = r at *
      generalize (time - a) / f.interval = x at *
      have hx : x ≤ ((f.epochs.length - 1 : ℕ) : K) := by
        refine le_of_mul_le_mul_right (a := f.interval) ?_ hint
        rw [heq]; linarith
      have hrl : r < f.epochs.length := by
        have : (r : K) < ((f.epochs.length - 1 : ℕ) : K) + 1 := by linarith
        have : r < f.epochs.length - 1 + 1 := by exact_mod_cast this
        omega
      refine ⟨r, rfl, hrl, fun j hj => ?_⟩
      rw [hu r hrl, hu j hj]
      have e : ∀ m : ℕ, time - (a + m * f.interval) = (x - m) * f.interval := fun m => by linear_combination -heq
      rw [e, e, abs_mul, abs_mul]
      refine mul_le_mul_of_nonneg_right ?_ (abs_nonneg _)
      rcases eq_or_ne j r with rfl | hne
      · exact le_rfl
      · have hxr : |x - r| ≤ 1 / 2 := abs_le.2 ⟨by linarith, by linarith⟩
        have hjr : (1 : K) ≤ |(r : K) - j| := by
          have : (1 : ℤ) ≤ |(r : ℤ) - j| := Int.one_le_abs (by omega)
          have h2 : ((1 : ℤ) : K) ≤ ((|(r : ℤ) - j| : ℤ) : K) := by exact_mod_cast this
          push_cast at h2
          exact h2
        have : |(r : K) - j| ≤ |x - r| + |x - j| := by
          have := abs_sub_le (r : K) x j
          rwa [abs_sub_comm (r : K) x] at this
        linarith

theorem initialise_cons [FloorSemiring K] (z : K) (files : List (Sp3 K)) (h : files ≠ []) (start : K) :
    initialise z files start = match getCurrentSp3File files 0 start with
    | none => .ok { newState z with files := files, current := start }
    | some i =>
      match files[i]? with
      | none => .ub
      | some f => (searchNearestEpochId f start).bind fun near =>
        (getEpochData z f (if near ≥ kNumberOfInterpolation / 2 then near - kNumberOfInterpolation / 2 else 0)).bind fun ref =>
        updateTimes z kNumberOfInterpolation
          { newState z with
            files := files, current := start, fileId := i
            number := some f.numberOfSatellites
            referenceId := (if near ≥ kNumberOfInterpolation / 2 then near - kNumberOfInterpolation / 2 else 0)
            referenceTime := ref
            orbit := List.replicate f.numberOfSatellites (newOrbit kNumberOfInterpolation)
            clock := List.replicate f.numberOfSatellites
              (new (List.replicate kNumberOfInterpolation (-1)) (List.replicate kNumberOfInterpolation (-1))) } := by
  cases files with
  | nil => exact absurd rfl h
  | cons a l => rfl

/-- `Initialize` at a time inside the range of the files: with nine epochs left from the fourth epoch before the nearest one (or the first
of the file) the object holds exactly those nine; with fewer it reads behind the last file. -/
theorem C89_initialise [FloorSemiring K] (z : K) (files : List (Sp3 K)) (hfiles : ∀ f ∈ files, Complete f)
    (hinc : ((stream files).map Prod.fst).Pairwise (· < ·)) (start : K) (i : ℕ) (hi : i < files.length)
    (hcur : getCurrentSp3File files 0 start = some i) (near : ℕ) (hnear : searchNearestEpochId files[i] start = .ok near)
    (hnl : near < files[i].epochs.length) (k : ℕ) (hk : k = (stream (files.take i)).length + (near - 4)) :
    (k + 9 ≤ (stream files).length → ∃ s, initialise z files start = .ok s ∧ s.current = start ∧ s.files = files ∧
      At (stream files) (T (stream files) k) files[i].numberOfSatellites k s) ∧
    ((stream files).length < k + 9 → initialise z files start = .ub) := by
  have hsplit : stream files = stream (files.take i) ++ stream (files.drop i) := by
    unfold stream; rw [← List.flatMap_append, List.take_append_drop]
  have hne : files ≠ [] := fun h0 => by simp [h0] at hi
  set f := files[i] with hf
  have hfc : Complete f := hfiles f (List.getElem_mem hi)
  have hrefId : (if near ≥ kNumberOfInterpolation / 2 then near - kNumberOfInterpolation / 2 else 0) = near - 4 := by
    show (if near ≥ 4 then near - 4 else 0) = near - 4
    split <;> omega
  have hdrop : (stream files).drop k = (stream (files.drop i)).drop (near - 4) := by
    rw [hsplit, hk, ← List.drop_drop, List.drop_left]
  have hT : T (stream files) k = f.epochs.getD (near - 4) 0 := by
    have h1 : (stream (files.drop i)).drop (near - 4) = (f.epochs.getD (near - 4) 0, entry f (near - 4)) ::
        ((items f).drop (near - 4 + 1) ++ stream (files.drop (i + 1))) := by
      rw [List.drop_eq_getElem_cons hi, ← hf]
      simp only [stream, List.flatMap_cons]
      rw [List.drop_append_of_le_length (by rw [items_length]; omega), items_drop f (by omega)]
      rfl
    rw [h1] at hdrop
    have h2 : (stream files)[k]? = some (f.epochs.getD (near - 4) 0, entry f (near - 4)) := by
      have := congrArg (fun l => l[0]?) hdrop
      simpa using this
    simp only [T, List.getD_eq_getElem?_getD, List.getElem?_map, h2, Option.map_some, Option.getD_some]
  set s0 : State K := { newState z with
    files := files, current := start, fileId := i, number := some f.numberOfSatellites, referenceId := near - 4
    referenceTime := T (stream files) k
    orbit := List.replicate f.numberOfSatellites (newOrbit kNumberOfInterpolation)
    clock := List.replicate f.numberOfSatellites
      (new (List.replicate kNumberOfInterpolation (-1)) (List.replicate kNumberOfInterpolation (-1))) } with hs0
  have hinit : initialise z files start = updateTimes z 9 s0 := by
    rw [initialise_cons z files hne, hcur]
    simp only [List.getElem?_eq_getElem hi, ← hf, hnear, Res.bind, hrefId]
    rw [getEpochData_ok z (show near - 4 < f.epochs.length by omega)]
    simp only [hs0, ← hT, kNumberOfInterpolation]
  have hinv : Inv f.numberOfSatellites (List.replicate 9 (-1, fun _ => ⟨fun _ => 0, -1⟩)) s0 := by
    refine ⟨hfiles, .inl ⟨f, List.getElem?_eq_getElem hi, by simp only [hs0]; omega⟩, rfl, by simp [hs0], by simp [hs0], ?_⟩
    intro j p hp
    have hp' : p = (newOrbit 9, new (List.replicate 9 (-1)) (List.replicate 9 (-1))) := by
      have := List.mem_of_getElem? hp
      simp only [hs0, List.zip_replicate', List.mem_replicate, kNumberOfInterpolation] at this
      exact this.2
    subst hp'
    exact ⟨newOrbit_inv 9, by simp [timeList, newOrbit, new], fun i => by simp [newOrbit, new], ⟨rfl, by simp [new]⟩, by simp [new],
      by simp [new], by simp [new]⟩
  have hrest : rest s0 = (stream files).drop k := by rw [hdrop]; rfl
  obtain ⟨h1, h2⟩ := steps z 9 hinv
  rw [hrest] at h1 h2
  rw [hinit]
  simp only [List.length_drop] at h1 h2
  refine ⟨fun hle => ?_, fun hlt => h1 (by omega)⟩
  obtain ⟨s, e, hs, hr, ht, hc, hfs⟩ := h2 (by omega)
  refine ⟨s, e, hc, hfs, ht, hle, by rw [hr, List.drop_drop], ?_⟩
  have hrt : s0.referenceTime = T (stream files) k := rfl
  rw [hrt] at hs
  convert hs using 1
  have hfold : ∀ (l W : List (K × (ℕ → PositionClock K))) (c : K), l.foldl (fun W p => slide W (p.1 - c, p.2)) W =
      (l.map fun p => (p.1 - c, p.2)).foldl slide W := fun l W c => by rw [List.foldl_map]
  rw [hfold]
  have hw : ((stream files).drop k).take 9 = (stream files)[k] :: (((stream files).drop (k + 1)).take 8) := by
    rw [List.drop_eq_getElem_cons (by omega), List.take_succ_cons]
  have hTk : T (stream files) k = (stream files)[k].1 := by
    simp [T, List.getD_eq_getElem?_getD, show k < (stream files).length by omega]
  rw [slide_list _ _ (-1, fun _ => ⟨fun _ => 0, -1⟩) (by simp)]
  · have hlen : ((((stream files).drop k).take 9).map fun p => (p.1 - T (stream files) k, p.2)).length = 9 := by
      simp; omega
    rw [hlen, List.drop_left' (by simp)]
    rfl
  · rw [List.map_map]
    have hpw : ((((stream files).drop k).take 9).map Prod.fst).Pairwise (· < ·) := by
      rw [List.map_take, List.map_drop]
      exact List.Pairwise.sublist ((List.take_sublist _ _).trans (List.drop_sublist _ _)) hinc
    rw [List.pairwise_cons]
    constructor
    · intro a ha
      obtain ⟨p, hp, rfl⟩ := List.mem_map.1 ha
      simp only [Function.comp]
      rw [hw] at hp hpw
      rw [hTk]
      rcases List.mem_cons.1 hp with rfl | hp
      · rw [sub_self]; exact neg_one_lt_zero
      · rw [List.map_cons, List.pairwise_cons] at hpw
        have := hpw.1 p.1 (List.mem_map_of_mem hp)
        linarith
    · rw [show (Prod.fst ∘ fun p : K × (ℕ → PositionClock K) => (p.1 - T (stream files) k, p.2)) = (fun x => x - T (stream files) k) ∘ Prod.fst
        from rfl, ← List.map_map, List.pairwise_map]
      exact hpw.imp fun h => by linarith

theorem At.first {all : List (K × (ℕ → PositionClock K))} {ref : K} {n k : ℕ} {s : State K} (h : At all ref n k s) {sat : ℕ} (hs : sat < n) :
    ∃ o c, s.orbit[sat]? = some o ∧ s.clock[sat]? = some c ∧ Holds (window all ref k) sat (o, c) := by
  obtain ⟨-, -, -, hinv⟩ := h
  have h1 : sat < s.orbit.length := by rw [hinv.orbits]; exact hs
  have h2 : sat < s.clock.length := by rw [hinv.clocks]; exact hs
  refine ⟨s.orbit[sat], s.clock[sat], List.getElem?_eq_getElem h1, List.getElem?_eq_getElem h2, hinv.holds sat _ ?_⟩
  rw [List.getElem?_eq_getElem (by simp; omega)]
  simp

theorem window_get {all : List (K × (ℕ → PositionClock K))} {ref : K} {k j : ℕ} (hj : j < 9) (hk : k + 9 ≤ all.length) :
    (window all ref k)[j]? = some (T all (k + j) - ref, (all[k + j]).2) := by
  have : k + j < all.length := by omega
  simp [window, List.getElem?_take, hj, this, T, List.getD_eq_getElem?_getD]

/-- `Update` moves the window by one epoch exactly if the current time is later than the middle epoch of the window; if the files have
no further epoch it reads behind the last file. Without satellites it reads out of range. -/
theorem C89_update (z : K) (all : List (K × (ℕ → PositionClock K))) (hinc : (all.map Prod.fst).Pairwise (· < ·)) (ref : K) (n k : ℕ)
    (s : State K) (h : At all ref n k s) (now : K) :
    (n = 0 → update z s now = .ub) ∧
    (0 < n → now ≤ T all (k + 4) → ∃ s', update z s now = .ok s' ∧ At all ref n k s' ∧ s'.current = now) ∧
    (0 < n → T all (k + 4) < now → k + 9 < all.length → ∃ s', update z s now = .ok s' ∧ At all ref n (k + 1) s' ∧ s'.current = now) ∧
    (0 < n → T all (k + 4) < now → k + 9 = all.length → update z s now = .ub) := by
  have h' := h
  obtain ⟨hr, hl, hrest, hinv⟩ := h'
  have hmed : 0 < n → ∃ o, s.orbit[0]? = some o ∧ (timeList o)[4]? = some (T all (k + 4) - ref) := fun hn => by
    obtain ⟨o, c, ho, -, hh⟩ := h.first hn
    refine ⟨o, ho, ?_⟩
    rw [hh.times, List.getElem?_map, window_get (by omega) hl]; rfl
  have hinv' : Inv n (window all ref k) { s with current := now } :=
    ⟨hinv.complete, hinv.place, hinv.number, hinv.orbits, hinv.clocks, hinv.holds⟩
  obtain ⟨st1, st2⟩ := step z hinv'
  have hrest' : rest { s with current := now } = all.drop (k + 9) := hrest
  refine ⟨fun hn => ?_, fun hn hle => ?_, fun hn hlt hk => ?_, fun hn hlt hk => ?_⟩
  · have : s.orbit = [] := List.eq_nil_of_length_eq_zero (by rw [hinv.orbits, hn])
    simp [update, this]
  · obtain ⟨o, ho, hm⟩ := hmed hn
    refine ⟨{ s with current := now }, ?_, ⟨hr, hl, hrest, hinv'⟩, rfl⟩
    simp only [update, ho, hm, hr]
    rw [if_neg (by simp only [gt_iff_lt, sub_lt_sub_iff_right]; exact not_lt.2 hle)]
  · obtain ⟨o, ho, hm⟩ := hmed hn
    rw [List.drop_eq_getElem_cons hk] at hrest'
    obtain ⟨b, s', e, i, r, t, c, -⟩ := st2 _ _ _ hrest'
    refine ⟨s', ?_, ⟨t.trans hr, by omega, by rw [r], ?_⟩, c⟩
    · simp only [update, ho, hm, hr]
      rw [if_pos (by simp only [gt_iff_lt, sub_lt_sub_iff_right]; exact hlt)]
      subst hr
      simp only [e, Res.bind_ok]
    · have : ({ s with current := now } : State K).referenceTime = ref := hr
      rw [this] at i
      rw [← window_succ (ref := ref) hk hinc]
      exact i
  · obtain ⟨o, ho, hm⟩ := hmed hn
    rw [hk, List.drop_length] at hrest'
    simp only [update, ho, hm, hr]
    rw [if_pos (by simp only [gt_iff_lt, sub_lt_sub_iff_right]; exact hlt)]
    subst hr
    simp only [st1 hrest', Res.bind_ub]

/-- A sequence of `Update` calls at the given times. -/
def updates (z : K) (s : State K) : List K → Res (State K)
  | [] => .ok s
  | t :: l => do
    let s' ← update z s t
    updates z s' l

/-- Times that never advance by more than `gap`. -/
def Steps (gap : K) : K → List K → Prop
  | _, [] => True
  | t, u :: l => u ≤ t + gap ∧ Steps gap u l

/-- As long as the updates are not further apart than the epochs of the files, and end before the last but four epoch, the object never
leaves the files and the current time stays next to the middle of the window: not after its fifth epoch, and, once the window has moved,
after its fourth. -/
theorem C89_tracking (z : K) (all : List (K × (ℕ → PositionClock K))) (hinc : (all.map Prod.fst).Pairwise (· < ·)) (ref gap : K)
    (hgap : ∀ j, j + 1 < all.length → gap ≤ T all (j + 1) - T all j) (n k : ℕ) (hn : 0 < n) (s : State K) (h : At all ref n k s)
    (first : K) (later : List K) (hfirst : first ≤ T all (k + 5)) (hmono : (first :: later).Pairwise (· ≤ ·))
    (hsteps : Steps gap first later) (hend : ∀ t ∈ first :: later, t ≤ T all (all.length - 5)) :
    ∃ s' k', updates z s (first :: later) = .ok s' ∧ At all ref n k' s' ∧ s'.current = (first :: later).getLast (by simp) ∧
      s'.current ≤ T all (k' + 4) ∧ (k' = k ∨ (k < k' ∧ T all (k' + 3) < s'.current)) := by
  have Tlt : ∀ i j, i < j → j < all.length → T all i < T all j := fun i j hij hj => by
    have := List.pairwise_iff_getElem.1 hinc i j (by simp; omega) (by simp; omega) hij
    simpa [T, List.getD_eq_getElem?_getD, hj, show i < all.length by omega] using this
  have hone : ∀ (s : State K) (k : ℕ), At all ref n k s → ∀ t, t ≤ T all (k + 5) → t ≤ T all (all.length - 5) →
      ∃ s' k', update z s t = .ok s' ∧ At all ref n k' s' ∧ s'.current = t ∧ t ≤ T all (k' + 4) ∧
        (k' = k ∨ (k' = k + 1 ∧ T all (k' + 3) < t)) := by
    intro s k hs t ht he
    obtain ⟨-, u1, u2, -⟩ := C89_update z all hinc ref n k s hs t
    rcases le_or_gt t (T all (k + 4)) with hle | hgt
    · obtain ⟨s', e, a, c⟩ := u1 hn hle
      exact ⟨s', k, e, a, c, hle, .inl rfl⟩
    · have hk : k + 9 < all.length := by
        by_contra hge
        have hl := hs.2.1
        have : all.length - 5 = k + 4 := by omega
        rw [this] at he
        exact absurd (hgt.trans_le he) (lt_irrefl _)
      obtain ⟨s', e, a, c⟩ := u2 hn hgt hk
      exact ⟨s', k + 1, e, a, c, by rwa [show k + 1 + 4 = k + 5 by omega], .inr ⟨rfl, by rwa [show k + 1 + 3 = k + 4 by omega]⟩⟩
  induction later generalizing s k first with
  | nil =>
    obtain ⟨s', k', e, a, c, h4, h5⟩ := hone s k h first hfirst (hend first (by simp))
    refine ⟨s', k', by simp [updates, e], a, c, by rw [c]; exact h4, ?_⟩
    rcases h5 with h5 | ⟨h5, h6⟩
    · exact .inl h5
    · exact .inr ⟨by omega, by rw [c]; exact h6⟩
  | cons u later ih =>
    obtain ⟨s1, k1, e, a, c, h4, h5⟩ := hone s k h first hfirst (hend first (by simp))
    obtain ⟨hu, hrest⟩ := hsteps
    have hk1 := a.2.1
    have hg := hgap (k1 + 4) (by omega)
    obtain ⟨s', k', e', a', c', h4', h5'⟩ := ih k1 s1 a u (by rw [show k1 + 5 = k1 + 4 + 1 by omega]; linarith)
      (List.pairwise_cons.1 hmono).2 hrest fun t ht => hend t (List.mem_cons_of_mem _ ht)
    refine ⟨s', k', ?_, a', by rw [c']; simp, h4', ?_⟩
    · rw [updates, e, Res.bind_ok, e']
    · rcases h5' with rfl | ⟨h5', h6'⟩
      · rcases h5 with rfl | ⟨rfl, h6⟩
        · exact .inl rfl
        · refine .inr ⟨by omega, h6.trans_le ?_⟩
          rw [c']
          have hle := List.pairwise_cons.1 hmono
          exact hle.1 _ (List.getLast_mem _)
      · refine .inr ⟨?_, h6'⟩
        rcases h5 with rfl | ⟨rfl, -⟩ <;> omega

/-- Every call moves the window by at most one epoch. -/
theorem C89_lag (z : K) (all : List (K × (ℕ → PositionClock K))) (hinc : (all.map Prod.fst).Pairwise (· < ·)) (ref : K) (n k : ℕ)
    (s s' : State K) (h : At all ref n k s) (l : List K) (hu : updates z s l = .ok s') :
    ∃ k', k' ≤ k + l.length ∧ At all ref n k' s' := by
  induction l generalizing s k with
  | nil => obtain rfl := Res.ok.inj hu; exact ⟨k, by simp, h⟩
  | cons t l ih =>
    obtain ⟨u0, u1, u2, u3⟩ := C89_update z all hinc ref n k s h t
    rw [updates] at hu
    rcases Nat.eq_zero_or_pos n with hn | hn
    · rw [u0 hn] at hu; cases hu
    rcases le_or_gt t (T all (k + 4)) with hle | hgt
    · obtain ⟨s1, e, a, -⟩ := u1 hn hle
      rw [e, Res.bind_ok] at hu
      obtain ⟨k', hk', a'⟩ := ih k s1 a hu
      exact ⟨k', by simp; omega, a'⟩
    · rcases Nat.lt_or_ge (k + 9) all.length with hk | hk
      · obtain ⟨s1, e, a, -⟩ := u2 hn hgt hk
        rw [e, Res.bind_ok] at hu
        obtain ⟨k', hk', a'⟩ := ih (k + 1) s1 a hu
        exact ⟨k', by simp; omega, a'⟩
      · rw [u3 hn hgt (by have := h.2.1; omega)] at hu; cases hu

/-- Outside every file nothing is initialised and the first `Update` or query is undefined. -/
theorem C89_outside [FloorSemiring K] (z : K) (files : List (Sp3 K)) (hne : files ≠ []) (start : K)
    (hcur : getCurrentSp3File files 0 start = none) :
    ∃ s, initialise z files start = .ok s ∧ ∀ now sat time, update z s now = .ub ∧ getClock s sat time = .ub := by
  rw [initialise_cons z files hne, hcur]
  exact ⟨_, rfl, fun now sat time => ⟨rfl, rfl⟩⟩

/-- Clock queries: exactly the value of the file at the epochs in the window (including its bad value marker), zero before the reference
time and more than 10^6 s after it, zero for identifiers above the number of satellites and out of range for that number itself. -/
theorem C89_clock (all : List (K × (ℕ → PositionClock K))) (hinc : (all.map Prod.fst).Pairwise (· < ·)) (ref : K) (n k : ℕ)
    (s : State K) (h : At all ref n k s) (sat : ℕ) (t : K) :
    (sat < n → ∀ j (hj : j < all.length), k ≤ j → j < k + 9 → t = T all j → 0 ≤ t - ref → t - ref ≤ 1000000 →
      getClock s sat (some t) = .ok (some ((all[j].2 sat).clockUs * (1 / 1000000)))) ∧
    (sat ≤ n → (t - ref < 0 ∨ 1000000 < t - ref) → getClock s sat (some t) = .ok (some 0)) ∧
    (sat = n → 0 ≤ t - ref → t - ref ≤ 1000000 → getClock s sat (some t) = .ub) ∧
    (n < sat → getClock s sat (some t) = .ok (some 0)) := by
  have hnum := h.2.2.2.number
  have hr := h.1
  have hl := h.2.1
  refine ⟨fun hs j hj h1 h2 ht h3 h4 => ?_, fun hs hq => ?_, fun hs h3 h4 => ?_, fun hs => ?_⟩
  · obtain ⟨o, c, -, hc, hh⟩ := h.first hs
    simp only [getClock, hnum]
    rw [if_neg (by omega)]
    have hq : queryTime s (some t) = some (t - ref) := by
      simp only [queryTime, Option.getD_some, hr]
      rw [if_neg (by simp only [gt_iff_lt, not_or, not_lt]; exact ⟨h3, h4⟩)]
    simp only [hq, hc]
    have hget := window_get (all := all) (ref := ref) (k := k) (j := j - k) (by omega) hl
    simp only [show k + (j - k) = j by omega] at hget
    have hnd : c.xs.Nodup := by
      rw [hh.ctimes]
      refine List.Pairwise.imp (R := (· < ·)) (fun h => ne_of_lt h) ?_
      unfold window
      rw [List.map_map, show (Prod.fst ∘ fun p : K × (ℕ → PositionClock K) => (p.1 - ref, p.2)) = (fun x => x - ref) ∘ Prod.fst from rfl,
        ← List.map_map, List.pairwise_map, List.map_take, List.map_drop]
      exact (List.Pairwise.sublist ((List.take_sublist _ _).trans (List.drop_sublist _ _)) hinc).imp fun h => by linarith
    have := C86_at_nodes c hh.wf hnd (j - k) (by rw [hh.deg]; omega)
    rw [hh.ctimes, hh.clock] at this
    simp only [List.getD_eq_getElem?_getD, List.getElem?_map, hget, Option.map_some, Option.getD_some] at this
    rw [ht, this, Res.bind_ok]
    simp
  · simp only [getClock, hnum]
    rw [if_neg (by omega)]
    have : queryTime s (some t) = none := by
      simp only [queryTime, Option.getD_some, hr]
      rw [if_pos hq]
    simp only [this]
  · simp only [getClock, hnum]
    rw [if_neg (by omega)]
    have hq : queryTime s (some t) = some (t - ref) := by
      simp only [queryTime, Option.getD_some, hr]
      rw [if_neg (by simp only [gt_iff_lt, not_or, not_lt]; exact ⟨h3, h4⟩)]
    have : s.clock[sat]? = none := List.getElem?_eq_none (by rw [h.2.2.2.clocks]; omega)
    simp only [hq, this]
  · simp only [getClock, hnum]
    rw [if_pos hs]

end

/-- The two accessors of the file reader guard their arguments differently: `GetEpochData` reads behind the list for the identifier equal to
the number of epochs, `GetPositionClock` returns the marker value for every epoch or satellite it does not have. -/
theorem C89_accessors {K : Type} [Field K] [LinearOrder K] (zero : K) (f : Sp3 K) (id sat : ℕ) :
    (∀ h : id < f.epochs.length, getEpochData zero f id = .ok f.epochs[id]) ∧
    (id = f.epochs.length → getEpochData zero f id = .ub) ∧
    (f.epochs.length < id → getEpochData zero f id = .ok zero) ∧
    (f.epochs.length ≤ id ∨ f.positionClock.length ≤ sat → getPositionClock f id sat = .ok badPositionClock) := by
  refine ⟨fun h => ?_, fun h => ?_, fun h => ?_, fun h => ?_⟩
  · rw [getEpochData, if_neg (by omega), List.getElem?_eq_getElem h]
  · rw [getEpochData, if_neg (by omega), List.getElem?_eq_none (by omega)]
  · rw [getEpochData, if_pos h]
  · unfold getPositionClock
    by_cases h1 : id ≥ f.epochs.length
    · rw [if_pos h1]
    · rw [if_neg h1, if_pos (by omega)]

/-! ## positions and log -/

/-- `GetPosition_ecef_m`: the position of the file (in metres) at the epochs in the window if they span less than the period used for the
interpolation (86659.2 s); zero outside `[0, 10^6]` s after the reference time; out of range for the number of satellites. -/
theorem C89_position (all : List (ℝ × (ℕ → PositionClock ℝ))) (hinc : (all.map Prod.fst).Pairwise (· < ·)) (ref : ℝ) (n k : ℕ)
    (s : State ℝ) (h : At all ref n k s) (hspan : T all (k + 8) - T all k < 86659.2) (sat : ℕ) (t : ℝ) :
    (sat < n → ∀ j (hj : j < all.length), k ≤ j → j < k + 9 → t = T all j → 0 ≤ t - ref → t - ref ≤ 1000000 →
      getPosition s sat (some t) = .ok fun i => some (1000 * (all[j].2 sat).positionKm i)) ∧
    (sat ≤ n → (t - ref < 0 ∨ 1000000 < t - ref) → getPosition s sat (some t) = .ok fun _ => some 0) ∧
    (sat = n → 0 ≤ t - ref → t - ref ≤ 1000000 → getPosition s sat (some t) = .ub) ∧
    (n < sat → getPosition s sat (some t) = .ok fun _ => some 0) := by
  have hnum := h.2.2.2.number
  have hr := h.1
  have hl := h.2.1
  refine ⟨fun hs j hj h1 h2 ht h3 h4 => ?_, fun hs hq => ?_, fun hs h3 h4 => ?_, fun hs => ?_⟩
  · obtain ⟨o, c, ho, -, hh⟩ := h.first hs
    simp only [getPosition, hnum]
    rw [if_neg (by omega)]
    have hq : queryTime s (some t) = some (t - ref) := by
      simp only [queryTime, Option.getD_some, hr]
      rw [if_neg (by simp only [gt_iff_lt, not_or, not_lt]; exact ⟨h3, h4⟩)]
    simp only [hq, ho]
    have hget := window_get (all := all) (ref := ref) (k := k) (j := j - k) (by omega) hl
    simp only [show k + (j - k) = j by omega] at hget
    have hTle : ∀ a b, a ≤ b → b < all.length → T all a ≤ T all b := fun a b hab hb => by
      rcases Nat.lt_or_eq_of_le hab with hlt | rfl
      · have := List.pairwise_iff_getElem.1 hinc a b (by simp; omega) (by simp; omega) hlt
        have : T all a < T all b := by simpa [T, List.getD_eq_getElem?_getD, hb, show a < all.length by omega] using this
        exact this.le
      · exact le_rfl
    have hpw : ((window all ref k).map Prod.fst).Pairwise (· < ·) := by
      unfold window
      rw [List.map_map, show (Prod.fst ∘ fun p : ℝ × (ℕ → PositionClock ℝ) => (p.1 - ref, p.2)) = (fun x => x - ref) ∘ Prod.fst from rfl,
        ← List.map_map, List.pairwise_map, List.map_take, List.map_drop]
      exact (List.Pairwise.sublist ((List.take_sublist _ _).trans (List.drop_sublist _ _)) hinc).imp fun h => by linarith
    have hax : ∀ i, calcTrigonometric (o.axis i) (t - ref) (2 * Real.pi / (24 * 60 * 60 * 1.003)) =
        .ok (some (1000 * (all[j].2 sat).positionKm i)) := by
      intro i
      have hxs : (o.axis i).xs = (window all ref k).map Prod.fst := (hh.inv.times i).trans hh.times
      have hlen : ((window all ref k).map Prod.fst).length = 9 := by simp [window]; omega
      have hsep : Separated (2 * Real.pi / (24 * 60 * 60 * 1.003)) (fun m => (o.axis i).xs.getD m 0) (Finset.range (o.axis i).degree) := by
        rw [hxs, hh.inv.deg i]
        refine separated_of_close (by have := Real.pi_pos; positivity) ?_ ?_
        · have := injOn_of_nodup (l := (window all ref k).map Prod.fst) (hpw.imp fun h => ne_of_lt h)
          rwa [hlen] at this
        · intro a ha b hb
          have hper : 2 * Real.pi / (2 * Real.pi / (24 * 60 * 60 * 1.003)) = (86659.2 : ℝ) := by
            rw [div_div_cancel₀ (by have := Real.pi_pos; positivity)]; norm_num
          rw [hper]
          have ha := Finset.mem_range.1 ha
          have hb := Finset.mem_range.1 hb
          simp only [List.getD_eq_getElem?_getD, List.getElem?_map, window_get ha hl, window_get hb hl, Option.map_some, Option.getD_some]
          have h1 := hTle (k + a) (k + 8) (by omega) (by omega)
          have h2 := hTle k (k + b) (by omega) (by omega)
          linarith
      have := C87_at_nodes (o.axis i) _ (hh.inv.wf i) hsep (j - k) (by rw [hh.inv.deg i]; omega)
      rw [hxs, hh.position i] at this
      simp only [List.getD_eq_getElem?_getD, List.getElem?_map, hget, Option.map_some, Option.getD_some] at this
      rw [ht]; exact this
    simp only [positionTrigonometric, three, hax, Res.bind_ok, Res.ok.injEq]
    funext i
    fin_cases i <;> rfl
  · simp only [getPosition, hnum]
    rw [if_neg (by omega)]
    have : queryTime s (some t) = none := by
      simp only [queryTime, Option.getD_some, hr]
      rw [if_pos hq]
    simp only [this]
  · simp only [getPosition, hnum]
    rw [if_neg (by omega)]
    have hq : queryTime s (some t) = some (t - ref) := by
      simp only [queryTime, Option.getD_some, hr]
      rw [if_neg (by simp only [gt_iff_lt, not_or, not_lt]; exact ⟨h3, h4⟩)]
    have : s.orbit[sat]? = none := List.getElem?_eq_none (by rw [h.2.2.2.orbits]; omega)
    simp only [hq, this]
  · simp only [getPosition, hnum]
    rw [if_pos hs]

/-- Writing the log (32 GPS satellites) reads out of range whenever the first file lists fewer than 32 satellites. -/
theorem C89_log (all : List (ℝ × (ℕ → PositionClock ℝ))) (ref : ℝ) (n k : ℕ) (s : State ℝ) (h : At all ref n k s)
    (h0 : 0 ≤ s.current - ref) (h1 : s.current - ref ≤ 1000000) :
    (n < 32 → logValues s 32 = .ub) ∧ (32 ≤ n → ∃ l, logValues s 32 = .ok l ∧ l.length = 32) := by
  have hnum := h.2.2.2.number
  have hr := h.1
  have hq : queryTime s none = some (s.current - ref) := by
    simp only [queryTime, Option.getD_none, hr]
    rw [if_neg (by simp only [gt_iff_lt, not_or, not_lt]; exact ⟨h0, h1⟩)]
  have hok : ∀ sat < n, (∃ p, getPosition s sat none = .ok p) ∧ ∃ c, getClock s sat none = .ok c := by
    intro sat hs
    obtain ⟨o, c, ho, hc, hh⟩ := h.first hs
    constructor
    · simp only [getPosition, hnum]
      rw [if_neg (by omega)]
      simp only [hq, ho]
      have hax : ∀ i, ∃ v, calcTrigonometric (o.axis i) (s.current - ref) (2 * Real.pi / (24 * 60 * 60 * 1.003)) = .ok v := by
        intro i
        have hwf : WellFormed (o.axis i) := hh.inv.wf i
        have hd : (o.axis i).degree = 9 := hh.inv.deg i
        have hne : (o.axis i).xs ≠ [] := fun h0 => by have := hwf.1; rw [h0, hd] at this; simp at this
        have hb := (trigRange_card (o.axis i) (by omega) (s.current - ref)).2
        unfold calcTrigonometric
        simp only
        rw [if_neg (by simp only [hne, hwf.1, hwf.2, lt_irrefl, false_or, not_lt]; exact hb)]
        exact ⟨_, rfl⟩
      obtain ⟨v0, e0⟩ := hax 0
      obtain ⟨v1, e1⟩ := hax 1
      obtain ⟨v2, e2⟩ := hax 2
      simp only [positionTrigonometric, three, e0, e1, e2, Res.bind_ok]
      exact ⟨_, rfl⟩
    · simp only [getClock, hnum]
      rw [if_neg (by omega)]
      simp only [hq, hc]
      have hne : c.xs ≠ [] := fun h0 => by have := hh.wf.1; have := hh.deg; simp_all
      unfold calcPolynomial
      rw [if_neg (by simp only [hne, hh.wf.1, hh.wf.2, lt_irrefl, or_self, not_false_iff])]
      exact ⟨_, rfl⟩
  have hpos : ∀ m ≤ n, ∃ l, logValues s m = .ok l ∧ l.length = m := by
    intro m hm
    induction m with
    | zero => exact ⟨[], rfl, rfl⟩
    | succ m ih =>
      obtain ⟨l, e, hl⟩ := ih (by omega)
      obtain ⟨⟨p, ep⟩, c, ec⟩ := hok m (by omega)
      exact ⟨l ++ [(p, c)], by simp only [logValues, e, ep, ec, Res.bind_ok], by simp [hl]⟩
  have hub : ∀ m, n < m → logValues s m = .ub := by
    intro m hm
    induction m with
    | zero => omega
    | succ m ih =>
      rcases Nat.lt_or_ge n m with hlt | hge
      · simp only [logValues, ih hlt, Res.bind_ub]
      · obtain rfl : n = m := by omega
        obtain ⟨l, e, -⟩ := hpos n le_rfl
        have : getPosition s n none = .ub := by
          simp only [getPosition, hnum]
          rw [if_neg (by omega)]
          have : s.orbit[n]? = none := List.getElem?_eq_none (by rw [h.2.2.2.orbits])
          simp only [hq, this]
        simp only [logValues, e, this, Res.bind_ok, Res.bind_ub]
  exact ⟨fun hn => hub 32 hn, fun hn => hpos 32 hn⟩

/-! ## Example: one file, 20 epochs every 900 s, one satellite, start in epoch 6 -/

/-- Example file. -/
def exFile : Sp3 ℚ :=
  ⟨1000, 20, 1, 900, (List.range 20).map fun j => 1000 + 900 * j, [(List.range 20).map fun j => ⟨fun _ => j, j⟩]⟩

theorem exFile_complete : ∀ f ∈ [exFile], Complete f := by
  intro f hf
  obtain rfl := List.mem_singleton.1 hf
  refine ⟨by decide +kernel, by decide +kernel, fun l hl => ?_⟩
  obtain rfl : l = _ := List.mem_singleton.1 hl
  simp [exFile]

theorem exFile_times : (stream [exFile]).map Prod.fst = (List.range 20).map fun j => 1000 + 900 * (j : ℚ) := by
  decide +kernel

example : ∃ s, initialise 0 [exFile] 6500 = .ok s ∧ s.current = 6500 ∧ s.files = [exFile] ∧
    At (stream [exFile]) (T (stream [exFile]) 2) 1 2 s :=
  (C89_initialise 0 [exFile] exFile_complete (by rw [exFile_times]; decide +kernel) 6500 0 (by simp) (by decide +kernel) 6
    (by decide +kernel) (by decide +kernel) 2 (by simp [stream])).1 (by simp [stream, items, exFile])

example : initialise 0 [exFile] 16000 = .ub :=
  (C89_initialise 0 [exFile] exFile_complete (by rw [exFile_times]; decide +kernel) 16000 0 (by simp) (by decide +kernel) 17
    (by decide +kernel) (by decide +kernel) 13 (by simp [stream])).2 (by simp [stream, items, exFile])

example : getCurrentSp3File [exFile] 0 500 = none := by decide +kernel

end S2E.GnssSat
