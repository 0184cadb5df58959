import Verif.Proofs.Antex
/-!
# C164: the grid of the phase centre variations
-/
namespace S2E.Antex
open S2E.Log S2E.Sp3

theorem floor_le_iff {x : ℝ} (hx : 0 ≤ x) (k : ℕ) : k < ⌊x⌋₊ + 1 ↔ (k : ℝ) ≤ x := by
  rw [Nat.lt_succ_iff, Nat.le_floor_iff hx]

/-- A regular number of nodes. -/
theorem nodes_iff {range step : ℝ} (hs : 0 < step) (hr : 0 ≤ range) (hb : range / step < 2 ^ 64 - 1) :
    ∃ n, nodes range step = .ok n ∧ 0 < n ∧ n < 2 ^ 64 ∧ ∀ k : ℕ, k < n ↔ k * step ≤ range := by
  have h0 : 0 ≤ range / step := div_nonneg hr hs.le
  have hn : nodes range step = .ok ((⌊range / step⌋₊ + 1) % 2 ^ 64) := by
    unfold nodes
    rw [if_neg (not_le.mpr hs), toSize_iff.mpr ⟨by linarith, by linarith, rfl⟩]
    rfl
  have hlt : ⌊range / step⌋₊ + 1 < 2 ^ 64 := by
    have h1 : (⌊range / step⌋₊ : ℝ) ≤ range / step := Nat.floor_le h0
    have h2 : ((⌊range / step⌋₊ + 1 : ℕ) : ℝ) < ((2 ^ 64 : ℕ) : ℝ) := by push_cast; linarith
    exact_mod_cast h2
  rw [Nat.mod_eq_of_lt hlt] at hn
  refine ⟨_, hn, Nat.succ_pos _, hlt, fun k => ?_⟩
  rw [floor_le_iff h0, le_div_iff₀ hs]

/-- **C164 (nodes).** With a positive step and ends in order the nodes of the zenith angle are exactly the multiples of the step from the start up to the end (and those of
the azimuth from 0 to 360 degrees); with a step that is not positive there are none. With a positive step and an end that is a step or more before the start (and any
number of nodes that does not fit) the result is undefined. -/
theorem C164_nodes (start stop step azimuth : ℝ) (ha : azimuth ≤ 0 ∨ (0 < azimuth ∧ 360 / azimuth < 2 ^ 64 - 1)) :
    (0 < step → start ≤ stop → (stop - start) / step < 2 ^ 64 - 1 → ∃ g, mkGrid start stop step azimuth = .ok g ∧
      g.start = start ∧ g.stop = stop ∧ g.step = step ∧ g.azimuthStep = azimuth ∧ (∀ k : ℕ, k < g.zeniths ↔ start + k * step ≤ stop) ∧
      (0 < azimuth → ∀ k : ℕ, k < g.azimuths ↔ k * azimuth ≤ 360) ∧ (azimuth ≤ 0 → g.azimuths = 0)) ∧
    (step ≤ 0 → ∃ g, mkGrid start stop step azimuth = .ok g ∧ g.zeniths = 0 ∧ (0 < azimuth → ∀ k : ℕ, k < g.azimuths ↔ k * azimuth ≤ 360) ∧
      (azimuth ≤ 0 → g.azimuths = 0)) ∧
    (0 < step → stop + step ≤ start ∨ start + 2 ^ 64 * step ≤ stop → mkGrid start stop step azimuth = .ub) := by
  have hA : ∃ n, nodes 360 azimuth = .ok n ∧ (0 < azimuth → ∀ k : ℕ, k < n ↔ k * azimuth ≤ 360) ∧ (azimuth ≤ 0 → n = 0) := by
    rcases ha with h | ⟨h, h'⟩
    · exact ⟨0, by unfold nodes; rw [if_pos h], fun h' => absurd h' (not_lt.mpr h), fun _ => rfl⟩
    · obtain ⟨n, h1, _, _, h2⟩ := nodes_iff h (by norm_num) h'
      exact ⟨n, h1, fun _ => h2, fun h' => absurd h (not_lt.mpr h')⟩
  obtain ⟨a, ea, ha1, ha2⟩ := hA
  refine ⟨fun h1 h2 h3 => ?_, fun h1 => ?_, fun h1 h2 => ?_⟩
  · obtain ⟨n, e, _, _, hk⟩ := nodes_iff h1 (sub_nonneg.mpr h2) h3
    refine ⟨⟨start, stop, step, azimuth, n, a⟩, by rw [mkGrid, e, ea]; rfl, rfl, rfl, rfl, rfl, fun k => ?_, ha1, ha2⟩
    rw [hk, le_sub_iff_add_le, add_comm]
  · exact ⟨⟨start, stop, step, azimuth, 0, a⟩, by rw [mkGrid, nodes, if_pos h1, ea]; rfl, rfl, ha1, ha2⟩
  · have : nodes (stop - start) step = .ub := by
      unfold nodes
      rw [if_neg (not_le.mpr h1), toSize, if_pos]
      · rfl
      · rcases h2 with h2 | h2
        · left
          rw [div_le_iff₀ h1]
          linarith
        · right
          rw [le_div_iff₀ h1]
          linarith
    rw [mkGrid, this]
    rfl

/-- A regular grid: positive step, ends in order, and a number of nodes that fits. -/
def Regular (g : Grid) : Prop := 0 < g.step ∧ g.start ≤ g.stop ∧ (g.stop - g.start) / g.step < 2 ^ 64 - 1 ∧ mkGrid g.start g.stop g.step g.azimuthStep = .ok g

theorem regular_nodes {g : Grid} (h : Regular g) : 0 < g.zeniths ∧ g.zeniths < 2 ^ 64 ∧ ∀ k : ℕ, k < g.zeniths ↔ g.start + k * g.step ≤ g.stop := by
  obtain ⟨h1, h2, h3, h4⟩ := h
  obtain ⟨n, e, h5, h6, hk⟩ := nodes_iff h1 (sub_nonneg.mpr h2) h3
  rw [mkGrid, e, Res.bind] at h4
  rcases ha : nodes 360 g.azimuthStep with a | _ | _ | _ <;> rw [ha] at h4 <;> simp only [Res.bind, reduceCtorEq] at h4
  have e : g.zeniths = n := by rw [← Res.ok.inj h4]
  refine ⟨by omega, by omega, fun k => ?_⟩
  rw [e, hk, le_sub_iff_add_le, add_comm]

theorem pred64_pos {n : ℕ} (h : 0 < n) (h' : n < 2 ^ 64) : pred64 n = n - 1 := by
  unfold pred64
  omega

theorem closest_iff {x step : ℝ} (hs : 0 < step) (hx : 0 ≤ x) (hb : x / step + 1 < 2 ^ 64) :
    ∃ k : ℕ, closest x step = .ok k ∧ (k - 1 / 2) * step ≤ x ∧ x < (k + 1 / 2) * step := by
  have h0 : 0 ≤ x / step + 0.5 := by have := div_nonneg hx hs.le; norm_num; linarith
  refine ⟨⌊x / step + 0.5⌋₊, ?_, ?_, ?_⟩
  · rw [closest, if_neg hs.ne', toSize_iff]
    exact ⟨by linarith, by norm_num; linarith, rfl⟩
  · have h1 := Nat.floor_le h0
    rw [← le_div_iff₀ hs]
    norm_num at h1 ⊢
    linarith
  · have h1 := Nat.lt_floor_add_one (x / step + 0.5)
    rw [← div_lt_iff₀ hs]
    norm_num at h1 ⊢
    linarith

/-- A node within half a step is the nearest. -/
theorem nearest {x step : ℝ} (hs : 0 < step) {k : ℕ} (h1 : (k - 1 / 2) * step ≤ x) (h2 : x ≤ (k + 1 / 2) * step) (j : ℕ) : |x - k * step| ≤ |x - j * step| := by
  rcases lt_trichotomy j k with h | h | h
  · have hj : (j : ℝ) + 1 ≤ k := by exact_mod_cast h
    have h3 : (j + 1) * step ≤ k * step := mul_le_mul_of_nonneg_right hj hs.le
    rw [abs_le]
    have h4 : x - j * step ≤ |x - j * step| := le_abs_self _
    constructor <;> nlinarith
  · subst h; exact le_rfl
  · have hj : (k : ℝ) + 1 ≤ j := by exact_mod_cast h
    have h3 : (k + 1) * step ≤ j * step := mul_le_mul_of_nonneg_right hj hs.le
    have h4 : -(x - j * step) ≤ |x - j * step| := neg_le_abs _
    rw [abs_le]
    constructor <;> nlinarith

/-- **C164 (zenith).** In a regular grid, the index of an angle between the ends is that of the nearest of all multiples of the step (the higher one in the middle); below the
start it is 0, from the end on that of the last node. The index is outside of the table (one too high) exactly for the angles before the end that lie half a step or more
after the last node. -/
theorem C164_zenith (g : Grid) (hg : Regular g) (angle : ℝ) :
    ∃ k, g.zenith angle = .ok k ∧ (angle ≤ g.start → k = 0) ∧ (g.stop ≤ angle → g.start < angle → k + 1 = g.zeniths) ∧
      (g.start < angle → angle < g.stop → g.start + (k - 1 / 2) * g.step ≤ angle ∧ angle < g.start + (k + 1 / 2) * g.step ∧
        ∀ j : ℕ, |angle - (g.start + k * g.step)| ≤ |angle - (g.start + j * g.step)|) ∧
      k ≤ g.zeniths ∧ (k = g.zeniths ↔ g.start < angle ∧ angle < g.stop ∧ g.start + (g.zeniths - 1 / 2) * g.step ≤ angle) := by
  obtain ⟨hz0, hz1, hz⟩ := regular_nodes hg
  obtain ⟨h1, h2, h3, -⟩ := hg
  by_cases ha : angle ≤ g.start
  · refine ⟨0, by rw [Grid.zenith, if_pos ha], fun _ => rfl, fun _ h => absurd h (not_lt.mpr ha), fun h => absurd h (not_lt.mpr ha), by omega, ?_⟩
    constructor
    · intro h; omega
    · rintro ⟨h, _⟩; exact absurd h (not_lt.mpr ha)
  by_cases hb : angle ≥ g.stop
  · refine ⟨g.zeniths - 1, by rw [Grid.zenith, if_neg ha, if_pos hb, pred64_pos hz0 hz1], fun h => absurd h ha, fun _ _ => by omega, fun _ h => absurd h (not_lt.mpr hb),
      by omega, ?_⟩
    constructor
    · intro h; omega
    · rintro ⟨_, h, _⟩; exact absurd h (not_lt.mpr hb)
  push Not at ha hb
  have hx : 0 ≤ angle - g.start := by linarith
  have hlt : (angle - g.start) / g.step + 1 < 2 ^ 64 := by
    have : (angle - g.start) / g.step ≤ (g.stop - g.start) / g.step := div_le_div_of_nonneg_right (by linarith) h1.le
    linarith
  obtain ⟨k, e, i1, i2⟩ := closest_iff h1 hx hlt
  have hk : k ≤ g.zeniths := by
    by_contra hk
    push Not at hk
    have hn := (hz g.zeniths).not.mp (lt_irrefl _)
    push Not at hn
    have hk' : (g.zeniths : ℝ) + 1 ≤ k := by exact_mod_cast hk
    have : (g.zeniths + 1) * g.step ≤ k * g.step := mul_le_mul_of_nonneg_right hk' h1.le
    nlinarith
  refine ⟨k, by rw [Grid.zenith, if_neg (not_le.mpr ha), if_neg (not_le.mpr hb), e], fun h => absurd h (not_le.mpr ha), fun h => absurd h (not_le.mpr hb),
    fun _ _ => ⟨by linarith, by linarith, fun j => ?_⟩, hk, ?_⟩
  · have := nearest h1 i1 i2.le j
    rw [show angle - (g.start + k * g.step) = angle - g.start - k * g.step by ring, show angle - (g.start + j * g.step) = angle - g.start - j * g.step by ring]
    exact this
  · constructor
    · rintro rfl
      exact ⟨ha, hb, by linarith⟩
    · rintro ⟨_, _, h⟩
      by_contra hne
      have hk' : (k : ℝ) + 1 ≤ g.zeniths := by exact_mod_cast Nat.lt_of_le_of_ne hk hne
      have : (k + 1) * g.step ≤ g.zeniths * g.step := mul_le_mul_of_nonneg_right hk' h1.le
      nlinarith

/-- **C164 (a whole number of steps).** If the end of a regular grid is a node, every angle has an index in the table, and it is that of the nearest node. -/
theorem C164_whole (g : Grid) (hg : Regular g) (N : ℕ) (hN : g.stop = g.start + N * g.step) (angle : ℝ) :
    ∃ k, g.zenith angle = .ok k ∧ k < g.zeniths ∧ ∀ j < g.zeniths, |angle - (g.start + k * g.step)| ≤ |angle - (g.start + j * g.step)| := by
  obtain ⟨k, e, h1, h2, h3, h4, h5⟩ := C164_zenith g hg angle
  obtain ⟨hz0, hz1, hz⟩ := regular_nodes hg
  have hs := hg.1
  have hZ : g.zeniths = N + 1 := by
    have a1 := (hz N).mpr (by rw [hN])
    have a2 : ¬ N + 1 < g.zeniths := by
      rw [hz, hN]
      push_cast
      nlinarith
    omega
  have hlast : k ≠ g.zeniths := by
    intro h
    obtain ⟨_, b2, b3⟩ := h5.mp h
    rw [hZ] at b3
    push_cast at b3
    nlinarith
  refine ⟨k, e, by omega, fun j hj => ?_⟩
  rcases le_or_gt angle g.start with ha | ha
  · rw [h1 ha]
    have : 0 ≤ (j : ℝ) * g.step := by positivity
    rw [abs_of_nonpos (by push_cast; linarith), abs_of_nonpos (by linarith)]
    push_cast
    linarith
  rcases le_or_gt g.stop angle with hb | hb
  · have hk : k = N := by have := h2 hb ha; omega
    rw [hk, ← hN]
    have : (j : ℝ) ≤ N := by have : j ≤ N := by omega
                             exact_mod_cast this
    have : j * g.step ≤ N * g.step := mul_le_mul_of_nonneg_right this hs.le
    rw [abs_of_nonneg (by linarith), abs_of_nonneg (by linarith)]
    linarith
  · exact (h3 ha hb).2.2 j

/-- The grid of a file: zenith angles 0 to 17 in steps of 1. -/
noncomputable def exGrid : Grid := ⟨0, 17, 1, 0, 18, 0⟩

theorem ex_regular : Regular exGrid := by
  refine ⟨by norm_num [exGrid], by norm_num [exGrid], by norm_num [exGrid], ?_⟩
  have : mkGrid 0 17 1 0 = .ok exGrid := by
    rw [mkGrid_iff]
    refine ⟨rfl, rfl, rfl, rfl, rfl, ?_⟩
    rw [if_neg (by norm_num)]
    refine ⟨by norm_num, by norm_num, ?_⟩
    have : ⌊(17 - 0 : ℝ) / 1⌋₊ = 17 := by norm_num
    rw [this]
    rfl
  exact this

/-- A case of `C164_zenith` and `C164_whole`. -/
example : ∃ k, exGrid.zenith 3.7 = .ok k ∧ k < 18 := by
  obtain ⟨k, e, h, _⟩ := C164_whole exGrid ex_regular 17 (by norm_num [exGrid]) 3.7
  exact ⟨k, e, h⟩

/-- The grid without arguments is that of zenith angles 0 to 90 in steps of 10. -/
theorem C164_default : mkGrid 0 90 10 0 = .ok defaultGrid ∧ defaultGrid.zeniths = 10 := by
  refine ⟨mkGrid_iff.mpr ⟨rfl, rfl, rfl, rfl, rfl, ?_⟩, rfl⟩
  rw [if_neg (by norm_num)]
  refine ⟨by norm_num, by norm_num, ?_⟩
  have : ⌊(90 - 0 : ℝ) / 10⌋₊ = 9 := by norm_num
  rw [this]
  rfl

/-- **C164 (an index outside of the table).** Zenith angles 0 to 90 in steps of 16: six nodes, but the angle 89 has the index 6, although 90 has the index 5. -/
theorem C164_outside : ∃ g, mkGrid 0 90 16 0 = .ok g ∧ g.zeniths = 6 ∧ g.zenith 89 = .ok 6 ∧ g.zenith 90 = .ok 5 := by
  refine ⟨⟨0, 90, 16, 0, 6, 0⟩, mkGrid_iff.mpr ⟨rfl, rfl, rfl, rfl, rfl, ?_⟩, rfl, ?_, ?_⟩
  · rw [if_neg (by norm_num)]
    refine ⟨by norm_num, by norm_num, ?_⟩
    have : ⌊(90 - 0 : ℝ) / 16⌋₊ = 5 := by rw [Nat.floor_eq_iff (by norm_num)]; norm_num
    rw [this]
    rfl
  · simp only [Grid.zenith]
    rw [if_neg (by norm_num), if_neg (by norm_num), closest, if_neg (by norm_num), toSize_iff]
    refine ⟨by norm_num, by norm_num, ?_⟩
    symm
    rw [Nat.floor_eq_iff (by norm_num)]; norm_num
  · simp only [Grid.zenith]
    rw [if_neg (by norm_num), if_pos (by norm_num)]
    rfl

/-- **C164 (azimuth).** With a positive step that divides 360 degrees every azimuth has an index in the table, and between 0 and 360 it is that of the nearest node; all
negative azimuths have the index 0 and all from 360 on the last index, whatever direction they are. -/
theorem C164_azimuth (start stop zstep step : ℝ) (N : ℕ) (hs : 0 < step) (hN : 360 = N * step) (hb : N + 1 < 2 ^ 64) (g : Grid)
    (hg : mkGrid start stop zstep step = .ok g) (angle : ℝ) :
    ∃ k, g.azimuth angle = .ok k ∧ k < g.azimuths ∧ g.azimuths = N + 1 ∧ (angle ≤ 0 → k = 0) ∧ (360 ≤ angle → k = N) ∧
      (0 ≤ angle → angle ≤ 360 → ∀ j : ℕ, |angle - k * step| ≤ |angle - j * step|) := by
  have hq : 360 / step = N := by rw [div_eq_iff hs.ne']; exact hN
  have hbig : (360 : ℝ) / step < 2 ^ 64 - 1 := by
    rw [hq]
    have : ((N + 1 : ℕ) : ℝ) < ((2 ^ 64 : ℕ) : ℝ) := by exact_mod_cast hb
    push_cast at this
    linarith
  obtain ⟨n, e, _, _, hk⟩ := nodes_iff hs (by norm_num : (0 : ℝ) ≤ 360) hbig
  have hn : n = N + 1 := by
    have a1 := (hk N).mpr hN.ge
    have a2 : ¬ N + 1 < n := by
      rw [hk]
      push_cast
      nlinarith
    omega
  have hga : g.azimuths = N + 1 ∧ g.azimuthStep = step := by
    rw [mkGrid] at hg
    rcases hz : nodes (stop - start) zstep with z | _ | _ | _ <;> rw [hz] at hg <;> simp only [Res.bind, reduceCtorEq] at hg
    rw [e] at hg
    rw [← Res.ok.inj hg]
    exact ⟨hn, rfl⟩
  obtain ⟨ha, hst⟩ := hga
  by_cases h0 : angle ≤ 0
  · refine ⟨0, by rw [Grid.azimuth, if_pos h0], by omega, ha, fun _ => rfl, fun h => by linarith, fun h _ j => ?_⟩
    obtain rfl : angle = 0 := le_antisymm h0 h
    have : 0 ≤ (j : ℝ) * step := by positivity
    simp only [CharP.cast_eq_zero, zero_mul, sub_zero, abs_zero]
    exact abs_nonneg _
  by_cases h1 : angle ≥ 360
  · refine ⟨N, by rw [Grid.azimuth, if_neg h0, if_pos h1, ha, pred64_pos (by omega) hb]; rfl, by omega, ha, fun h => absurd h h0, fun _ => rfl, fun _ h j => ?_⟩
    obtain rfl : angle = 360 := le_antisymm h h1
    rw [← hN, sub_self, abs_zero]
    exact abs_nonneg _
  push Not at h0 h1
  have hlt : angle / step + 1 < 2 ^ 64 := by
    have : angle / step ≤ 360 / step := div_le_div_of_nonneg_right h1.le hs.le
    linarith
  obtain ⟨k, e, i1, i2⟩ := closest_iff hs h0.le hlt
  refine ⟨k, by rw [Grid.azimuth, if_neg (not_le.mpr h0), if_neg (not_le.mpr h1), hst, e], ?_, ha, fun h => absurd h (not_le.mpr h0), fun h => absurd h (not_le.mpr h1),
    fun _ _ j => nearest hs i1 i2.le j⟩
  rw [ha]
  by_contra hk'
  push Not at hk'
  have h3 : (N : ℝ) + 1 ≤ k := by exact_mod_cast hk'
  have : (N + 1) * step ≤ k * step := mul_le_mul_of_nonneg_right h3 hs.le
  nlinarith

/-- A case of `C164_azimuth`: steps of 5 degrees. -/
example : ∃ g, mkGrid 0 90 10 5 = .ok g ∧ (360 : ℝ) = (72 : ℕ) * 5 := by
  obtain ⟨g, h, _⟩ := (C164_nodes 0 90 10 5 (Or.inr ⟨by norm_num, by norm_num⟩)).1 (by norm_num) (by norm_num) (by norm_num)
  exact ⟨g, h, by norm_num⟩

/-- **C164 (azimuth without a grid).** In every grid read from a file (azimuth step 0) the index of an azimuth between 0 and 360 degrees is undefined, and from 360 on
it is 2^64 - 1. -/
theorem C164_noAzimuth (a b d : ℝ) (g : Grid) (hg : IsGrid a b d g) (angle : ℝ) :
    (0 < angle → angle < 360 → g.azimuth angle = .ub) ∧ (360 ≤ angle → g.azimuth angle = .ok (2 ^ 64 - 1)) ∧ (angle ≤ 0 → g.azimuth angle = .ok 0) := by
  obtain ⟨_, _, _, h1, h2, _⟩ := hg
  refine ⟨fun h3 h4 => ?_, fun h3 => ?_, fun h3 => ?_⟩
  · rw [Grid.azimuth, if_neg (not_le.mpr h3), if_neg (not_le.mpr h4), closest, if_pos h1]
  · rw [Grid.azimuth, if_neg (by linarith), if_pos h3, h2]
    rfl
  · rw [Grid.azimuth, if_pos h3]

/-- A case of `C164_noAzimuth`. -/
example : IsGrid 0 17 1 exGrid := by
  refine ⟨rfl, rfl, rfl, rfl, rfl, ?_⟩
  rw [if_neg (by norm_num)]
  refine ⟨by norm_num, by norm_num, ?_⟩
  have : ⌊(17 - 0 : ℝ) / 1⌋₊ = 17 := by norm_num
  rw [this]
  rfl

end S2E.Antex
