import Verif.Model.Random
import Mathlib.NumberTheory.LucasPrimality
import Mathlib.GroupTheory.OrderOfElement
import Mathlib.Tactic.NormNum.PowMod
import Mathlib.Tactic.NormNum.Prime
import Mathlib.Tactic.IntervalCases
import Mathlib.Data.Rat.Floor
import Mathlib.RingTheory.Int.Basic
/-!
# C43–C48: random number generators and random walks
-/
namespace S2E.Random

/-! ## C43 the recurrence -/

theorem tdiv_cases (s : Int) : (0 ≤ s ∧ s.tdiv q = s / 127773) ∨ (s < 0 ∧ s.tdiv q = -((-s) / 127773)) := by
  rcases lt_or_ge s 0 with h | h
  · right
    refine ⟨h, ?_⟩
    have : s.tdiv q = -((-s).tdiv q) := by rw [Int.neg_tdiv, neg_neg]
    rw [this, Int.tdiv_eq_ediv_of_nonneg (by omega)]; rfl
  · left; exact ⟨h, by rw [Int.tdiv_eq_ediv_of_nonneg h]; rfl⟩

theorem lcgNext_def (s k : Int) (hk : s.tdiv q = k) :
    lcgNext s = if 16807 * (s - k * 127773) - 2836 * k < 0 then 16807 * (s - k * 127773) - 2836 * k + 2147483647
      else 16807 * (s - k * 127773) - 2836 * k := by
  subst hk; rfl

/-- One step is exactly multiplication by 16807 modulo 2147483647. -/
theorem lcgNext_spec (s : Int) (h : |s| ≤ 96000000000) : 0 ≤ lcgNext s ∧ lcgNext s < 2147483647 ∧ lcgNext s = (16807 * s) % 2147483647 := by
  rw [abs_le] at h
  have hb : 0 ≤ lcgNext s ∧ lcgNext s < 2147483647 ∧ ∃ c, lcgNext s = 16807 * s + 2147483647 * c := by
    rcases tdiv_cases s with ⟨h0, hk⟩ | ⟨h0, hk⟩
    · rw [lcgNext_def s _ hk]
      by_cases hc : 16807 * (s - s / 127773 * 127773) - 2836 * (s / 127773) < 0
      · rw [if_pos hc]; exact ⟨by omega, by omega, 1 - s / 127773, by omega⟩
      · rw [if_neg hc]; exact ⟨by omega, by omega, -(s / 127773), by omega⟩
    · rw [lcgNext_def s _ hk]
      by_cases hc : 16807 * (s - -(-s / 127773) * 127773) - 2836 * -(-s / 127773) < 0
      · rw [if_pos hc]; exact ⟨by omega, by omega, 1 + (-s) / 127773, by omega⟩
      · rw [if_neg hc]; exact ⟨by omega, by omega, (-s) / 127773, by omega⟩
  obtain ⟨h1, h2, c, h3⟩ := hb
  refine ⟨h1, h2, ?_⟩
  have : lcgNext s % 2147483647 = lcgNext s := Int.emod_eq_of_lt h1 h2
  rw [← this, h3, Int.add_mul_emod_self_left]

/-- The state after `n` draws from `seed`. -/
def lcgState (seed : Int) (n : Nat) : Int := lcgNext^[n] seed

theorem lcgState_succ (seed : Int) (n : Nat) : lcgState seed (n + 1) = lcgNext (lcgState seed n) := Function.iterate_succ_apply' _ _ _

theorem lcgState_add (seed : Int) (m n : Nat) : lcgState seed (m + n) = lcgState (lcgState seed m) n := by
  unfold lcgState; rw [Nat.add_comm, Function.iterate_add_apply]

theorem lcgState_eq (s : Int) (h : |s| ≤ 96000000000) (n : Nat) :
    lcgState s (n + 1) = (16807 ^ (n + 1) * s) % 2147483647 ∧ 0 ≤ lcgState s (n + 1) ∧ lcgState s (n + 1) < 2147483647 := by
  induction n with
  | zero => obtain ⟨h1, h2, h3⟩ := lcgNext_spec s h; exact ⟨by rw [lcgState_succ]; simpa [lcgState] using h3, h1, h2⟩
  | succ n ih =>
    obtain ⟨i1, i2, i3⟩ := ih
    obtain ⟨h1, h2, h3⟩ := lcgNext_spec (lcgState s (n + 1)) (by rw [abs_of_nonneg i2]; omega)
    rw [lcgState_succ s (n + 1)]
    refine ⟨?_, h1, h2⟩
    rw [h3, i1, Int.mul_emod, Int.emod_emod, ← Int.mul_emod]
    congr 1; ring

/-- Fast exponentiation, used to evaluate large powers in the kernel. -/
def powMod (m : Nat) : Nat → Nat → Nat → Nat
  | 0, _, _ => 1 % m
  | f + 1, b, e => if e = 0 then 1 % m else
      let h := powMod m f (b * b % m) (e / 2)
      if e % 2 = 1 then b * h % m else h

theorem powMod_eq (m f : Nat) : ∀ b e, e < 2 ^ f → powMod m f b e = b ^ e % m := by
  induction f with
  | zero => intro b e h; have : e = 0 := by simpa using h
            subst this; simp [powMod]
  | succ f ih =>
    intro b e h
    unfold powMod
    by_cases h0 : e = 0
    · subst h0; simp
    · rw [if_neg h0]
      simp only
      rw [ih (b * b % m) (e / 2) (by rw [pow_succ] at h; omega), ← Nat.pow_mod, ← pow_two, ← pow_mul]
      by_cases h1 : e % 2 = 1
      · rw [if_pos h1, Nat.mul_mod_mod, ← pow_succ', show 2 * (e / 2) + 1 = e by omega]
      · rw [if_neg h1, show 2 * (e / 2) = e by omega]

theorem zmod_pow (b e v : Nat) (h : powMod 2147483647 31 b e = v) (he : e < 2 ^ 31) : (b : ZMod 2147483647) ^ e = (v : ZMod 2147483647) := by
  rw [powMod_eq _ _ _ _ he] at h
  rw [← h, ZMod.natCast_mod]; push_cast; rfl

theorem zmod_ne_one (v : Nat) (h1 : v < 2147483647) (h2 : v ≠ 1) : (v : ZMod 2147483647) ≠ 1 := by
  intro h
  have := (ZMod.natCast_eq_natCast_iff' v 1 2147483647).1 (by simpa using h)
  rw [Nat.mod_eq_of_lt h1] at this
  exact h2 (by simpa using this)

theorem factors (p : Nat) (hp : p.Prime) (h : p ∣ 2147483646) : p = 2 ∨ p = 3 ∨ p = 7 ∨ p = 11 ∨ p = 31 ∨ p = 151 ∨ p = 331 := by
  rw [show 2147483646 = 2 * (3 * (3 * (7 * (11 * (31 * (151 * 331)))))) by norm_num] at h
  have two : ∀ a : Nat, a.Prime → p ∣ a → p = a := fun a ha hd => (Nat.prime_dvd_prime_iff_eq hp ha).1 hd
  rcases (hp.dvd_mul).1 h with h | h
  · exact Or.inl (two 2 (by norm_num) h)
  rcases (hp.dvd_mul).1 h with h | h
  · exact Or.inr (Or.inl (two 3 (by norm_num) h))
  rcases (hp.dvd_mul).1 h with h | h
  · exact Or.inr (Or.inl (two 3 (by norm_num) h))
  rcases (hp.dvd_mul).1 h with h | h
  · exact Or.inr (Or.inr (Or.inl (two 7 (by norm_num) h)))
  rcases (hp.dvd_mul).1 h with h | h
  · exact Or.inr (Or.inr (Or.inr (Or.inl (two 11 (by norm_num) h))))
  rcases (hp.dvd_mul).1 h with h | h
  · exact Or.inr (Or.inr (Or.inr (Or.inr (Or.inl (two 31 (by norm_num) h)))))
  rcases (hp.dvd_mul).1 h with h | h
  · exact Or.inr (Or.inr (Or.inr (Or.inr (Or.inr (Or.inl (two 151 (by norm_num) h))))))
  · exact Or.inr (Or.inr (Or.inr (Or.inr (Or.inr (Or.inr (two 331 (by norm_num) h))))))

theorem pow_all : (16807 : ZMod 2147483647) ^ 2147483646 = 1 := by
  have := zmod_pow 16807 2147483646 1 (by decide +kernel) (by norm_num)
  simpa using this

theorem pow_div (p : Nat) (hp : p.Prime) (h : p ∣ 2147483646) : (16807 : ZMod 2147483647) ^ (2147483646 / p) ≠ 1 := by
  have key : ∀ e : Nat, e < 2 ^ 31 → powMod 2147483647 31 16807 e < 2147483647 → powMod 2147483647 31 16807 e ≠ 1 → (16807 : ZMod 2147483647) ^ e ≠ 1 := by
    intro e he h1 h2
    have := zmod_pow 16807 e _ rfl he
    push_cast at this
    rw [this]; exact zmod_ne_one _ h1 h2
  rcases factors p hp h with rfl | rfl | rfl | rfl | rfl | rfl | rfl <;>
    exact key _ (by norm_num) (by decide +kernel) (by decide +kernel)

/-- The modulus is prime (Lucas test with the multiplier itself). -/
theorem prime_kM : Nat.Prime 2147483647 :=
  lucas_primality 2147483647 (16807 : ZMod 2147483647) pow_all fun p hp h => pow_div p hp h

/-- 16807 is a primitive root. -/
theorem orderOf_kA : orderOf (16807 : ZMod 2147483647) = 2147483646 :=
  orderOf_eq_of_pow_and_pow_div_prime (by norm_num) pow_all fun p hp h => pow_div p hp h

/-- **C43.** Seeded with any `s` with `0 < |s| < 2147483647` (or any other non-multiple of the modulus up to 9.6·10¹⁰ in magnitude, such as
the default seed), the state after `n ≥ 1` draws is `16807^n · s` modulo 2147483647 and lies in 1..2147483646, and every output lies strictly
between 0 and 1. -/
theorem C43_recurrence (K : Type) [Field K] [LinearOrder K] [IsStrictOrderedRing K] (s : Int) (h : |s| ≤ 96000000000)
    (hm : ¬ (2147483647 : Int) ∣ s) (n : Nat) (hn : 1 ≤ n) :
    lcgState s n = (16807 ^ n * s) % 2147483647 ∧ 1 ≤ lcgState s n ∧ lcgState s n ≤ 2147483646 ∧
    0 < (lcgOut (lcgState s n) : K) ∧ (lcgOut (lcgState s n) : K) < 1 := by
  obtain ⟨m, rfl⟩ : ∃ m, n = m + 1 := ⟨n - 1, by omega⟩
  obtain ⟨h1, h2, h3⟩ := lcgState_eq s h m
  have hne : lcgState s (m + 1) ≠ 0 := by
    rw [h1]
    intro h0
    have hd := Int.dvd_of_emod_eq_zero h0
    have hp' : Prime (2147483647 : Int) := Nat.prime_iff_prime_int.1 prime_kM
    rcases hp'.dvd_or_dvd hd with h4 | h4
    · have := hp'.dvd_of_dvd_pow h4
      exact absurd this (by decide)
    · exact hm h4
  have hpos : 1 ≤ lcgState s (m + 1) := by omega
  refine ⟨h1, hpos, by omega, ?_, ?_⟩
  · unfold lcgOut kM
    have : (0 : K) < ((lcgState s (m + 1) : Int) : K) := by exact_mod_cast (show 0 < lcgState s (m + 1) by omega)
    have : (0 : K) < ((2147483647 : Int) : K) := by norm_num
    positivity
  · unfold lcgOut kM
    have h4 : ((lcgState s (m + 1) : Int) : K) < ((2147483647 : Int) : K) := by exact_mod_cast h3
    have h5 : (0 : K) < ((2147483647 : Int) : K) := by norm_num
    rw [one_div, inv_mul_lt_iff₀ h5, mul_one]
    exact h4

/-- **C43.** No operation overflows: for every 64-bit seed all intermediate values fit 64 bits, and for seeds below the modulus in magnitude
they even fit 32 bits. -/
theorem C43_no_overflow (s : Int) :
    (-2 ^ 63 ≤ s → s < 2 ^ 63 → ∀ v ∈ lcgIntermediates s, -2 ^ 63 ≤ v ∧ v < 2 ^ 63) ∧
    (|s| < 2147483647 → ∀ v ∈ lcgIntermediates s, -2 ^ 31 ≤ v ∧ v < 2 ^ 31) := by
  have hl : ∀ k : Int, s.tdiv q = k → lcgIntermediates s = [k, k * 127773, s - k * 127773, 16807 * (s - k * 127773), 2836 * k,
      16807 * (s - k * 127773) - 2836 * k, lcgNext s] := by
    intro k hk; subst hk; rfl
  constructor
  · intro h1 h2
    rcases tdiv_cases s with ⟨h0, hk⟩ | ⟨h0, hk⟩
    · rw [hl _ hk, lcgNext_def s _ hk]
      intro v hv
      simp only [List.mem_cons, List.not_mem_nil, or_false] at hv
      rcases hv with h | h | h | h | h | h | h
      all_goals (try split at h) <;> omega
    · rw [hl _ hk, lcgNext_def s _ hk]
      intro v hv
      simp only [List.mem_cons, List.not_mem_nil, or_false] at hv
      rcases hv with h | h | h | h | h | h | h
      all_goals (try split at h) <;> omega
  · intro h
    rw [abs_lt] at h
    rcases tdiv_cases s with ⟨h0, hk⟩ | ⟨h0, hk⟩
    · rw [hl _ hk, lcgNext_def s _ hk]
      intro v hv
      simp only [List.mem_cons, List.not_mem_nil, or_false] at hv
      rcases hv with h | h | h | h | h | h | h
      all_goals (try split at h) <;> omega
    · rw [hl _ hk, lcgNext_def s _ hk]
      intro v hv
      simp only [List.mem_cons, List.not_mem_nil, or_false] at hv
      rcases hv with h | h | h | h | h | h | h
      all_goals (try split at h) <;> omega

/-- **C43.** Seed 0 is rejected; a seed that is a multiple of the modulus is accepted but makes every output 0. -/
theorem C43_degenerate (K : Type) [Field K] [LinearOrder K] [IsStrictOrderedRing K] :
    (lcgInit 0 = .throws ∧ ∀ s, s ≠ 0 → lcgInit s = .ok s) ∧
    ∀ s : Int, |s| ≤ 96000000000 → (2147483647 : Int) ∣ s → ∀ n, 1 ≤ n → lcgState s n = 0 ∧ (lcgOut (lcgState s n) : K) = 0 := by
  refine ⟨⟨rfl, fun s hs => if_neg hs⟩, fun s h hd n hn => ?_⟩
  obtain ⟨m, rfl⟩ : ∃ m, n = m + 1 := ⟨n - 1, by omega⟩
  have h0 : lcgState s (m + 1) = 0 := by
    rw [(lcgState_eq s h m).1]; exact Int.emod_eq_zero_of_dvd (Dvd.dvd.mul_left hd _)
  exact ⟨h0, by rw [h0]; simp [lcgOut]⟩

/-- **C43 (limit).** Seeds far beyond the modulus (possible with 64-bit `long`) break the generator: the first output of seed 2^62 is
negative. -/
theorem C43_large_seed : lcgState (2 ^ 62) 1 < 0 ∧ (lcgOut (lcgState (2 ^ 62) 1) : ℚ) < 0 := by decide +kernel

example : lcgState 1 3 = 1622650073 ∧ lcgState deadbeef 1 = 16807 * 3735928559 % 2147483647 ∧ |deadbeef| ≤ 96000000000 ∧
    ¬ (2147483647 : Int) ∣ deadbeef := by decide +kernel
/-- The published check value of the generator: seed 1 after 10000 draws (Park and Miller). -/
theorem C43_park_miller_check : lcgState 1 10000 = 1043618065 := by
  rw [(C43_recurrence ℚ 1 (by norm_num) (by norm_num) 10000 (by norm_num)).1]
  decide +kernel

/-! ## C44 full period -/

theorem state_zmod (s : Int) (h : |s| ≤ 96000000000) (hm : ¬ (2147483647 : Int) ∣ s) (n : Nat) (hn : 1 ≤ n) :
    ((lcgState s n : Int) : ZMod 2147483647) = 16807 ^ n * (s : ZMod 2147483647) := by
  rw [(C43_recurrence ℚ s h hm n hn).1, show (2147483647 : Int) = ((2147483647 : Nat) : Int) from rfl, ZMod.intCast_mod]
  push_cast; rfl

theorem state_eq_iff (s : Int) (h : |s| ≤ 96000000000) (hm : ¬ (2147483647 : Int) ∣ s) (m n : Nat) (hm1 : 1 ≤ m) (hn1 : 1 ≤ n) :
    lcgState s m = lcgState s n ↔ m ≡ n [MOD 2147483646] := by
  have : Fact (Nat.Prime 2147483647) := ⟨prime_kM⟩
  have hs : (s : ZMod 2147483647) ≠ 0 := by
    intro h0; exact hm ((ZMod.intCast_zmod_eq_zero_iff_dvd s 2147483647).1 h0)
  have hb := C43_recurrence ℚ s h hm
  have e1 : lcgState s m = lcgState s n ↔ ((lcgState s m : Int) : ZMod 2147483647) = ((lcgState s n : Int) : ZMod 2147483647) := by
    constructor
    · intro e; rw [e]
    · intro e
      have := (ZMod.intCast_eq_intCast_iff' _ _ 2147483647).1 e
      rw [Int.emod_eq_of_lt, Int.emod_eq_of_lt] at this
      · exact this
      · have := (hb n hn1).2.1; omega
      · have := (hb n hn1).2.2.1; push_cast; omega
      · have := (hb m hm1).2.1; omega
      · have := (hb m hm1).2.2.1; push_cast; omega
  rw [e1, state_zmod s h hm m hm1, state_zmod s h hm n hn1]
  rw [mul_left_inj' hs]
  have hg : (16807 : ZMod 2147483647) ≠ 0 := by
    intro h0
    have := pow_all
    rw [h0] at this
    simp at this
  obtain ⟨u, hu⟩ : ∃ u : (ZMod 2147483647)ˣ, (u : ZMod 2147483647) = 16807 := ⟨Units.mk0 _ hg, rfl⟩
  have ho : orderOf u = 2147483646 := by rw [← orderOf_units, hu, orderOf_kA]
  rw [← hu, ← Units.val_pow_eq_pow_val, ← Units.val_pow_eq_pow_val, Units.val_inj, pow_eq_pow_iff_modEq, ho]

/-- **C44.** From any valid seed the sequence of states has period exactly 2147483646: two states are equal exactly if their positions
agree modulo 2147483646. -/
theorem C44_period (s : Int) (h : |s| ≤ 96000000000) (hm : ¬ (2147483647 : Int) ∣ s) (m n : Nat) (hm1 : 1 ≤ m) (hn1 : 1 ≤ n) :
    lcgState s m = lcgState s n ↔ m % 2147483646 = n % 2147483646 := state_eq_iff s h hm m n hm1 hn1

/-- **C44.** Every one of the 2147483646 possible states is visited among any 2147483646 consecutive draws. -/
theorem C44_all_states (s : Int) (h : |s| ≤ 96000000000) (hm : ¬ (2147483647 : Int) ∣ s) (start : Nat) (hs : 1 ≤ start) (v : Int)
    (hv1 : 1 ≤ v) (hv2 : v ≤ 2147483646) : ∃ i < 2147483646, lcgState s (start + i) = v := by
  -- an injection of 2147483646 positions into 2147483646 values is onto
  let f : Fin 2147483646 → Fin 2147483646 := fun i => ⟨(lcgState s (start + i.val) - 1).toNat, by
    have := (C43_recurrence ℚ s h hm (start + i.val) (by omega)); omega⟩
  have hinj : Function.Injective f := by
    intro i j hij
    have h1 := (C43_recurrence ℚ s h hm (start + i.val) (by omega)).2.1
    have h2 := (C43_recurrence ℚ s h hm (start + j.val) (by omega)).2.1
    have hij' : (lcgState s (start + i.val) - 1).toNat = (lcgState s (start + j.val) - 1).toNat := congrArg Fin.val hij
    have : lcgState s (start + i.val) = lcgState s (start + j.val) := by omega
    have := (C44_period s h hm _ _ (by omega) (by omega)).1 this
    apply Fin.ext
    have := i.2; have := j.2; omega
  obtain ⟨i, hi⟩ := (Finite.surjective_of_injective hinj) ⟨(v - 1).toNat, by omega⟩
  have hi' : (lcgState s (start + i.val) - 1).toNat = (v - 1).toNat := congrArg Fin.val hi
  have h1 := (C43_recurrence ℚ s h hm (start + i.val) (by omega)).2.1
  exact ⟨i.val, i.2, by omega⟩

example : lcgState 1 (2147483646 + 3) = 1622650073 := by
  rw [(C44_period 1 (by norm_num) (by norm_num) (2147483646 + 3) 3 (by norm_num) (by norm_num)).2 (by norm_num)]
  decide +kernel

/-! ## C45 the shuffled generator -/

variable {K : Type} [Field K] [LinearOrder K] [IsStrictOrderedRing K] [FloorRing K]

omit [FloorRing K] [IsStrictOrderedRing K] [LinearOrder K] in
theorem fill_spec (n : Nat) : ∀ s : Int, (fill (K := K) n s).1 = (List.range n).map (fun i => lcgOut (lcgState s (i + 1))) ∧
    (fill (K := K) n s).2 = lcgState s n := by
  induction n with
  | zero => intro s; exact ⟨rfl, rfl⟩
  | succ n ih =>
    intro s
    obtain ⟨h1, h2⟩ := ih (lcgNext s)
    have hst : ∀ m, lcgState (lcgNext s) m = lcgState s (m + 1) := fun m => by
      rw [Nat.add_comm, lcgState_add]; rfl
    refine ⟨?_, ?_⟩
    · show lcgOut (lcgNext s) :: (fill (K := K) n (lcgNext s)).1 = _
      rw [h1, List.range_succ_eq_map, List.map_cons, List.map_map]
      congr 1
    · show (fill (K := K) n (lcgNext s)).2 = _
      rw [h2, hst]

omit [FloorRing K] [IsStrictOrderedRing K] [LinearOrder K] in
/-- The state after seeding: the table holds draws 9 to 40. -/
theorem initialize_spec (s : Int) (pos : Nat) :
    Shuffle.initialize (K := K) s pos = ⟨lcgState s 40, pos, (List.range 32).map (fun i => lcgOut (lcgState s (i + 9)))⟩ := by
  unfold Shuffle.initialize
  simp only [(fill_spec (K := K) 8 s).2, (fill_spec (K := K) 32 (lcgState s 8)).1, (fill_spec (K := K) 32 (lcgState s 8)).2, ← lcgState_add]
  have : ∀ i, 8 + (i + 1) = i + 9 := fun i => by omega
  simp only [this]

/-- A seed the generator accepts and works with. -/
def ValidSeed (s : Int) : Prop := |s| ≤ 96000000000 ∧ ¬ (2147483647 : Int) ∣ s

theorem validSeed_ne (s : Int) (h : ValidSeed s) : s ≠ 0 := fun h0 => h.2 (by rw [h0]; exact dvd_zero _)

/-- What a shuffled generator that is in order looks like: position 0, 32 entries, the entry at the position in (0, 1), a valid LCG state. -/
structure Shuffle.Good (g : Shuffle K) (u : K) : Prop where
  pos : g.pos = 0
  len : g.table.length = 32
  head : g.table[0]? = some u
  lo : 0 < u
  hi : u < 1
  seed : ValidSeed g.lcg

theorem validSeed_state (s : Int) (h : ValidSeed s) (n : Nat) : ValidSeed (lcgState s n) := by
  rcases n with _ | n
  · exact h
  · obtain ⟨_, h1, h2, _, _⟩ := C43_recurrence ℚ s h.1 h.2 (n + 1) (by omega)
    exact ⟨by rw [abs_of_nonneg (by omega)]; omega, by omega⟩

/-- One draw: the held entry comes out, the next LCG output takes its place, and the position stays 0. -/
theorem draw_good (g : Shuffle K) (u : K) (h : g.Good u) :
    ∃ g', g.draw = .ok (u, g') ∧ g'.lcg = lcgNext g.lcg ∧ g'.Good (lcgOut (lcgNext g.lcg)) := by
  obtain ⟨hpos, hlen, hhead, hlo, hhi, hseed⟩ := h
  obtain ⟨_, h1, h2, h3, h4⟩ := C43_recurrence K g.lcg hseed.1 hseed.2 1 (by omega)
  have hfl : ⌊u⌋ = 0 := by rw [Int.floor_eq_iff]; exact ⟨by push_cast; linarith, by push_cast; linarith⟩
  refine ⟨⟨lcgNext g.lcg, 0, g.table.set 0 (lcgOut (lcgNext g.lcg))⟩, ?_, rfl, rfl, by simpa using hlen, ?_, h3, h4, ?_⟩
  · unfold Shuffle.draw
    rw [hpos, hhead]
    simp only
    have h64 : (1 : K) ≤ 2 ^ 64 := by norm_num
    rw [if_neg (by rintro (h | h) <;> linarith), hfl]
    rfl
  · rw [List.getElem?_set_self (by omega)]
  · exact validSeed_state g.lcg hseed 1

/-- `n` draws in a row. -/
def drawMany : Nat → Shuffle K → Res (List K × Shuffle K)
  | 0, g => .ok ([], g)
  | n + 1, g => do
    let (x, g) ← g.draw
    let (xs, g) ← drawMany n g
    .ok (x :: xs, g)

theorem drawMany_good (n : Nat) : ∀ (g : Shuffle K) (u : K), g.Good u → ∃ outs g', drawMany n g = .ok (outs, g') ∧ outs.length = n ∧
    (∀ i < n, outs[i]? = some (if i = 0 then u else lcgOut (lcgState g.lcg i))) ∧ ∃ u', g'.Good u' := by
  induction n with
  | zero => intro g u h; exact ⟨[], g, rfl, rfl, by simp, u, h⟩
  | succ n ih =>
    intro g u h
    obtain ⟨g1, h1, h2, h3⟩ := draw_good g u h
    obtain ⟨outs, g', h4, h5, h6, h7⟩ := ih g1 _ h3
    refine ⟨u :: outs, g', ?_, by simp [h5], ?_, h7⟩
    · unfold drawMany; simp only [h1, Res.bind_ok, h4]
    · intro i hi
      rcases i with _ | i
      · simp
      · rw [List.getElem?_cons_succ, h6 i (by omega), h2]
        rcases i with _ | i
        · rfl
        · rw [if_neg (by omega), if_neg (by omega)]
          have : ∀ m, lcgState (lcgNext g.lcg) m = lcgState g.lcg (m + 1) := fun m => by rw [Nat.add_comm, lcgState_add]; rfl
          rw [this]

/-- A good state after seeding. -/
theorem initialize_good (s : Int) (h : ValidSeed s) : (Shuffle.initialize (K := K) s 0).Good (lcgOut (lcgState s 9)) := by
  rw [initialize_spec]
  obtain ⟨_, _, _, h3, h4⟩ := C43_recurrence K s h.1 h.2 9 (by omega)
  have hv := validSeed_state s h 40
  generalize lcgState s 40 = z at hv
  exact ⟨rfl, by simp only [List.length_map, List.length_range],
    by simp only [List.getElem?_map, List.getElem?_range (show 0 < 32 by norm_num), Option.map_some, Nat.zero_add], h3, h4, hv⟩

/-- **C45.** For every valid seed and every number of draws, no draw reads outside the table or otherwise misbehaves, and the outputs are
LCG outputs: first draw 9, then draws 41, 42, 43, ... in order — the intended shuffling never happens. -/
theorem C45_stream (seed : Int) (h : ValidSeed seed) (n : Nat) :
    ∃ g outs g', Shuffle.new (K := K) seed = .ok g ∧ drawMany n g = .ok (outs, g') ∧ outs.length = n ∧
      ∀ i < n, outs[i]? = some (lcgOut (lcgState seed (if i = 0 then 9 else 40 + i))) := by
  obtain ⟨outs, g', h1, h2, h3, _⟩ := drawMany_good n _ _ (initialize_good (K := K) seed h)
  refine ⟨Shuffle.initialize seed 0, outs, g', ?_, h1, h2, ?_⟩
  · unfold Shuffle.new lcgInit; rw [if_neg (validSeed_ne seed h)]; rfl
  · intro i hi
    rw [h3 i hi]
    by_cases h0 : i = 0
    · simp [h0]
    · rw [if_neg h0, if_neg h0, lcgState_add, initialize_spec]

/-- **C45.** Re-seeding after any number of draws gives the same stream as a fresh generator with that seed. -/
theorem C45_reseed (seed seed' : Int) (h : ValidSeed seed) (n : Nat) :
    ∃ g outs g', Shuffle.new (K := K) seed = .ok g ∧ drawMany n g = .ok (outs, g') ∧ g'.initSeed seed' = Shuffle.new seed' := by
  obtain ⟨outs, g', h1, _, _, u', hg⟩ := drawMany_good n _ _ (initialize_good (K := K) seed h)
  refine ⟨Shuffle.initialize seed 0, outs, g', ?_, h1, ?_⟩
  · unfold Shuffle.new lcgInit; rw [if_neg (validSeed_ne seed h)]; rfl
  · unfold Shuffle.initSeed Shuffle.new; rw [hg.pos]

example : ValidSeed 1 ∧ ValidSeed (-12345) ∧ ValidSeed deadbeef := by
  refine ⟨⟨by norm_num, by norm_num⟩, ⟨by norm_num, by norm_num⟩, ⟨by unfold deadbeef; norm_num, by unfold deadbeef; norm_num⟩⟩

/-! ## C46 derived seeds -/

/-- **C46.** Whatever valid state the global generator is in, the derived seed is never 0 nor a multiple of the modulus — it is the default
seed or at most 2147483645 in magnitude — so seeding with it never raises and gives a working generator; and the global generator stays in a
valid state, so this holds for every seed ever derived. -/
theorem C46_seeds (base : Int) (h : ValidSeed base) :
    ((makeSeed K base).1 = deadbeef ∨ (makeSeed K base).1 ≠ 0 ∧ |(makeSeed K base).1| ≤ 2147483645) ∧
    ValidSeed (makeSeed K base).1 ∧ ValidSeed (makeSeed K base).2 ∧ lcgInit (makeSeed K base).1 = .ok (makeSeed K base).1 := by
  obtain ⟨_, h1, h2, _, _⟩ := C43_recurrence K base h.1 h.2 1 (by omega)
  have hs : lcgState base 1 = lcgNext base := rfl
  rw [hs] at h1 h2
  have hrange : |truncZ (((lcgOut (lcgNext base) : K) - 1 / 2) * 4294967295)| ≤ 2147483645 := by
    have e1 : (1 : K) ≤ ((lcgNext base : Int) : K) := by exact_mod_cast h1
    have e2 : ((lcgNext base : Int) : K) ≤ 2147483646 := by exact_mod_cast h2
    have e3 : (lcgOut (lcgNext base) : K) = ((lcgNext base : Int) : K) / 2147483647 := by
      unfold lcgOut kM; push_cast; ring
    have l1 : (1 : K) / 2147483647 ≤ lcgOut (lcgNext base) := by rw [e3]; gcongr
    have l2 : (lcgOut (lcgNext base) : K) ≤ 2147483646 / 2147483647 := by rw [e3]; gcongr
    have b1 : ((lcgOut (lcgNext base) : K) - 1 / 2) * 4294967295 < 2147483646 := by
      refine lt_of_le_of_lt (mul_le_mul_of_nonneg_right (sub_le_sub_right l2 _) (by norm_num)) ?_
      norm_num
    have b2 : -2147483646 < ((lcgOut (lcgNext base) : K) - 1 / 2) * 4294967295 := by
      refine lt_of_lt_of_le ?_ (mul_le_mul_of_nonneg_right (sub_le_sub_right l1 _) (by norm_num))
      norm_num
    generalize ((lcgOut (lcgNext base) : K) - 1 / 2) * 4294967295 = z at b1 b2
    unfold truncZ
    rw [abs_le]
    split
    · rename_i h0
      have f1 : 0 ≤ ⌊z⌋ := Int.floor_nonneg.2 h0
      have f2 : ⌊z⌋ < 2147483646 := Int.floor_lt.2 (by push_cast; exact b1)
      omega
    · rename_i h0
      have f1 : ⌈z⌉ ≤ 0 := Int.ceil_le.2 (by push_cast; exact le_of_lt (not_le.1 h0))
      have f2 : -2147483646 < ⌈z⌉ := Int.lt_ceil.2 (by push_cast; exact b2)
      omega
  have hfst : (makeSeed K base).1 = if truncZ (((lcgOut (lcgNext base) : K) - 1 / 2) * 4294967295) = 0 then deadbeef
      else truncZ (((lcgOut (lcgNext base) : K) - 1 / 2) * 4294967295) := rfl
  have hsnd : (makeSeed K base).2 = lcgState base 1 := rfl
  rw [hsnd, hfst]
  generalize truncZ (((lcgOut (lcgNext base) : K) - 1 / 2) * 4294967295) = t at hrange
  have hdb : ValidSeed deadbeef := ⟨by unfold deadbeef; norm_num, by unfold deadbeef; norm_num⟩
  by_cases h0 : t = 0
  · rw [if_pos h0]
    exact ⟨Or.inl rfl, hdb, validSeed_state base h 1, if_neg (by decide)⟩
  · rw [if_neg h0]
    have ht := abs_le.1 hrange
    refine ⟨Or.inr ⟨h0, hrange⟩, ⟨hrange.trans (by norm_num), ?_⟩, validSeed_state base h 1, if_neg h0⟩
    omega

/-- The `n`-th seed derived from the global generator started in state `base`. -/
def nthSeed (K : Type) [Field K] [LinearOrder K] [IsStrictOrderedRing K] [FloorRing K] (base : Int) : Nat → Int
  | 0 => (makeSeed K base).1
  | n + 1 => nthSeed K (makeSeed K base).2 n

/-- **C46.** All seeds ever derived from the default or any valid global seed are valid. -/
theorem C46_all_seeds (n : Nat) : ∀ base, ValidSeed base → ValidSeed (nthSeed K base n) := by
  induction n with
  | zero => intro base h; exact (C46_seeds (K := K) base h).2.1
  | succ n ih => intro base h; exact ih _ (C46_seeds (K := K) base h).2.2.1

example : makeSeed ℚ deadbeef = (1101356607, 1624420127) ∧ makeSeed ℚ 1 = (-2147450033, 16807) := by decide +kernel

/-! ## C47 the normal noise source -/

/-- **C47.** With standard deviation 0 every draw is exactly the average. -/
theorem C47_std_zero (eps : ℝ) (fuel : Nat) (n n' : NormalRand) (v : ℝ) (hs : n.std = 0) (h : n.draw eps fuel = .ok (v, n')) :
    v = n.average ∧ n'.std = 0 ∧ n'.average = n.average := by
  unfold NormalRand.draw at h
  by_cases he : n.isEmpty = true
  · rw [if_pos he] at h
    rcases h1 : polarLoop eps fuel n.rnd with ⟨v1, v2, g⟩ | _ | _ | _ <;>
      simp only [h1, Res.bind_ok, Res.bind_ub, Res.bind_throws, Res.bind_stuck, reduceCtorEq] at h
    simp only [Res.ok.injEq, Prod.mk.injEq] at h
    obtain ⟨rfl, rfl⟩ := h
    refine ⟨by rw [hs]; ring, hs, rfl⟩
  · rw [if_neg he] at h
    simp only [Res.ok.injEq, Prod.mk.injEq] at h
    obtain ⟨rfl, rfl⟩ := h
    exact ⟨by rw [hs]; ring, hs, rfl⟩

theorem polarLoop_accepted (eps : ℝ) (fuel : Nat) : ∀ (g : Shuffle ℝ) (v1 v2 : ℝ) (g' : Shuffle ℝ), polarLoop eps fuel g = .ok (v1, v2, g') →
    eps ≤ v1 * v1 + v2 * v2 ∧ v1 * v1 + v2 * v2 < 1 := by
  induction fuel with
  | zero => intro g v1 v2 g' h; cases h
  | succ fuel ih =>
    intro g v1 v2 g' h
    unfold polarLoop at h
    rcases h1 : g.draw with ⟨u1, g1⟩ | _ | _ | _ <;> simp only [h1, Res.bind_ok, Res.bind_ub, Res.bind_throws, Res.bind_stuck, reduceCtorEq] at h
    rcases h2 : g1.draw with ⟨u2, g2⟩ | _ | _ | _ <;> simp only [h2, Res.bind_ok, Res.bind_ub, Res.bind_throws, Res.bind_stuck, reduceCtorEq] at h
    by_cases hc : (2 * u1 - 1) * (2 * u1 - 1) + (2 * u2 - 1) * (2 * u2 - 1) ≥ 1 ∨ (2 * u1 - 1) * (2 * u1 - 1) + (2 * u2 - 1) * (2 * u2 - 1) < eps
    · rw [if_pos hc] at h; exact ih _ _ _ _ h
    · rw [if_neg hc] at h
      simp only [Res.ok.injEq, Prod.mk.injEq] at h
      obtain ⟨rfl, rfl, _⟩ := h
      push Not at hc
      exact ⟨hc.2, hc.1⟩

/-- **C47.** Draws come in pairs from one accepted point: when nothing is held, the first draw returns `v2·f·σ + μ` and the second (which
consumes no randomness and always succeeds) returns `v1·f·σ + μ`, where `eps ≤ v1² + v2² < 1` and `f = sqrt(-2 ln(v1² + v2²)/(v1² + v2²))`;
afterwards nothing is held again. -/
theorem C47_pairs (eps : ℝ) (heps : 0 < eps) (fuel fuel' : Nat) (n n1 : NormalRand) (d1 : ℝ) (he : n.isEmpty = true) (h : n.draw eps fuel = .ok (d1, n1)) :
    ∃ v1 v2 f d2 n2, n1.draw eps fuel' = .ok (d2, n2) ∧ n2.isEmpty = true ∧ n2.rnd = n1.rnd ∧
      eps ≤ v1 ^ 2 + v2 ^ 2 ∧ v1 ^ 2 + v2 ^ 2 < 1 ∧ 0 < f ∧ f ^ 2 * (v1 ^ 2 + v2 ^ 2) = -2 * Real.log (v1 ^ 2 + v2 ^ 2) ∧
      d1 = v2 * f * n.std + n.average ∧ d2 = v1 * f * n.std + n.average := by
  unfold NormalRand.draw at h
  rw [if_pos he] at h
  rcases h1 : polarLoop eps fuel n.rnd with ⟨v1, v2, g⟩ | _ | _ | _ <;>
    simp only [h1, Res.bind_ok, Res.bind_ub, Res.bind_throws, Res.bind_stuck, reduceCtorEq] at h
  simp only [Res.ok.injEq, Prod.mk.injEq] at h
  obtain ⟨rfl, rfl⟩ := h
  obtain ⟨b1, b2⟩ := polarLoop_accepted eps fuel _ _ _ _ h1
  have hsq : v1 * v1 + v2 * v2 = v1 ^ 2 + v2 ^ 2 := by ring
  rw [hsq] at b1 b2 ⊢
  have hpos : 0 < v1 ^ 2 + v2 ^ 2 := lt_of_lt_of_le heps b1
  have hlog : Real.log (v1 ^ 2 + v2 ^ 2) < 0 := Real.log_neg hpos b2
  have hq : 0 < -2 * Real.log (v1 ^ 2 + v2 ^ 2) / (v1 ^ 2 + v2 ^ 2) := div_pos (by linarith) hpos
  refine ⟨v1, v2, Real.sqrt (-2 * Real.log (v1 ^ 2 + v2 ^ 2) / (v1 ^ 2 + v2 ^ 2)),
    v1 * Real.sqrt (-2 * Real.log (v1 ^ 2 + v2 ^ 2) / (v1 ^ 2 + v2 ^ 2)) * n.std + n.average,
    ⟨n.average, n.std, g, v1 * Real.sqrt (-2 * Real.log (v1 ^ 2 + v2 ^ 2) / (v1 ^ 2 + v2 ^ 2)), true⟩, ?_, rfl, rfl, b1, b2, Real.sqrt_pos.2 hq, ?_, rfl, rfl⟩
  · unfold NormalRand.draw
    rw [if_neg (by simp)]
  · rw [Real.sq_sqrt (le_of_lt hq)]; field_simp

/-- **C47.** The parameters only scale and shift: for any source there is one underlying draw `z` (or one failure) such that with average `μ`
and standard deviation `σ` the draw is `z·σ + μ`, and the source continues the same way. -/
theorem C47_affine (eps : ℝ) (fuel : Nat) (n : NormalRand) :
    (∃ z m, ∀ avg std, (n.setParameters avg std).draw eps fuel = .ok (z * std + avg, NormalRand.setParameters m avg std)) ∨
    (∀ avg std, (n.setParameters avg std).draw eps fuel = .ub) ∨ (∀ avg std, (n.setParameters avg std).draw eps fuel = .throws) ∨
    (∀ avg std, (n.setParameters avg std).draw eps fuel = .stuck) := by
  unfold NormalRand.draw NormalRand.setParameters
  by_cases he : n.isEmpty = true
  · simp only [if_pos he]
    rcases h1 : polarLoop eps fuel n.rnd with ⟨v1, v2, g⟩ | _ | _ | _ <;>
      simp only [Res.bind_ok, Res.bind_ub, Res.bind_throws, Res.bind_stuck, reduceCtorEq]
    · exact Or.inl ⟨_, ⟨n.average, n.std, g, v1 * Real.sqrt (-2 * Real.log (v1 * v1 + v2 * v2) / (v1 * v1 + v2 * v2)), false⟩, fun avg std => rfl⟩
    · exact Or.inr (Or.inl fun _ _ => trivial)
    · exact Or.inr (Or.inr (Or.inl fun _ _ => trivial))
    · exact Or.inr (Or.inr (Or.inr fun _ _ => trivial))
  · simp only [if_neg he]
    exact Or.inl ⟨n.holder, { n with isEmpty := true }, fun _ _ => rfl⟩

/-! ### Termination of the rejection loop -/

/-- A pair of uniform values the loop accepts. -/
def Accepts (eps u1 u2 : ℝ) : Prop :=
  ¬ ((2 * u1 - 1) * (2 * u1 - 1) + (2 * u2 - 1) * (2 * u2 - 1) ≥ 1 ∨ (2 * u1 - 1) * (2 * u1 - 1) + (2 * u2 - 1) * (2 * u2 - 1) < eps)

theorem polarLoop_succ (eps : ℝ) (fuel : Nat) (g g1 g2 : Shuffle ℝ) (u1 u2 : ℝ) (h1 : g.draw = .ok (u1, g1)) (h2 : g1.draw = .ok (u2, g2)) :
    (Accepts eps u1 u2 → polarLoop eps (fuel + 1) g = .ok (2 * u1 - 1, 2 * u2 - 1, g2)) ∧
    (¬ Accepts eps u1 u2 → polarLoop eps (fuel + 1) g = polarLoop eps fuel g2) := by
  have e : polarLoop eps (fuel + 1) g = if (2 * u1 - 1) * (2 * u1 - 1) + (2 * u2 - 1) * (2 * u2 - 1) ≥ 1 ∨
      (2 * u1 - 1) * (2 * u1 - 1) + (2 * u2 - 1) * (2 * u2 - 1) < eps then polarLoop eps fuel g2 else .ok (2 * u1 - 1, 2 * u2 - 1, g2) := by
    conv_lhs => unfold polarLoop
    simp only [h1, h2, Res.bind_ok]
  rw [e]
  exact ⟨fun ha => if_neg ha, fun ha => if_pos (not_not.1 ha)⟩

theorem polarLoop_step (eps : ℝ) (g : Shuffle ℝ) (u : ℝ) (h : g.Good u) :
    ∃ g', g'.Good (lcgOut (lcgState g.lcg 2)) ∧ g'.lcg = lcgState g.lcg 2 ∧
      (Accepts eps u (lcgOut (lcgState g.lcg 1)) → ∀ fuel, polarLoop eps (fuel + 1) g = .ok (2 * u - 1, 2 * lcgOut (lcgState g.lcg 1) - 1, g')) ∧
      (¬ Accepts eps u (lcgOut (lcgState g.lcg 1)) → ∀ fuel, polarLoop eps (fuel + 1) g = polarLoop eps fuel g') := by
  obtain ⟨g1, h1, h2, h3⟩ := draw_good g u h
  obtain ⟨g2, h4, h5, h6⟩ := draw_good g1 _ h3
  have e1 : lcgState g.lcg 1 = lcgNext g.lcg := rfl
  have e2 : lcgState g.lcg 2 = lcgNext (lcgNext g.lcg) := rfl
  rw [h2] at h5 h6
  rw [e1, e2]
  exact ⟨g2, h6, h5, fun ha fuel => (polarLoop_succ eps fuel g g1 g2 _ _ h1 h4).1 ha, fun ha fuel => (polarLoop_succ eps fuel g g1 g2 _ _ h1 h4).2 ha⟩

theorem polarLoop_terminates_of (eps : ℝ) (J : Nat) : ∀ (g : Shuffle ℝ), g.Good (lcgOut g.lcg) →
    Accepts eps (lcgOut (lcgState g.lcg (2 * J))) (lcgOut (lcgState g.lcg (2 * J + 1))) → ∃ r, polarLoop eps (J + 1) g = .ok r := by
  induction J with
  | zero =>
    intro g hg ha
    obtain ⟨g', _, _, h3, _⟩ := polarLoop_step eps g _ hg
    exact ⟨_, h3 ha 0⟩
  | succ J ih =>
    intro g hg ha
    obtain ⟨g', h1, h2, h3, h4⟩ := polarLoop_step eps g _ hg
    by_cases hacc : Accepts eps (lcgOut g.lcg) (lcgOut (lcgState g.lcg 1))
    · exact ⟨_, h3 hacc _⟩
    · rw [h4 hacc]
      apply ih g' (by rw [h2]; exact h1)
      rw [h2, ← lcgState_add, ← lcgState_add, show 2 + 2 * J = 2 * (J + 1) by ring, show 2 + (2 * J + 1) = 2 * (J + 1) + 1 by ring]
      exact ha

theorem accepts_3 (eps : ℝ) (h : eps ≤ 1 / 4) : Accepts eps (lcgOut (lcgState 1 3)) (lcgOut (lcgState 1 4)) := by
  have e1 : lcgState 1 3 = 1622650073 := by decide +kernel
  have e2 : lcgState 1 4 = 984943658 := by decide +kernel
  rw [e1, e2]
  unfold Accepts lcgOut kM
  push Not
  refine ⟨by norm_num, h.trans ?_⟩
  norm_num

theorem accepts_8 (eps : ℝ) (h : eps ≤ 1 / 4) : Accepts eps (lcgOut (lcgState 1 8)) (lcgOut (lcgState 1 9)) := by
  have e1 : lcgState 1 8 = 1457850878 := by decide +kernel
  have e2 : lcgState 1 9 = 1458777923 := by decide +kernel
  rw [e1, e2]
  unfold Accepts lcgOut kM
  push Not
  refine ⟨by norm_num, h.trans ?_⟩
  norm_num

/-- From every valid state an accepted point comes up within one period. -/
theorem polarLoop_terminates_sync (eps : ℝ) (heps : eps ≤ 1 / 4) (g : Shuffle ℝ) (hg : g.Good (lcgOut g.lcg)) (h1 : 1 ≤ g.lcg) (h2 : g.lcg ≤ 2147483646) :
    ∃ J ≤ 1073741828, ∃ r, polarLoop eps (J + 1) g = .ok r := by
  obtain ⟨i, hi, hs⟩ := C44_all_states 1 (by norm_num) (by norm_num) 1 (le_refl _) g.lcg h1 h2
  have hst : ∀ n, lcgState g.lcg n = lcgState 1 (1 + i + n) := fun n => by rw [lcgState_add 1 (1 + i) n, hs]
  have hper : ∀ n, 1 ≤ n → lcgState 1 (n + 2147483646) = lcgState 1 n := fun n hn =>
    (C44_period 1 (by norm_num) (by norm_num) _ _ (by omega) hn).2 (by omega)
  rcases Nat.even_or_odd' i with ⟨k, hk | hk⟩
  · -- 1 + i odd: reach position 3
    refine ⟨(3 + 2147483646 - (1 + i)) / 2, by omega, ?_⟩
    apply polarLoop_terminates_of eps _ g hg
    rw [hst, hst, show 1 + i + 2 * ((3 + 2147483646 - (1 + i)) / 2) = 3 + 2147483646 by omega,
      show 1 + i + (2 * ((3 + 2147483646 - (1 + i)) / 2) + 1) = 4 + 2147483646 by omega, hper 3 (by omega), hper 4 (by omega)]
    exact accepts_3 eps heps
  · refine ⟨(8 + 2147483646 - (1 + i)) / 2, by omega, ?_⟩
    apply polarLoop_terminates_of eps _ g hg
    rw [hst, hst, show 1 + i + 2 * ((8 + 2147483646 - (1 + i)) / 2) = 8 + 2147483646 by omega,
      show 1 + i + (2 * ((8 + 2147483646 - (1 + i)) / 2) + 1) = 9 + 2147483646 by omega, hper 8 (by omega), hper 9 (by omega)]
    exact accepts_8 eps heps

theorem polarLoop_terminates (eps : ℝ) (heps : eps ≤ 1 / 4) (g : Shuffle ℝ) (u : ℝ) (hg : g.Good u) :
    ∃ fuel ≤ 1073741830, ∃ r, polarLoop eps fuel g = .ok r := by
  obtain ⟨g', h1, h2, h3, h4⟩ := polarLoop_step eps g u hg
  by_cases hacc : Accepts eps u (lcgOut (lcgState g.lcg 1))
  · exact ⟨1, by norm_num, _, h3 hacc 0⟩
  · obtain ⟨_, b1, b2, _, _⟩ := C43_recurrence ℝ g.lcg hg.seed.1 hg.seed.2 2 (by norm_num)
    obtain ⟨J, hJ, r, hr⟩ := polarLoop_terminates_sync eps heps g' (by rw [h2]; exact h1) (by rw [h2]; exact b1) (by rw [h2]; exact b2)
    exact ⟨J + 1 + 1, by omega, r, by rw [h4 hacc]; exact hr⟩

/-- From a good state the loop leaves a good state and a point whose coordinates differ. -/
theorem polarLoop_good (eps : ℝ) (fuel : Nat) : ∀ (g : Shuffle ℝ) (u v1 v2 : ℝ) (g' : Shuffle ℝ), g.Good u → u ≠ lcgOut (lcgState g.lcg 1) →
    polarLoop eps fuel g = .ok (v1, v2, g') → v1 ≠ v2 ∧ g'.Good (lcgOut g'.lcg) := by
  induction fuel with
  | zero => intro g u v1 v2 g' _ _ h; cases h
  | succ fuel ih =>
    intro g u v1 v2 g' hg hu h
    obtain ⟨g2, h1, h2, h3, h4⟩ := polarLoop_step eps g u hg
    by_cases hacc : Accepts eps u (lcgOut (lcgState g.lcg 1))
    · rw [h3 hacc fuel] at h
      simp only [Res.ok.injEq, Prod.mk.injEq] at h
      obtain ⟨rfl, rfl, rfl⟩ := h
      exact ⟨fun he => hu (by linarith), by rw [h2]; exact h1⟩
    · rw [h4 hacc fuel] at h
      refine ih g2 _ v1 v2 g' h1 ?_ h
      rw [h2, ← lcgState_add]
      intro he
      have : lcgState g.lcg 2 = lcgState g.lcg (2 + 1) := by
        have hinj : ∀ a b : Int, (lcgOut a : ℝ) = lcgOut b → a = b := by
          intro a b hab
          unfold lcgOut kM at hab
          have := mul_left_cancel₀ (by norm_num) hab
          exact_mod_cast this
        exact hinj _ _ he
      rw [C44_period g.lcg hg.seed.1 hg.seed.2 2 (2 + 1) (by norm_num) (by norm_num)] at this
      norm_num at this

theorem newSeeded_ok (avg std : ℝ) (seed : Int) (h : seed ≠ 0) :
    NormalRand.newSeeded avg std seed = .ok ⟨avg, std, Shuffle.initialize seed 0, 0, true⟩ := by
  unfold NormalRand.newSeeded Shuffle.new lcgInit; rw [if_neg h]; rfl

theorem lcgOut_inj (a b : Int) (hab : (lcgOut a : ℝ) = lcgOut b) : a = b := by
  unfold lcgOut kM at hab
  have := mul_left_cancel₀ (by norm_num) hab
  exact_mod_cast this

/-- A working normal noise source: built with a valid seed, then used (draws and parameter changes, in any order) or re-seeded validly. -/
inductive Working (eps : ℝ) : NormalRand → Prop
  | seeded (avg std : ℝ) (seed : Int) (n : NormalRand) : ValidSeed seed → NormalRand.newSeeded avg std seed = .ok n → Working eps n
  | drawn (fuel : Nat) (n n' : NormalRand) (d : ℝ) : Working eps n → n.draw eps fuel = .ok (d, n') → Working eps n'
  | params (avg std : ℝ) (n : NormalRand) : Working eps n → Working eps (n.setParameters avg std)
  | reseeded (avg std : ℝ) (seed : Int) (n n' : NormalRand) : Working eps n → ValidSeed seed → n.setParametersSeed avg std seed = .ok n' →
      Working eps n'

theorem initialize_ne (seed : Int) (h : ValidSeed seed) :
    (lcgOut (lcgState seed 9) : ℝ) ≠ lcgOut (lcgState (Shuffle.initialize (K := ℝ) seed 0).lcg 1) := by
  rw [initialize_spec, ← lcgState_add]
  intro he
  have := lcgOut_inj _ _ he
  rw [C44_period seed h.1 h.2 9 (40 + 1) (by norm_num) (by norm_num)] at this
  norm_num at this

theorem working_good (eps : ℝ) (n : NormalRand) (h : Working eps n) : ∃ u, n.rnd.Good u ∧ u ≠ lcgOut (lcgState n.rnd.lcg 1) := by
  induction h with
  | seeded avg std seed n hv hn =>
    rw [newSeeded_ok avg std seed (validSeed_ne seed hv)] at hn
    obtain rfl := Res.ok.inj hn
    exact ⟨_, initialize_good seed hv, initialize_ne seed hv⟩
  | drawn fuel n n' d _ hd ih =>
    obtain ⟨u, hg, hu⟩ := ih
    unfold NormalRand.draw at hd
    by_cases he : n.isEmpty = true
    · rw [if_pos he] at hd
      rcases h1 : polarLoop eps fuel n.rnd with ⟨v1, v2, g⟩ | _ | _ | _ <;>
        simp only [h1, Res.bind_ok, Res.bind_ub, Res.bind_throws, Res.bind_stuck, reduceCtorEq] at hd
      simp only [Res.ok.injEq, Prod.mk.injEq] at hd
      obtain ⟨_, rfl⟩ := hd
      obtain ⟨_, h2⟩ := polarLoop_good eps fuel n.rnd u v1 v2 g hg hu h1
      refine ⟨_, h2, fun he => ?_⟩
      have := lcgOut_inj _ _ he
      have h3 : lcgState g.lcg 1 = lcgState (lcgState g.lcg 1) 1 := by rw [← this]; exact this
      rw [← lcgState_add, C44_period g.lcg h2.seed.1 h2.seed.2 1 (1 + 1) (by norm_num) (by norm_num)] at h3
      norm_num at h3
    · rw [if_neg he] at hd
      simp only [Res.ok.injEq, Prod.mk.injEq] at hd
      obtain ⟨_, rfl⟩ := hd
      exact ⟨u, hg, hu⟩
  | params avg std n _ ih => exact ih
  | reseeded avg std seed n n' _ hv hn ih =>
    obtain ⟨u, hg, hu⟩ := ih
    unfold NormalRand.setParametersSeed Shuffle.initSeed lcgInit at hn
    rw [if_neg (validSeed_ne seed hv)] at hn
    simp only [Res.bind_ok, hg.pos] at hn
    obtain rfl := Res.ok.inj hn
    exact ⟨_, initialize_good seed hv, initialize_ne seed hv⟩

/-- **C47.** Every draw of a source built with a valid seed and used in any way returns: the rejection loop stops within one period of the
underlying generator (and never reads outside the table), for every rejection threshold up to 1/4 (`DBL_EPSILON` is 2⁻⁵²). -/
theorem C47_terminates (eps : ℝ) (heps : eps ≤ 1 / 4) (n : NormalRand) (h : Working eps n) :
    ∃ fuel ≤ 1073741830, ∃ d n', n.draw eps fuel = .ok (d, n') := by
  obtain ⟨u, hg, _⟩ := working_good eps n h
  obtain ⟨fuel, hf, ⟨v1, v2, g⟩, hr⟩ := polarLoop_terminates eps heps n.rnd u hg
  refine ⟨fuel, hf, ?_⟩
  unfold NormalRand.draw
  by_cases he : n.isEmpty = true
  · rw [if_pos he, hr]; exact ⟨_, _, rfl⟩
  · rw [if_neg he]; exact ⟨_, _, rfl⟩

theorem draw_eq (g : Shuffle K) (u : K) (h : g.table[g.pos]? = some u) (h0 : 0 ≤ u) (h1 : u < 1) :
    g.draw = .ok (u, ⟨lcgNext g.lcg, 0, g.table.set g.pos (lcgOut (lcgNext g.lcg))⟩) := by
  have hfl : ⌊u⌋ = 0 := by rw [Int.floor_eq_iff]; exact ⟨by push_cast; linarith, by push_cast; linarith⟩
  unfold Shuffle.draw
  rw [h]
  simp only
  have h64 : (1 : K) ≤ 2 ^ 64 := by norm_num
  rw [if_neg (by rintro (h | h) <;> linarith), hfl]
  rfl

theorem lcgNext_zero : lcgNext 0 = 0 := by decide

theorem degenerate_draw (g : Shuffle ℝ) (h0 : g.lcg = 0) (hp : g.pos = 0) (ht : g.table[0]? = some 0) :
    ∃ g', g.draw = .ok (0, g') ∧ g'.lcg = 0 ∧ g'.pos = 0 ∧ g'.table[0]? = some 0 := by
  have hlen : 0 < g.table.length := by
    rcases Nat.eq_zero_or_pos g.table.length with h | h
    · rw [List.length_eq_zero_iff] at h; rw [h] at ht; cases ht
    · exact h
  have hout : (lcgOut 0 : ℝ) = 0 := by unfold lcgOut; rw [Int.cast_zero, mul_zero]
  have := draw_eq g 0 (by rw [hp]; exact ht) le_rfl one_pos
  rw [h0, lcgNext_zero, hout, hp] at this
  exact ⟨_, this, rfl, rfl, List.getElem?_set_self hlen⟩

theorem degenerate_stuck (eps : ℝ) (fuel : Nat) : ∀ g : Shuffle ℝ, g.lcg = 0 → g.pos = 0 → g.table[0]? = some 0 → polarLoop eps fuel g = .stuck := by
  induction fuel with
  | zero => intros; rfl
  | succ fuel ih =>
    intro g h0 hp ht
    obtain ⟨g1, h1, a1, a2, a3⟩ := degenerate_draw g h0 hp ht
    obtain ⟨g2, h2, b1, b2, b3⟩ := degenerate_draw g1 a1 a2 a3
    rw [(polarLoop_succ eps fuel g g1 g2 0 0 h1 h2).2 (by unfold Accepts; norm_num)]
    exact ih g2 b1 b2 b3

/-- **C47.** A nonzero seed that is a multiple of the modulus (for example 2147483647) is accepted, but the first draw never returns. -/
theorem C47_degenerate_hangs (avg std eps : ℝ) (seed : Int) (h : |seed| ≤ 96000000000) (hd : (2147483647 : Int) ∣ seed) (h0 : seed ≠ 0) :
    ∃ n, NormalRand.newSeeded avg std seed = .ok n ∧ ∀ fuel, n.draw eps fuel = .stuck := by
  refine ⟨_, newSeeded_ok avg std seed h0, fun fuel => ?_⟩
  unfold NormalRand.draw
  rw [if_pos rfl]
  have hz := (C43_degenerate ℝ).2 seed h hd
  have : polarLoop eps fuel (Shuffle.initialize seed 0) = .stuck := by
    rw [initialize_spec, (hz 40 (by norm_num)).1]
    apply degenerate_stuck
    · rfl
    · rfl
    · simp only [List.getElem?_map, List.getElem?_range (show 0 < 32 by norm_num), Option.map_some, Nat.zero_add, (hz 9 (by norm_num)).2]
  simp only [this, Res.bind_stuck]

example : (2147483647 : Int) ∣ 2147483647 ∧ |(2147483647 : Int)| ≤ 96000000000 := by decide

/-- **C47.** Re-seeding does not discard a held second value: the next draw after re-seeding with anything valid is the old held value, scaled. -/
theorem C47_reseed_keeps_held (eps : ℝ) (fuel : Nat) (n n' : NormalRand) (avg std : ℝ) (seed : Int) (he : n.isEmpty = false)
    (h : n.setParametersSeed avg std seed = .ok n') :
    ∃ n'', n'.draw eps fuel = .ok (n.holder * std + avg, n'') ∧ n''.rnd = n'.rnd := by
  unfold NormalRand.setParametersSeed at h
  rcases h1 : n.rnd.initSeed seed with g | _ | _ | _ <;>
    simp only [h1, Res.bind_ok, Res.bind_ub, Res.bind_throws, Res.bind_stuck, reduceCtorEq] at h
  obtain rfl := Res.ok.inj h
  unfold NormalRand.draw
  simp only [he]
  exact ⟨_, rfl, rfl⟩

/-- **C47.** So re-seeding is not the same as starting afresh: for every valid seed and nonzero standard deviation, after one draw from a fresh
source (which succeeds for some number of rounds), re-seeding it with the same seed and parameters makes its next draw differ from the first
draw of a fresh source with that seed. -/
theorem C47_reseed_differs (avg std eps : ℝ) (heps : 0 < eps) (heps' : eps ≤ 1 / 4) (hs : std ≠ 0) (seed : Int) (hv : ValidSeed seed) :
    ∃ n fuel d1 n1 n2 d2 n3, NormalRand.newSeeded avg std seed = .ok n ∧ n.draw eps fuel = .ok (d1, n1) ∧
      n1.setParametersSeed avg std seed = .ok n2 ∧ n2.draw eps fuel = .ok (d2, n3) ∧ d2 ≠ d1 := by
  have hne := validSeed_ne seed hv
  have hgood := initialize_good (K := ℝ) seed hv
  obtain ⟨fuel, _, ⟨v1, v2, g⟩, hr⟩ := polarLoop_terminates eps heps' _ _ hgood
  obtain ⟨hv12, hg⟩ := polarLoop_good eps fuel _ _ v1 v2 g hgood (initialize_ne seed hv) hr
  obtain ⟨b1, b2⟩ := polarLoop_accepted eps fuel _ _ _ _ hr
  obtain ⟨f, hf⟩ : ∃ f, f = Real.sqrt (-2 * Real.log (v1 * v1 + v2 * v2) / (v1 * v1 + v2 * v2)) := ⟨_, rfl⟩
  have hpos : 0 < v1 * v1 + v2 * v2 := lt_of_lt_of_le heps b1
  have hfpos : 0 < f := by
    rw [hf]; exact Real.sqrt_pos.2 (div_pos (by have := Real.log_neg hpos b2; linarith) hpos)
  refine ⟨⟨avg, std, Shuffle.initialize seed 0, 0, true⟩, fuel, v2 * f * std + avg, ⟨avg, std, g, v1 * f, false⟩,
    ⟨avg, std, Shuffle.initialize seed 0, v1 * f, false⟩, v1 * f * std + avg, ⟨avg, std, Shuffle.initialize seed 0, v1 * f, true⟩,
    newSeeded_ok avg std seed hne, ?_, ?_, ?_, ?_⟩
  · unfold NormalRand.draw
    rw [if_pos rfl]
    simp only [hr, Res.bind_ok, ← hf]
  · unfold NormalRand.setParametersSeed Shuffle.initSeed lcgInit
    simp only [if_neg hne, Res.bind_ok, hg.pos]
  · unfold NormalRand.draw
    rw [if_neg (by simp)]
  · intro he
    have h1 : (v1 - v2) * (f * std) = 0 := by linarith
    rcases mul_eq_zero.1 h1 with h | h
    · exact hv12 (by linarith)
    · exact (mul_ne_zero (ne_of_gt hfpos) hs) h

example : Working (1 / 4) ⟨0, 1, Shuffle.initialize 7 0, 0, true⟩ :=
  .seeded 0 1 7 _ ⟨by norm_num, by norm_num⟩ (newSeeded_ok 0 1 7 (by norm_num))

/-! ## C48 the random walk -/

/-- **C48.** The rate of a walk component: never outward beyond its limit, the noise itself inside it, and never larger than the noise. -/
theorem C48_rate (x limit noise : ℝ) :
    (limit < x → walkRate x limit noise ≤ 0) ∧ (x < -limit → ¬ limit < x → 0 ≤ walkRate x limit noise) ∧
    (-limit ≤ x → x ≤ limit → walkRate x limit noise = noise) ∧ |walkRate x limit noise| = |noise| := by
  unfold walkRate
  refine ⟨fun h => ?_, fun h h' => ?_, fun h h' => ?_, ?_⟩
  · rw [if_pos h]; exact neg_nonpos.2 (abs_nonneg _)
  · rw [if_neg h', if_pos h]; exact abs_nonneg _
  · rw [if_neg (not_lt.2 h'), if_neg (not_lt.2 h)]
  · by_cases h : limit < x
    · rw [if_pos h, abs_neg, abs_abs]
    · rw [if_neg h]
      by_cases h' : x < -limit
      · rw [if_pos h', abs_abs]
      · rw [if_neg h']

/-- **C48.** With a nonnegative limit the two outer cases exclude each other, so the rate is always inward. -/
theorem C48_inward (x limit noise : ℝ) (hl : 0 ≤ limit) (hx : limit < |x|) : x * walkRate x limit noise ≤ 0 := by
  rcases lt_abs.1 hx with h | h
  · exact mul_nonpos_of_nonneg_of_nonpos (by linarith) ((C48_rate x limit noise).1 h)
  · exact mul_nonpos_of_nonpos_of_nonneg (by linarith) ((C48_rate x limit noise).2.1 (by linarith) (by linarith))

/-- `k` integration steps of the walk. -/
noncomputable def walkSteps {γ : Type} {n : Nat} (h : ℝ) (draw : γ → ℝ × γ) (limit : Fin n → ℝ) : Nat → ℝ → (Fin n → ℝ) → (Fin n → γ) →
    ℝ × (Fin n → ℝ) × (Fin n → γ)
  | 0, t, x, g => (t, x, g)
  | k + 1, t, x, g =>
    let r := rk4 h (fun _ x g => walkDerivative draw limit x g) t x g
    walkSteps h draw limit k r.1 r.2.1 r.2.2

/-- **C48.** With noise sources that only ever yield 0 the walk stays put, for any number of steps, step size, limits and starting point. -/
theorem C48_zero_noise {γ : Type} {n : Nat} (h : ℝ) (draw : γ → ℝ × γ) (limit : Fin n → ℝ) (hz : ∀ g, (draw g).1 = 0) (k : Nat) :
    ∀ (t : ℝ) (x : Fin n → ℝ) (g : Fin n → γ), (walkSteps h draw limit k t x g).2.1 = x ∧ (walkSteps h draw limit k t x g).1 = t + k * h := by
  have hw : ∀ x g, (walkDerivative (n := n) draw limit x g).1 = fun _ => 0 := by
    intro x g; funext i
    unfold walkDerivative walkRate
    simp only [hz, abs_zero, neg_zero, ite_self]
  induction k with
  | zero => intro t x g; exact ⟨rfl, by simp [walkSteps]⟩
  | succ k ih =>
    intro t x g
    have h1 : (rk4 h (fun _ x g => walkDerivative draw limit x g) t x g).2.1 = x := by
      unfold rk4; simp only [hw]; funext i; ring
    have h2 : (rk4 h (fun _ x g => walkDerivative draw limit x g) t x g).1 = t + h := rfl
    obtain ⟨e1, e2⟩ := ih (rk4 h (fun _ x g => walkDerivative draw limit x g) t x g).1 (rk4 h (fun _ x g => walkDerivative draw limit x g) t x g).2.1
      (rk4 h (fun _ x g => walkDerivative draw limit x g) t x g).2.2
    rw [walkSteps]
    refine ⟨by rw [e1, h1], by rw [e2, h2]; push_cast; ring⟩

/-- **C48.** One step driven by constant noise `c` (small enough to stay inside the limit) moves a component by exactly `c·h`: the four stage
weights add up to one step. -/
theorem C48_step_weight {n : Nat} (h c t : ℝ) (limit x : Fin n → ℝ) (g : Fin n → Unit) (i : Fin n)
    (hb : ∀ j, |x j| + |c * h| ≤ limit j) :
    (rk4 h (fun _ x g => walkDerivative (fun _ => (c, ())) limit x g) t x g).2.1 i = x i + c * h := by
  have hw : ∀ (y : Fin n → ℝ) g', (∀ j, |y j - x j| ≤ |c * h|) → (walkDerivative (fun _ => (c, ())) limit y g').1 = fun _ => c := by
    intro y g' hy; funext j
    have h1 := hy j; have h2 := hb j
    have h3 : |y j| ≤ limit j := by
      calc |y j| = |(y j - x j) + x j| := by ring_nf
        _ ≤ |y j - x j| + |x j| := abs_add_le _ _
        _ ≤ limit j := by linarith
    exact (C48_rate _ _ _).2.2.1 (by have := (abs_le.1 h3).1; linarith) (abs_le.1 h3).2
  have a0 : ∀ j, |x j - x j| ≤ |c * h| := fun j => by rw [sub_self, abs_zero]; exact abs_nonneg _
  have a1 : ∀ j, |x j + 1 / 2 * (c * h) - x j| ≤ |c * h| := fun j => by
    rw [add_sub_cancel_left, abs_mul, abs_of_pos (show (0 : ℝ) < 1 / 2 by norm_num)]
    have := abs_nonneg (c * h)
    linarith
  have a2 : ∀ j, |x j + c * h - x j| ≤ |c * h| := fun j => by rw [add_sub_cancel_left]
  unfold rk4
  simp only [hw _ _ a0, hw _ _ a1, hw _ _ a2]
  ring

example : walkRate 3 2 (-1) = -1 ∧ walkRate (-3) 2 (-1) = 1 ∧ walkRate 1 2 (-1) = -1 := by
  refine ⟨by unfold walkRate; norm_num, by unfold walkRate; norm_num, by unfold walkRate; norm_num⟩

end S2E.Random
