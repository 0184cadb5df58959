import Verif.Model.Power
import Mathlib.Data.Rat.Defs
import Mathlib.Algebra.Order.Ring.Rat
import Mathlib.Tactic.Linarith
import Mathlib.Tactic.FieldSimp
import Mathlib.Tactic.NormNum
/-!
# C23–C25: power ports and the power control unit
-/
namespace S2E

variable {K : Type} [Field K] [LinearOrder K] [IsStrictOrderedRing K] (div0 : K → K)

/-- **C23.** One `Update`, from every state whose minimum voltage exceeds the tolerance (so the division is by a positive voltage).
The port is on iff the voltage reaches the minimum and the drawn current stays below the limit; when on, it draws exactly the
assumed power; when off, it draws nothing; on over-current the supplied voltage is cleared; settings are untouched. -/
theorem C23_update (eps : K) (p : PowerPort K) (heps : eps < p.minV) :
    let q := p.update div0 eps
    (q.on = true ↔ p.minV - eps ≤ p.volt ∧ p.power / p.volt < p.limit - eps) ∧
    (q.on = true → q.volt = p.volt ∧ q.cur * q.volt = p.power) ∧
    (q.on = false → q.cur = 0) ∧
    (p.minV - eps ≤ p.volt → p.limit - eps ≤ p.power / p.volt → q.volt = 0 ∧ q.on = false) ∧
    q.limit = p.limit ∧ q.minV = p.minV ∧ q.power = p.power := by
  have hv : p.minV - eps ≤ p.volt → p.volt ≠ 0 := fun h => ne_of_gt (by linarith)
  simp only [PowerPort.update, PowerPort.switch, PowerPort.overCurrent]
  by_cases h1 : p.minV - eps ≤ p.volt
  · have hz := hv h1
    simp only [ge_iff_le, h1, if_true, divD, hz, if_false]
    by_cases h2 : p.limit - eps ≤ p.power / p.volt
    · simp [h2]
    · rw [if_neg h2]
      refine ⟨⟨fun _ => ⟨trivial, not_le.1 h2⟩, fun _ => rfl⟩, fun _ => ⟨rfl, div_mul_cancel₀ _ hz⟩, by simp,
        fun _ h => absurd h h2, rfl, rfl, rfl⟩
  · simp only [ge_iff_le, h1, if_false]
    by_cases h2 : p.limit - eps ≤ 0 <;> simp [h2]

/-- **C23.** A tripped port stays off, draws nothing and keeps voltage 0 through every later sequence of calls that neither sets a
voltage nor lowers the minimum voltage to the tolerance. -/
theorem C23_trip_latches (eps : K) (p : PowerPort K) (heps : eps < p.minV)
    (hv : p.minV - eps ≤ p.volt) (hi : p.limit - eps ≤ p.power / p.volt) (ops : List (PowerOp K))
    (hops : ∀ op ∈ ops, (∀ v, op ≠ .setVoltage v) ∧ (∀ v, op = .setMin v → eps < v)) :
    let q := ops.foldl (PowerPort.apply div0 eps) (p.update div0 eps)
    q.on = false ∧ q.volt = 0 ∧ q.cur = 0 := by
  have key : ∀ (ops : List (PowerOp K)) (q : PowerPort K),
      (∀ op ∈ ops, (∀ v, op ≠ .setVoltage v) ∧ (∀ v, op = .setMin v → eps < v)) →
      eps < q.minV → q.on = false → q.volt = 0 → q.cur = 0 →
      let q' := ops.foldl (PowerPort.apply div0 eps) q
      q'.on = false ∧ q'.volt = 0 ∧ q'.cur = 0 := by
    intro ops
    induction ops with
    | nil => intro q _ _ h1 h2 h3; exact ⟨h1, h2, h3⟩
    | cons op ops ih =>
      intro q ho hm h1 h2 h3
      have ho' := ho op (List.mem_cons_self ..)
      have hrest := fun o h => ho o (List.mem_cons_of_mem _ h)
      simp only [List.foldl_cons]
      cases op with
      | update =>
        have hu := C23_update div0 eps q hm
        simp only at hu
        have hoff : (q.update div0 eps).on = false := by
          cases hb : (q.update div0 eps).on with
          | false => rfl
          | true => exact absurd (hu.1.1 hb).1 (by rw [h2]; intro hc; linarith)
        refine ih _ hrest (by simpa only [PowerPort.apply, hu.2.2.2.2.2.1] using hm) hoff ?_ (hu.2.2.1 hoff)
        show (q.update div0 eps).volt = 0
        have hlt : ¬ q.minV - eps ≤ q.volt := by rw [h2]; intro hc; linarith
        simp only [PowerPort.update, PowerPort.switch, PowerPort.overCurrent, ge_iff_le, hlt, if_false]
        split <;> simp [h2]
      | setVoltage v => exact absurd rfl (ho'.1 v)
      | setMin v => exact ih _ hrest (ho'.2 v rfl) h1 h2 h3
      | setPower w => exact ih _ hrest hm h1 h2 h3
      | setLimit w => exact ih _ hrest hm h1 h2 h3
      | addPower w => exact ih _ hrest hm h1 h2 h3
      | subPower w =>
        refine ih _ hrest ?_ ?_ ?_ ?_ <;>
        · simp only [PowerPort.apply, PowerPort.subPower]; split <;> assumption
  have hu := C23_update div0 eps p heps
  simp only at hu
  have ht := hu.2.2.2.1 hv hi
  exact key ops _ hops (by rw [hu.2.2.2.2.2.1]; exact heps) ht.2 ht.1 (hu.2.2.1 ht.2)

/-- **C23.** `SetVoltage_V` applies the same rule to the new voltage at once. -/
theorem C23_set_voltage (eps v : K) (p : PowerPort K) (heps : eps < p.minV) :
    let q := p.setVoltage div0 eps v
    (q.on = true ↔ p.minV - eps ≤ v ∧ p.power / v < p.limit - eps) ∧
    (q.on = true → q.volt = v ∧ q.cur * v = p.power) ∧ (q.on = false → q.cur = 0) := by
  have h := C23_update div0 eps ({ p with volt := v } : PowerPort K) heps
  simp only at h
  refine ⟨h.1, fun hon => ?_, h.2.2.1⟩
  have h2 := h.2.1 hon
  refine ⟨h2.1, ?_⟩
  rw [h2.1] at h2
  exact h2.2

/-- Without the hypothesis on the minimum voltage the claim fails: a port with minimum voltage 0 and no supply divides by zero, and
whether it is on then depends on the unspecified quotient. -/
theorem C23_zero_minimum_unspecified :
    ((PowerPort.new4 (1 : ℚ) 0 1 false).update (fun _ => 0) (1 / 2 ^ 52)).on = true ∧
    ((PowerPort.new4 (1 : ℚ) 0 1 false).update (fun _ => 2) (1 / 2 ^ 52)).on = false := by
  constructor <;> norm_num [PowerPort.new4, PowerPort.update, PowerPort.switch, PowerPort.overCurrent, divD]

-- Non-vacuity of the C23 hypotheses: a 5 V supply to a 3.3 V port, once within and once beyond the limit.
example : ((PowerPort.new4 (1 : ℚ) (33 / 10) 4 false).setVoltage (fun _ => 0) (1 / 2 ^ 52) 5).on = true := by
  norm_num [PowerPort.new4, PowerPort.setVoltage, PowerPort.update, PowerPort.switch, PowerPort.overCurrent, divD]
example : ((1 : ℚ) / 2 ^ 52 < 33 / 10) ∧ ((33 : ℚ) / 10 - 1 / 2 ^ 52 ≤ 5) ∧ ((1 : ℚ) - 1 / 2 ^ 52 ≤ 10 / 5) := by norm_num

/-! ## C24 -/

/-- A change of the connected load: positive power added or removed. -/
inductive LoadOp (K : Type) where
  | connect (w : K)
  | disconnect (w : K)

/-- Signed contribution of a load change. -/
def LoadOp.delta : LoadOp K → K
  | .connect w => w
  | .disconnect w => -w

/-- The corresponding call. -/
def LoadOp.call : LoadOp K → PowerOp K
  | .connect w => .addPower w
  | .disconnect w => .subPower w

omit [IsStrictOrderedRing K] in
/-- **C24.** `Subtract…` never leaves a negative power, from any state. -/
theorem C24_nonneg (w : K) (p : PowerPort K) : 0 ≤ (p.subPower w).power := by
  simp only [PowerPort.subPower]
  split
  · exact le_refl _
  · exact not_lt.1 (by assumption)

omit [IsStrictOrderedRing K] in
/-- **C24.** If the balance of connected loads never becomes negative, the assumed power is exactly the balance. -/
theorem C24_exact_balance (eps : K) (ops : List (LoadOp K)) : ∀ (p : PowerPort K),
    (∀ n ≤ ops.length, 0 ≤ p.power + ((ops.take n).map LoadOp.delta).sum) →
    ((ops.map LoadOp.call).foldl (PowerPort.apply div0 eps) p).power = p.power + (ops.map LoadOp.delta).sum := by
  induction ops with
  | nil => intro p _; simp
  | cons op ops ih =>
    intro p h
    have h1 := h 1 (by simp)
    simp only [List.take_succ_cons, List.take_zero, List.map_cons, List.map_nil, List.sum_cons, List.sum_nil, add_zero] at h1
    have hp : (p.apply div0 eps op.call).power = p.power + op.delta := by
      cases op with
      | connect w => rfl
      | disconnect w =>
        simp only [LoadOp.call, PowerPort.apply, PowerPort.subPower, LoadOp.delta] at h1 ⊢
        rw [← sub_eq_add_neg] at h1 ⊢
        rw [if_neg (not_lt.2 h1)]
    simp only [List.map_cons, List.foldl_cons, List.sum_cons]
    rw [ih, hp, add_assoc]
    intro n hn
    have := h (n + 1) (by simpa using hn)
    rw [List.take_succ_cons, List.map_cons, List.sum_cons, ← add_assoc] at this
    rw [hp]; exact this

example : ∀ n ≤ 3, (0 : ℚ) ≤ (PowerPort.newDefault : PowerPort ℚ).power +
    ((([.connect 3, .disconnect 1, .disconnect 2] : List (LoadOp ℚ)).take n).map LoadOp.delta).sum := by
  intro n hn
  have h : n = 0 ∨ n = 1 ∨ n = 2 ∨ n = 3 := by omega
  rcases h with rfl | rfl | rfl | rfl <;> norm_num [PowerPort.newDefault, LoadOp.delta]

/-! ## C25 -/

/-- Calls on a power control unit. -/
inductive PcuOp (K : Type) where
  | connect (id : Int) (port : PowerPort K)
  | close (id : Int)
  | use (id : Int) (op : PowerOp K)

def PcuOp.id : PcuOp K → Int
  | .connect i _ => i
  | .close i => i
  | .use i _ => i

/-- Specification: a partial map from ids to ports. Return value: `none` for a use of an id that is not connected, which the client must
not do. -/
def pcuSpec (eps : K) (m : Int → Option (PowerPort K)) : PcuOp K → Option ((Int → Option (PowerPort K)) × Int)
  | .connect i p =>
    match m i with
    | some _ => some (m, -1)
    | none => some (fun j => if j = i then some p else m j, 0)
  | .close i =>
    match m i with
    | some _ => some (fun j => if j = i then none else m j, 0)
    | none => some (m, -1)
  | .use i op =>
    match m i with
    | some p => some (fun j => if j = i then some (p.apply div0 eps op) else m j, 0)
    | none => none

/-- The model's step. -/
def PcuTable.step (eps : K) (t : PcuTable K) : PcuOp K → Res (PcuTable K × Int)
  | .connect i p => .ok (t.connect i p)
  | .close i => .ok (t.close i)
  | .use i op => t.onPort div0 eps i op >>= fun t => .ok (t, 0)

/-- Which ports are live in a table. -/
def PcuTable.live (t : PcuTable K) : Int → Option (PowerPort K) := fun i => (t i).join

omit [IsStrictOrderedRing K] in
theorem PcuTable.step_refines (eps : K) (t : PcuTable K) (op : PcuOp K) :
    match pcuSpec div0 eps t.live op with
    | some (m, r) => ∃ t', t.step div0 eps op = .ok (t', r) ∧ t'.live = m
    | none => ∀ t' r, t.step div0 eps op ≠ .ok (t', r) := by
  cases op with
  | connect i p =>
    rcases h : t i with _ | _ | q
    · simp only [pcuSpec, live, h, Option.join, step, connect, index]
      refine ⟨_, rfl, ?_⟩
      funext j; simp only [live, put]; split <;> simp [Option.join]
    · simp only [pcuSpec, live, h, Option.join, step, connect, index]
      refine ⟨_, rfl, ?_⟩
      funext j; simp only [live, put]; split <;> simp [Option.join]
    · simp only [pcuSpec, live, h, Option.join, step, connect, index]
      refine ⟨_, rfl, ?_⟩
      funext j; simp [live, Option.join]
  | close i =>
    rcases h : t i with _ | _ | q
    · simp only [pcuSpec, live, h, Option.join, step, close, index]
      refine ⟨_, rfl, ?_⟩
      funext j; simp only [live, put]; split
      · next e => subst e; simp [h, Option.join]
      · simp [Option.join]
    · simp only [pcuSpec, live, h, Option.join, step, close, index]
      refine ⟨_, rfl, ?_⟩
      funext j; simp [live, Option.join]
    · simp only [pcuSpec, live, h, Option.join, step, close, index]
      refine ⟨_, rfl, ?_⟩
      funext j; simp only [live, put]; split <;> simp [Option.join]
  | use i op =>
    rcases h : t i with _ | _ | q
    · simp [pcuSpec, live, h, Option.join, step, onPort]
    · simp [pcuSpec, live, h, Option.join, step, onPort]
    · simp only [pcuSpec, live, h, Option.join, step, onPort, Res.bind_ok]
      refine ⟨_, rfl, ?_⟩
      funext j; simp only [live, put]; split <;> simp [Option.join]

/-- Run of a history: final table and return values. -/
def PcuTable.run (eps : K) (t : PcuTable K) : List (PcuOp K) → Res (PcuTable K × List Int)
  | [] => .ok (t, [])
  | op :: ops => do
    let (t, r) ← t.step div0 eps op
    let (t, rs) ← PcuTable.run eps t ops
    .ok (t, r :: rs)

/-- Specification of a history. -/
def pcuSpecRun (eps : K) (m : Int → Option (PowerPort K)) : List (PcuOp K) → Option ((Int → Option (PowerPort K)) × List Int)
  | [] => some (m, [])
  | op :: ops =>
    match pcuSpec div0 eps m op with
    | none => none
    | some (m, r) => (pcuSpecRun eps m ops).map fun x => (x.1, r :: x.2)

omit [IsStrictOrderedRing K] in
theorem PcuTable.run_refines (eps : K) (ops : List (PcuOp K)) : ∀ (t : PcuTable K) m rs,
    pcuSpecRun div0 eps t.live ops = some (m, rs) → ∃ t', t.run div0 eps ops = .ok (t', rs) ∧ t'.live = m := by
  induction ops with
  | nil => intro t m rs h; simp only [pcuSpecRun, Option.some.injEq, Prod.mk.injEq] at h; exact ⟨t, by simp [run, h.2], h.1⟩
  | cons op ops ih =>
    intro t m rs h
    have hs := step_refines div0 eps t op
    rw [pcuSpecRun] at h
    split at h
    · cases h
    · next m1 r heq =>
      rw [heq] at hs
      obtain ⟨t1, e1, l1⟩ := hs
      rw [Option.map_eq_some_iff] at h
      obtain ⟨⟨m2, rs2⟩, h2, h3⟩ := h
      cases h3
      rw [← l1] at h2
      obtain ⟨t2, e2, l2⟩ := ih t1 _ _ h2
      exact ⟨t2, by simp [run, e1, e2], l2⟩

omit [IsStrictOrderedRing K] in
/-- **C25.** For every history of connects, closes and uses of connected ports starting from an empty unit, the unit returns exactly
what a partial map from ids to ports returns: connect gives 0 exactly on a free id and otherwise −1 without touching the
existing port; close gives 0 exactly on a connected id and frees it; and the surviving ports are those of the map. -/
theorem C25_pcu_lifecycle (eps : K) (ops : List (PcuOp K)) (m : Int → Option (PowerPort K)) (rs : List Int)
    (h : pcuSpecRun div0 eps (fun _ => none) ops = some (m, rs)) :
    ∃ t', PcuTable.run div0 eps (fun _ => none) ops = .ok (t', rs) ∧ t'.live = m :=
  PcuTable.run_refines div0 eps ops (fun _ => none) m rs h

omit [IsStrictOrderedRing K] in
/-- **C25.** Ports with different ids are independent: a history of successful calls acts on id `i` exactly as its own calls do. -/
theorem C25_pcu_independent (eps : K) (i : Int) (ops : List (PcuOp K)) : ∀ (t t' : PcuTable K) (rs : List Int),
    t.run div0 eps ops = .ok (t', rs) →
    ∃ t'' rs', t.run div0 eps (ops.filter fun op => op.id = i) = .ok (t'', rs') ∧ t'' i = t' i := by
  have frame : ∀ (t t' : PcuTable K) (op : PcuOp K) (r : Int), op.id ≠ i → t.step div0 eps op = .ok (t', r) → t' i = t i := by
    intro t t' op r hne h
    cases op with
    | connect j p =>
      have hne' : i ≠ j := fun e => hne e.symm
      simp only [PcuTable.step, PcuTable.connect, PcuTable.index] at h
      rcases hj : t j with _ | _ | q <;> simp only [hj, Res.ok.injEq, Prod.mk.injEq] at h <;> obtain ⟨rfl, _⟩ := h <;>
        simp [PcuTable.put, hne']
    | close j =>
      have hne' : i ≠ j := fun e => hne e.symm
      simp only [PcuTable.step, PcuTable.close, PcuTable.index] at h
      rcases hj : t j with _ | _ | q <;> simp only [hj, Res.ok.injEq, Prod.mk.injEq] at h <;> obtain ⟨rfl, _⟩ := h <;>
        simp [PcuTable.put, hne']
    | use j o =>
      have hne' : i ≠ j := fun e => hne e.symm
      simp only [PcuTable.step, PcuTable.onPort] at h
      rcases hj : t j with _ | _ | q <;> simp [hj] at h
      obtain ⟨rfl, _⟩ := h
      simp [PcuTable.put, hne']
  have congr1 : ∀ (t s : PcuTable K) (op : PcuOp K) (t' : PcuTable K) (r : Int), op.id = i → t i = s i →
      t.step div0 eps op = .ok (t', r) → ∃ s' r', s.step div0 eps op = .ok (s', r') ∧ t' i = s' i := by
    intro t s op t' r he hts h
    cases op with
    | connect j p =>
      have : j = i := he
      subst this
      simp only [PcuTable.step, PcuTable.connect, PcuTable.index, ← hts] at h ⊢
      rcases hj : t j with _ | _ | q <;> simp only [hj, Res.ok.injEq, Prod.mk.injEq] at h hts ⊢ <;> obtain ⟨rfl, _⟩ := h <;>
        simp [PcuTable.put, hj, ← hts]
    | close j =>
      have : j = i := he
      subst this
      simp only [PcuTable.step, PcuTable.close, PcuTable.index, ← hts] at h ⊢
      rcases hj : t j with _ | _ | q <;> simp only [hj, Res.ok.injEq, Prod.mk.injEq] at h hts ⊢ <;> obtain ⟨rfl, _⟩ := h <;>
        simp [PcuTable.put, hj, ← hts]
    | use j o =>
      have : j = i := he
      subst this
      simp only [PcuTable.step, PcuTable.onPort, ← hts] at h ⊢
      rcases hj : t j with _ | _ | q <;> simp [hj] at h ⊢
      obtain ⟨rfl, _⟩ := h
      simp [PcuTable.put]
  have gen : ∀ (ops : List (PcuOp K)) (t s t' : PcuTable K) (rs : List Int), t i = s i → t.run div0 eps ops = .ok (t', rs) →
      ∃ s' rs', s.run div0 eps (ops.filter fun op => op.id = i) = .ok (s', rs') ∧ s' i = t' i := by
    intro ops
    induction ops with
    | nil =>
      intro t s t' rs hts h
      simp only [PcuTable.run, Res.ok.injEq, Prod.mk.injEq] at h
      exact ⟨s, [], rfl, by rw [← h.1, hts]⟩
    | cons op ops ih =>
      intro t s t' rs hts h
      rw [PcuTable.run] at h
      rcases h1 : t.step div0 eps op with ⟨t1, r1⟩ | _ | _ | _ <;> simp only [h1, Res.bind_ok, Res.bind_ub, Res.bind_throws, Res.bind_stuck, reduceCtorEq] at h
      rcases h2 : PcuTable.run div0 eps t1 ops with ⟨t2, r2⟩ | _ | _ | _ <;> simp only [h2, Res.bind_ok, Res.bind_ub, Res.bind_throws, Res.bind_stuck, reduceCtorEq] at h
      simp only [Res.ok.injEq, Prod.mk.injEq] at h
      obtain ⟨rfl, rfl⟩ := h
      by_cases he : op.id = i
      · obtain ⟨s1, r1', e1, l1⟩ := congr1 t s op t1 r1 he hts h1
        obtain ⟨s2, r2', e2, l2⟩ := ih t1 s1 t2 r2 l1 h2
        refine ⟨s2, r1' :: r2', ?_, l2⟩
        rw [List.filter_cons_of_pos (by simpa using he)]
        simp [PcuTable.run, e1, e2]
      · have hf := frame t t1 op r1 he h1
        obtain ⟨s2, r2', e2, l2⟩ := ih t1 s t2 r2 (by rw [hf, hts]) h2
        exact ⟨s2, r2', by rw [List.filter_cons_of_neg (by simpa using he)]; exact e2, l2⟩
  exact fun t t' rs h => gen ops t t t' rs rfl h

-- Non-vacuity: connect twice, use, close twice, reconnect.
example : ((pcuSpecRun (K := ℚ) (fun _ => 0) (1 / 2 ^ 52) (fun _ => none)
    [.connect 1 (.new2 5 false), .connect 1 (.new2 7 false), .use 1 (.setVoltage 5), .close 1, .close 1,
     .connect 1 (.new2 7 true)]).map Prod.snd) = some [0, -1, 0, 0, -1, 0] := rfl

end S2E
