import Verif.Model.Clock
import Mathlib.Tactic.SplitIfs
import Mathlib.Data.List.Forall2
/-!
# Properties C20–C22: scheduling of components
-/
namespace S2E
namespace Clock
variable {σ : Type} (w : World σ)

/-- Executions of the main routine of `id` recorded in a trace. -/
def mainCounts (id : Nat) (t : List (Entry σ)) : List Nat :=
  t.filterMap fun e => match e.1 with
    | .main i c => if i = id then some c else none
    | _ => none

/-- Executions of the power-off routine of `id`. -/
def offCount (id : Nat) (t : List (Entry σ)) : Nat := t.countP fun e => decide (e.1 = .powerOff id)

/-- Which component an event belongs to. -/
def Event.owner : Event → Nat
  | .tickCall i _ => i
  | .fastCall i _ => i
  | .main i _ => i
  | .fast i => i
  | .powerOff i => i

theorem mainCounts_append (id : Nat) (t u : List (Entry σ)) : mainCounts id (t ++ u) = mainCounts id t ++ mainCounts id u := by
  simp [mainCounts]

theorem tick_entries (id count : Nat) (s : σ) : (tick w id count s).2 = [] ∨
    (count % (w.comp id).prescaler = 0 ∧ w.isOn s id = true ∧ (tick w id count s).2 = [(.main id count, s)]) ∨
    (count % (w.comp id).prescaler = 0 ∧ w.isOn s id = false ∧ (tick w id count s).2 = [(.powerOff id, s)]) := by
  unfold tick doEvent
  split_ifs with h1 h2
  · exact Or.inl rfl
  · exact Or.inr (Or.inl ⟨by omega, h2, rfl⟩)
  · exact Or.inr (Or.inr ⟨by omega, by simpa using h2, rfl⟩)

theorem fastTick_entries (id count : Nat) (s : σ) : (fastTick w id count s).2 = [] ∨
    (count % (w.comp id).fastPrescaler = 0 ∧ w.isOn s id = true ∧ (fastTick w id count s).2 = [(.fast id, s)]) ∨
    (count % (w.comp id).fastPrescaler = 0 ∧ w.isOn s id = false ∧ (fastTick w id count s).2 = [(.powerOff id, s)]) := by
  unfold fastTick doEvent
  split_ifs with h1 h2
  · exact Or.inl rfl
  · exact Or.inr (Or.inl ⟨by omega, h2, rfl⟩)
  · exact Or.inr (Or.inr ⟨by omega, by simpa using h2, rfl⟩)

theorem visit_mainCounts_other (id j count : Nat) (s : σ) (h : j ≠ id) : mainCounts id (visit w j count s).2 = [] := by
  unfold visit
  have h1 : mainCounts id (tick w j count s).2 = [] := by
    rcases tick_entries w j count s with e | ⟨_, _, e⟩ | ⟨_, _, e⟩ <;> simp [e, mainCounts, h]
  have h2 : ∀ s1, mainCounts id (fastTick w j count s1).2 = [] := by
    intro s1
    rcases fastTick_entries w j count s1 with e | ⟨_, _, e⟩ | ⟨_, _, e⟩ <;> simp [e, mainCounts]
  simp only
  split_ifs
  · simp only
    rw [mainCounts_append, show ((Event.tickCall j count, s) :: (tick w j count s).2) =
      [(Event.tickCall j count, s)] ++ (tick w j count s).2 from rfl, mainCounts_append, h1,
      show ((Event.fastCall j count, (tick w j count s).1) :: (fastTick w j count (tick w j count s).1).2) =
      [(Event.fastCall j count, (tick w j count s).1)] ++ (fastTick w j count (tick w j count s).1).2 from rfl,
      mainCounts_append, h2]
    rfl
  · simp only
    rw [show ((Event.tickCall j count, s) :: (tick w j count s).2) =
      [(Event.tickCall j count, s)] ++ (tick w j count s).2 from rfl, mainCounts_append, h1]
    rfl

theorem visit_mainCounts_self (id count : Nat) (s : σ) (hon : w.isOn s id = true) :
    mainCounts id (visit w id count s).2 = if count % (w.comp id).prescaler = 0 then [count] else [] := by
  have h1 : mainCounts id (tick w id count s).2 = if count % (w.comp id).prescaler = 0 then [count] else [] := by
    unfold tick doEvent
    by_cases h : count % (w.comp id).prescaler = 0
    · simp [h, hon, mainCounts]
    · rw [if_pos (by omega), if_neg h]; rfl
  have h2 : ∀ s1, mainCounts id (fastTick w id count s1).2 = [] := by
    intro s1
    rcases fastTick_entries w id count s1 with e | ⟨_, _, e⟩ | ⟨_, _, e⟩ <;> simp [e, mainCounts]
  unfold visit
  simp only
  have h3 : mainCounts id ((Event.tickCall id count, s) :: (tick w id count s).2) =
      if count % (w.comp id).prescaler = 0 then [count] else [] := by
    rw [show ((Event.tickCall id count, s) :: (tick w id count s).2) =
      [(Event.tickCall id count, s)] ++ (tick w id count s).2 from rfl, mainCounts_append, h1]
    rfl
  split_ifs with h4
  · simp only
    rw [mainCounts_append, h3, if_pos (by assumption),
      show ((Event.fastCall id count, (tick w id count s).1) :: (fastTick w id count (tick w id count s).1).2) =
      [(Event.fastCall id count, (tick w id count s).1)] ++ (fastTick w id count (tick w id count s).1).2 from rfl,
      mainCounts_append, h2]
    rfl
  · simp only
    rw [mainCounts_append, h3, if_neg (by assumption),
      show ((Event.fastCall id count, (tick w id count s).1) :: (fastTick w id count (tick w id count s).1).2) =
      [(Event.fastCall id count, (tick w id count s).1)] ++ (fastTick w id count (tick w id count s).1).2 from rfl,
      mainCounts_append, h2]
    rfl
  · simp only; rw [h3, if_pos (by assumption)]
  · simp only; rw [h3, if_neg (by assumption)]

theorem visitAll_mainCounts (ids : List Nat) (id count : Nat) (hon : ∀ s, w.isOn s id = true) : ∀ s,
    mainCounts id (visitAll w ids count s).2 =
      List.replicate (if count % (w.comp id).prescaler = 0 then ids.count id else 0) count := by
  induction ids with
  | nil => intro s; simp [visitAll, mainCounts]
  | cons j ids ih =>
    intro s
    simp only [visitAll]
    rw [mainCounts_append, ih]
    by_cases hj : j = id
    · subst hj
      rw [visit_mainCounts_self w j count s (hon s)]
      split_ifs with h
      · rw [List.count_cons_self, List.replicate_succ]; rfl
      · rfl
    · rw [visit_mainCounts_other w id j count s hj, List.count_cons_of_ne (by simpa using hj)]
      rfl

/-- Number of multiples of `p` below `n`. -/
theorem count_multiples (p n : Nat) (hp : 0 < p) :
    ((List.range n).filter fun t => decide (t % p = 0)).length = (n + (p - 1)) / p := by
  induction n with
  | zero =>
    rw [Nat.zero_add, Nat.div_eq_of_lt (by omega)]; rfl
  | succ n ih =>
    rw [List.range_succ, List.filter_append, List.length_append, ih]
    have h1 := Nat.div_add_mod n p
    have h2 := Nat.mod_lt n hp
    by_cases h : n % p = 0
    · have e1 : n + 1 + (p - 1) = p * (n / p + 1) := by rw [Nat.mul_add]; omega
      have e2 : (n + (p - 1)) / p = n / p := by
        have : n + (p - 1) = p * (n / p) + (p - 1) := by omega
        rw [this, Nat.mul_add_div hp, Nat.div_eq_of_lt (show p - 1 < p by omega), Nat.add_zero]
      rw [e1, e2, Nat.mul_div_cancel_left _ hp]
      simp [h]
    · have e1 : (n + 1 + (p - 1)) / p = n / p + 1 := by
        have : n + 1 + (p - 1) = p * (n / p + 1) + n % p := by rw [Nat.mul_add]; omega
        rw [this, Nat.mul_add_div hp, Nat.div_eq_of_lt h2, Nat.add_zero]
      have e2 : (n + (p - 1)) / p = n / p + 1 := by
        have : n + (p - 1) = p * (n / p + 1) + (n % p - 1) := by rw [Nat.mul_add]; omega
        rw [this, Nat.mul_add_div hp, Nat.div_eq_of_lt (show n % p - 1 < p by omega), Nat.add_zero]
      rw [e1, e2]; simp [h]

theorem run_mainCounts (id : Nat) (hon : ∀ s, w.isOn s id = true) (n : Nat) : ∀ (c : ClockGen) (s : σ),
    c.timer + n ≤ 2 ^ 32 → c.comps.count id = 1 →
    mainCounts id (run w n c s).2.2 =
      ((List.range n).map (c.timer + ·)).filter fun t => decide (t % (w.comp id).prescaler = 0) := by
  induction n with
  | zero => intros; rfl
  | succ n ih =>
    intro c s hb hc
    simp only [run, tickToComponents]
    rw [mainCounts_append, visitAll_mainCounts w c.comps id c.timer hon]
    have hrep : ∀ m : Nat, (List.range (m + 1)).map (c.timer + ·) = c.timer :: (List.range m).map (c.timer + 1 + ·) := by
      intro m
      rw [List.range_succ_eq_map]
      simp only [List.map_cons, List.map_map, Nat.add_zero]
      congr 1
      apply List.map_congr_left
      intro i _; simp only [Function.comp]; omega
    rw [hrep, List.filter_cons]
    have hrest : mainCounts id (run w n { comps := c.comps, timer := (c.timer + 1) % 2 ^ 32 }
        (visitAll w c.comps c.timer s).1).2.2 =
        ((List.range n).map (c.timer + 1 + ·)).filter fun t => decide (t % (w.comp id).prescaler = 0) := by
      cases n with
      | zero => rfl
      | succ n =>
        have e : (c.timer + 1) % 2 ^ 32 = c.timer + 1 := Nat.mod_eq_of_lt (by omega)
        have h := ih { comps := c.comps, timer := (c.timer + 1) % 2 ^ 32 } (visitAll w c.comps c.timer s).1
          (by simp only [e]; omega) hc
        rw [h]; simp only [e]
    rw [hrest, hc]
    by_cases h : c.timer % (w.comp id).prescaler = 0
    · simp [h]
    · simp [h]

/-- **C20.** A component that is powered throughout and registered once executes its main routine exactly on the clock counts
that its prescaler divides (0 is treated as 1), passing the count, so `⌈n/p⌉` times in the first `n` ticks from count 0 —
whatever all components' routines do, and as long as the 32-bit count does not wrap (`n ≤ 2^32`). -/
theorem C20_prescaled_rate (id p fp : Nat) (hcomp : w.comp id = Comp.new p fp) (hon : ∀ s, w.isOn s id = true)
    (comps : List Nat) (hreg : comps.count id = 1) (n : Nat) (hn : n ≤ 2 ^ 32) (s : σ) :
    let p' := if p = 0 then 1 else p
    mainCounts id (run w n { comps := comps, timer := 0 } s).2.2 = (List.range n).filter (fun t => decide (p' ∣ t)) ∧
    (mainCounts id (run w n { comps := comps, timer := 0 } s).2.2).length = (n + (p' - 1)) / p' := by
  intro p'
  have hp' : (w.comp id).prescaler = p' := by
    rw [hcomp]
    simp only [Comp.new, p']
    split_ifs <;> omega
  have hpos : 0 < p' := by simp only [p']; split_ifs <;> omega
  have key := run_mainCounts w id hon n { comps := comps, timer := 0 } s (by simpa using hn) hreg
  rw [hp'] at key
  have e : ((List.range n).map (({ comps := comps, timer := 0 } : ClockGen).timer + ·)) = List.range n := by simp
  rw [e] at key
  constructor
  · rw [key]
    apply List.filter_congr
    intro t _
    simp [Nat.dvd_iff_mod_eq_zero]
  · rw [key, count_multiples p' n hpos]

/-- Non-vacuity of C20: two components, the second with prescaler 3; over 7 ticks it runs at counts 0, 3, 6. -/
example : mainCounts 1 (run (σ := Unit)
    { comp := fun _ => Comp.new 3 0, isOn := fun _ _ => true, needsFast := fun _ _ => true, exec := fun _ s => s }
    7 { comps := [0, 1], timer := 0 } ()).2.2 = [0, 3, 6] := by
  rw [(C20_prescaled_rate _ 1 3 0 rfl (fun _ => rfl) [0, 1] (by decide) 7 (by decide) ()).1]; decide

/-- What `TickToComponents` may do for one component: call `Tick` first; execute at most one routine of that component; and,
if the component then wants a fast update, call `FastTick` with the same count, which again executes at most one routine. -/
def Segment (count id : Nat) (seg : List (Entry σ)) : Prop :=
  ∃ s t1, seg.head? = some (.tickCall id count, s) ∧ t1.length ≤ 1 ∧
    (∀ e ∈ t1, e.1 = .main id count ∨ e.1 = .powerOff id) ∧
    ((seg = (.tickCall id count, s) :: t1) ∨
     ∃ s1 t2, w.needsFast s1 id = true ∧ t2.length ≤ 1 ∧ (∀ e ∈ t2, e.1 = .fast id ∨ e.1 = .powerOff id) ∧
      seg = (.tickCall id count, s) :: t1 ++ (.fastCall id count, s1) :: t2)

theorem visit_segment (id count : Nat) (s : σ) : Segment w count id (visit w id count s).2 := by
  have h1 : (tick w id count s).2.length ≤ 1 ∧ ∀ e ∈ (tick w id count s).2, e.1 = .main id count ∨ e.1 = .powerOff id := by
    rcases tick_entries w id count s with e | ⟨_, _, e⟩ | ⟨_, _, e⟩ <;> simp [e]
  have h2 : ∀ s1, (fastTick w id count s1).2.length ≤ 1 ∧
      ∀ e ∈ (fastTick w id count s1).2, e.1 = .fast id ∨ e.1 = .powerOff id := by
    intro s1
    rcases fastTick_entries w id count s1 with e | ⟨_, _, e⟩ | ⟨_, _, e⟩ <;> simp [e]
  refine ⟨s, (tick w id count s).2, ?_, h1.1, h1.2, ?_⟩
  · unfold visit; simp only; split_ifs <;> rfl
  · unfold visit
    simp only
    split_ifs with h
    · right
      exact ⟨(tick w id count s).1, _, h, (h2 _).1, (h2 _).2, rfl⟩
    · left; rfl

/-- **C21 (order).** One `TickToComponents` visits the registered components one after the other in registration order, once
per registration, all with the same count, and raises the count by one; the trace is the concatenation of the per-component
segments. -/
theorem C21_tick_order (c : ClockGen) (s : σ) :
    (∃ segs : List (List (Entry σ)), (tickToComponents w c s).2.2 = segs.flatten ∧
      List.Forall₂ (Segment w c.timer) c.comps segs) ∧
    (tickToComponents w c s).1 = { c with timer := (c.timer + 1) % 2 ^ 32 } ∧
    ((tickToComponents w c s).2.2.filterMap fun e => match e.1 with
      | .tickCall i k => some (i, k)
      | _ => none) = c.comps.map (fun i => (i, c.timer)) := by
  have key : ∀ (ids : List Nat) (s : σ), (∃ segs : List (List (Entry σ)), (visitAll w ids c.timer s).2 = segs.flatten ∧
      List.Forall₂ (Segment w c.timer) ids segs) ∧
      ((visitAll w ids c.timer s).2.filterMap fun e => match e.1 with
      | .tickCall i k => some (i, k)
      | _ => none) = ids.map (fun i => (i, c.timer)) := by
    intro ids
    induction ids with
    | nil => intro s; exact ⟨⟨[], rfl, .nil⟩, rfl⟩
    | cons j ids ih =>
      intro s
      obtain ⟨⟨segs, h1, h2⟩, h3⟩ := ih (visit w j c.timer s).1
      refine ⟨⟨(visit w j c.timer s).2 :: segs, by simp [visitAll, h1], .cons (visit_segment w j c.timer s) h2⟩, ?_⟩
      simp only [visitAll, List.filterMap_append, h3, List.map_cons]
      obtain ⟨s0, t1, _, _, h5, h6⟩ := visit_segment w j c.timer s
      have ht1 : (t1.filterMap fun e => match e.1 with
          | .tickCall i k => some (i, k)
          | _ => none) = [] := by
        rw [List.filterMap_eq_nil_iff]
        intro e he
        rcases h5 e he with h | h <;> simp [h]
      rcases h6 with h6 | ⟨s1, t2, _, _, h8, h6⟩
      · rw [h6]
        simp only [List.filterMap_cons, ht1]
        rfl
      · have ht2 : (t2.filterMap fun e => match e.1 with
            | .tickCall i k => some (i, k)
            | _ => none) = [] := by
          rw [List.filterMap_eq_nil_iff]
          intro e he
          rcases h8 e he with h | h <;> simp [h]
        rw [h6, List.filterMap_append]
        simp only [List.filterMap_cons, ht1, ht2]
        rfl
  exact ⟨(key c.comps s).1, rfl, (key c.comps s).2⟩

/-- Non-vacuity of C21: component 7 registered twice and component 2 in between. -/
example : ((tickToComponents (σ := Unit)
    { comp := fun _ => Comp.new 2 1, isOn := fun _ i => i == 7, needsFast := fun _ i => i == 2, exec := fun _ s => s }
    { comps := [7, 2, 7], timer := 4 } ()).2.2.map (·.1)) =
    [.tickCall 7 4, .main 7 4, .tickCall 2 4, .powerOff 2, .fastCall 2 4, .powerOff 2, .tickCall 7 4, .main 7 4] := by
  decide

/-- Registrations and removals. -/
inductive RegOp where
  | register (id : Nat)
  | remove (id : Nat)

/-- The list after a history of registrations and removals. -/
def ClockGen.apply (c : ClockGen) : RegOp → ClockGen
  | .register id => c.register id
  | .remove id => c.remove id

theorem removeLoop_eq_erase (id : Nat) (l : List Nat) : removeLoop id l = l.erase id := by
  induction l with
  | nil => rfl
  | cons x xs ih =>
    rw [removeLoop, List.erase_cons]
    by_cases h : x = id
    · simp [h]
    · simp [h, ih]

/-- **C21 (registration).** Registering appends; removing deletes exactly the earliest registration of that component (nothing
if there is none) and keeps the others in order; hence after any history a component is ticked
`max(0, …)` = "registrations minus effective removals" times per clock. Component updates happen only when the component
update flag of the step is raised. -/
theorem C21_registration (c : ClockGen) (id : Nat) :
    (c.register id).comps = c.comps ++ [id] ∧
    (c.remove id).comps = c.comps.erase id ∧
    (∀ pre post, c.comps = pre ++ id :: post → id ∉ pre → (c.remove id).comps = pre ++ post) ∧
    (id ∉ c.comps → c.remove id = c) ∧
    (∀ s : σ, updateComponents w c false s = (c, s, []) ∧ updateComponents w c true s = tickToComponents w c s) := by
  refine ⟨rfl, removeLoop_eq_erase id c.comps, ?_, ?_, fun s => ⟨rfl, rfl⟩⟩
  · intro pre post h hn
    simp only [ClockGen.remove, removeLoop_eq_erase, h]
    rw [List.erase_append_right _ hn, List.erase_cons_head]
  · intro h
    simp only [ClockGen.remove, removeLoop_eq_erase, List.erase_of_not_mem h]

example : ([RegOp.register 1, .register 2, .register 1, .remove 1, .remove 9].foldl ClockGen.apply
    { comps := [], timer := 0 }).comps = [2, 1] := by decide

/-- **C22.** In every execution, whatever the routines do to the power state: a main or fast routine of a component is executed
only at a moment at which its power port is on (and at an instant its prescaler divides), a power-off routine only at a
moment at which it is off. -/
theorem C22_power_gating (n : Nat) (c : ClockGen) (s : σ) :
    ∀ e ∈ (run w n c s).2.2, match e.1 with
      | .main id count => w.isOn e.2 id = true ∧ count % (w.comp id).prescaler = 0
      | .fast id => w.isOn e.2 id = true
      | .powerOff id => w.isOn e.2 id = false
      | _ => True := by
  have hvisit : ∀ (id count : Nat) (s : σ), ∀ e ∈ (visit w id count s).2, match e.1 with
      | .main id count => w.isOn e.2 id = true ∧ count % (w.comp id).prescaler = 0
      | .fast id => w.isOn e.2 id = true
      | .powerOff id => w.isOn e.2 id = false
      | _ => True := by
    intro id count s e he
    have htick : ∀ e ∈ (tick w id count s).2, match e.1 with
      | .main id count => w.isOn e.2 id = true ∧ count % (w.comp id).prescaler = 0
      | .fast id => w.isOn e.2 id = true
      | .powerOff id => w.isOn e.2 id = false
      | _ => True := by
      intro e he
      rcases tick_entries w id count s with h | ⟨h1, h2, h⟩ | ⟨h1, h2, h⟩ <;> rw [h] at he <;> simp at he <;> subst he
      · exact ⟨h2, h1⟩
      · exact h2
    have hfast : ∀ s1, ∀ e ∈ (fastTick w id count s1).2, match e.1 with
      | .main id count => w.isOn e.2 id = true ∧ count % (w.comp id).prescaler = 0
      | .fast id => w.isOn e.2 id = true
      | .powerOff id => w.isOn e.2 id = false
      | _ => True := by
      intro s1 e he
      rcases fastTick_entries w id count s1 with h | ⟨h1, h2, h⟩ | ⟨h1, h2, h⟩ <;> rw [h] at he <;> simp at he <;>
        subst he
      · exact h2
      · exact h2
    unfold visit at he
    simp only at he
    split_ifs at he
    · simp only [List.mem_append, List.mem_cons] at he
      rcases he with (rfl | he) | rfl | he
      · trivial
      · exact htick e he
      · trivial
      · exact hfast _ e he
    · simp only [List.mem_cons] at he
      rcases he with rfl | he
      · trivial
      · exact htick e he
  have hall : ∀ (ids : List Nat) (count : Nat) (s : σ), ∀ e ∈ (visitAll w ids count s).2, match e.1 with
      | .main id count => w.isOn e.2 id = true ∧ count % (w.comp id).prescaler = 0
      | .fast id => w.isOn e.2 id = true
      | .powerOff id => w.isOn e.2 id = false
      | _ => True := by
    intro ids count
    induction ids with
    | nil => intro s e he; simp [visitAll] at he
    | cons j ids ih =>
      intro s e he
      simp only [visitAll, List.mem_append] at he
      rcases he with he | he
      · exact hvisit j count s e he
      · exact ih _ e he
  induction n generalizing c s with
  | zero => intro e he; simp [run] at he
  | succ n ih =>
    intro e he
    simp only [run, List.mem_append] at he
    rcases he with he | he
    · exact hall _ _ _ e he
    · exact ih _ _ e he

/-- **C22 (power-off instants).** A component that stays off, registered once and without fast update, executes neither main
nor fast routine and executes its power-off routine exactly once on each tick that its prescaler divides. -/
theorem C22_off_instants (id : Nat) (hoff : ∀ s, w.isOn s id = false) (hnf : ∀ s, w.needsFast s id = false)
    (c : ClockGen) (hreg : c.comps.count id = 1) (s : σ) :
    offCount id (tickToComponents w c s).2.2 = (if c.timer % (w.comp id).prescaler = 0 then 1 else 0) ∧
    (∀ e ∈ (tickToComponents w c s).2.2, e.1 ≠ .main id c.timer ∧ e.1 ≠ .fast id) := by
  constructor
  · have hself : ∀ s, offCount id (visit w id c.timer s).2 = if c.timer % (w.comp id).prescaler = 0 then 1 else 0 := by
      intro s
      unfold visit
      simp only
      rw [if_neg (by simp [hnf])]
      unfold tick doEvent
      by_cases h : c.timer % (w.comp id).prescaler = 0
      · simp [h, hoff, offCount]
      · rw [if_pos (by omega)]; simp [h, offCount]
    have hother : ∀ j s, j ≠ id → offCount id (visit w j c.timer s).2 = 0 := by
      intro j s hj
      unfold offCount
      rw [List.countP_eq_zero]
      intro e he
      obtain ⟨s0, t1, _, _, h5, h6⟩ := visit_segment w j c.timer s
      have hown : e.1.owner = j := by
        rcases h6 with h6 | ⟨s1, t2, _, _, h8, h6⟩
        · rw [h6] at he
          rcases List.mem_cons.1 he with rfl | he
          · rfl
          · rcases h5 e he with h | h <;> rw [h] <;> rfl
        · rw [h6] at he
          simp only [List.cons_append, List.mem_cons, List.mem_append] at he
          rcases he with rfl | he | rfl | he
          · rfl
          · rcases h5 e he with h | h <;> rw [h] <;> rfl
          · rfl
          · rcases h8 e he with h | h <;> rw [h] <;> rfl
      simp only [decide_eq_true_eq]
      intro h; rw [h] at hown; exact hj hown.symm
    have key : ∀ (ids : List Nat) (s : σ), offCount id (visitAll w ids c.timer s).2 =
        (if c.timer % (w.comp id).prescaler = 0 then ids.count id else 0) := by
      intro ids
      induction ids with
      | nil => intro s; simp [visitAll, offCount]
      | cons j ids ih =>
        intro s
        have happ : ∀ a b : List (Entry σ), offCount id (a ++ b) = offCount id a + offCount id b := by
          intro a b; simp [offCount]
        simp only [visitAll]
        rw [happ, ih]
        by_cases hj : j = id
        · subst hj; rw [hself, List.count_cons_self]; split_ifs <;> omega
        · rw [hother j s hj, List.count_cons_of_ne (by simpa using hj)]; omega
    have := key c.comps s
    rw [hreg] at this
    exact this
  · intro e he
    have h1 := C22_power_gating w 1 c s e (by simpa [run] using he)
    constructor
    · intro h; rw [h] at h1; simp [hoff] at h1
    · intro h; rw [h] at h1; simp [hoff] at h1

/-- Non-vacuity of C22. -/
example : offCount 1 (tickToComponents (σ := Unit)
    { comp := fun _ => Comp.new 2 1, isOn := fun _ i => i == 0, needsFast := fun _ _ => false, exec := fun _ s => s }
    { comps := [0, 1], timer := 4 } ()).2.2 = 1 :=
  (C22_off_instants _ 1 (fun _ => rfl) (fun _ => rfl) { comps := [0, 1], timer := 4 } (by decide) ()).1

end Clock
end S2E
