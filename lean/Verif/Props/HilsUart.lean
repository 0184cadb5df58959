import Verif.Spec.HilsUart
import Mathlib.Tactic.Common
import Mathlib.Data.List.Basic
/-!
# C191: UART ports for HILS tests
-/
namespace S2E.HilsUart
open S2E.HilsPorts S2E.HilsUartSpec

theorem arrived_append (id : Nat) (t u : Record) : arrived id (t ++ u) = arrived id t ++ arrived id u := by
  induction t with
  | nil => rfl
  | cons x t ih => obtain ⟨c, s⟩ := x; cases c <;> simp [arrived, ih]

theorem received_append (id : Nat) (t u : Record) : received id (t ++ u) = received id t ++ received id u := by
  induction t with
  | nil => rfl
  | cons x t ih => obtain ⟨c, s⟩ := x; cases c <;> simp [received, ih]

theorem accepted_append (id : Nat) (t u : Record) : accepted id (t ++ u) = accepted id t ++ accepted id u := by
  induction t with
  | nil => rfl
  | cons x t ih => obtain ⟨c, s⟩ := x; cases c <;> simp [accepted, ih]

theorem leftover_append (id : Nat) (t u : Record) : ∀ w, leftover id w (t ++ u) = leftover id (leftover id w t) u := by
  induction t with
  | nil => intro w; rfl
  | cons x t ih => intro w; obtain ⟨c, s⟩ := x; cases c <;> simp [leftover, ih]

/-- What the manager knows of a port, in terms of the record. -/
def Inv (m : HilsPorts) (t : Record) (id : Nat) : Prop :=
  (m id = none ∧ Idle id t) ∨
  ∃ p baud tx rx opens s, m id = some p ∧ Session id baud tx rx opens s t ∧ (p.isOpen = true ↔ Works baud opens) ∧ p.txSize = tx ∧
    p.rx = leftover id (List.replicate rx 0) s ∧ p.rx.length = rx ∧ p.sent = accepted id s ∧ (p.isOpen = true → arrived id s = received id s ++ p.waiting) ∧ received id s <+: arrived id s

theorem idle_snoc {id : Nat} {t : Record} {x : Call × Seen} (h : Idle id t) (hx : ∀ baud tx rx opens b, x ≠ (Call.connect id baud tx rx opens, ⟨0, b⟩)) :
    Idle id (t ++ [x]) := by
  intro before baud tx rx opens b after ht
  rcases List.eq_nil_or_concat after with rfl | ⟨a, y, rfl⟩
  · have := List.append_inj_right' ht rfl
    exact absurd (List.cons.inj this).1 (hx baud tx rx opens b)
  · rw [List.concat_eq_append, ← List.cons_append, ← List.append_assoc] at ht
    obtain ⟨h1, h2⟩ := List.append_inj' ht rfl
    obtain ⟨b', hb⟩ := h before baud tx rx opens b a h1
    exact ⟨b', by simp [hb]⟩

theorem session_snoc {id baud tx rx : Nat} {opens : Bool} {s t : Record} {x : Call × Seen} (h : Session id baud tx rx opens s t)
    (hx : ∀ b, x ≠ (Call.close id, ⟨0, b⟩)) (hy : ∀ baud tx rx opens b, x ≠ (Call.connect id baud tx rx opens, ⟨0, b⟩)) :
    Session id baud tx rx opens (s ++ [x]) (t ++ [x]) := by
  obtain ⟨⟨before, b, rfl⟩, h2, h3⟩ := h
  refine ⟨⟨before, b, by simp⟩, ?_, ?_⟩
  · intro b' hb
    rcases List.mem_append.1 hb with hb | hb
    · exact h2 b' hb
    · exact hx b' (List.mem_singleton.1 hb).symm
  · intro _ _ _ _ b' hb
    rcases List.mem_append.1 hb with hb | hb
    · exact h3 _ _ _ _ b' hb
    · exact hy _ _ _ _ b' (List.mem_singleton.1 hb).symm

/-- Which port a call is about. -/
def about : Call → Nat
  | .connect id .. => id
  | .close id => id
  | .receive id _ => id
  | .send id .. => id
  | .arrive id _ => id

/-- Ports a call is not about keep their state. -/
theorem Inv.other {m m' : HilsPorts} {t : Record} {id : Nat} {c : Call} {s : Seen} (h : Inv m t id) (hc : about c ≠ id) (hm : m' id = m id) : Inv m' (t ++ [(c, s)]) id := by
  rcases h with ⟨h1, h2⟩ | ⟨p, baud, tx, rx, opens, s', h1, h2, h3, h4, h5, h6, h7, h8, h9⟩
  · exact .inl ⟨hm.trans h1, idle_snoc h2 fun _ _ _ _ _ h => hc (by rw [(Prod.mk.inj h).1]; rfl)⟩
  · refine .inr ⟨p, baud, tx, rx, opens, s' ++ [(c, s)], hm.trans h1, session_snoc h2 (fun b h => hc (by rw [(Prod.mk.inj h).1]; rfl)) (fun _ _ _ _ _ h => hc (by rw [(Prod.mk.inj h).1]; rfl)), h3, h4, ?_, h6, ?_, ?_, ?_⟩
    · rw [h5, leftover_append]
      cases c <;> simp only [about] at hc <;> simp [leftover, hc]
    · rw [h7, accepted_append]
      cases c <;> simp only [about] at hc <;> simp [accepted, hc]
    · rw [arrived_append, received_append]
      cases c <;> simp only [about] at hc <;> simpa [arrived, received, hc] using h8
    · rw [arrived_append, received_append]
      cases c <;> simp only [about] at hc <;> simpa [arrived, received, hc] using h9

theorem set_self (m : HilsPorts) (i : Nat) (v : Option HilsUartPort) : m.set i v i = v := if_pos rfl
theorem set_other (m : HilsPorts) {i j : Nat} (v : Option HilsUartPort) (h : i ≠ j) : m.set i v j = m j := if_neg (Ne.symm h)

theorem bind_ok' {α β : Type} (a : α) (f : α → Res β) : (Res.ok a >>= f) = f a := rfl

/-- How a port reads into a buffer of `len` zeros. -/
theorem readRx_eq (p : HilsUartPort) (len : Nat) : p.readRx (List.replicate len 0) 0 len =
    .ok (if p.isOpen = false ∨ p.rx.length < len then (p, List.replicate len 0, -2)
      else if len ≠ 0 ∧ p.waiting = [] then (p, List.replicate len 0, -1)
      else ({ p with rx := p.waiting.take len ++ p.rx.drop (p.waiting.take len).length, waiting := p.waiting.drop len },
        (p.waiting.take len ++ p.rx.drop (p.waiting.take len).length).take len, ((p.waiting.take len).length : Int))) := by
  unfold HilsUartPort.readRx
  by_cases h1 : p.isOpen = false
  · simp [h1]
  · by_cases h2 : len > p.rx.length
    · simp [h1, h2]
    · have h0 : ¬ (p.isOpen = false ∨ p.rx.length < len) := by rintro (h | h); exacts [h1 h, h2 h]
      rw [if_neg h1, if_neg h2, if_neg h0]
      by_cases h3 : len ≠ 0 ∧ p.waiting = []
      · rw [if_pos h3, if_pos h3]
      · rw [if_neg h3, if_neg h3]
        have hl : len ≤ (p.waiting.take len ++ p.rx.drop (p.waiting.take len).length).length := by
          rw [List.length_append, List.length_drop, List.length_take]; omega
        have h4 : 0 + len ≤ (List.replicate len (0 : Byte)).length ∧ 0 + len ≤ (p.waiting.take len ++ p.rx.drop (p.waiting.take len).length).length := by
          rw [List.length_replicate]; omega
        change (memcpy _ _ _ _ _).bind _ = _
        unfold memcpy
        rw [if_pos h4]
        simp [Res.bind]


/-- Every call keeps what is known of every port. -/
theorem Inv.step {m m' : HilsPorts} {t : Record} (h : ∀ id, Inv m t id) {c : Call} {seen : Seen} (hc : m.call c = .ok (m', seen)) : ∀ id, Inv m' (t ++ [(c, seen)]) id := by
  intro id
  by_cases ha : about c = id
  · cases c with
    | connect i baud tx rx opens =>
      obtain rfl : i = id := ha
      simp only [call, HilsPorts.connect] at hc
      rcases h i with ⟨h1, h2⟩ | ⟨p, baud', tx', rx', opens', s', h1, h2, h3, h4, h5, h6, h7, h8, h9⟩
      · rw [h1] at hc
        dsimp only at hc
        by_cases hz : baud = 0 ∨ tx = 0 ∨ rx = 0
        · rw [if_pos hz] at hc
          obtain ⟨rfl, rfl⟩ := Prod.mk.inj (Res.ok.inj hc)
          exact .inl ⟨h1, idle_snoc h2 fun _ _ _ _ _ h => by simp at h⟩
        · rw [if_neg hz] at hc
          unfold HilsUartPort.new at hc
          by_cases hb : tx ≥ 2 ^ 31 ∨ rx ≥ 2 ^ 31
          · rw [if_pos hb] at hc; cases hc
          · rw [if_neg hb] at hc
            obtain ⟨rfl, rfl⟩ := Prod.mk.inj (Res.ok.inj hc)
            refine .inr ⟨_, baud, tx, rx, opens, [], set_self .., ⟨⟨t, [], rfl⟩, by simp, by simp⟩, ?_, rfl, rfl, by simp, rfl, fun _ => rfl, by simp [received]⟩
            dsimp only [Works]
            by_cases hbd : baud ≥ 2 ^ 31
            · rw [if_pos hbd]; simp; omega
            · rw [if_neg hbd]; simp; omega
      · rw [h1] at hc
        obtain ⟨rfl, rfl⟩ := Prod.mk.inj (Res.ok.inj hc)
        refine .inr ⟨p, baud', tx', rx', opens', s' ++ [_], h1, session_snoc h2 (fun _ h => by simp at h) (fun _ _ _ _ _ h => by simp at h), h3, h4, ?_, h6, ?_, ?_, ?_⟩
        · rw [h5, leftover_append]; rfl
        · rw [h7, accepted_append]; simp [accepted]
        · rw [arrived_append, received_append]; simpa [arrived, received] using h8
        · rw [arrived_append, received_append]; simpa [arrived, received] using h9
    | close i =>
      obtain rfl : i = id := ha
      simp only [call, HilsPorts.close] at hc
      obtain ⟨rfl, rfl⟩ := Prod.mk.inj (Res.ok.inj hc)
      rcases h i with ⟨h1, h2⟩ | ⟨p, baud', tx', rx', opens', s', h1, h2, h3, h4, h5, h6, h7, h8, h9⟩
      · rw [h1]
        exact .inl ⟨h1, idle_snoc h2 fun _ _ _ _ _ h => by simp at h⟩
      · rw [h1]
        refine .inl ⟨set_self .., ?_⟩
        intro before baud tx rx opens b after ht
        rcases List.eq_nil_or_concat after with rfl | ⟨a, y, rfl⟩
        · have := List.append_inj_right' ht rfl
          simp at this
        · rw [List.concat_eq_append, ← List.cons_append, ← List.append_assoc] at ht
          obtain ⟨_, h2⟩ := List.append_inj' ht rfl
          refine ⟨[], ?_⟩
          rw [List.concat_eq_append, ← h2]
          simp
    | receive i len =>
      obtain rfl : i = id := ha
      simp only [call, HilsPorts.receive] at hc
      rcases h i with ⟨h1, h2⟩ | ⟨p, baud', tx', rx', opens', s', h1, h2, h3, h4, h5, h6, h7, h8, h9⟩
      · rw [h1] at hc
        obtain ⟨rfl, rfl⟩ := Prod.mk.inj (Res.ok.inj hc)
        exact .inl ⟨h1, idle_snoc h2 fun _ _ _ _ _ h => by simp at h⟩
      · rw [h1] at hc
        simp only [readRx_eq] at hc
        obtain ⟨rfl, rfl⟩ := Prod.mk.inj (Res.ok.inj hc)
        have hs : ∀ x : Seen, Session i baud' tx' rx' opens' (s' ++ [(Call.receive i len, x)]) (t ++ [(Call.receive i len, x)]) :=
          fun x => session_snoc h2 (fun _ h => by simp at h) (fun _ _ _ _ _ h => by simp at h)
        by_cases hr : p.isOpen = false ∨ p.rx.length < len
        · simp only [if_pos hr]
          refine .inr ⟨p, baud', tx', rx', opens', _, set_self .., hs _, h3, h4, ?_, h6, ?_, ?_, ?_⟩
          · rw [h5, leftover_append]; simp [leftover]
          · rw [h7, accepted_append]; simp [accepted]
          · rw [arrived_append, received_append]; simpa [arrived, received] using h8
          · rw [arrived_append, received_append]; simpa [arrived, received] using h9
        · simp only [if_neg hr]
          have hop : p.isOpen = true := by
            cases hp : p.isOpen
            · exact absurd (.inl hp) hr
            · rfl
          by_cases hw : len ≠ 0 ∧ p.waiting = []
          · simp only [if_pos hw]
            refine .inr ⟨p, baud', tx', rx', opens', _, set_self .., hs _, h3, h4, ?_, h6, ?_, ?_, ?_⟩
            · rw [h5, leftover_append]; simp [leftover]
            · rw [h7, accepted_append]; simp [accepted]
            · rw [arrived_append, received_append]; simpa [arrived, received] using h8
            · rw [arrived_append, received_append]; simpa [arrived, received] using h9
          · simp only [if_neg hw]
            have ht : ((p.waiting.take len ++ p.rx.drop (p.waiting.take len).length).take len).take (p.waiting.take len).length = p.waiting.take len := by
              rw [List.take_take, Nat.min_eq_left (List.length_take_le _ _), List.take_append_of_le_length (Nat.le_refl _), List.take_length]
            have har := h8 hop
            refine .inr ⟨_, baud', tx', rx', opens', _, set_self .., hs _, h3, h4, ?_, ?_, ?_, ?_, ?_⟩
            · rw [leftover_append, ← h5]
              simp only [leftover, if_true, Int.toNat_natCast, ht]
            · dsimp only
              have : p.rx.length = rx' := h6
              rw [List.length_append, List.length_drop, List.length_take]
              have : ¬ p.rx.length < len := fun h => hr (.inr h)
              omega
            · rw [accepted_append]; simpa [accepted] using h7
            · intro _
              rw [arrived_append, received_append]
              simp only [arrived, received, if_true, Int.toNat_natCast, ht]
              simp [har]
            · rw [arrived_append, received_append]
              simp only [arrived, received, if_true, Int.toNat_natCast, ht]
              refine ⟨p.waiting.drop len, ?_⟩
              simp [har]
    | send i data takes =>
      obtain rfl : i = id := ha
      simp only [call, HilsPorts.send] at hc
      rcases h i with ⟨h1, h2⟩ | ⟨p, baud', tx', rx', opens', s', h1, h2, h3, h4, h5, h6, h7, h8, h9⟩
      · rw [h1] at hc
        obtain ⟨rfl, rfl⟩ := Prod.mk.inj (Res.ok.inj hc)
        exact .inl ⟨h1, idle_snoc h2 fun _ _ _ _ _ h => by simp at h⟩
      · rw [h1] at hc
        have hs : ∀ x : Seen, Session i baud' tx' rx' opens' (s' ++ [(Call.send i data takes, x)]) (t ++ [(Call.send i data takes, x)]) :=
          fun x => session_snoc h2 (fun _ h => by simp at h) (fun _ _ _ _ _ h => by simp at h)
        simp only [HilsUartPort.writeTx] at hc
        rw [if_neg (by omega)] at hc
        by_cases hl : data.length > p.txSize
        · rw [if_pos hl] at hc; cases hc
        · rw [if_neg hl] at hc
          by_cases ho : p.isOpen = false ∨ takes = false
          · rw [if_pos ho] at hc
            obtain ⟨rfl, rfl⟩ := Prod.mk.inj (Res.ok.inj hc)
            refine .inr ⟨p, baud', tx', rx', opens', _, set_self .., hs _, h3, h4, ?_, h6, ?_, ?_, ?_⟩
            · rw [h5, leftover_append]; simp [leftover]
            · rw [h7, accepted_append]; simp [accepted]
            · rw [arrived_append, received_append]; simpa [arrived, received] using h8
            · rw [arrived_append, received_append]; simpa [arrived, received] using h9
          · rw [if_neg ho] at hc
            obtain ⟨rfl, rfl⟩ := Prod.mk.inj (Res.ok.inj hc)
            refine .inr ⟨_, baud', tx', rx', opens', _, set_self .., hs _, h3, h4, ?_, h6, ?_, ?_, ?_⟩
            · rw [leftover_append]; simpa [leftover] using h5
            · rw [accepted_append]; simp [accepted, h7]
            · rw [arrived_append, received_append]; simpa [arrived, received] using h8
            · rw [arrived_append, received_append]; simpa [arrived, received] using h9
    | arrive i data =>
      obtain rfl : i = id := ha
      simp only [call, HilsPorts.arrive] at hc
      obtain ⟨rfl, rfl⟩ := Prod.mk.inj (Res.ok.inj hc)
      rcases h i with ⟨h1, h2⟩ | ⟨p, baud', tx', rx', opens', s', h1, h2, h3, h4, h5, h6, h7, h8, h9⟩
      · rw [h1]
        exact .inl ⟨h1, idle_snoc h2 fun _ _ _ _ _ h => by simp at h⟩
      · rw [h1]
        have hs : ∀ x : Seen, Session i baud' tx' rx' opens' (s' ++ [(Call.arrive i data, x)]) (t ++ [(Call.arrive i data, x)]) :=
          fun x => session_snoc h2 (fun _ h => by simp at h) (fun _ _ _ _ _ h => by simp at h)
        have hp : received i (s' ++ [(Call.arrive i data, ⟨0, []⟩)]) <+: arrived i (s' ++ [(Call.arrive i data, ⟨0, []⟩)]) := by
          rw [arrived_append, received_append]
          simpa [arrived, received] using h9.trans (List.prefix_append _ _)
        cases ho : p.isOpen with
        | true =>
          refine .inr ⟨p.arrive data, baud', tx', rx', opens', _, set_self .., hs _, ?_, ?_, ?_, ?_, ?_, ?_, hp⟩ <;> simp only [HilsUartPort.arrive, ho, if_true]
          · simpa [ho] using h3
          · exact h4
          · rw [leftover_append]; simpa [leftover] using h5
          · exact h6
          · rw [accepted_append]; simpa [accepted] using h7
          · intro _
            rw [arrived_append, received_append]
            simp [arrived, received, h8 ho]
        | false =>
          refine .inr ⟨p.arrive data, baud', tx', rx', opens', _, set_self .., hs _, ?_, ?_, ?_, ?_, ?_, ?_, hp⟩ <;> simp only [HilsUartPort.arrive, ho, if_false, Bool.false_eq_true]
          · simpa [ho] using h3
          · exact h4
          · rw [leftover_append]; simpa [leftover] using h5
          · exact h6
          · rw [accepted_append]; simpa [accepted] using h7
          · intro h; exact absurd h (by simp)
  · refine (h id).other ha ?_
    cases c with
    | connect i baud tx rx opens =>
      simp only [call, HilsPorts.connect] at hc
      rcases h1 : m i with _ | p <;> rw [h1] at hc <;> dsimp only at hc
      · split at hc
        · obtain ⟨rfl, _⟩ := Prod.mk.inj (Res.ok.inj hc); rfl
        · unfold HilsUartPort.new at hc
          split at hc
          · cases hc
          · obtain ⟨rfl, _⟩ := Prod.mk.inj (Res.ok.inj hc); exact set_other _ _ ha
      · obtain ⟨rfl, _⟩ := Prod.mk.inj (Res.ok.inj hc); rfl
    | close i =>
      simp only [call, HilsPorts.close] at hc
      obtain ⟨rfl, _⟩ := Prod.mk.inj (Res.ok.inj hc)
      rcases h1 : m i with _ | p <;> dsimp only
      exact set_other _ _ ha
    | receive i len =>
      simp only [call, HilsPorts.receive] at hc
      rcases h1 : m i with _ | p <;> rw [h1] at hc <;> dsimp only at hc
      · obtain ⟨rfl, _⟩ := Prod.mk.inj (Res.ok.inj hc); rfl
      · simp only [readRx_eq] at hc
        obtain ⟨rfl, _⟩ := Prod.mk.inj (Res.ok.inj hc)
        exact set_other _ _ ha
    | send i data takes =>
      simp only [call, HilsPorts.send] at hc
      rcases h1 : m i with _ | p <;> rw [h1] at hc <;> dsimp only at hc
      · obtain ⟨rfl, _⟩ := Prod.mk.inj (Res.ok.inj hc); rfl
      · rcases h2 : p.writeTx data 0 data.length takes with ⟨p', r⟩ | _ | _ | _ <;> rw [h2] at hc
        · obtain ⟨rfl, _⟩ := Prod.mk.inj (Res.ok.inj hc); exact set_other _ _ ha
        all_goals cases hc
    | arrive i data =>
      simp only [call, HilsPorts.arrive] at hc
      obtain ⟨rfl, _⟩ := Prod.mk.inj (Res.ok.inj hc)
      rcases h1 : m i with _ | p <;> dsimp only
      exact set_other _ _ ha

theorem Inv.run : ∀ (cs : List Call) {m m' : HilsPorts} {t u : Record}, (∀ id, Inv m t id) → m.calls cs = .ok (m', u) → ∀ id, Inv m' (t ++ u) id
  | [], m, m', t, u, h, hc => by
    obtain ⟨rfl, rfl⟩ := Prod.mk.inj (Res.ok.inj hc)
    simpa using h
  | c :: cs, m, m', t, u, h, hc => by
    change (m.call c).bind _ = _ at hc
    rcases h1 : m.call c with ⟨m1, s⟩ | _ | _ | _ <;> rw [h1] at hc <;> simp only [Res.bind, reduceCtorEq] at hc
    change (m1.calls cs).bind _ = _ at hc
    rcases h2 : m1.calls cs with ⟨m2, ss⟩ | _ | _ | _ <;> rw [h2] at hc <;> simp only [Res.bind, reduceCtorEq] at hc
    obtain ⟨rfl, rfl⟩ := Prod.mk.inj (Res.ok.inj hc)
    have := Inv.run cs (Inv.step h h1) h2
    simpa using this

theorem inv_of {cs : List Call} {m : HilsPorts} {t : Record} (h : HilsPorts.empty.calls cs = .ok (m, t)) (id : Nat) : Inv m t id := by
  have := Inv.run cs (t := []) (fun id => .inl ⟨rfl, by intro _ _ _ _ _ _ _ h; simp at h⟩) h id
  simpa using this

theorem session_unique {id b1 t1 r1 b2 t2 r2 : Nat} {o1 o2 : Bool} {s1 s2 t : Record} (h1 : Session id b1 t1 r1 o1 s1 t) (h2 : Session id b2 t2 r2 o2 s2 t) :
    b1 = b2 ∧ t1 = t2 ∧ r1 = r2 ∧ o1 = o2 ∧ s1 = s2 := by
  obtain ⟨⟨p1, x1, e1⟩, _, h1⟩ := h1
  obtain ⟨⟨p2, x2, e2⟩, _, h2⟩ := h2
  rw [e1] at e2
  rcases List.append_eq_append_iff.1 e2 with ⟨a, ha, hb⟩ | ⟨a, ha, hb⟩
  · rcases a with _ | ⟨y, a⟩
    · simp at hb; tauto
    · obtain ⟨_, hb⟩ := List.cons.inj hb
      exact absurd (by rw [hb]; simp) (h1 b2 t2 r2 o2 x2)
  · rcases a with _ | ⟨y, a⟩
    · simp at hb; tauto
    · obtain ⟨_, hb⟩ := List.cons.inj hb
      exact absurd (by rw [hb]; simp) (h2 b1 t1 r1 o1 x1)


/-! ## C191 -/

/-- C191 (ports). After any history of calls a port is idle or has a session, not both. An idle port refuses everything but a connection, and accepts a connection exactly if no parameter is zero (sizes of
2³¹ or more raise an exception). A port with a session refuses a connection and can be closed. -/
theorem C191_ports (cs : List Call) (m : HilsPorts) (t : Record) (h : HilsPorts.empty.calls cs = .ok (m, t)) (id : Nat) :
    (Idle id t ↔ ¬ ∃ baud tx rx opens s, Session id baud tx rx opens s t) ∧
    (Idle id t →
      m.call (.close id) = .ok (m, ⟨-1, []⟩) ∧ (∀ len, m.call (.receive id len) = .ok (m, ⟨-1, List.replicate len 0⟩)) ∧ (∀ data takes, m.call (.send id data takes) = .ok (m, ⟨-1, []⟩)) ∧
      (∀ baud tx rx opens, baud = 0 ∨ tx = 0 ∨ rx = 0 → m.call (.connect id baud tx rx opens) = .ok (m, ⟨-1, []⟩)) ∧
      (∀ baud tx rx opens, 0 < baud → 0 < tx → 0 < rx → tx < 2 ^ 31 → rx < 2 ^ 31 → ∃ m', m.call (.connect id baud tx rx opens) = .ok (m', ⟨0, []⟩)) ∧
      (∀ baud tx rx opens, 0 < baud → 0 < tx → 0 < rx → 2 ^ 31 ≤ tx ∨ 2 ^ 31 ≤ rx → m.call (.connect id baud tx rx opens) = .throws)) ∧
    ((∃ baud tx rx opens s, Session id baud tx rx opens s t) →
      (∃ m', m.call (.close id) = .ok (m', ⟨0, []⟩)) ∧ ∀ baud tx rx opens, m.call (.connect id baud tx rx opens) = .ok (m, ⟨-1, []⟩)) := by
  have hx : Idle id t → ¬ ∃ baud tx rx opens s, Session id baud tx rx opens s t := by
    rintro h ⟨baud, tx, rx, opens, s, ⟨before, b, e⟩, h2, _⟩
    obtain ⟨b', hb⟩ := h _ _ _ _ _ _ _ e
    exact h2 b' hb
  rcases inv_of h id with ⟨h1, h2⟩ | ⟨p, baud', tx', rx', opens', s', h1, h2, _⟩
  · refine ⟨⟨hx, fun _ => h2⟩, fun _ => ⟨?_, ?_, ?_, ?_, ?_, ?_⟩, fun h => absurd h (hx h2)⟩
    · simp only [call, HilsPorts.close, h1]
    · intro len; simp only [call, HilsPorts.receive, h1]; rfl
    · intro data takes; simp only [call, HilsPorts.send, h1]; rfl
    · intro baud tx rx opens hz; simp only [call, HilsPorts.connect, h1, if_pos hz]; rfl
    · intro baud tx rx opens hb ht hr ht' hr'
      simp only [call, HilsPorts.connect, h1]
      rw [if_neg (by omega)]
      unfold HilsUartPort.new
      rw [if_neg (by omega)]
      exact ⟨_, rfl⟩
    · intro baud tx rx opens hb ht hr hh
      simp only [call, HilsPorts.connect, h1]
      rw [if_neg (by omega)]
      unfold HilsUartPort.new
      rw [if_pos (by omega)]
      rfl
  · have hs : ∃ baud tx rx opens s, Session id baud tx rx opens s t := ⟨_, _, _, _, _, h2⟩
    refine ⟨⟨hx, fun h => absurd hs h⟩, fun h => absurd hs (hx h), fun _ => ⟨?_, ?_⟩⟩
    · exact ⟨m.set id none, by simp only [call, HilsPorts.close, h1]⟩
    · intro baud tx rx opens; simp only [call, HilsPorts.connect, h1]; rfl

/-- C191 (bytes). In a session of a line that works, the bytes received are the bytes that arrived, in order, none lost or doubled; with no more than `rx` bytes asked for, a reception returns −1 if nothing is
waiting and otherwise as many of the waiting bytes as were asked for; the rest of the buffer is filled with bytes of earlier receptions. More than `rx` bytes asked for: −2. -/
theorem C191_received (cs : List Call) (m : HilsPorts) (t : Record) (h : HilsPorts.empty.calls cs = .ok (m, t)) (id baud tx rx : Nat) (opens : Bool) (s : Record)
    (hs : Session id baud tx rx opens s t) (hw : Works baud opens) :
    ∃ waiting, arrived id s = received id s ++ waiting ∧
      (∀ len, rx < len → ∃ m', m.call (.receive id len) = .ok (m', ⟨-2, List.replicate len 0⟩)) ∧
      (∀ len, 0 < len → len ≤ rx → waiting = [] → ∃ m', m.call (.receive id len) = .ok (m', ⟨-1, List.replicate len 0⟩)) ∧
      (∀ len, len ≤ rx → waiting ≠ [] → ∃ m', m.call (.receive id len) =
        .ok (m', ⟨(min len waiting.length : Nat), waiting.take len ++ ((leftover id (List.replicate rx 0) s).take len).drop (min len waiting.length)⟩)) := by
  rcases inv_of h id with ⟨h1, h2⟩ | ⟨p, baud', tx', rx', opens', s', h1, h2, h3, h4, h5, h6, h7, h8, h9⟩
  · obtain ⟨⟨before, b, e⟩, hn, _⟩ := hs
    obtain ⟨b', hb⟩ := h2 _ _ _ _ _ _ _ e
    exact absurd hb (hn b')
  · obtain ⟨rfl, rfl, rfl, rfl, rfl⟩ := session_unique hs h2
    have ho := h3.2 hw
    refine ⟨p.waiting, h8 ho, ?_, ?_, ?_⟩
    · intro len hl
      refine ⟨m.set id (some p), ?_⟩
      simp only [call, HilsPorts.receive, h1, readRx_eq]
      rw [if_pos (.inr (by omega))]
      rfl
    · intro len h0 hl he
      refine ⟨m.set id (some p), ?_⟩
      simp only [call, HilsPorts.receive, h1, readRx_eq]
      rw [if_neg (by rw [ho]; simp; omega), if_pos ⟨by omega, he⟩]
      rfl
    · intro len hl he
      simp only [call, HilsPorts.receive, h1, readRx_eq]
      rw [if_neg (by rw [ho]; simp; omega), if_neg (by tauto)]
      refine ⟨m.set id (some { p with rx := p.waiting.take len ++ p.rx.drop (p.waiting.take len).length, waiting := p.waiting.drop len }), ?_⟩
      refine congrArg (fun s => Res.ok (_, s)) ?_
      rw [List.length_take, List.take_append, List.take_take, Nat.min_self, h5, List.drop_take, List.length_take]

/-- C191 (offsets). Sending a part of a buffer is the same as sending a buffer with that part alone, and receiving into a part of a buffer leaves the rest of it alone; a part that
goes beyond the end of the buffer is undefined when sending. -/
theorem C191_offset (m : HilsPorts) (id : Nat) (pre data post : List Byte) (takes : Bool) :
    m.send id (pre ++ data ++ post) pre.length data.length takes = m.send id data 0 data.length takes ∧
    m.receive id (pre ++ data ++ post) pre.length data.length = (m.receive id data 0 data.length).bind (fun r => .ok (r.1, pre ++ r.2.1 ++ post, r.2.2)) ∧
    ∀ offset len, data.length < offset + len → m id ≠ none → m.send id data offset len takes = .ub := by
  refine ⟨?_, ?_, ?_⟩
  · unfold HilsPorts.send
    cases m id with
    | none => rfl
    | some p =>
      have : HilsUartPort.writeTx p (pre ++ data ++ post) pre.length data.length takes = HilsUartPort.writeTx p data 0 data.length takes := by
        unfold HilsUartPort.writeTx
        rw [if_neg (by simp), if_neg (c := 0 + data.length > data.length) (by omega)]
        simp
      show (HilsUartPort.writeTx _ _ _ _ _ >>= _) = (HilsUartPort.writeTx _ _ _ _ _ >>= _)
      rw [this]
  · unfold HilsPorts.receive
    cases m id with
    | none => rfl
    | some p =>
      dsimp only
      unfold HilsUartPort.readRx
      split
      · rfl
      · split
        · rfl
        · split
          · rfl
          · next h1 h2 h3 =>
            have hm : ∀ rx : List Byte, data.length ≤ rx.length → memcpy (pre ++ data ++ post) pre.length rx 0 data.length = .ok (pre ++ rx.take data.length ++ post) ∧
                memcpy data 0 rx 0 data.length = .ok (rx.take data.length) := by
              intro rx hr
              unfold memcpy
              rw [if_pos ⟨by simp, by omega⟩, if_pos ⟨by omega, by omega⟩]
              simp
            obtain ⟨e1, e2⟩ := hm (p.waiting.take data.length ++ p.rx.drop (p.waiting.take data.length).length) (by
              rw [List.length_append, List.length_drop]
              omega)
            dsimp only
            rw [e1, e2]
            rfl
  · intro offset len h hm
    unfold HilsPorts.send
    cases hq : m id with
    | none => exact absurd hq hm
    | some p =>
      show (HilsUartPort.writeTx _ _ _ _ _ >>= _) = _
      unfold HilsUartPort.writeTx
      rw [if_pos h]
      rfl

/-- C191 (bytes). In a session, whatever the line: data longer than the `tx` bytes asked for raises an exception; of a working line, the device has been given the data of exactly those sends that returned 0, in order;
a line that does not work was connected all the same, and every send returns −1 and every reception −2. -/
theorem C191_sent (cs : List Call) (m : HilsPorts) (t : Record) (h : HilsPorts.empty.calls cs = .ok (m, t)) (id baud tx rx : Nat) (opens : Bool) (s : Record)
    (hs : Session id baud tx rx opens s t) :
    (∃ p, m id = some p ∧ p.sent = accepted id s) ∧
    (∀ data takes, tx < data.length → m.call (.send id data takes) = .throws) ∧
    (∀ data takes, data.length ≤ tx → ∃ m', (Works baud opens → takes = true → m.call (.send id data takes) = .ok (m', ⟨0, []⟩)) ∧
      (¬ (Works baud opens ∧ takes = true) → m.call (.send id data takes) = .ok (m', ⟨-1, []⟩))) ∧
    (¬ Works baud opens → ∀ len, ∃ m', m.call (.receive id len) = .ok (m', ⟨-2, List.replicate len 0⟩)) := by
  rcases inv_of h id with ⟨h1, h2⟩ | ⟨p, baud', tx', rx', opens', s', h1, h2, h3, h4, h5, h6, h7, h8, h9⟩
  · obtain ⟨⟨before, b, e⟩, hn, _⟩ := hs
    obtain ⟨b', hb⟩ := h2 _ _ _ _ _ _ _ e
    exact absurd hb (hn b')
  · obtain ⟨rfl, rfl, rfl, rfl, rfl⟩ := session_unique hs h2
    refine ⟨⟨p, h1, h7⟩, ?_, ?_, ?_⟩
    · intro data takes hl
      simp only [call, HilsPorts.send, h1, HilsUartPort.writeTx]
      rw [if_neg (by omega), if_pos (by omega)]
      rfl
    · intro data takes hl
      simp only [call, HilsPorts.send, h1, HilsUartPort.writeTx]
      rw [if_neg (by omega), if_neg (by omega)]
      by_cases hc : Works baud opens ∧ takes = true
      · rw [if_neg (by rw [h3.2 hc.1, hc.2]; simp)]
        exact ⟨_, fun _ _ => rfl, fun h => absurd hc h⟩
      · have : p.isOpen = false ∨ takes = false := by
          cases hp : p.isOpen <;> cases ht : takes <;> simp
          exact hc ⟨h3.1 hp, ht⟩
        rw [if_pos this]
        exact ⟨_, fun h1 h2 => absurd ⟨h1, h2⟩ hc, fun _ => rfl⟩
    · intro hn len
      have : p.isOpen = false := by
        cases hp : p.isOpen
        · rfl
        · exact absurd (h3.1 hp) hn
      refine ⟨m.set id (some p), ?_⟩
      simp only [call, HilsPorts.receive, h1, readRx_eq]
      rw [if_pos (.inl this)]
      rfl


/-- A session with everything in it: port 3, two arrivals, a short and a long reception, a send. -/
def exampleCalls : List Call :=
  [.connect 3 9600 8 4 true, .arrive 3 [1, 2, 3], .receive 3 2, .receive 3 4, .receive 3 4, .send 3 [7, 8] true, .connect 3 9600 8 4 true, .close 5]

theorem example_calls : ∃ m, HilsPorts.empty.calls exampleCalls = .ok (m,
    [(.connect 3 9600 8 4 true, ⟨0, []⟩), (.arrive 3 [1, 2, 3], ⟨0, []⟩), (.receive 3 2, ⟨2, [1, 2]⟩), (.receive 3 4, ⟨1, [3, 2, 0, 0]⟩), (.receive 3 4, ⟨-1, [0, 0, 0, 0]⟩),
      (.send 3 [7, 8] true, ⟨0, []⟩), (.connect 3 9600 8 4 true, ⟨-1, []⟩), (.close 5, ⟨-1, []⟩)]) := ⟨_, rfl⟩

/-- The hypotheses of C191_ports, C191_received and C191_sent are met: port 3 has a session on a working line with two sends' worth of bytes, port 5 is idle. -/
example : ∃ m t s, HilsPorts.empty.calls exampleCalls = .ok (m, t) ∧ Session 3 9600 8 4 true s t ∧ Works 9600 true ∧ received 3 s = [1, 2, 3] ∧ accepted 3 s = [7, 8] ∧
    leftover 3 (List.replicate 4 0) s = [3, 2, 0, 0] ∧ Idle 5 t := by
  obtain ⟨m, h⟩ := example_calls
  refine ⟨m, _, _, h, ⟨⟨[], [], rfl⟩, by simp, by simp⟩, ⟨rfl, by decide⟩, rfl, rfl, rfl, ?_⟩
  by_contra hc
  obtain ⟨b, tx, rx, o, s, ⟨p, b', e⟩, _⟩ := not_not.1 (mt ((C191_ports _ _ _ h 5).1).2 hc)
  have := congrArg (fun l => (Call.connect 5 b tx rx o, (⟨0, b'⟩ : Seen)) ∈ l) e
  simp at this

/-- C191 (counterexample): the content of the buffer beyond the returned number is not the caller's: after `1 2` and then `3` arrived, the second reception of up to four bytes returns 1 and the buffer is `3 2 0 0`. -/
theorem C191_stale : ∃ m t, HilsPorts.empty.calls [.connect 0 1 1 4 true, .arrive 0 [1, 2], .receive 0 4, .arrive 0 [3], .receive 0 4] = .ok (m, t) ∧
    (t.map fun x => (x.2.ret, x.2.bytes)).getLast? = some (1, [3, 2, 0, 0]) := ⟨_, _, rfl, rfl⟩

/-- C191 (components). A component constructed on a port that is in use is not connected, but uses the port all the same: it takes bytes meant for the other component, and what it sends goes out on that line.
Its destruction leaves the port alone. -/
theorem C191_shared (m : HilsPorts) (id baud txSize rxSize : Nat) (opens : Bool) (p : HilsUartPort) (hp : m id = some p) :
    ∃ c, HilsComm.new id baud txSize rxSize m opens = .ok (c, m) ∧ c.isConnected = false ∧ c.delete m = m ∧
      (∀ n, 0 < n → n ≤ min rxSize 1024 → n ≤ p.rx.length → p.isOpen = true → p.waiting ≠ [] → ∃ c' m', c.receiveCommand m 0 n = .ok (c', m', .parse (min n p.waiting.length : Nat)) ∧
        c'.rxBuf.take (min n p.waiting.length) = p.waiting.take n ∧ ∃ p', m' id = some p' ∧ p'.waiting = p.waiting.drop n) ∧
      (∀ data, data ≠ [] → data.length ≤ min rxSize 1024 → data.length ≤ p.txSize → p.isOpen = true → ∃ c' m', c.sendTelemetry m data data.length 0 true = .ok (c', m', 0) ∧
        ∃ p', m' id = some p' ∧ p'.sent = p.sent ++ data) := by
  have hn : HilsComm.new id baud txSize rxSize m opens = .ok (⟨id, if rxSize > 1024 then 1024 else rxSize, UartComm.vectorResize [] (if txSize > 1024 then 1024 else txSize),
      UartComm.vectorResize [] (if rxSize > 1024 then 1024 else rxSize), false⟩, m) := by
    simp only [HilsComm.new, HilsPorts.connect, hp]; rfl
  refine ⟨_, hn, rfl, rfl, ?_, ?_⟩
  · intro n h0 hn hr ho hw
    set c : HilsComm := ⟨id, if rxSize > 1024 then 1024 else rxSize, UartComm.vectorResize [] (if txSize > 1024 then 1024 else txSize),
      UartComm.vectorResize [] (if rxSize > 1024 then 1024 else rxSize), false⟩ with hc
    have hle : n ≤ c.rxSize := by
      change n ≤ if rxSize > 1024 then 1024 else rxSize
      split <;> omega
    have hlt : c.rxSize ≤ 1024 := by
      change (if rxSize > 1024 then 1024 else rxSize) ≤ 1024
      split <;> omega
    have hz : UartComm.vectorResize c.rxBuf n = List.replicate n 0 := by
      change UartComm.vectorResize (UartComm.vectorResize [] (if rxSize > 1024 then 1024 else rxSize)) n = _
      simp only [UartComm.vectorResize, List.take_nil, List.nil_append, List.length_nil, Nat.sub_zero, List.take_replicate, List.length_replicate]
      rw [← List.replicate_add]
      congr 1
      omega
    have hne : List.replicate n (0 : Byte) ≠ [] := by
      intro h
      have := congrArg List.length h
      simp at this
      omega
    unfold HilsComm.receiveCommand
    rw [if_neg (by omega), if_neg (by rw [Nat.mod_eq_of_lt (by omega)]; omega)]
    simp only [hz, if_neg hne]
    have hrd : m.receive c.portId (List.replicate n 0) 0 n = .ok (m.set id (some { p with rx := p.waiting.take n ++ p.rx.drop (p.waiting.take n).length, waiting := p.waiting.drop n }),
        (p.waiting.take n ++ p.rx.drop (p.waiting.take n).length).take n, ((p.waiting.take n).length : Int)) := by
      change m.receive id _ _ _ = _
      simp only [HilsPorts.receive, hp, readRx_eq]
      rw [if_neg (by rw [ho]; simp; omega), if_neg (by tauto)]
      rfl
    have hwl : 0 < p.waiting.length := List.length_pos_iff.2 hw
    have hlen : (p.waiting.take n).length = min n p.waiting.length := List.length_take
    refine ⟨{ c with rxBuf := (p.waiting.take n ++ p.rx.drop (p.waiting.take n).length).take n },
      m.set id (some { p with rx := p.waiting.take n ++ p.rx.drop (p.waiting.take n).length, waiting := p.waiting.drop n }), ?_, ?_, _, set_self .., rfl⟩
    · rw [hrd]
      simp only [bind_ok']
      rw [if_neg (by rw [hlen]; omega), hlen]
    · dsimp only
      rw [List.take_take, Nat.min_eq_left (by omega), ← hlen, List.take_append_of_le_length (Nat.le_refl _), List.take_length]
  · intro data hd hl ht ho
    have hlt : data.length ≤ (if rxSize > 1024 then 1024 else rxSize) ∧ (if rxSize > 1024 then 1024 else rxSize) ≤ 1024 := by
      split <;> omega
    unfold HilsComm.sendTelemetry
    dsimp only
    rw [if_neg (by omega), if_neg (by rw [Nat.mod_eq_of_lt (by omega)]; omega), if_neg hd]
    have hsd : m.send id data 0 data.length true = .ok (m.set id (some { p with sent := p.sent ++ data }), 0) := by
      simp only [HilsPorts.send, hp, HilsUartPort.writeTx]
      rw [if_neg (by omega), if_neg (by omega), if_neg (by rw [ho]; simp)]
      simp
    refine ⟨_, _, by rw [hsd]; rfl, _, set_self .., rfl⟩

/-- The hypotheses of C191_shared are met. -/
example : ∃ m : HilsPorts, ∃ p, m 3 = some p ∧ p.isOpen = true ∧ p.waiting ≠ [] ∧ 4 ≤ p.rx.length := by
  refine ⟨fun _ => some ⟨true, 8, [0, 0, 0, 0], [1, 2], []⟩, _, rfl, rfl, by simp, by simp⟩

/-- C191 (counterexample). An I2C controller constructed on a port that is in use closes that port when it is destroyed: the component that owns the port then gets −1 from every use. -/
theorem C191_closes (m : HilsPorts) (id baud txSize rxSize : Nat) (opens : Bool) (p : HilsUartPort) (hp : m id = some p) :
    ∃ c, HilsController.new id baud txSize rxSize m opens = .ok (c, m) ∧
      (∀ dst o n, (c.delete m).receive id dst o n = .ok (c.delete m, dst, -1)) ∧ ∀ src o n takes, (c.delete m).send id src o n takes = .ok (c.delete m, -1) := by
  refine ⟨⟨id, [], []⟩, by simp only [HilsController.new, HilsPorts.connect, hp]; rfl, ?_⟩
  have hd : HilsController.delete ⟨id, [], []⟩ m = m.set id none := by simp only [HilsController.delete, HilsPorts.close, hp]
  rw [hd]
  constructor
  · intro dst o n
    simp only [HilsPorts.receive, set_self]
  · intro src o n takes
    simp only [HilsPorts.send, set_self]

example : (fun _ => some ⟨true, 8, [0, 0, 0, 0], [1, 2], []⟩ : HilsPorts) 3 = some ⟨true, 8, [0, 0, 0, 0], [1, 2], []⟩ := rfl

/-- C191 (no data). In HILS mode a component that finds nothing waiting is not told so: the command parser runs with size −1 on the old content of the buffer. -/
theorem C191_no_data (m : HilsPorts) (c : HilsComm) (p : HilsUartPort) (hp : m c.portId = some p) (ho : p.isOpen = true) (hw : p.waiting = []) (n : Nat) (h0 : 0 < n) (hn : n ≤ c.rxSize)
    (hs : c.rxSize ≤ 1024) (hr : n ≤ p.rx.length) : ∃ c' m', c.receiveCommand m 0 n = .ok (c', m', .parse (-1)) ∧ c'.rxBuf = UartComm.vectorResize c.rxBuf n := by
  have hne : UartComm.vectorResize c.rxBuf n ≠ [] := by
    intro h
    have := congrArg List.length h
    rw [UartComm.vectorResize, List.length_append, List.length_take, List.length_replicate, List.length_nil] at this
    omega
  unfold HilsComm.receiveCommand
  rw [if_neg (by omega), if_neg (by rw [Nat.mod_eq_of_lt (by omega)]; omega)]
  dsimp only
  rw [if_neg hne]
  have hrd : m.receive c.portId (UartComm.vectorResize c.rxBuf n) 0 n = .ok (m.set c.portId (some p), UartComm.vectorResize c.rxBuf n, -1) := by
    simp only [HilsPorts.receive, hp, HilsUartPort.readRx]
    rw [if_neg (by rw [ho]; simp), if_neg (by omega), if_pos ⟨by omega, hw⟩]
    rfl
  rw [hrd]
  exact ⟨_, _, rfl, rfl⟩

example : ∃ (m : HilsPorts) (c : HilsComm) (p : HilsUartPort), m c.portId = some p ∧ p.isOpen = true ∧ p.waiting = [] ∧ 4 ≤ c.rxSize ∧ c.rxSize ≤ 1024 ∧ 4 ≤ p.rx.length :=
  ⟨fun _ => some ⟨true, 8, [0, 0, 0, 0], [], []⟩, ⟨3, 4, [], [], true⟩, _, rfl, rfl, rfl, by decide, by decide, by decide⟩

/-- C191 (controller). The example controller on its own working line sends, in each run, the register request `53 44 01 00 50` and the read request `53 45 05 50` (the framing of the SC18IM700 bridge), and prints the
first five bytes of what was waiting and what the bridge replied; the rest stays for the next run. If nothing came it prints nothing. -/
theorem C191_controller (m : HilsPorts) (c : HilsController) (p : HilsUartPort) (hp : m c.portId = some p) (ho : p.isOpen = true) (ht : 5 ≤ p.txSize) (hr : 5 ≤ p.rx.length) (reply : List Byte) :
    ∃ c' m' p', c.mainRoutine m true true reply = .ok (c', m', if p.waiting ++ reply = [] then none else some ((p.waiting ++ reply).take 5)) ∧
      c'.portId = c.portId ∧ m' c.portId = some p' ∧ p'.isOpen = true ∧ p'.txSize = p.txSize ∧ p'.rx.length = p.rx.length ∧
      p'.sent = p.sent ++ [0x53, 0x44, 0x01, 0x00, 0x50] ++ [0x53, 0x45, 0x05, 0x50] ∧ p'.waiting = (p.waiting ++ reply).drop 5 := by
  have hlen : ∀ b : List Byte, 5 ≤ (UartComm.vectorResize b 5).length ∧ (UartComm.vectorResize b 5).length = 5 := by
    intro b
    rw [UartComm.vectorResize, List.length_append, List.length_take, List.length_replicate]
    omega
  let p1 : HilsUartPort := { p with sent := p.sent ++ [0x53, 0x44, 0x01, 0x00, 0x50] }
  let p2 : HilsUartPort := { p1 with sent := p1.sent ++ [0x53, 0x45, 5, 0x50] }
  let p3 : HilsUartPort := { p2 with waiting := p2.waiting ++ reply }
  have e1 : c.requestTlm m true = .ok ({ c with txBuf := [0x53, 0x44, 0x01, 0x00, 0x50] }, m.set c.portId (some p1)) := by
    simp only [HilsController.requestTlm, HilsController.sendCommand, HilsPorts.send, hp, HilsUartPort.writeTx]
    rw [if_neg (by simp), if_neg (by simp), if_neg (by omega), if_neg (by rw [ho]; simp)]
    rfl
  have e2 : HilsPorts.send (m.set c.portId (some p1)) c.portId [0x53, 0x45, 5, 0x50] 0 4 true = .ok ((m.set c.portId (some p1)).set c.portId (some p2), 0) := by
    simp only [HilsPorts.send, set_self, HilsUartPort.writeTx]
    rw [if_neg (by simp), if_neg (by change ¬ 4 > p.txSize; omega), if_neg (by change ¬ (p.isOpen = false ∨ _); rw [ho]; simp)]
    rfl
  have e3 : HilsPorts.arrive ((m.set c.portId (some p1)).set c.portId (some p2)) c.portId reply = ((m.set c.portId (some p1)).set c.portId (some p2)).set c.portId (some p3) := by
    simp only [HilsPorts.arrive, set_self, HilsUartPort.arrive]
    rw [if_pos (show p2.isOpen = true from ho)]
  have e4 : ∀ b : List Byte, b.length = 5 → p3.readRx b 0 5 = .ok (if p.waiting ++ reply = [] then (p3, b, -1)
      else ({ p3 with rx := (p.waiting ++ reply).take 5 ++ p.rx.drop ((p.waiting ++ reply).take 5).length, waiting := (p.waiting ++ reply).drop 5 },
        ((p.waiting ++ reply).take 5 ++ p.rx.drop ((p.waiting ++ reply).take 5).length).take 5, (((p.waiting ++ reply).take 5).length : Int))) := by
    intro b hb
    unfold HilsUartPort.readRx
    rw [if_neg (by change ¬ p.isOpen = false; rw [ho]; simp), if_neg (by change ¬ 5 > p.rx.length; omega)]
    by_cases hw : p.waiting ++ reply = []
    · rw [if_pos ⟨by decide, hw⟩, if_pos hw]
    · rw [if_neg (fun h => hw h.2), if_neg hw]
      have h4 : 0 + 5 ≤ b.length ∧ 0 + 5 ≤ ((p.waiting ++ reply).take 5 ++ p.rx.drop ((p.waiting ++ reply).take 5).length).length := by
        rw [List.length_append, List.length_drop, List.length_take]; omega
      change (memcpy b 0 ((p.waiting ++ reply).take 5 ++ p.rx.drop ((p.waiting ++ reply).take 5).length) 0 5).bind _ = _
      unfold memcpy
      rw [if_pos h4]
      have h5 : b.drop (0 + 5) = [] := List.drop_eq_nil_of_le (by omega)
      rw [h5, List.append_nil, List.take_zero, List.nil_append, List.drop_zero]
      rfl
  set m2 := (m.set c.portId (some p1)).set c.portId (some p2) with hm2
  have e5 : ∀ tx : List Byte, HilsController.receiveTelemetry ⟨c.portId, tx, UartComm.vectorResize c.rxBuf 5⟩ (m2.set c.portId (some p3)) 5 =
      ((p3.readRx (UartComm.vectorResize c.rxBuf 5) 0 5).bind fun r => .ok (⟨c.portId, tx, r.2.1⟩, (m2.set c.portId (some p3)).set c.portId (some r.1), r.2.2)) := by
    intro tx
    unfold HilsController.receiveTelemetry
    rw [if_neg (by intro h; have := (hlen c.rxBuf).1; change UartComm.vectorResize c.rxBuf 5 = [] at h; rw [h] at this; simp at this)]
    simp only [HilsPorts.receive, set_self]
    rw [e4 _ (hlen c.rxBuf).2]
    rfl
  have e6 : c.mainRoutine m true true reply = (HilsController.receiveTelemetry ⟨c.portId, [0x53, 0x45, 5, 0x50], UartComm.vectorResize c.rxBuf 5⟩ (m2.set c.portId (some p3)) 5).bind
      fun r => if r.2.2 ≤ 0 then .ok (r.1, r.2.1, none) else .ok (r.1, r.2.1, some (r.1.rxBuf.take r.2.2.toNat)) := by
    unfold HilsController.mainRoutine
    rw [e1]
    change HilsController.receiveTlm _ _ _ _ = _
    unfold HilsController.receiveTlm HilsController.sendCommand
    dsimp only
    rw [if_neg (by simp), e2]
    change (HilsController.receiveTelemetry _ (HilsPorts.arrive m2 c.portId reply) 5).bind _ = _
    rw [e3]
  rw [e6, e5, e4 _ (hlen c.rxBuf).2]
  by_cases hw : p.waiting ++ reply = []
  · simp only [if_pos hw, Res.bind]
    rw [if_pos (by decide)]
    exact ⟨_, _, p3, rfl, rfl, set_self .., ho, rfl, rfl, rfl, by change p.waiting ++ reply = _; rw [hw]; rfl⟩
  · simp only [if_neg hw, Res.bind]
    have hpos : 0 < ((p.waiting ++ reply).take 5).length := by
      have := List.length_pos_iff.2 hw
      rw [List.length_take]; omega
    rw [if_neg (by omega)]
    refine ⟨_, _, _, congrArg Res.ok (congrArg (Prod.mk _) (congrArg (Prod.mk _) (congrArg some ?_))), rfl, set_self .., ho, rfl, ?_, rfl, rfl⟩
    · rw [Int.toNat_natCast]
      rw [List.take_take, Nat.min_eq_left (List.length_take_le _ _), List.take_append_of_le_length (Nat.le_refl _), List.take_length]
    · dsimp only
      rw [List.length_append, List.length_drop, List.length_take]
      omega

/-- The hypotheses of C191_controller are met by a controller just constructed on a free port. -/
example : ∃ c m p, HilsController.new 2 9600 8 8 HilsPorts.empty true = .ok (c, m) ∧ m c.portId = some p ∧ p.isOpen = true ∧ 5 ≤ p.txSize ∧ 5 ≤ p.rx.length :=
  ⟨_, _, _, rfl, rfl, rfl, by decide, by decide⟩

/-- Two bytes out of four are sent. -/
example (m : HilsPorts) : m.send 3 [9, 1, 2, 9] 1 2 true = m.send 3 [1, 2] 0 2 true := (C191_offset m 3 [9] [1, 2] [9] true).1

end S2E.HilsUart
